import Verif.Model.Names
import Verif.Spec.Names

set_option linter.unusedSimpArgs false
namespace Xlrd
open Spec

theorem Nat_isDig_digitChar : ∀ d < 10, isDig (digitChar d) = true := by decide
theorem digitChar_val : ∀ d < 10, (digitChar d).toNat - 48 = d := by decide
theorem digitChar_ne_zero : ∀ d < 10, d ≠ 0 → digitChar d ≠ '0' := by decide
theorem digitChar_not_letter : ∀ d < 10, isLetter (digitChar d) = false := by decide

theorem digitsVal_snoc (s : PyStr) (c : Char) :
    digitsVal (s ++ [c]) = digitsVal s * 10 + (c.toNat - 48) := by
  simp [digitsVal, List.foldl_append]

theorem lettersVal_cons (c : Char) (s : PyStr) :
    lettersVal (c :: s) = (c.toNat - 64) * 26 ^ s.length + lettersVal s := by
  have h : ∀ (s : PyStr) (a : Nat),
      s.foldl (fun a c => a * 26 + (c.toNat - 64)) a = a * 26 ^ s.length + lettersVal s := by
    intro s
    induction s with
    | nil => intro a; simp [lettersVal]
    | cons d s ih =>
      intro a
      simp only [List.foldl_cons, List.length_cons, lettersVal]
      rw [ih, ih (0 * 26 + (d.toNat - 64))]
      grind
  simp only [lettersVal, List.foldl_cons]
  rw [h]
  simp [lettersVal]

theorem decAux_spec : ∀ (fuel n : Nat), n < fuel →
    digitsVal (decAux fuel n) = n ∧ (decAux fuel n) ≠ [] ∧ (decAux fuel n).all isDig = true
    ∧ ((decAux fuel n).head? = some '0' → n = 0)
  | 0, n, h => absurd h (Nat.not_lt_zero _)
  | fuel + 1, n, h => by
    unfold decAux
    split
    · rename_i h10
      refine ⟨?_, by simp, by simp [Nat_isDig_digitChar n h10], ?_⟩
      · simp [digitsVal, digitChar_val n h10]
      · intro h0
        simp at h0
        apply Classical.byContradiction
        intro hn
        exact digitChar_ne_zero n h10 hn h0
    · rename_i h10
      have ih := decAux_spec fuel (n / 10) (by omega)
      have hm : n % 10 < 10 := by omega
      refine ⟨?_, by simp, ?_, ?_⟩
      · rw [digitsVal_snoc, ih.1, digitChar_val _ hm]; omega
      · rw [List.all_append, ih.2.2.1]; simp [Nat_isDig_digitChar _ hm]
      · intro h0
        have := ih.2.2.2
        obtain ⟨x, xs, hx⟩ := List.exists_cons_of_ne_nil ih.2.1
        rw [hx] at h0 this
        simp at h0 this
        have := this h0
        omega

theorem natDec_val (n : Nat) : digitsVal (natDec n) = n := (decAux_spec _ n (by omega)).1
theorem natDec_ne (n : Nat) : natDec n ≠ [] := (decAux_spec _ n (by omega)).2.1
theorem natDec_dig (n : Nat) : (natDec n).all isDig = true := (decAux_spec _ n (by omega)).2.2.1
theorem natDec_head (n : Nat) (h : 0 < n) : (natDec n).head? ≠ some '0' := by
  intro h0
  have := (decAux_spec _ n (by omega)).2.2.2 h0
  omega

theorem intDec_nat (n : Nat) : intDec (n : Int) = natDec n := by
  have : ¬ ((n : Int) < 0) := by omega
  simp [intDec, this]

theorem readRow_natDec (n : Nat) : readRow (natDec (n + 1)) = some n := by
  simp only [readRow]
  rw [if_pos ⟨natDec_ne _, natDec_dig _, natDec_head _ (by omega)⟩, natDec_val]
  simp

theorem isDig_not_letter (c : Char) (h : isDig c = true) : isLetter c = false := by
  simp only [isDig, isLetter, Bool.and_eq_true, decide_eq_true_eq, Char.le_def] at *
  simp only [Bool.and_eq_false_iff, decide_eq_false_iff_not, Char.le_def]
  left
  intro h2
  have h3 := UInt32.le_trans h2 h.2
  exact absurd h3 (by decide)

theorem takeWhile_all_append {p : Char → Bool} :
    ∀ (s t : PyStr), s.all p = true → (∀ c, t.head? = some c → p c = false) →
    (s ++ t).takeWhile p = s ∧ (s ++ t).dropWhile p = t
  | [], [], _, _ => by simp
  | [], c :: t, _, h => by
    have := h c rfl
    simp [List.takeWhile_cons, List.dropWhile_cons, this]
  | c :: s, t, hs, h => by
    simp only [List.all_cons, Bool.and_eq_true] at hs
    have := takeWhile_all_append s t hs.2 h
    simp [List.takeWhile_cons, List.dropWhile_cons, hs.1, this]

/-! ## column names -/

theorem alphabet_get : ∀ k : Fin 26, idx alphabet (k.val : Int) = .ok (Char.ofNat (65 + k.val)) := by
  decide

theorem idx_alphabet (k : Int) (h0 : 0 ≤ k) (h : k < 26) :
    idx alphabet k = .ok (Char.ofNat (65 + k.toNat)) := by
  have := alphabet_get ⟨k.toNat, by omega⟩
  simp only at this
  rwa [Int.toNat_of_nonneg h0] at this

theorem letter_ofNat : ∀ k : Fin 26, isLetter (Char.ofNat (65 + k.val)) = true ∧
    (Char.ofNat (65 + k.val)).toNat - 64 = k.val + 1 := by decide

theorem letter_ofNat' (k : Nat) (h : k < 26) : isLetter (Char.ofNat (65 + k)) = true ∧
    (Char.ofNat (65 + k)).toNat - 64 = k + 1 := letter_ofNat ⟨k, h⟩

theorem bookColnameLoop_spec : ∀ (fuel : Nat) (c : Nat) (acc : PyStr), c < fuel →
    acc.all isLetter = true →
    ∃ s, bookColnameLoop fuel (c : Int) acc = .ok s ∧ s ≠ [] ∧ s.all isLetter = true ∧
      lettersVal s = (c + 1) * 26 ^ acc.length + lettersVal acc
  | 0, c, _, h, _ => absurd h (Nat.not_lt_zero _)
  | fuel + 1, c, acc, h, hacc => by
    have hi := idx_alphabet ((c : Int) % 26) (by omega) (by omega)
    have hrem : ((c : Int) % 26).toNat = c % 26 := by omega
    rw [hrem] at hi
    have hl := letter_ofNat' (c % 26) (by omega)
    unfold bookColnameLoop
    simp only [hi, bind, Except.bind, pure, Except.pure]
    have hacc' : (Char.ofNat (65 + c % 26) :: acc).all isLetter = true := by
      simp only [List.all_cons, hl.1, hacc, Bool.and_self]
    split
    · rename_i hq
      refine ⟨_, rfl, by simp, hacc', ?_⟩
      rw [lettersVal_cons, hl.2]
      have : c % 26 = c := by omega
      rw [this]
    · rename_i hq
      have hcast : ((c : Int) / 26 - 1) = ((c / 26 - 1 : Nat) : Int) := by omega
      rw [hcast]
      obtain ⟨s, hs, hne, hall, hv⟩ :=
        bookColnameLoop_spec fuel (c / 26 - 1) (Char.ofNat (65 + c % 26) :: acc) (by omega) hacc'
      refine ⟨s, hs, hne, hall, ?_⟩
      rw [hv, lettersVal_cons, hl.2, List.length_cons, Nat.pow_succ]
      have h1 : c / 26 - 1 + 1 = c / 26 := by omega
      rw [h1]
      have h2 : c + 1 = 26 * (c / 26) + (c % 26 + 1) := by omega
      rw [h2, Nat.add_mul]
      have : 26 * (c / 26) / 26 = c / 26 := by omega
      grind

theorem colname_spec (c : Nat) (h : c < 702) :
    ∃ s, colname (c : Int) = .ok s ∧ s ≠ [] ∧ s.all isLetter = true ∧ lettersVal s = c + 1 := by
  unfold colname
  split
  · have hi := idx_alphabet (c : Int) (by omega) (by omega)
    have hl := letter_ofNat' c (by omega)
    simp only [Int.toNat_natCast] at hi
    simp only [hi, bind, Except.bind, pure, Except.pure]
    exact ⟨_, rfl, by simp, by simp [hl.1], by simp [lettersVal, hl.2]⟩
  · have hi := idx_alphabet ((c : Int) / 26 - 1) (by omega) (by omega)
    have hj := idx_alphabet ((c : Int) % 26) (by omega) (by omega)
    have e1 : ((c : Int) / 26 - 1).toNat = c / 26 - 1 := by omega
    have e2 : ((c : Int) % 26).toNat = c % 26 := by omega
    rw [e1] at hi; rw [e2] at hj
    have hl := letter_ofNat' (c / 26 - 1) (by omega)
    have hm := letter_ofNat' (c % 26) (by omega)
    simp only [hi, hj, bind, Except.bind, pure, Except.pure]
    refine ⟨_, rfl, by simp, by simp [hl.1, hm.1], ?_⟩
    simp only [lettersVal, List.foldl_cons, List.foldl_nil, hl.2, hm.2]
    omega

theorem readCol_of (s : PyStr) (c : Nat) (hne : s ≠ []) (hall : s.all isLetter = true)
    (hv : lettersVal s = c + 1) : readCol s = some c := by
  unfold readCol
  rw [if_pos ⟨hne, hall⟩, hv]; simp

theorem head_dig_of_natDec (n : Nat) (c : Char) (h : (natDec n).head? = some c) : isDig c = true := by
  have hd := natDec_dig n
  cases hx : natDec n with
  | nil => rw [hx] at h; simp at h
  | cons x xs =>
    rw [hx] at h hd
    simp at h hd
    exact h ▸ hd.1

theorem readAbs_spec (r c : Nat) (s : PyStr) (hne : s ≠ []) (hall : s.all isLetter = true)
    (hv : lettersVal s = c + 1) :
    readAbs ('$' :: s ++ '$' :: natDec (r + 1)) = some (r, c) := by
  have h := takeWhile_all_append (p := isLetter) s ('$' :: natDec (r + 1)) hall
    (by intro c hc; simp at hc; subst hc; decide)
  simp only [List.cons_append, readAbs, h.1, h.2, readCol_of s c hne hall hv, readRow_natDec]
  rfl

theorem cellnameabs_spec (r c : Nat) (h : c < 702) :
    ∃ s, cellnameabs r c = .ok s ∧ readAbs s = some (r, c) ∧ ':' ∉ s := by
  obtain ⟨s, hs, hne, hall, hv⟩ := colname_spec c h
  refine ⟨'$' :: s ++ '$' :: natDec (r + 1), ?_, readAbs_spec r c s hne hall hv, ?_⟩
  · have : (r : Int) + 1 = ((r + 1 : Nat) : Int) := by omega
    simp only [cellnameabs, hs, bind, Except.bind, pure, Except.pure, this, intDec_nat]
    rfl
  · intro hmem
    simp only [List.cons_append, List.mem_cons, List.mem_append] at hmem
    rcases hmem with h1 | h1 | h1 | h1
    · exact absurd h1 (by decide)
    · have := (List.all_eq_true.mp hall) _ h1; revert this; decide
    · exact absurd h1 (by decide)
    · have := (List.all_eq_true.mp (natDec_dig (r + 1))) _ h1; revert this; decide

theorem takeWhile_no_colon (s t : PyStr) (h : ':' ∉ s) :
    (s ++ ':' :: t).takeWhile (· ≠ ':') = s ∧ (s ++ ':' :: t).dropWhile (· ≠ ':') = ':' :: t := by
  apply takeWhile_all_append (p := fun c => decide (c ≠ ':')) s (':' :: t)
  · rw [List.all_eq_true]; intro x hx; simp; rintro rfl; exact h hx
  · intro c hc; simp at hc; subst hc; decide

theorem dropWhile_no_colon (s : PyStr) (h : ':' ∉ s) : s.dropWhile (· ≠ ':') = [] := by
  have := (takeWhile_all_append (p := fun c => decide (c ≠ ':')) s [] (by
    rw [List.all_eq_true]; intro x hx; simp; rintro rfl; exact h hx) (by simp)).2
  simpa using this

/-! ## quoting -/

theorem undouble_double : ∀ s : PyStr, undouble (doubleQuotes s) = some s
  | [] => rfl
  | c :: cs => by
    unfold doubleQuotes
    split
    · rename_i h; subst h
      simp [undouble, undouble_double cs]
    · rename_i h
      unfold undouble
      split
      · simp_all
      · simp_all
      · simp_all
      · rename_i h1 _ heq
        injection heq with e1 e2
        subst e1; subst e2
        simp [undouble_double cs]

theorem undouble_noquote : ∀ s : PyStr, '\'' ∉ s → undouble s = some s
  | [], _ => rfl
  | c :: cs, h => by
    simp only [List.mem_cons, not_or] at h
    unfold undouble
    split
    · simp_all
    · simp_all
    · simp_all
    · rename_i heq
      injection heq with e1 e2
      subst e1; subst e2
      simp [undouble_noquote cs h.2]

end Xlrd

namespace Xlrd
open Spec

theorem natDec_mem_dig {n : Nat} {c : Char} (h : c ∈ natDec n) : isDig c = true :=
  (List.all_eq_true.mp (natDec_dig n)) _ h

theorem natDec_cons (n : Nat) : ∃ x xs, natDec n = x :: xs ∧ isDig x = true := by
  cases hx : natDec n with
  | nil => exact absurd hx (natDec_ne n)
  | cons x xs =>
    refine ⟨x, xs, rfl, natDec_mem_dig (n := n) ?_⟩
    rw [hx]; simp

theorem readInt_intDec (k : Int) : readInt (intDec k) = some k := by
  unfold intDec
  split
  · rename_i h
    simp only [readInt]
    rw [if_pos ⟨natDec_ne _, natDec_dig _⟩, natDec_val]
    congr 1; omega
  · rename_i h
    obtain ⟨x, xs, hx, hd⟩ := natDec_cons k.toNat
    have hne : x ≠ '-' := by rintro rfl; revert hd; decide
    have h1 := natDec_ne k.toNat
    have h2 := natDec_dig k.toNat
    have h3 := natDec_val k.toNat
    rw [hx] at h1 h2 h3 ⊢
    unfold readInt
    split
    · rename_i heq; injection heq with e _; exact absurd e hne
    · rw [if_pos ⟨h1, h2⟩, h3]; congr 1; omega

/-- the characters of a signed decimal -/
theorem intDec_mem {k : Int} {c : Char} (h : c ∈ intDec k) : isDig c = true ∨ c = '-' := by
  unfold intDec at h
  split at h
  · simp only [List.mem_cons] at h
    rcases h with h | h
    · exact .inr h
    · exact .inl (natDec_mem_dig h)
  · exact .inl (natDec_mem_dig h)

theorem readCoord_brk (k : Int) : readCoord ('[' :: (intDec k ++ [']'])) = some (.rel k) := by
  simp [readCoord, readInt_intDec]

theorem readCoord_dec (n : Nat) : readCoord (natDec (n + 1)) = some (.abs n) := by
  obtain ⟨x, xs, hx, hd⟩ := natDec_cons (n + 1)
  have hr := readRow_natDec n
  rw [hx] at hr ⊢
  unfold readCoord
  split
  · simp_all
  · rename_i heq; injection heq with e _; subst e; exact absurd hd (by decide)
  · simp [hr]

/-- expected text of one R1C1 coordinate after its letter -/
def coordText (relative : Bool) (k : Int) : PyStr :=
  if relative then (if k = 0 then [] else '[' :: (intDec k ++ [']'])) else intDec (k + 1)

theorem readCoord_coordText_rel (k : Int) : readCoord (coordText true k) = some (.rel k) := by
  unfold coordText
  simp only [if_true]
  split
  · rename_i h; subst h; rfl
  · exact readCoord_brk k

theorem readCoord_coordText_abs (n : Nat) : readCoord (coordText false n) = some (.abs n) := by
  unfold coordText
  have : (n : Int) + 1 = ((n + 1 : Nat) : Int) := by omega
  simp only [Bool.false_eq_true, if_false, this, intDec_nat, readCoord_dec]

theorem coordText_noC (b : Bool) (k : Int) : 'C' ∉ coordText b k := by
  have key : ∀ j : Int, 'C' ∉ intDec j := by
    intro j h
    rcases intDec_mem h with h | h <;> revert h <;> decide
  unfold coordText
  split
  · split
    · simp
    · simp [key]
  · exact key _

theorem takeWhile_noC (s t : PyStr) (h : 'C' ∉ s) :
    (s ++ 'C' :: t).takeWhile (· ≠ 'C') = s ∧ (s ++ 'C' :: t).dropWhile (· ≠ 'C') = 'C' :: t := by
  apply takeWhile_all_append (p := fun c => decide (c ≠ 'C')) s ('C' :: t)
  · rw [List.all_eq_true]; intro x hx; simp; rintro rfl; exact h hx
  · intro c hc; simp at hc; subst hc; decide

/-- the coordinate a (value, relative?) pair denotes -/
def coordOf (relative : Bool) (k : Int) : Coord := if relative then .rel k else .abs k.toNat

theorem readCoord_coordText (b : Bool) (k : Int) (h : b = false → 0 ≤ k) :
    readCoord (coordText b k) = some (coordOf b k) := by
  cases b
  · have h := h rfl
    have : k = ((k.toNat : Nat) : Int) := by omega
    rw [this, readCoord_coordText_abs]; rfl
  · exact readCoord_coordText_rel k

theorem readRC_text (rb cb : Bool) (r c : Int) (hr : rb = false → 0 ≤ r) (hc : cb = false → 0 ≤ c) :
    readRC ('R' :: coordText rb r ++ 'C' :: coordText cb c) = some (coordOf rb r, coordOf cb c) := by
  have h := takeWhile_noC (coordText rb r) (coordText cb c) (coordText_noC _ _)
  simp only [List.cons_append, readRC, h.1, h.2, readCoord_coordText rb r hr,
    readCoord_coordText cb c hc]
  rfl

theorem rownamerel_r1c1 (r : Int) (b : Bool) (br : Option Int) (f : Bool) (h : (f || br.isNone) = true) :
    rownamerel r b br f = 'R' :: coordText b r := by
  unfold rownamerel coordText
  simp only [h, if_true]
  cases b <;> simp
  split <;> rfl

theorem colnamerel_r1c1 (c : Int) (b : Bool) (bc : Option Int) (f : Bool) (h : (f || bc.isNone) = true) :
    colnamerel c b bc f = .ok ('C' :: coordText b c) := by
  unfold colnamerel coordText
  simp only [h, if_true]
  cases b <;> simp
  split <;> rfl

end Xlrd
