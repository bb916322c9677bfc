import Verif.Spec.Dump
import Verif.Lemmas.Names
import Verif.Lemmas.Strings

/-!
# Lemmas about dumps
-/
namespace Xlrd
open Spec
set_option linter.unusedSimpArgs false

namespace DumpL

theorem hexLow_unhex : ∀ d : Nat, d < 16 → unhex (hexLow d) = some d := by decide

theorem hexLow_char : ∀ d : Nat, d < 16 → hexLow d ≠ ' ' ∧ hexLow d ≠ '-' ∧ hexLow d ≠ 'L' ∧ hexLow d ≠ ':' := by decide

theorem readHex4_hex4 (n : Nat) (h : n < 65536) : readHex4 (hex4 n) = some n := by
  simp only [hex4, readHex4]
  rw [hexLow_unhex _ (by omega), hexLow_unhex _ (by omega), hexLow_unhex _ (by omega), hexLow_unhex _ (by omega)]
  simp only [Option.bind_eq_bind, Option.bind_some, Option.some.injEq]
  omega

theorem hex4_length (n : Nat) : (hex4 n).length = 4 := rfl

theorem dumpChar_nat : ∀ n : Fin 256, dumpChar (UInt8.ofNat n.val) = charOf (UInt8.ofNat n.val) := by decide +kernel

theorem dumpChar_charOf (b : UInt8) : dumpChar b = charOf b := by
  have h := dumpChar_nat ⟨b.toNat, b.toNat_lt⟩
  simpa using h

theorem readHex_blanks (k : Nat) : readHex (List.replicate k ' ') = some [] := by
  cases k with
  | zero => rfl
  | succ k =>
    rw [List.replicate_succ, readHex.eq_2, if_pos (by simp)]

theorem readHex_bytes (bs : Bytes) (k : Nat) : readHex ((bs.flatMap fun b => hex2 b.toNat ++ [' ']) ++ List.replicate k ' ') = some bs := by
  induction bs with
  | nil => simpa using readHex_blanks k
  | cons b bs ih =>
    have hb : b.toNat < 256 := b.toNat_lt
    have e : ((b :: bs).flatMap fun b => hex2 b.toNat ++ [' ']) ++ List.replicate k ' '
        = hexLow (b.toNat / 16) :: hexLow (b.toNat % 16) :: ' ' :: ((bs.flatMap fun b => hex2 b.toNat ++ [' ']) ++ List.replicate k ' ') := by
      simp [hex2]
    rw [e, readHex.eq_3 _ _ _ (hexLow_char _ (by omega)).1, hexLow_unhex _ (by omega), hexLow_unhex _ (by omega), ih]
    simp only [Option.bind_eq_bind, Option.bind_some, Option.some.injEq, List.cons.injEq, and_true]
    apply UInt8.toNat.inj
    rw [UInt8.toNat_ofNat']
    omega

theorem hexs_length (bs : Bytes) : (bs.flatMap fun b => hex2 b.toNat ++ [' ']).length = 3 * bs.length := by
  induction bs with
  | nil => rfl
  | cons b bs ih => rw [List.flatMap_cons, List.length_append, ih]; simp [hex2]; omega

theorem readBody_hex (bs : Bytes) (h : bs.length ≤ 16) :
    readBody ("     ".toList ++ padR 48 (bs.flatMap fun b => hex2 b.toNat ++ [' ']) ++ ' ' :: bs.map dumpChar) = some bs := by
  have hl : (padR 48 (bs.flatMap fun b => hex2 b.toNat ++ [' '])).length = 48 := by
    rw [padR, List.length_append, hexs_length, List.length_replicate]; omega
  generalize hp : padR 48 (bs.flatMap fun b => hex2 b.toNat ++ [' ']) = p at hl
  have e : "     ".toList ++ p ++ ' ' :: bs.map dumpChar = ' ' :: ' ' :: ' ' :: ' ' :: ' ' :: (p ++ ' ' :: bs.map dumpChar) := rfl
  rw [e]
  simp only [readBody, readBytes]
  have e1 : ((' ' :: ' ' :: ' ' :: ' ' :: ' ' :: (p ++ ' ' :: bs.map dumpChar)).drop 5).take 48 = p := by
    rw [show (' ' :: ' ' :: ' ' :: ' ' :: ' ' :: (p ++ ' ' :: bs.map dumpChar)).drop 5 = p ++ ' ' :: bs.map dumpChar from rfl, ← hl, List.take_left]
  have e2 : (' ' :: ' ' :: ' ' :: ' ' :: ' ' :: (p ++ ' ' :: bs.map dumpChar)).drop 53 = ' ' :: bs.map dumpChar := by
    rw [show (' ' :: ' ' :: ' ' :: ' ' :: ' ' :: (p ++ ' ' :: bs.map dumpChar)).drop 53 = (p ++ ' ' :: bs.map dumpChar).drop 48 from rfl, ← hl, List.drop_left]
  rw [e1, e2, ← hp, padR, readHex_bytes]
  simp only [Option.bind_eq_bind, Option.bind_some]
  rw [if_pos]
  refine ⟨rfl, ?_⟩
  congr 1
  exact List.map_congr_left fun b _ => dumpChar_charOf b

theorem takeWhile_all {α : Type} (p : α → Bool) (l : List α) (x : α) (r : List α) (h : ∀ a ∈ l, p a = true) (hx : p x = false) :
    (l ++ x :: r).takeWhile p = l := by
  induction l with
  | nil => simp [hx]
  | cons a l ih =>
    simp only [List.cons_append, List.takeWhile_cons, h a (List.mem_cons_self ..), if_true]
    rw [ih fun b hb => h b (List.mem_cons_of_mem _ hb)]

theorem dropWhile_all {α : Type} (p : α → Bool) (l : List α) (x : α) (r : List α) (h : ∀ a ∈ l, p a = true) (hx : p x = false) :
    (l ++ x :: r).dropWhile p = x :: r := by
  induction l with
  | nil => simp [hx]
  | cons a l ih =>
    simp only [List.cons_append, List.dropWhile_cons, h a (List.mem_cons_self ..), if_true]
    exact ih fun b hb => h b (List.mem_cons_of_mem _ hb)

theorem readBody_zeros (n : Nat) : readBody ("---- ".toList ++ natDec n ++ " zero bytes skipped ----".toList) = some (List.replicate n 0) := by
  have e : "---- ".toList ++ natDec n ++ " zero bytes skipped ----".toList = '-' :: '-' :: '-' :: '-' :: ' ' :: (natDec n ++ " zero bytes skipped ----".toList) := rfl
  have h1 : (("---- ".toList ++ natDec n ++ " zero bytes skipped ----".toList).drop 5).takeWhile isDig = natDec n := by
    rw [e]
    show (natDec n ++ ' ' :: "zero bytes skipped ----".toList).takeWhile isDig = natDec n
    exact takeWhile_all _ _ _ _ (fun c hc => natDec_mem_dig hc) (by decide)
  have h2 : readBody ("---- ".toList ++ natDec n ++ " zero bytes skipped ----".toList) = readDashes ("---- ".toList ++ natDec n ++ " zero bytes skipped ----".toList) := by
    rw [e]; rfl
  rw [h2, readDashes]
  rw [if_neg, h1]
  · simp only []
    rw [if_pos ⟨natDec_ne n, by simp⟩, natDec_val]
  · intro hc
    rw [hc] at h1
    have : natDec n = [] := by rw [← h1]; decide
    exact natDec_ne n this

theorem readBody_misc : readBody "---- Misc bytes at end ----".toList = some [] := by decide


theorem table_spec : (recNameTable.map fun x => (x.1, x.2.toList)) = recordLines.map recordOf := by decide +kernel

theorem lookup_map (l : List (Nat × String)) (rc : Nat) : (l.lookup rc).map String.toList = (l.map fun x => (x.1, x.2.toList)).lookup rc := by
  induction l with
  | nil => rfl
  | cons x t ih =>
    obtain ⟨a, b⟩ := x
    simp only [List.lookup_cons, List.map_cons]
    cases rc == a with
    | true => rfl
    | false => exact ih

theorem lookup_mem {l : List (Nat × List Char)} {rc : Nat} {x : List Char} (h : l.lookup rc = some x) : (rc, x) ∈ l := by
  induction l with
  | nil => cases h
  | cons y t ih =>
    obtain ⟨a, b⟩ := y
    rw [List.lookup_cons] at h
    cases hr : rc == a with
    | true =>
      rw [hr] at h
      cases h
      rw [eq_of_beq hr]
      exact List.mem_cons_self ..
    | false => rw [hr] at h; exact List.mem_cons_of_mem _ (ih h)

/-- The names of records are those of the printed list. -/
theorem recName_spec (rc : Nat) : recName? rc = recordNamed rc := by
  rw [recName?, lookup_map, table_spec]
  rfl

theorem shownName_eq (rc : Nat) : (recName? rc).getD "<UNKNOWN>".toList = shownName rc := by
  rw [recName_spec, shownName]
  cases recordNamed rc <;> rfl

theorem table_blank : ∀ x ∈ recordLines.map recordOf, ∀ c ∈ x.2, c ≠ ' ' := by decide +kernel

theorem shownName_blank (rc : Nat) : ∀ c ∈ shownName rc, c ≠ ' ' := by
  rw [shownName]
  cases h : recordNamed rc with
  | none => decide
  | some x => exact table_blank (rc, x) (lookup_mem h)

theorem readBody_rec (rc len : Nat) (h1 : rc < 65536) (h2 : len < 65536) :
    readBody (hex4 rc ++ ' ' :: (recName? rc).getD "<UNKNOWN>".toList ++ " len = ".toList ++ hex4 len ++ " (".toList ++ natDec len ++ ")".toList) = some (le16 rc ++ le16 len) := by
  rw [shownName_eq]
  generalize hs : hex4 rc ++ ' ' :: shownName rc ++ " len = ".toList ++ hex4 len ++ " (".toList ++ natDec len ++ ")".toList = s
  have t4 : s.take 4 = hex4 rc := by rw [← hs]; simp [List.take_append, hex4]
  have d5 : s.drop 5 = shownName rc ++ ' ' :: ("len = ".toList ++ hex4 len ++ " (".toList ++ natDec len ++ ")".toList) := by
    rw [← hs]; simp [hex4]
  have hn : (s.drop 5).takeWhile (fun c => decide (c ≠ ' ')) = shownName rc := by
    rw [d5]
    exact takeWhile_all _ _ _ _ (fun c hc => by simpa using shownName_blank rc c hc) (by decide)
  have hh : (s.drop (12 + (shownName rc).length)).take 4 = hex4 len := by
    have e1 : s.drop (12 + (shownName rc).length) = (s.drop 5).drop ((shownName rc).length + 7) := by
      rw [List.drop_drop]; congr 1; omega
    rw [e1, d5, ← List.drop_drop, List.drop_left]
    simp [hex4]
  have hb : readBody s = readRecord s := by
    have : ∃ r, s = hexLow (rc / 4096) :: r := ⟨_, by rw [← hs]; rfl⟩
    obtain ⟨r, hr⟩ := this
    rw [hr, readBody.eq_3 _ (fun t ht => (hexLow_char (rc / 4096) (by omega)).1 (by injection ht)) (fun t ht => (hexLow_char (rc / 4096) (by omega)).2.1 (by injection ht))]
  rw [hb, readRecord, t4, readHex4_hex4 rc h1]
  simp only [Option.bind_eq_bind, Option.bind_some]
  rw [hn, hh, readHex4_hex4 len h2]
  simp only [Option.bind_some]
  simp only [true_and]
  rw [if_pos hs.symm]

theorem natDec_ne_char (n : Nat) (c : Char) (hc : isDig c = false) : ∀ x ∈ natDec n, x ≠ c := by
  rintro x hx rfl
  have := natDec_mem_dig hx
  rw [hc] at this
  cases this

theorem readNumber_prefix (numbered : Bool) (n : Nat) (body : PyStr) : readNumber numbered n (numPrefix numbered n ++ body) = some body := by
  cases numbered with
  | false => rfl
  | true =>
    simp only [readNumber, numPrefix, if_true, intDec_nat]
    have e : padL 5 (natDec n) ++ ": ".toList ++ body = padL 5 (natDec n) ++ ':' :: ' ' :: body := by simp
    rw [e]
    have h1 : (padL 5 (natDec n) ++ ':' :: ' ' :: body).takeWhile (fun c => decide (c ≠ ':')) = padL 5 (natDec n) := by
      refine takeWhile_all _ _ _ _ (fun c hc => ?_) (by decide)
      rw [padL, List.mem_append] at hc
      rcases hc with hc | hc
      · rw [(List.mem_replicate.1 hc).2]; decide
      · simpa using natDec_ne_char n ':' (by decide) c hc
    have h2 : (padL 5 (natDec n)).dropWhile (fun c => decide (c = ' ')) = natDec n := by
      rw [padL]
      cases hd : natDec n with
      | nil => exact absurd hd (natDec_ne n)
      | cons d r =>
        refine dropWhile_all _ _ _ _ (fun c hc => by simpa using (List.mem_replicate.1 hc).2) ?_
        simpa using natDec_ne_char n ' ' (by decide) d (by rw [hd]; exact List.mem_cons_self ..)
    rw [h1, h2]
    have h3 : (padL 5 (natDec n) ++ ':' :: ' ' :: body).drop (padL 5 (natDec n)).length = ':' :: ' ' :: body := List.drop_left
    have h4 : (padL 5 (natDec n) ++ ':' :: ' ' :: body).drop ((padL 5 (natDec n)).length + 2) = body := by
      rw [← List.drop_drop, h3]; rfl
    rw [h3, h4, if_pos ⟨natDec_ne n, by rw [List.all_eq_true]; exact fun c hc => natDec_mem_dig hc, natDec_val n, rfl⟩]

theorem prefix_head (numbered : Bool) (n : Nat) (body : PyStr) (h : body.head? ≠ some 'L') : (numPrefix numbered n ++ body).head? ≠ some 'L' := by
  cases numbered with
  | false => exact h
  | true =>
    simp only [numPrefix, if_true, intDec_nat]
    intro hc
    have hm : 'L' ∈ padL 5 (natDec n) := by
      cases hp : padL 5 (natDec n) with
      | nil => rw [padL, List.append_eq_nil_iff] at hp; exact absurd hp.2 (natDec_ne n)
      | cons a r =>
        rw [hp] at hc
        simp only [List.cons_append, List.head?_cons, Option.some.injEq] at hc
        rw [hc]; exact List.mem_cons_self ..
    rw [padL, List.mem_append] at hm
    rcases hm with hm | hm
    · have := (List.mem_replicate.1 hm).2; revert this; decide
    · exact natDec_ne_char n 'L' (by decide) _ hm rfl

/-- A line is read. -/
theorem readDump_line (numbered : Bool) (n : Nat) (body : PyStr) (bs : Bytes) (more : List PyStr) (hh : body.head? ≠ some 'L') (hb : readBody body = some bs) :
    readDump numbered n ((numPrefix numbered n ++ body) :: more) = (readDump numbered (n + bs.length) more).map (bs ++ ·) := by
  rw [readDump, if_neg (prefix_head numbered n body hh), readNumber_prefix]
  simp only [Option.bind_eq_bind, Option.bind_some, hb]
  cases readDump numbered (n + bs.length) more <;> rfl

end DumpL
end Xlrd
