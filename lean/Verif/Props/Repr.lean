import Verif.Spec.Repr
import Verif.Lemmas.Names

/-!
# C91: representations and pickles
-/
set_option linter.unusedSimpArgs false
namespace Xlrd
open Spec

theorem ctypeText_cases {t : Nat} {s : PyStr} (h : ctypeText t = .ok s) :
    (t, s) ∈ [(0, "empty".toList), (1, "text".toList), (2, "number".toList), (3, "xldate".toList), (4, "bool".toList), (5, "error".toList), (6, "blank".toList)] := by
  by_cases ht : t < 7
  · have : t = 0 ∨ t = 1 ∨ t = 2 ∨ t = 3 ∨ t = 4 ∨ t = 5 ∨ t = 6 := by omega
    rcases this with rfl | rfl | rfl | rfl | rfl | rfl | rfl <;> (cases h; decide)
  · unfold ctypeText at h
    rw [if_neg (by show ¬ t = 0; omega), if_neg (by show ¬ t = 1; omega), if_neg (by show ¬ t = 2; omega), if_neg (by show ¬ t = 3; omega), if_neg (by show ¬ t = 4; omega),
      if_neg (by show ¬ t = 5; omega), if_neg (by show ¬ t = 6; omega)] at h
    cases h

theorem ctypeText_colon {t : Nat} {s : PyStr} (h : ctypeText t = .ok s) : ∀ c ∈ s, c ≠ ':' := by
  have : ∀ x ∈ ([(0, "empty".toList), (1, "text".toList), (2, "number".toList), (3, "xldate".toList), (4, "bool".toList), (5, "error".toList), (6, "blank".toList)] : List (Nat × PyStr)),
      ∀ c ∈ x.2, c ≠ ':' := by decide
  exact this _ (ctypeText_cases h)

theorem ctypeText_inj {t t' : Nat} {s : PyStr} (h : ctypeText t = .ok s) (h' : ctypeText t' = .ok s) : t = t' := by
  have : ∀ x ∈ ([(0, "empty".toList), (1, "text".toList), (2, "number".toList), (3, "xldate".toList), (4, "bool".toList), (5, "error".toList), (6, "blank".toList)] : List (Nat × PyStr)),
      ∀ y ∈ ([(0, "empty".toList), (1, "text".toList), (2, "number".toList), (3, "xldate".toList), (4, "bool".toList), (5, "error".toList), (6, "blank".toList)] : List (Nat × PyStr)),
      x.2 = y.2 → x.1 = y.1 := by decide
  exact this _ (ctypeText_cases h) _ (ctypeText_cases h') rfl

theorem before_colon {a b x y : PyStr} (ha : ∀ c ∈ a, c ≠ ':') (hb : ∀ c ∈ b, c ≠ ':') (h : a ++ ':' :: x = b ++ ':' :: y) : a = b ∧ x = y := by
  have e : ∀ {l r : PyStr}, (∀ c ∈ l, c ≠ ':') → (l ++ ':' :: r).takeWhile (fun c => decide (c ≠ ':')) = l ∧ (l ++ ':' :: r).dropWhile (fun c => decide (c ≠ ':')) = ':' :: r := by
    intro l r hl
    exact takeWhile_all_append l (':' :: r) (by rw [List.all_eq_true]; intro c hc; simpa using hl c hc) (by intro c hc; cases hc; decide)
  have h1 := (e (r := x) ha).1
  have h2 := (e (r := x) ha).2
  rw [h] at h1 h2
  rw [(e hb).1] at h1
  rw [(e hb).2] at h2
  cases h2
  exact ⟨h1.symm, rfl⟩

theorem intDec_colon (n : Int) : ∀ c ∈ intDec n, c ≠ ':' := by
  intro c hc
  rcases intDec_mem hc with h | h
  · rintro rfl; revert h; decide
  · rintro rfl; revert h; decide

/-- The part after the value. -/
def xfPart : Option Int → PyStr
  | none => []
  | some x => " (XF".toList ++ ':' :: (intDec x ++ [')'])

theorem cellRepr_eq {rv : Val → PyStr} {c : PCell} {s : PyStr} (h : cellRepr rv c = .ok s) : ∃ t, ctypeText c.ty = .ok t ∧ s = t ++ ':' :: (rv c.v ++ xfPart c.xf) := by
  unfold cellRepr at h
  cases hx : c.xf with
  | none =>
    rw [hx] at h
    cases ht : ctypeText c.ty with
    | error e => simp only [ht] at h; cases h
    | ok t =>
      simp only [ht] at h
      cases h
      exact ⟨t, rfl, by simp [xfPart]⟩
  | some x =>
    rw [hx] at h
    cases ht : ctypeText c.ty with
    | error e => simp only [ht] at h; cases h
    | ok t =>
      simp only [ht] at h
      cases h
      exact ⟨t, rfl, by simp [xfPart]⟩

theorem mixed {rv : Val → PyStr} (hr : PyRepr rv) (v w : Val) (x : Int) : rv v ≠ rv w ++ xfPart (some x) := by
  intro h
  have hp : '(' ∈ rv v := by rw [h]; simp [xfPart]
  have hl : (rv v).getLast? = some ')' := by
    rw [h, xfPart, ← List.cons_append, ← List.append_assoc, ← List.append_assoc]
    exact List.getLast?_concat ..
  cases v with
  | num x => exact hr.num x hp
  | int x => exact hr.int x hp
  | text s =>
    obtain ⟨q, h1, h2⟩ := hr.text s
    rw [h1] at hl
    cases hl
    rcases h2 with h2 | h2 <;> exact absurd h2 (by decide)

/-- **C91**.  Cells with the same `repr` have the same type and XF index, and values with the same `repr`. -/
theorem C91_cell_repr (rv : Val → PyStr) (hr : PyRepr rv) (a b : PCell) (s : PyStr) (ha : cellRepr rv a = .ok s) (hb : cellRepr rv b = .ok s) :
    a.ty = b.ty ∧ rv a.v = rv b.v ∧ a.xf = b.xf := by
  obtain ⟨t1, k1, rfl⟩ := cellRepr_eq ha
  obtain ⟨t2, k2, h0⟩ := cellRepr_eq hb
  obtain ⟨e0, h⟩ := before_colon (ctypeText_colon k1) (ctypeText_colon k2) h0
  rw [← e0] at k2
  have et := ctypeText_inj k1 k2
  have key : rv a.v = rv b.v ∧ a.xf = b.xf := by
    cases hx : a.xf with
    | none =>
      cases hy : b.xf with
      | none => rw [hx, hy] at h; exact ⟨by simpa [xfPart] using h, rfl⟩
      | some y => rw [hx, hy] at h; exact absurd (by simpa [xfPart] using h) (mixed hr a.v b.v y)
    | some x =>
      cases hy : b.xf with
      | none => rw [hx, hy] at h; exact absurd (by simpa [xfPart] using h.symm) (mixed hr b.v a.v x)
      | some y =>
        rw [hx, hy] at h
        have hrev := congrArg List.reverse h
        simp only [xfPart, List.reverse_append, List.reverse_cons, List.append_assoc, List.singleton_append, List.cons_append, List.nil_append, List.reverse_nil] at hrev
        have hrev' : (')' :: (intDec x).reverse) ++ ':' :: ((" (XF".toList).reverse ++ (rv a.v).reverse) = (')' :: (intDec y).reverse) ++ ':' :: ((" (XF".toList).reverse ++ (rv b.v).reverse) := by
          simpa using hrev
        obtain ⟨e1, e2⟩ := before_colon (by intro c hc; rcases List.mem_cons.mp hc with rfl | hc
                                            · decide
                                            · exact intDec_colon x c (List.mem_reverse.mp hc))
          (by intro c hc; rcases List.mem_cons.mp hc with rfl | hc
              · decide
              · exact intDec_colon y c (List.mem_reverse.mp hc)) hrev'
        have e3 : intDec x = intDec y := List.reverse_injective (List.cons.inj e1).2
        have e4 : x = y := by
          have := congrArg readInt e3
          rw [readInt_intDec, readInt_intDec] at this
          exact Option.some.inj this
        have e5 : rv a.v = rv b.v := List.reverse_injective (List.append_cancel_left e2)
        exact ⟨e5, by rw [e4]⟩
  exact ⟨et, key⟩

/-- **C91**.  Every cell with one of the seven types has a `repr`. -/
theorem C91_cell_repr_exists (rv : Val → PyStr) (c : PCell) (h : c.ty < 7) : ∃ s, cellRepr rv c = .ok s := by
  have : ∃ t, ctypeText c.ty = .ok t := by
    generalize c.ty = t at h
    have : t = 0 ∨ t = 1 ∨ t = 2 ∨ t = 3 ∨ t = 4 ∨ t = 5 ∨ t = 6 := by omega
    rcases this with rfl | rfl | rfl | rfl | rfl | rfl | rfl <;> exact ⟨_, rfl⟩
  obtain ⟨t, ht⟩ := this
  unfold cellRepr
  cases c.xf with
  | none => simp only [ht]; exact ⟨_, rfl⟩
  | some x => simp only [ht]; exact ⟨_, rfl⟩

/-- **C91**.  A `Rowinfo` restored from a pickle has the attributes of the one that was pickled, whatever it had before. -/
theorem C91_row_pickle {α : Type} (r old : RowAttrs α) : rowSetstate old (rowGetstate r) = .ok r := rfl

/-- Strings in quotation marks with nothing escaped, all numbers alike. -/
def simpleRepr : Val → PyStr
  | .text s => '\'' :: s ++ ['\'']
  | .num _ => "1.5".toList
  | .int n => intDec n

theorem simpleRepr_ok : PyRepr simpleRepr where
  text s := ⟨'\'', by simp only [simpleRepr]; exact List.getLast?_concat .., .inl rfl⟩
  num x := by simp [simpleRepr]
  int n := by
    intro h
    rcases intDec_mem h with h | h
    · revert h; decide
    · revert h; decide

/-- The text that looks like a value with an XF index. -/
example : cellRepr simpleRepr ⟨1, .text "a".toList, some 15⟩ = .ok "text:'a' (XF:15)".toList := by decide
example (c : PCell) (h : cellRepr simpleRepr c = .ok "text:'a' (XF:15)".toList) : c.ty = 1 ∧ c.xf = some 15 := by
  obtain ⟨h1, _, h3⟩ := C91_cell_repr simpleRepr simpleRepr_ok c ⟨1, .text "a".toList, some 15⟩ _ h (by decide)
  exact ⟨h1, h3⟩
example : (rowSetstate ⟨none, none, none, none, none, none, none, none, none, none⟩ (rowGetstate ⟨some 255, some 0, some 2, none, some 1, none, none, some 15, none, some 1⟩)).toOption.map (·.xfIndex) =
    some (some 15) := by decide

end Xlrd
