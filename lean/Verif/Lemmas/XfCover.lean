import Verif.Lemmas.Formatting
import Verif.Spec.FormatRecords
import Mathlib.Tactic.IntervalCases

/-!
# Every sufficiently long byte string is an XF record
-/
set_option linter.unusedSimpArgs false
namespace Xlrd
open Spec

/-- A number cut into fields of the given widths. -/
def splitFields : List Nat → Nat → List (Nat × Nat)
  | [], _ => []
  | w :: ws, n => (n % 2 ^ w, w) :: splitFields ws (n / 2 ^ w)

theorem splitFields_fit (ws : List Nat) (n : Nat) : FieldsFit (splitFields ws n) := by
  induction ws generalizing n with
  | nil => intro f hf; cases hf
  | cons w ws ih =>
    intro f hf
    rcases List.mem_cons.mp hf with rfl | hf
    · exact Nat.mod_lt _ (Nat.pow_pos (by decide))
    · exact ih _ f hf

theorem pack_split (ws : List Nat) (n : Nat) (h : n < 2 ^ ws.sum) : packFields (splitFields ws n) = n := by
  induction ws generalizing n with
  | nil => simp at h; simp [splitFields, packFields, h]
  | cons w ws ih =>
    simp only [splitFields, packFields]
    rw [ih _ (by
      rw [List.sum_cons, Nat.pow_add] at h
      exact Nat.div_lt_of_lt_mul h), Nat.mod_add_div]

theorem le_lt (b : Bytes) : le b < 256 ^ b.length := by
  induction b with
  | nil => simp [le]
  | cons x b ih =>
    simp only [le, List.length_cons, Nat.pow_succ]
    have := x.toNat_lt
    omega

theorem leBytes_le (b : Bytes) : leBytes b.length (le b) = b := by
  induction b with
  | nil => rfl
  | cons x b ih =>
    have := x.toNat_lt
    simp only [le, List.length_cons, leBytes]
    rw [show (x.toNat + 256 * le b) % 256 = x.toNat by omega, show (x.toNat + 256 * le b) / 256 = le b by omega, ih]
    simp

/-- The bytes of a record from fields that cover them. -/
theorem bytes_of_fields (ws : List Nat) (n : Nat) (data : Bytes) (hs : ws.sum = 8 * n) (hd : n ≤ data.length) :
    ∃ l, FieldsFit l ∧ (∃ m, l = splitFields ws m) ∧ data = leBytes n (packFields l) ++ data.drop n := by
  refine ⟨splitFields ws (le (data.take n)), splitFields_fit _ _, ⟨_, rfl⟩, ?_⟩
  have hlen : (data.take n).length = n := by rw [List.length_take]; omega
  have hb := le_lt (data.take n)
  rw [hlen] at hb
  rw [pack_split _ _ (by rw [hs, Nat.pow_mul]; exact hb)]
  have := leBytes_le (data.take n)
  rw [hlen] at this
  rw [this, List.take_append_drop]

theorem orientation_of {n : Nat} (h : n < 4) : orientation (rotationOf n) = n ∧ IsOrientation (rotationOf n) := by
  interval_cases n <;> exact ⟨rfl, by unfold IsOrientation; decide⟩

theorem cover8 (data : Bytes) (h : 20 ≤ data.length) : ∃ x, XfRecord x 80 data := by
  obtain ⟨l, hf, ⟨m, hm⟩, hd⟩ := bytes_of_fields
    [16, 16, 1, 1, 1, 1, 12, 3, 1, 3, 1, 8, 4, 1, 1, 2, 2, 1, 1, 1, 1, 1, 1, 4, 4, 4, 4, 7, 7, 1, 1, 7, 7, 7, 4, 1, 6, 7, 7, 2] 20 data (by decide) h
  have : ∃ (x : XF) (u : Nat × Nat × Nat × Nat × Nat), xfFields8 x u = l := by
    rw [hm]
    exact ⟨{ fontIndex := _, formatKey := _, cellLocked := _, formulaHidden := _, isStyle := _, lotus123Prefix := _,
             parentStyleIndex := _, horAlign := _, textWrapped := _, vertAlign := _, rotation := _, indentLevel := _, shrinkToFit := _,
             textDirection := _, formatFlag := _, fontFlag := _, alignmentFlag := _, borderFlag := _, backgroundFlag := _,
             protectionFlag := _, leftLineStyle := _, rightLineStyle := _, topLineStyle := _, bottomLineStyle := _,
             leftColourIndex := _, rightColourIndex := _, diagDown := _, diagUp := _, topColourIndex := _, bottomColourIndex := _,
             diagColourIndex := _, diagLineStyle := _, fillPattern := _, patternColourIndex := _, backgroundColourIndex := _ },
           (_, _, _, _, _), rfl⟩
  obtain ⟨x, u, hx⟩ := this
  refine ⟨x, ?_⟩
  rw [hd, ← hx]
  exact .biff8 u _ (by rw [hx]; exact hf)

theorem cover5 (bv : Nat) (hbv : bv = 50 ∨ bv = 70) (data : Bytes) (h : 16 ≤ data.length) : ∃ x, XfRecord x bv data := by
  obtain ⟨l, hf, ⟨m, hm⟩, hd⟩ := bytes_of_fields
    [16, 16, 1, 1, 1, 1, 12, 3, 1, 3, 1, 2, 1, 1, 1, 1, 1, 1, 7, 7, 2, 6, 3, 7, 3, 3, 3, 7, 7, 7, 2] 16 data (by decide) h
  have : ∃ (x : XF) (u : Nat × Nat × Nat), xfFields5 x u = l ∧ IsOrientation x.rotation ∧ NoBiff8Attributes x := by
    rw [hm]
    simp only [splitFields]
    generalize hq : m / 2 ^ 16 / 2 ^ 16 / 2 ^ 1 / 2 ^ 1 / 2 ^ 1 / 2 ^ 1 / 2 ^ 12 / 2 ^ 3 / 2 ^ 1 / 2 ^ 3 / 2 ^ 1 = q
    have o := orientation_of (n := q % 2 ^ 2) (Nat.mod_lt _ (by decide))
    refine ⟨{ fontIndex := ?_, formatKey := ?_, cellLocked := ?_, formulaHidden := ?_, isStyle := ?_, lotus123Prefix := ?_,
              parentStyleIndex := ?_, horAlign := ?_, textWrapped := ?_, vertAlign := ?_, rotation := rotationOf (q % 2 ^ 2),
              formatFlag := ?_, fontFlag := ?_, alignmentFlag := ?_, borderFlag := ?_, backgroundFlag := ?_,
              protectionFlag := ?_, leftLineStyle := ?_, rightLineStyle := ?_, topLineStyle := ?_, bottomLineStyle := ?_,
              leftColourIndex := ?_, rightColourIndex := ?_, topColourIndex := ?_, bottomColourIndex := ?_,
              fillPattern := ?_, patternColourIndex := ?_, backgroundColourIndex := ?_ },
           (?_, ?_, ?_), ?_, o.2, ⟨rfl, rfl, rfl, rfl, rfl, rfl, rfl⟩⟩
    rotate_right
    · simp only [xfFields5, o.1]
      rfl
  obtain ⟨x, u, hx, ho, h8⟩ := this
  refine ⟨x, ?_⟩
  rw [hd, ← hx]
  exact .biff5 bv hbv u _ (by rw [hx]; exact hf) ho h8

theorem cover4 (bv : Nat) (hbv : bv = 40 ∨ bv = 45) (data : Bytes) (h : 12 ≤ data.length) : ∃ x, XfRecord x bv data := by
  obtain ⟨l, hf, ⟨m, hm⟩, hd⟩ := bytes_of_fields
    [8, 8, 1, 1, 1, 1, 12, 3, 1, 2, 2, 2, 1, 1, 1, 1, 1, 1, 6, 5, 5, 3, 5, 3, 5, 3, 5, 3, 5] 12 data (by decide) h
  have : ∃ (x : XF) (u : Nat), xfFields4 x u = l ∧ IsOrientation x.rotation ∧ NoBiff8Attributes x := by
    rw [hm]
    simp only [splitFields]
    generalize hq : m / 2 ^ 8 / 2 ^ 8 / 2 ^ 1 / 2 ^ 1 / 2 ^ 1 / 2 ^ 1 / 2 ^ 12 / 2 ^ 3 / 2 ^ 1 / 2 ^ 2 = q
    have o := orientation_of (n := q % 2 ^ 2) (Nat.mod_lt _ (by decide))
    refine ⟨{ fontIndex := ?_, formatKey := ?_, cellLocked := ?_, formulaHidden := ?_, isStyle := ?_, lotus123Prefix := ?_,
              parentStyleIndex := ?_, horAlign := ?_, textWrapped := ?_, vertAlign := ?_, rotation := rotationOf (q % 2 ^ 2),
              formatFlag := ?_, fontFlag := ?_, alignmentFlag := ?_, borderFlag := ?_, backgroundFlag := ?_,
              protectionFlag := ?_, leftLineStyle := ?_, rightLineStyle := ?_, topLineStyle := ?_, bottomLineStyle := ?_,
              leftColourIndex := ?_, rightColourIndex := ?_, topColourIndex := ?_, bottomColourIndex := ?_,
              fillPattern := ?_, patternColourIndex := ?_, backgroundColourIndex := ?_ },
           ?_, ?_, o.2, ⟨rfl, rfl, rfl, rfl, rfl, rfl, rfl⟩⟩
    rotate_right
    · simp only [xfFields4, xfFields34, o.1]
      rfl
  obtain ⟨x, u, hx, ho, h8⟩ := this
  refine ⟨x, ?_⟩
  rw [hd, ← hx]
  exact .biff4 bv hbv u _ (by rw [hx]; exact hf) ho h8

theorem cover3 (data : Bytes) (h : 12 ≤ data.length) : ∃ x, XfRecord x 30 data := by
  obtain ⟨l, hf, ⟨m, hm⟩, hd⟩ := bytes_of_fields
    [8, 8, 1, 1, 1, 1, 4, 2, 1, 1, 1, 1, 1, 1, 3, 1, 12, 6, 5, 5, 3, 5, 3, 5, 3, 5, 3, 5] 12 data (by decide) h
  have : ∃ (x : XF) (u : Nat × Nat), xfFields3 x u = l ∧ x.vertAlign = 2 ∧ x.rotation = 0 ∧ NoBiff8Attributes x := by
    rw [hm]
    exact ⟨{ fontIndex := _, formatKey := _, cellLocked := _, formulaHidden := _, isStyle := _, lotus123Prefix := _,
             parentStyleIndex := _, horAlign := _, textWrapped := _, vertAlign := 2, rotation := 0,
             formatFlag := _, fontFlag := _, alignmentFlag := _, borderFlag := _, backgroundFlag := _,
             protectionFlag := _, leftLineStyle := _, rightLineStyle := _, topLineStyle := _, bottomLineStyle := _,
             leftColourIndex := _, rightColourIndex := _, topColourIndex := _, bottomColourIndex := _,
             fillPattern := _, patternColourIndex := _, backgroundColourIndex := _ },
           (_, _), rfl, rfl, rfl, ⟨rfl, rfl, rfl, rfl, rfl, rfl, rfl⟩⟩
  obtain ⟨x, u, hx, hv, hr, h8⟩ := this
  refine ⟨x, ?_⟩
  rw [hd, ← hx]
  exact .biff3 u _ (by rw [hx]; exact hf) hv hr h8

theorem cover2 (data : Bytes) (h : data.length = 4) : ∃ x, XfRecord x 21 data := by
  obtain ⟨l, hf, ⟨m, hm⟩, hd⟩ := bytes_of_fields [8, 8, 6, 1, 1, 3, 1, 1, 1, 1, 1] 4 data (by decide) (by omega)
  have : ∃ (x : XF) (u : Nat), xfFields2 x u = l ∧ Biff2Attributes x := by
    rw [hm]
    simp only [splitFields]
    generalize hq : m / 2 ^ 8 / 2 ^ 8 / 2 ^ 6 / 2 ^ 1 / 2 ^ 1 / 2 ^ 3 = q
    have hf : (if (if q / 2 ^ 1 / 2 ^ 1 / 2 ^ 1 / 2 ^ 1 % 2 ^ 1 = 0 then 0 else 17) = 0 then 0 else 1) = q / 2 ^ 1 / 2 ^ 1 / 2 ^ 1 / 2 ^ 1 % 2 ^ 1 := by
      have := Nat.mod_lt (q / 2 ^ 1 / 2 ^ 1 / 2 ^ 1 / 2 ^ 1) (show 2 ^ 1 > 0 by decide)
      generalize q / 2 ^ 1 / 2 ^ 1 / 2 ^ 1 / 2 ^ 1 % 2 ^ 1 = b at this
      have : b < 2 := this
      interval_cases b <;> rfl
    refine ⟨{ fontIndex := m % 2 ^ 8, formatKey := m / 2 ^ 8 / 2 ^ 8 % 2 ^ 6, cellLocked := m / 2 ^ 8 / 2 ^ 8 / 2 ^ 6 % 2 ^ 1,
              formulaHidden := m / 2 ^ 8 / 2 ^ 8 / 2 ^ 6 / 2 ^ 1 % 2 ^ 1, horAlign := m / 2 ^ 8 / 2 ^ 8 / 2 ^ 6 / 2 ^ 1 / 2 ^ 1 % 2 ^ 3,
              leftLineStyle := q % 2 ^ 1, rightLineStyle := q / 2 ^ 1 % 2 ^ 1, topLineStyle := q / 2 ^ 1 / 2 ^ 1 % 2 ^ 1,
              bottomLineStyle := q / 2 ^ 1 / 2 ^ 1 / 2 ^ 1 % 2 ^ 1,
              leftColourIndex := 8 * (q % 2 ^ 1), rightColourIndex := 8 * (q / 2 ^ 1 % 2 ^ 1), topColourIndex := 8 * (q / 2 ^ 1 / 2 ^ 1 % 2 ^ 1),
              bottomColourIndex := 8 * (q / 2 ^ 1 / 2 ^ 1 / 2 ^ 1 % 2 ^ 1),
              fillPattern := if q / 2 ^ 1 / 2 ^ 1 / 2 ^ 1 / 2 ^ 1 % 2 ^ 1 = 0 then 0 else 17,
              backgroundColourIndex := 9, patternColourIndex := 8, vertAlign := 2,
              formatFlag := 1, fontFlag := 1, alignmentFlag := 1, borderFlag := 1, backgroundFlag := 1, protectionFlag := 1 },
            m / 2 ^ 8 % 2 ^ 8, ?_, ?_⟩
    · simp only [xfFields2, hf]
    · refine ⟨⟨rfl, rfl, rfl, rfl, rfl, rfl, rfl⟩, rfl, rfl, rfl, rfl, rfl, rfl, rfl, rfl, rfl, rfl, ?_, rfl, rfl, rfl, rfl, rfl, rfl, rfl, rfl⟩
      simp only
      by_cases h0 : q / 2 ^ 1 / 2 ^ 1 / 2 ^ 1 / 2 ^ 1 % 2 ^ 1 = 0
      · left; rw [if_pos h0]
      · right; rw [if_neg h0]
  obtain ⟨x, u, hx, h2⟩ := this
  refine ⟨x, ?_⟩
  have he : data.drop 4 = [] := List.drop_eq_nil_of_le (by omega)
  rw [he, List.append_nil] at hd
  rw [hd, ← hx]
  exact .biff2 u (by rw [hx]; exact hf) h2

end Xlrd
