import Verif.Props.Extern
import Verif.Props.GlobalsExamples

/-!
# A sample workbook with references to its sheets

The three sheets of `Props/GlobalsExamples.lean`, of which the second is not a worksheet, and an EXTERNSHEET table with a continuation.
It meets the hypotheses of C46.
-/
namespace Xlrd
open Spec

namespace ExternSample
open Sample

def refs : List ExtRef := [⟨1, 0, 2⟩, ⟨1, 0xFFFE, 0xFFFE⟩, ⟨0, 0xFFFE, 0xFFFE⟩, ⟨1, 0, 1⟩]
def externData : Bytes := le16 4 ++ (refs.take 2).flatMap ExtRef.enc
def externMore : Bytes := (refs.drop 2).flatMap ExtRef.enc

def items : List GItem :=
  [.one 0x85 (sheetData sheetA "A"), .one 0x85 (sheetData sheetB "B"), .one 0x85 (sheetData sheetC "C"),
   .one 0x1ae [1, 0, 1, 0x3A], .one 0x1ae [3, 0, 1, 4], .extern externData [externMore]]

theorem ok : GlobalsOk 80 items where
  sized := by unfold GItem.Sized; decide +kernel
  plain := by
    intro it h
    simp only [items, List.mem_cons, List.mem_nil_iff, or_false] at h
    rcases h with rfl | rfl | rfl | rfl | rfl | rfl
    · simp [GItem.Plain]
    · simp [GItem.Plain]
    · simp [GItem.Plain]
    · simp [GItem.Plain]
    · simp [GItem.Plain]
    · refine ⟨4, (refs.take 2).flatMap ExtRef.enc, rfl, by decide, by decide +kernel, ?_⟩
      intro k hk
      obtain rfl : k = 0 := by simp at hk; omega
      decide +kernel
  stray := by simp [items, NoStrayContinue]

theorem sheets : Sheets 80 (textAt env) items [sheetA, sheetB, sheetC] := by
  have h0 : Sheets 80 (textAt env) [] [] := .nil
  have h1 := h0.take (sel := (· = 0x85)) rfl (sheetRec (textAt env []) sheetA "A" rfl (by decide) (by decide) (by decide) (by decide +kernel) (by decide +kernel))
  have h2 := h1.take (sel := (· = 0x85)) rfl (sheetRec (textAt env _) sheetB "B" rfl (by decide) (by decide) (by decide) (by decide +kernel) (by decide +kernel))
  have h3 := h2.take (sel := (· = 0x85)) rfl (sheetRec (textAt env _) sheetC "C" rfl (by decide) (by decide) (by decide) (by decide +kernel) (by decide +kernel))
  have h4 := h3.skip (it := .one 0x1ae [1, 0, 1, 0x3A]) (by rintro c d ⟨⟩; simp)
  have h5 := h4.skip (it := .one 0x1ae [3, 0, 1, 4]) (by rintro c d ⟨⟩; simp)
  exact h5.skip (it := .extern externData [externMore]) (by rintro c d ⟨⟩)

theorem externs : Externs items refs := by
  have hs : ∀ l : List GItem, (∀ it ∈ l, ∀ d more, it ≠ .extern d more) → ∀ pre, Externs pre [] → Externs (pre ++ l) [] := by
    intro l
    induction l with
    | nil => intro _ pre h; simpa using h
    | cons a l ih =>
      intro hl pre h
      have := ih (fun x hx => hl x (List.mem_cons_of_mem _ hx)) _ (h.skip (hl a (List.mem_cons_self ..)))
      simpa using this
  refine Externs.take (pre := items.take 5) (xs := []) (l := refs) (hs (items.take 5) ?_ [] .nil) ⟨[], by decide, ?_, by decide +kernel⟩
  · intro it h d more
    simp only [items, List.take, List.mem_cons, List.mem_nil_iff, or_false] at h
    rcases h with rfl | rfl | rfl | rfl | rfl <;> simp
  · unfold ExtRef.Fits; decide

theorem load : ∃ b p, parseGlobals env ([9, 9] ++ encGlobals items [] ++ [7]) newBook (([9, 9] : Bytes).length : Int) = .ok (b, p) := by
  cases h : parseGlobals env ([9, 9] ++ encGlobals items [] ++ [7]) newBook (([9, 9] : Bytes).length : Int) with
  | ok r => exact ⟨r.1, r.2, rfl⟩
  | error e =>
    have : (parseGlobals env ([9, 9] ++ encGlobals items [] ++ [7]) newBook (([9, 9] : Bytes).length : Int)).toOption.isSome = true := by decide +kernel
    rw [h] at this; cases this

theorem local_last : LastOf (supbooks items) .ours 1 := by
  refine ⟨rfl, ?_⟩
  intro j hj
  rw [List.getElem?_eq_none (Nat.le_trans (show (supbooks items).length ≤ 2 by decide +kernel) (by omega))]
  simp

theorem addins_last : LastOf (supbooks items) .addins 0 := by
  refine ⟨rfl, ?_⟩
  intro j hj
  by_cases h : j = 1
  · subst h; decide
  · rw [List.getElem?_eq_none (Nat.le_trans (show (supbooks items).length ≤ 2 by decide +kernel) (by omega))]
    simp

/-- The first reference is to the worksheets A and C, the second to "this workbook", the third to the add-ins, and the fourth ends at a sheet that is not a worksheet. -/
example : ∃ b : Book, (∃ x y : Nat, externRange b 0 = .ok ((x : Int), (y : Int)) ∧ (b.sheetNames.drop x).take (y + 1 - x) = ["A".toList, "C".toList]) ∧
    externRange b 1 = .ok (-1, -1) ∧ externRange b 2 = .ok (-5, -5) ∧ externRange b 3 = .ok (-3, -3) ∧ externRange b 4 = .ok (-101, -101) := by
  obtain ⟨b, p, h⟩ := load
  refine ⟨b, ?_, ?_, ?_, ?_, ?_⟩
  · obtain ⟨x, y, h1, _, _, _, h2⟩ := C46_local_sheets env (by decide) [9, 9] [7] [] (by decide) items ok _ sheets refs externs b p h 0 ⟨1, 0, 2⟩ rfl
      local_last sheetA sheetC rfl rfl (by decide) (by decide) rfl rfl
    exact ⟨x, y, h1, h2⟩
  · exact (((C46_codes env (by decide) [9, 9] [7] [] (by decide) items ok _ sheets refs externs b p h 1).2 _ rfl).2.2 local_last).1 rfl rfl
  · exact ((C46_codes env (by decide) [9, 9] [7] [] (by decide) items ok _ sheets refs externs b p h 2).2 _ rfl).1 addins_last
  · exact (((C46_codes env (by decide) [9, 9] [7] [] (by decide) items ok _ sheets refs externs b p h 3).2 _ rfl).2.2 local_last).2.2.2
      sheetA sheetB (by decide) (by decide) rfl rfl (by decide)
  · exact (C46_codes env (by decide) [9, 9] [7] [] (by decide) items ok _ sheets refs externs b p h 4).1 (by decide)

end ExternSample
end Xlrd
