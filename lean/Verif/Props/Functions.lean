import Verif.Model.Formula
import Verif.Spec.Functions

/-!
# The table of functions (C50)
-/
namespace Xlrd
open Spec

/-- The numbers in the table increase, so that no entry hides another. -/
theorem func_codes_lt : (funcTable.map (·.1)).Pairwise (· < ·) := by decide +kernel

theorem find_sorted {β : Type} (l : List (Nat × β)) (h : (l.map (·.1)).Pairwise (· < ·)) (e : Nat × β) (he : e ∈ l) : l.find? (fun x => x.1 == e.1) = some e := by
  induction l with
  | nil => cases he
  | cons a l ih =>
    rw [List.map_cons, List.pairwise_cons] at h
    rcases List.mem_cons.mp he with rfl | he
    · simp
    · have := h.1 e.1 (List.mem_map.mpr ⟨e, he, rfl⟩)
      rw [List.find?_cons_of_neg (by simpa using Nat.ne_of_lt this)]
      exact ih h.2 he

/-- The functions of the specification, with their numbers. -/
def specFunctions : List (Nat × String × Option Nat) := functionRuns.flatMap fun run => run.2.mapIdx fun k f => (run.1 + k, f)

/-- **C50** (names of functions).  The functions of the file format have their names; those with a fixed number of arguments take that many operands, the
others have a range of numbers of arguments, except for GETPIVOTDATA.  No entry of the table hides another. -/
theorem C50_function_names : (∀ n name args, FunctionIs n name args → name ≠ "GETPIVOTDATA" → ∃ lo hi, funcDef n = some (name.toList, lo, hi) ∧
      (∀ k, args = some k → lo = k ∧ hi = k) ∧ (args = none → lo < hi)) ∧
    (funcDef 358 = some ("GETPIVOTDATA".toList, 2, 2)) ∧
    ∀ e ∈ funcTable, funcDef e.1 = some (e.2.1.toList, e.2.2) := by
  refine ⟨?_, by decide +kernel, fun e he => ?_⟩
  · rintro n name args ⟨run, hr, k, hk, rfl⟩ hg
    have key : specFunctions.all (fun f => f.2.1 == "GETPIVOTDATA" || (match funcDef f.1 with
        | none => false
        | some d => d.1 == f.2.1.toList && (match f.2.2 with
          | none => decide (d.2.1 < d.2.2)
          | some k => d.2.1 == k && d.2.2 == k))) = true := by decide +kernel
    have hm : (run.1 + k, name, args) ∈ specFunctions := by
      refine List.mem_flatMap.mpr ⟨run, hr, List.mem_iff_getElem?.mpr ⟨k, ?_⟩⟩
      rw [List.getElem?_mapIdx, hk]
      rfl
    have := List.all_eq_true.mp key _ hm
    simp only [Bool.or_eq_true, beq_iff_eq] at this
    rcases this with h | h
    · exact absurd h hg
    · cases hf : funcDef (run.1 + k) with
      | none => rw [hf] at h; cases h
      | some d =>
        rw [hf] at h
        obtain ⟨nm, lo, hi⟩ := d
        cases args with
        | none =>
          simp only [Bool.and_eq_true, beq_iff_eq, decide_eq_true_eq] at h
          exact ⟨lo, hi, by rw [h.1], (fun k e => by cases e), fun _ => h.2⟩
        | some j =>
          simp only [Bool.and_eq_true, beq_iff_eq] at h
          exact ⟨lo, hi, by rw [h.1], (fun k e => by cases e; exact h.2), fun e => by cases e⟩
  · unfold funcDef
    rw [find_sorted funcTable func_codes_lt e he]
    rfl

/-- SUM is function 4, ROUND function 27 with two arguments. -/
example : FunctionIs 4 "SUM" none ∧ FunctionIs 27 "ROUND" (some 2) :=
  ⟨⟨_, List.mem_cons_self .., 4, rfl, rfl⟩, ⟨_, List.mem_cons_self .., 27, rfl, rfl⟩⟩

end Xlrd
