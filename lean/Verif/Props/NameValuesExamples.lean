import Verif.Props.NameValues
import Verif.Props.ExternExamples

/-!
# A sample workbook with names that refer to cells

The sheets of `Props/GlobalsExamples.lean`, a table of references, and three names: a cell, a range from that cell to another one, and a union.
The evaluation of names is the modelled one.  It meets the hypotheses of C70.
-/
namespace Xlrd
open Spec

namespace NameSample
open Sample

def ops : PyOps where
  str := fun _ => []
  toFloat := fun v => .ok v
  arith := fun _ v _ => .ok v
  cmp := fun _ _ _ => .ok true
  neg := fun v => .ok v
  percent := fun v => .ok v

def env : BookEnv := { Sample.env with
  evalNames := fun b => (bookNames { ops := ops, bv := 80, bk := b, dec := b.dec Sample.env }).map fun _ => () }

theorem env_evaluates : EvaluatesNames ops env := fun _ => rfl

def refs : List ExtRef := [⟨1, 0, 2⟩, ⟨1, 2, 2⟩]
def externData : Bytes := le16 2 ++ refs.flatMap ExtRef.enc

def exprs : List RefExpr := [.cell 1 4 2, .range (.name 0) (.cell 1 9 5), .union (.paren (.name 1)) (.area 0 1 2 3 4)]

def named (n : String) (x : RefExpr) : NameObj :=
  { nameIndex := 0, optionFlags := 0, hidden := 0, func := 0, vbasic := 0, macroFlag := 0, complex := 0, builtin := 0, funcgroup := 0,
    binary := 0, extnSheetNum := 0, excelSheetIndex := 0, scope := none, name := n.toList, rawFormula := x.tokens, basicFormulaLen := x.tokens.length }
def namedData (n : String) (x : RefExpr) : Bytes :=
  le16 0 ++ [0, UInt8.ofNat n.toList.length] ++ le16 x.tokens.length ++ le16 0 ++ le16 0 ++ [0, 0, 0, 0] ++ (txt n).body ++ x.tokens

def items : List GItem :=
  [.one 0x85 (sheetData sheetA "A"), .one 0x85 (sheetData sheetB "B"), .one 0x85 (sheetData sheetC "C"),
   .one 0x1ae [1, 0, 1, 0x3A], .one 0x1ae [3, 0, 1, 4], .extern externData [],
   .one 0x18 (namedData "rate" (.cell 1 4 2)), .one 0x18 (namedData "block" (.range (.name 0) (.cell 1 9 5))),
   .one 0x18 (namedData "both" (.union (.paren (.name 1)) (.area 0 1 2 3 4)))]

def names : List NameObj :=
  [named "rate" (.cell 1 4 2), named "block" (.range (.name 0) (.cell 1 9 5)), named "both" (.union (.paren (.name 1)) (.area 0 1 2 3 4))]

theorem ok : GlobalsOk 80 items where
  sized := by unfold GItem.Sized; decide +kernel
  plain := by
    intro it h
    simp only [items, List.mem_cons, List.mem_nil_iff, or_false] at h
    rcases h with rfl | rfl | rfl | rfl | rfl | rfl | rfl | rfl | rfl
    · simp [GItem.Plain]
    · simp [GItem.Plain]
    · simp [GItem.Plain]
    · simp [GItem.Plain]
    · simp [GItem.Plain]
    · refine ⟨2, refs.flatMap ExtRef.enc, rfl, by decide, by decide +kernel, ?_⟩
      intro k hk
      simp at hk
    · simp [GItem.Plain]
    · simp [GItem.Plain]
    · simp [GItem.Plain]
  stray := by simp [items, NoStrayContinue]

theorem sheets : Sheets 80 (textAt env) items [sheetA, sheetB, sheetC] := by
  have h0 : Sheets 80 (textAt env) [] [] := .nil
  have h1 := h0.take (sel := (· = 0x85)) rfl (sheetRec (textAt env []) sheetA "A" rfl (by decide) (by decide) (by decide) (by decide +kernel) (by decide +kernel))
  have h2 := h1.take (sel := (· = 0x85)) rfl (sheetRec (textAt env _) sheetB "B" rfl (by decide) (by decide) (by decide) (by decide +kernel) (by decide +kernel))
  have h3 := h2.take (sel := (· = 0x85)) rfl (sheetRec (textAt env _) sheetC "C" rfl (by decide) (by decide) (by decide) (by decide +kernel) (by decide +kernel))
  have h4 := h3.skip (it := .one 0x1ae [1, 0, 1, 0x3A]) (by rintro c d ⟨⟩; simp)
  have h5 := h4.skip (it := .one 0x1ae [3, 0, 1, 4]) (by rintro c d ⟨⟩; simp)
  have h6 := h5.skip (it := .extern externData []) (by rintro c d ⟨⟩)
  have h7 := h6.skip (it := .one 0x18 (namedData "rate" (.cell 1 4 2))) (by rintro c d ⟨⟩; simp)
  have h8 := h7.skip (it := .one 0x18 (namedData "block" (.range (.name 0) (.cell 1 9 5)))) (by rintro c d ⟨⟩; simp)
  exact h8.skip (it := .one 0x18 (namedData "both" (.union (.paren (.name 1)) (.area 0 1 2 3 4)))) (by rintro c d ⟨⟩; simp)

theorem namedRec (dec : Bytes → R PyStr) (n : String) (x : RefExpr) (h1 : n.toList.length < 256) (h2 : x.tokens.length < 65536)
    (h3 : ∀ u ∈ utf16 n.toList, u < 256) (h4 : (utf16 n.toList).length = n.toList.length) : NameRecord 80 dec (named n x) (namedData n x) :=
  ⟨0, 0, n.toList.length, [0, 0, 0, 0], n.toList, (txt n).body, by simp [FieldsFit, nameFlags, named], by simp [packFields, nameFlags, named],
    by simp [named], h1, h2, by simp [named], by simp [named], rfl, by rw [← h4]; exact .biff8 (txt n) (by decide) (txt_ok _ h3) rfl,
    by simp [NameShown, named], rfl⟩

theorem namesOk : Names 80 (textAt env) items names := by
  have h0 : Names 80 (textAt env) [] [] := .nil
  have h1 := h0.skip (sel := (· = 0x18)) (it := .one 0x85 (sheetData sheetA "A")) (by rintro c d ⟨⟩; simp)
  have h2 := h1.skip (it := .one 0x85 (sheetData sheetB "B")) (by rintro c d ⟨⟩; simp)
  have h3 := h2.skip (it := .one 0x85 (sheetData sheetC "C")) (by rintro c d ⟨⟩; simp)
  have h4 := h3.skip (it := .one 0x1ae [1, 0, 1, 0x3A]) (by rintro c d ⟨⟩; simp)
  have h5 := h4.skip (it := .one 0x1ae [3, 0, 1, 4]) (by rintro c d ⟨⟩; simp)
  have h6 := h5.skip (it := .extern externData []) (by rintro c d ⟨⟩)
  have h7 := h6.take rfl (namedRec (textAt env _) "rate" (.cell 1 4 2) (by decide +kernel) (by decide +kernel) (by decide +kernel) (by decide +kernel))
  have h8 := h7.take rfl (namedRec (textAt env _) "block" (.range (.name 0) (.cell 1 9 5)) (by decide +kernel) (by decide +kernel) (by decide +kernel) (by decide +kernel))
  exact h8.take rfl (namedRec (textAt env _) "both" (.union (.paren (.name 1)) (.area 0 1 2 3 4)) (by decide +kernel) (by decide +kernel) (by decide +kernel) (by decide +kernel))

theorem externs : Externs items refs := by
  have hs : ∀ l : List GItem, (∀ it ∈ l, ∀ d more, it ≠ .extern d more) → ∀ pre rs, Externs pre rs → Externs (pre ++ l) rs := by
    intro l
    induction l with
    | nil => intro _ pre rs h; simpa using h
    | cons a l ih =>
      intro hl pre rs h
      have := ih (fun x hx => hl x (List.mem_cons_of_mem _ hx)) _ _ (h.skip (hl a (List.mem_cons_self ..)))
      simpa using this
  have h1 : Externs (items.take 6) refs := by
    refine Externs.take (pre := items.take 5) (xs := []) (l := refs) (hs (items.take 5) ?_ [] [] .nil) ⟨[], by decide, ?_, by decide +kernel⟩
    · intro it h d more
      simp only [items, List.take, List.mem_cons, List.mem_nil_iff, or_false] at h
      rcases h with rfl | rfl | rfl | rfl | rfl <;> simp
    · unfold ExtRef.Fits; decide
  refine hs (items.drop 6) ?_ _ _ h1
  intro it h d more
  simp only [items, List.drop, List.mem_cons, List.mem_nil_iff, or_false] at h
  rcases h with rfl | rfl | rfl <;> simp

theorem load : ∃ b p, parseGlobals env ([9, 9] ++ encGlobals items [] ++ [7]) newBook (([9, 9] : Bytes).length : Int) = .ok (b, p) := by
  cases h : parseGlobals env ([9, 9] ++ encGlobals items [] ++ [7]) newBook (([9, 9] : Bytes).length : Int) with
  | ok r => exact ⟨r.1, r.2, rfl⟩
  | error e =>
    have : (parseGlobals env ([9, 9] ++ encGlobals items [] ++ [7]) newBook (([9, 9] : Bytes).length : Int)).toOption.isSome = true := by decide +kernel
    rw [h] at this; cases this

theorem local_last : LastOf (supbooks items) .ours 1 := by
  refine ⟨rfl, ?_⟩
  intro j hj
  rw [List.getElem?_eq_none (Nat.le_trans (show (supbooks items).length ≤ 2 by decide +kernel) (by omega))]
  simp

theorem ref0 : LocalRef (supbooks items) [sheetA, sheetB, sheetC] refs 0 0 1 :=
  ⟨⟨1, 0, 2⟩, sheetA, sheetC, rfl, local_last, rfl, rfl, by decide, by decide, rfl, rfl, by decide, by decide⟩
theorem ref1 : LocalRef (supbooks items) [sheetA, sheetB, sheetC] refs 1 1 1 :=
  ⟨⟨1, 2, 2⟩, sheetC, sheetC, rfl, local_last, rfl, rfl, by decide, by decide, rfl, rfl, by decide, by decide⟩

theorem formula (i : Nat) (n : String) (x : RefExpr) (h : names[i]? = some (named n x)) : NameFormula names i x :=
  ⟨_, [], h, rfl, rfl, (List.append_nil _).symm, rfl⟩

theorem val0 : RefVal (LocalRef (supbooks items) [sheetA, sheetB, sheetC] refs) names (.cell 1 4 2) [⟨1, 2, 4, 5, 2, 3⟩] :=
  .cell 1 4 2 1 1 (by decide) ref1 (by decide) (by decide)
theorem val1 : RefVal (LocalRef (supbooks items) [sheetA, sheetB, sheetC] refs) names (.range (.name 0) (.cell 1 9 5)) [⟨1, 2, 4, 10, 2, 6⟩] :=
  .range _ _ ⟨1, 2, 4, 5, 2, 3⟩ ⟨1, 2, 9, 10, 5, 6⟩ (.name 0 _ _ (by decide) (formula 0 "rate" _ rfl) val0) (.cell 1 9 5 1 1 (by decide) ref1 (by decide) (by decide))
theorem val2 : RefVal (LocalRef (supbooks items) [sheetA, sheetB, sheetC] refs) names (.union (.paren (.name 1)) (.area 0 1 2 3 4))
    [⟨1, 2, 4, 10, 2, 6⟩, ⟨0, 2, 1, 3, 3, 5⟩] :=
  .union _ _ _ _ (.paren _ _ (.name 1 _ _ (by decide) (formula 1 "block" _ rfl) val1)) (.area 0 1 2 3 4 0 1 (by decide) ref0 (by decide) (by decide) (by decide) (by decide))

/-- The names have been evaluated, the third one is the union of an area of C and an area of A and C, and `cell` of the first one goes to C. -/
example : ∃ b0 tbl e, bookNames (nameEnv ops env b0) = .ok tbl ∧ tbl[2]? = some (some e) ∧
    opndRefs e.result = .ok (some [⟨1, 2, 4, 10, 2, 6⟩, ⟨0, 2, 1, 3, 3, 5⟩]) ∧ ∀ oenv lib,
      (∃ e res, tbl[0]? = some (some e) ∧ opndRefs e.result = .ok res ∧
        (nameCell oenv lib res).1 = (sheetByIndex oenv lib (1 : Nat)).1.map fun sh => (sh, ((4 : Nat) : Int), ((2 : Nat) : Int))) ∧
      ∃ e res, tbl[1]? = some (some e) ∧ opndRefs e.result = .ok res ∧
        ∀ sh, (sheetByIndex oenv lib (1 : Nat)).1 = .ok sh →
          (nameArea2d oenv lib res false).1 = .ok (sh, ((4 : Nat) : Int), ((10 : Nat) : Int), ((2 : Nat) : Int), ((6 : Nat) : Int)) := by
  obtain ⟨b, p, h⟩ := load
  obtain ⟨b0, tbl, hb, ht⟩ := C70_names_evaluated ops env env_evaluates [9, 9] [7] [] (by decide) items ok b p h
  obtain ⟨e, _, h1, _, _, _, h2⟩ := C70_name_areas env rfl [9, 9] [7] [] (by decide) items ok _ sheets refs externs names namesOk b p h
    (nameEnv ops env b0) rfl hb tbl ht 2 _ _ (formula 2 "both" _ rfl) val2
  refine ⟨b0, tbl, e, ht, h1, h2, fun oenv lib => ⟨?_, ?_⟩⟩
  · exact C70_cell env rfl [9, 9] [7] [] (by decide) items ok _ sheets refs externs names namesOk b p h
      (nameEnv ops env b0) rfl hb tbl ht 0 _ (formula 0 "rate" _ rfl) 1 4 2 val0 oenv lib
  · obtain ⟨e, res, h3, h4, h5⟩ := C70_area2d env rfl [9, 9] [7] [] (by decide) items ok _ sheets refs externs names namesOk b p h
      (nameEnv ops env b0) rfl hb tbl ht 1 _ (formula 1 "block" _ rfl) 1 4 10 2 6 val1 oenv lib
    exact ⟨e, res, h3, h4, h5.2⟩

end NameSample
end Xlrd
