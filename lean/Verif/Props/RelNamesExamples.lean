import Verif.Props.RelNames
import Verif.Props.NameValuesExamples
import Verif.Props.NameValuesOldExamples

/-!
# Sample workbooks with names that are relative to the cell where they are used

The sheets and references of `Props/NameValuesExamples.lean` with five names: the cell to the left, the cells from there to two columns to the right, those
together with a column of sheet C, the range from the cell to the left to a fixed cell, and the column alone.  They meet the hypotheses of C85.  Then one for BIFF7.
-/
namespace Xlrd
open Spec

namespace RelSample
open Sample hiding env items ok sheets
open NameSample (env ops env_evaluates refs externData)

def left : RelExpr := .here (.rel 0) (.rel (-1))
def around : RelExpr := .range (.name 0 [0, 0]) (.here (.rel 0) (.rel 2))
def more : RelExpr := .union (.paren (.name 1 [0, 0])) (.area (le16 1) (.abs 3) (.rel 0) (.abs 5) (.abs 5))
def mixed : RelExpr := .range (.name 0 [0, 0]) (.cell (le16 1) (.abs 9) (.abs 5))
def column : RelExpr := .area (le16 1) (.abs 3) (.rel 0) (.abs 5) (.abs 5)

def named (n : String) (x : RelExpr) : NameObj :=
  { nameIndex := 0, optionFlags := 0, hidden := 0, func := 0, vbasic := 0, macroFlag := 0, complex := 0, builtin := 0, funcgroup := 0,
    binary := 0, extnSheetNum := 0, excelSheetIndex := 0, scope := none, name := n.toList, rawFormula := x.tokens 80, basicFormulaLen := (x.tokens 80).length }
def namedData (n : String) (x : RelExpr) : Bytes :=
  le16 0 ++ [0, UInt8.ofNat n.toList.length] ++ le16 (x.tokens 80).length ++ le16 0 ++ le16 0 ++ [0, 0, 0, 0] ++ (txt n).body ++ x.tokens 80

def items : List GItem :=
  [.one 0x85 (sheetData sheetA "A"), .one 0x85 (sheetData sheetB "B"), .one 0x85 (sheetData sheetC "C"),
   .one 0x1ae [1, 0, 1, 0x3A], .one 0x1ae [3, 0, 1, 4], .extern externData [],
   .one 0x18 (namedData "left" left), .one 0x18 (namedData "around" around), .one 0x18 (namedData "more" more), .one 0x18 (namedData "mixed" mixed),
   .one 0x18 (namedData "column" column)]

def names : List NameObj := [named "left" left, named "around" around, named "more" more, named "mixed" mixed, named "column" column]

theorem ok : GlobalsOk 80 items where
  sized := by unfold GItem.Sized; decide +kernel
  plain := by
    intro it h
    simp only [items, List.mem_cons, List.mem_nil_iff, or_false] at h
    rcases h with rfl | rfl | rfl | rfl | rfl | rfl | rfl | rfl | rfl | rfl | rfl
    · simp [GItem.Plain]
    · simp [GItem.Plain]
    · simp [GItem.Plain]
    · simp [GItem.Plain]
    · simp [GItem.Plain]
    · refine ⟨2, refs.flatMap ExtRef.enc, rfl, by decide, by decide +kernel, ?_⟩
      intro k hk
      simp at hk
    · simp [GItem.Plain]
    · simp [GItem.Plain]
    · simp [GItem.Plain]
    · simp [GItem.Plain]
    · simp [GItem.Plain]
  stray := by simp [items, NoStrayContinue]

theorem sheets : Sheets 80 (textAt env) items [sheetA, sheetB, sheetC] := by
  have h0 : Sheets 80 (textAt env) [] [] := .nil
  have h1 := h0.take (sel := (· = 0x85)) rfl (sheetRec (textAt env []) sheetA "A" rfl (by decide) (by decide) (by decide) (by decide +kernel) (by decide +kernel))
  have h2 := h1.take (sel := (· = 0x85)) rfl (sheetRec (textAt env _) sheetB "B" rfl (by decide) (by decide) (by decide) (by decide +kernel) (by decide +kernel))
  have h3 := h2.take (sel := (· = 0x85)) rfl (sheetRec (textAt env _) sheetC "C" rfl (by decide) (by decide) (by decide) (by decide +kernel) (by decide +kernel))
  have h4 := h3.skip (it := .one 0x1ae [1, 0, 1, 0x3A]) (by rintro c d ⟨⟩; simp)
  have h5 := h4.skip (it := .one 0x1ae [3, 0, 1, 4]) (by rintro c d ⟨⟩; simp)
  have h6 := h5.skip (it := .extern externData []) (by rintro c d ⟨⟩)
  have h7 := h6.skip (it := .one 0x18 (namedData "left" left)) (by rintro c d ⟨⟩; simp)
  have h8 := h7.skip (it := .one 0x18 (namedData "around" around)) (by rintro c d ⟨⟩; simp)
  have h9 := h8.skip (it := .one 0x18 (namedData "more" more)) (by rintro c d ⟨⟩; simp)
  have h10 := h9.skip (it := .one 0x18 (namedData "mixed" mixed)) (by rintro c d ⟨⟩; simp)
  exact h10.skip (it := .one 0x18 (namedData "column" column)) (by rintro c d ⟨⟩; simp)

theorem namedRec (dec : Bytes → R PyStr) (n : String) (x : RelExpr) (h1 : n.toList.length < 256) (h2 : (x.tokens 80).length < 65536)
    (h3 : ∀ u ∈ utf16 n.toList, u < 256) (h4 : (utf16 n.toList).length = n.toList.length) : NameRecord 80 dec (named n x) (namedData n x) :=
  ⟨0, 0, n.toList.length, [0, 0, 0, 0], n.toList, (txt n).body, by simp [FieldsFit, nameFlags, named], by simp [packFields, nameFlags, named],
    by simp [named], h1, h2, by simp [named], by simp [named], rfl, by rw [← h4]; exact .biff8 (txt n) (by decide) (txt_ok _ h3) rfl,
    by simp [NameShown, named], rfl⟩

theorem namesOk : Names 80 (textAt env) items names := by
  have h0 : Names 80 (textAt env) [] [] := .nil
  have h1 := h0.skip (sel := (· = 0x18)) (it := .one 0x85 (sheetData sheetA "A")) (by rintro c d ⟨⟩; simp)
  have h2 := h1.skip (it := .one 0x85 (sheetData sheetB "B")) (by rintro c d ⟨⟩; simp)
  have h3 := h2.skip (it := .one 0x85 (sheetData sheetC "C")) (by rintro c d ⟨⟩; simp)
  have h4 := h3.skip (it := .one 0x1ae [1, 0, 1, 0x3A]) (by rintro c d ⟨⟩; simp)
  have h5 := h4.skip (it := .one 0x1ae [3, 0, 1, 4]) (by rintro c d ⟨⟩; simp)
  have h6 := h5.skip (it := .extern externData []) (by rintro c d ⟨⟩)
  have h7 := h6.take rfl (namedRec (textAt env _) "left" left (by decide +kernel) (by decide +kernel) (by decide +kernel) (by decide +kernel))
  have h8 := h7.take rfl (namedRec (textAt env _) "around" around (by decide +kernel) (by decide +kernel) (by decide +kernel) (by decide +kernel))
  have h9 := h8.take rfl (namedRec (textAt env _) "more" more (by decide +kernel) (by decide +kernel) (by decide +kernel) (by decide +kernel))
  have h10 := h9.take rfl (namedRec (textAt env _) "mixed" mixed (by decide +kernel) (by decide +kernel) (by decide +kernel) (by decide +kernel))
  exact h10.take rfl (namedRec (textAt env _) "column" column (by decide +kernel) (by decide +kernel) (by decide +kernel) (by decide +kernel))

theorem externs : Externs items refs := by
  have hs : ∀ l : List GItem, (∀ it ∈ l, ∀ d more, it ≠ .extern d more) → ∀ pre rs, Externs pre rs → Externs (pre ++ l) rs := by
    intro l
    induction l with
    | nil => intro _ pre rs h; simpa using h
    | cons a l ih =>
      intro hl pre rs h
      have := ih (fun x hx => hl x (List.mem_cons_of_mem _ hx)) _ _ (h.skip (hl a (List.mem_cons_self ..)))
      simpa using this
  have h1 : Externs (items.take 6) refs := by
    refine Externs.take (pre := items.take 5) (xs := []) (l := refs) (hs (items.take 5) ?_ [] [] .nil) ⟨[], by decide, ?_, by decide +kernel⟩
    · intro it h d more
      simp only [items, List.take, List.mem_cons, List.mem_nil_iff, or_false] at h
      rcases h with rfl | rfl | rfl | rfl | rfl <;> simp
    · unfold ExtRef.Fits; decide
  refine hs (items.drop 6) ?_ _ _ h1
  intro it h d more
  simp only [items, List.drop, List.mem_cons, List.mem_nil_iff, or_false] at h
  rcases h with rfl | rfl | rfl | rfl | rfl <;> simp

theorem load : ∃ b p, parseGlobals env ([9, 9] ++ encGlobals items [] ++ [7]) newBook (([9, 9] : Bytes).length : Int) = .ok (b, p) := by
  cases h : parseGlobals env ([9, 9] ++ encGlobals items [] ++ [7]) newBook (([9, 9] : Bytes).length : Int) with
  | ok r => exact ⟨r.1, r.2, rfl⟩
  | error e =>
    have : (parseGlobals env ([9, 9] ++ encGlobals items [] ++ [7]) newBook (([9, 9] : Bytes).length : Int)).toOption.isSome = true := by decide +kernel
    rw [h] at this; cases this

theorem local_last : LastOf (supbooks items) .ours 1 := by
  refine ⟨rfl, ?_⟩
  intro j hj
  rw [List.getElem?_eq_none (Nat.le_trans (show (supbooks items).length ≤ 2 by decide +kernel) (by omega))]
  simp

theorem ref0 : LocalRef (supbooks items) [sheetA, sheetB, sheetC] refs 0 0 1 :=
  ⟨⟨1, 0, 2⟩, sheetA, sheetC, rfl, local_last, rfl, rfl, by decide, by decide, rfl, rfl, by decide, by decide⟩
theorem ref1 : LocalRef (supbooks items) [sheetA, sheetB, sheetC] refs 1 1 1 :=
  ⟨⟨1, 2, 2⟩, sheetC, sheetC, rfl, local_last, rfl, rfl, by decide, by decide, rfl, rfl, by decide, by decide⟩

theorem formula (i : Nat) (n : String) (x : RelExpr) (h : names[i]? = some (named n x)) : RelFormula 80 names i x :=
  ⟨_, [], h, rfl, rfl, (List.append_nil _).symm, rfl⟩

abbrev loc := NewSheets (supbooks items) [sheetA, sheetB, sheetC] refs

def leftArea : MovingArea := ⟨[true, true, true, true, true, true], fun s r c => ⟨s, s + 1, r + 0, r + 0 + 1, c + -1, c + -1 + 1⟩⟩
def rightArea : MovingArea := ⟨[true, true, true, true, true, true], fun s r c => ⟨s, s + 1, r + 0, r + 0 + 1, c + 2, c + 2 + 1⟩⟩
def aroundArea : MovingArea := ⟨[true, true, true, true, true, true], fun s r c => hull (leftArea.at s r c) (rightArea.at s r c)⟩
def columnArea : MovingArea := ⟨[false, false, false, true, false, false], fun _ r _ => ⟨1, 2, 3, r + 0 + 1, 5, 6⟩⟩
def fixedArea : MovingArea := ⟨[false, false, false, false, false, false], fun _ _ _ => ⟨1, 2, 9, 10, 5, 6⟩⟩

theorem fits (k : Int) (h1 : -128 ≤ k) (h2 : k < 128) : AddrFits 80 (.rel 0) (.rel k) := by
  exact ⟨by simp [Coord.Fits, rowCount], by simp [Coord.Fits]; omega⟩

theorem val0 : RelVal 80 loc names left [leftArea] := .here (.rel 0) (.rel (-1)) (fits _ (by decide) (by decide))
theorem val1 : RelVal 80 loc names around [aroundArea] :=
  .range _ _ leftArea rightArea (.name 0 _ _ _ (by decide) rfl (formula 0 "left" _ rfl) val0) (.here (.rel 0) (.rel 2) (fits _ (by decide) (by decide))) rfl
theorem val2 : RelVal 80 loc names more [aroundArea, columnArea] :=
  .union _ _ [aroundArea] columnArea (.paren _ _ (.name 1 _ _ _ (by decide) rfl (formula 1 "around" _ rfl) val1))
    (.area (le16 1) (.abs 3) (.rel 0) (.abs 5) (.abs 5) 1 1 ⟨1, by decide, rfl, ref1⟩ (by simp [AddrFits, Coord.Fits, rowCount]) (by simp [AddrFits, Coord.Fits, rowCount]))
theorem val3 : RelVal 80 loc names (.name 0 [0, 0]) [leftArea] := .name 0 _ _ _ (by decide) rfl (formula 0 "left" _ rfl) val0
theorem val4 : RelVal 80 loc names (.cell (le16 1) (.abs 9) (.abs 5)) [fixedArea] :=
  .cell (le16 1) (.abs 9) (.abs 5) 1 1 ⟨1, by decide, rfl, ref1⟩ (by simp [AddrFits, Coord.Fits, rowCount])

theorem val5 : RelVal 80 loc names column [columnArea] :=
  .area (le16 1) (.abs 3) (.rel 0) (.abs 5) (.abs 5) 1 1 ⟨1, by decide, rfl, ref1⟩ (by simp [AddrFits, Coord.Fits, rowCount]) (by simp [AddrFits, Coord.Fits, rowCount])

/-- The third name, used in cell E8 of sheet A: the cells D8 to G8 there, and F4 to F8 of sheet C.  The fourth name has no value. -/
example : ∃ b0 tbl e o rs, bookNames (nameEnv ops env b0) = .ok tbl ∧ tbl[2]? = some (some e) ∧ e.result = some o ∧ o.kind = .relref ∧ o.value = some (.refs rs) ∧
    (rs.map fun x => resolve x 0 7 4) = [⟨0, 1, 7, 8, 3, 7⟩, ⟨1, 2, 3, 8, 5, 6⟩] ∧
    ∃ e o, tbl[3]? = some (some e) ∧ e.result = some o ∧ o.value = none ∧ opndRefs e.result = .error .type := by
  obtain ⟨b, p, h⟩ := load
  obtain ⟨b0, tbl, hb, ht⟩ := C70_names_evaluated ops env env_evaluates [9, 9] [7] [] (by decide) items ok b p h
  obtain ⟨e, o, rs, h1, h2, h3, h4, h5, _⟩ := C85_relative_areas_partial env rfl [9, 9] [7] [] (by decide) items ok _ sheets refs externs names namesOk b p h
    (nameEnv ops env b0) rfl hb tbl ht 2 _ _ (formula 2 "more" _ rfl) val2
  obtain ⟨e', o', g1, g2, g3, g4⟩ := C85_unlike_areas_lost env rfl [9, 9] [7] [] (by decide) items ok _ sheets refs externs names namesOk b p h
    (nameEnv ops env b0) rfl hb tbl ht 3 _ _ _ _ (.inl (formula 3 "mixed" _ rfl)) val3 val4 (by decide)
  exact ⟨b0, tbl, e, o, rs, ht, h1, h2, h5 ⟨aroundArea, by simp, by decide⟩, h3, by rw [h4.2]; decide, e', o', g1, g2, g3,
    (g4 (by rintro ⟨_, m, hm, hc⟩; rw [List.mem_singleton] at hm; subst hm; revert hc; decide)).2⟩

end RelSample

namespace OldRelSample
open Sample hiding env items ok sheets sheetData sheetRec
open OldNameSample (onC unused12 raw locC)

def left : RelExpr := .cell onC.enc (.rel 0) (.rel (-1))
def around : RelExpr := .range (.name 0 unused12) (.cell onC.enc (.rel 0) (.rel 2))

def named (n : String) (x : RelExpr) : NameObj :=
  { nameIndex := 0, optionFlags := 0, hidden := 0, func := 0, vbasic := 0, macroFlag := 0, complex := 0, builtin := 0, funcgroup := 0,
    binary := 0, extnSheetNum := 0, excelSheetIndex := 0, scope := none, name := n.toList, rawFormula := x.tokens 70, basicFormulaLen := (x.tokens 70).length }
def namedData (n : String) (x : RelExpr) : Bytes :=
  le16 0 ++ [0, UInt8.ofNat (raw n).length] ++ le16 (x.tokens 70).length ++ le16 0 ++ le16 0 ++ [0, 0, 0, 0] ++ raw n ++ x.tokens 70

def env := OldNameSample.env
def sheetData := OldNameSample.sheetData

def items : List GItem :=
  [.one 0x42 [0xe4, 0x04], .one 0x85 (sheetData sheetA "A"), .one 0x85 (sheetData sheetB "B"), .one 0x85 (sheetData sheetC "C"),
   .one 0x18 (namedData "left" left), .one 0x18 (namedData "around" around)]

def names : List NameObj := [named "left" left, named "around" around]

theorem ok : GlobalsOk 70 items where
  sized := by unfold GItem.Sized; decide +kernel
  plain := by
    intro it h
    simp only [items, List.mem_cons, List.mem_nil_iff, or_false] at h
    rcases h with rfl | rfl | rfl | rfl | rfl | rfl <;> simp [GItem.Plain]
  stray := by simp [items, NoStrayContinue]

theorem sheets : Sheets 70 (textAt env) items [sheetA, sheetB, sheetC] := by
  have h0 : Sheets 70 (textAt env) [] [] := .nil
  have h1 := h0.skip (sel := (· = 0x85)) (it := .one 0x42 [0xe4, 0x04]) (by rintro c d ⟨⟩; simp)
  have h2 := h1.take rfl (OldNameSample.sheetRec _ sheetA "A" (by decide +kernel) (by decide) (by decide) (by decide) (by decide +kernel))
  have h3 := h2.take rfl (OldNameSample.sheetRec _ sheetB "B" (by decide +kernel) (by decide) (by decide) (by decide) (by decide +kernel))
  have h4 := h3.take rfl (OldNameSample.sheetRec _ sheetC "C" (by decide +kernel) (by decide) (by decide) (by decide) (by decide +kernel))
  have h5 := h4.skip (it := .one 0x18 (namedData "left" left)) (by rintro c d ⟨⟩; simp)
  exact h5.skip (it := .one 0x18 (namedData "around" around)) (by rintro c d ⟨⟩; simp)

theorem namedRec (pre : List GItem) (n : String) (x : RelExpr) (h1 : (raw n).length < 256) (h2 : (x.tokens 70).length < 65536)
    (h3 : textAt env pre (raw n) = .ok n.toList) : NameRecord 70 (textAt env pre) (named n x) (namedData n x) :=
  ⟨0, 0, (raw n).length, [0, 0, 0, 0], n.toList, raw n, by simp [FieldsFit, nameFlags, named], by simp [packFields, nameFlags, named],
    by simp [named], h1, h2, by simp [named], by simp [named], rfl, .older (raw n) (by decide) h3,
    by simp [NameShown, named], rfl⟩

theorem namesOk : Names 70 (textAt env) items names := by
  have h0 : Names 70 (textAt env) [] [] := .nil
  have h1 := h0.skip (sel := (· = 0x18)) (it := .one 0x42 [0xe4, 0x04]) (by rintro c d ⟨⟩; simp)
  have h2 := h1.skip (it := .one 0x85 (sheetData sheetA "A")) (by rintro c d ⟨⟩; simp)
  have h3 := h2.skip (it := .one 0x85 (sheetData sheetB "B")) (by rintro c d ⟨⟩; simp)
  have h4 := h3.skip (it := .one 0x85 (sheetData sheetC "C")) (by rintro c d ⟨⟩; simp)
  have h5 := h4.take rfl (namedRec _ "left" left (by decide +kernel) (by decide +kernel) (by decide +kernel))
  exact h5.take rfl (namedRec _ "around" around (by decide +kernel) (by decide +kernel) (by decide +kernel))

theorem load : ∃ b p, parseGlobals env ([9, 9] ++ encGlobals items [] ++ [7]) newBook (([9, 9] : Bytes).length : Int) = .ok (b, p) := by
  cases h : parseGlobals env ([9, 9] ++ encGlobals items [] ++ [7]) newBook (([9, 9] : Bytes).length : Int) with
  | ok r => exact ⟨r.1, r.2, rfl⟩
  | error e =>
    have : (parseGlobals env ([9, 9] ++ encGlobals items [] ++ [7]) newBook (([9, 9] : Bytes).length : Int)).toOption.isSome = true := by decide +kernel
    rw [h] at this; cases this

theorem formula (i : Nat) (n : String) (x : RelExpr) (h : names[i]? = some (named n x)) : RelFormula 70 names i x :=
  ⟨_, [], h, rfl, rfl, (List.append_nil _).symm, rfl⟩

def leftArea : MovingArea := ⟨[false, false, true, true, true, true], fun _ r c => ⟨1, 2, r + 0, r + 0 + 1, c + -1, c + -1 + 1⟩⟩
def rightArea : MovingArea := ⟨[false, false, true, true, true, true], fun _ r c => ⟨1, 2, r + 0, r + 0 + 1, c + 2, c + 2 + 1⟩⟩

theorem val0 : RelVal 70 (OwnSheets [sheetA, sheetB, sheetC]) names left [leftArea] :=
  .cell onC.enc (.rel 0) (.rel (-1)) 1 1 ⟨onC, rfl, locC⟩ (by simp [AddrFits, Coord.Fits, rowCount])
theorem val1 : RelVal 70 (OwnSheets [sheetA, sheetB, sheetC]) names around [⟨leftArea.moves, fun s r c => hull (leftArea.at s r c) (rightArea.at s r c)⟩] :=
  .range _ _ leftArea rightArea (.name 0 _ _ _ (by decide) rfl (formula 0 "left" _ rfl) val0)
    (.cell onC.enc (.rel 0) (.rel 2) 1 1 ⟨onC, rfl, locC⟩ (by simp [AddrFits, Coord.Fits, rowCount])) rfl

/-- The second name, used in cell E8 of any sheet: the cells D8 to G8 of sheet C. -/
example : ∃ b0 tbl e o rs, bookNames (nameEnv NameSample.ops env b0) = .ok tbl ∧ tbl[1]? = some (some e) ∧ e.result = some o ∧ o.kind = .relref ∧ o.value = some (.refs rs) ∧
    ∀ s, (rs.map fun x => resolve x s 7 4) = [⟨1, 2, 7, 8, 3, 7⟩] := by
  obtain ⟨b, p, h⟩ := load
  obtain ⟨b0, tbl, hb, ht⟩ := C70_names_evaluated NameSample.ops env OldNameSample.env_evaluates [9, 9] [7] [] (by decide) items ok b p h
  obtain ⟨e, o, rs, h1, h2, h3, h4, h5, _⟩ := C85_old_relative_areas_partial env (.inr rfl) [9, 9] [7] [] (by decide) items ok _ sheets names namesOk b p h
    (nameEnv NameSample.ops env b0) rfl hb tbl ht 1 _ _ (formula 1 "around" _ rfl) val1
  exact ⟨b0, tbl, e, o, rs, ht, h1, h2, h5 ⟨_, List.mem_singleton.mpr rfl, by decide⟩, h3, fun s => by rw [h4.2]; rfl⟩

end OldRelSample
end Xlrd
