import Verif.Props.RelNameText
import Verif.Props.RelNamesExamples
import Verif.Props.NameTextExamples

/-!
# C89: names with relative references that have texts
-/
set_option linter.unusedSimpArgs false

namespace Xlrd
open Spec

namespace RelTextSample
open SheetFormulas ExprSample NameTextSample

/-- The cell above and to the right, on the second sheet; and from row 4 of column C to the column to the left, on the first two sheets. -/
def corner : RelExpr := .cell (le16 0) (.rel (-1)) (.rel 1)
def block : RelExpr := .area (le16 1) (.abs 3) (.rel 2) (.abs 2) (.rel (-1))

/-- The same with absolute references. -/
def fixed : RelExpr := .area (le16 1) (.abs 1) (.abs 8) (.abs 1) (.abs 3)
def first : RelExpr := .cell (le16 0) (.abs 0) (.abs 0)

def renv : FEnv :=
  { ops := ops, bv := 80, dec := fun _ => .ok []
    bk := { book with nameObjs := [nameWith 0 (-1) "corner" (corner.tokens 80), nameWith 1 (-1) "block" (block.tokens 80),
                                   nameWith 2 (-1) "fixed" (fixed.tokens 80), nameWith 3 (-1) "first" (first.tokens 80)] } }

def locs (sh : Bytes) (x y : Nat) : Prop := sh = le16 0 ∧ x = 1 ∧ y = 1 ∨ sh = le16 1 ∧ x = 0 ∧ y = 1

theorem relBook : RelBook locs renv where
  bv := by decide
  loc := by
    rintro sh x y (⟨rfl, rfl, rfl⟩ | ⟨rfl, rfl, rfl⟩)
    · have hs : TokenSheets (renv.texts true) (le16 0) 1 1 := tokenSheets_new (by decide) (by decide) (by decide)
      exact ⟨hs.1, fun tok c rest => hs.2 _ rest tok.length c (by simp)⟩
    · have hs : TokenSheets (renv.texts true) (le16 1) 0 1 := tokenSheets_new (by decide) (by decide) (by decide)
      exact ⟨hs.1, fun tok c rest => hs.2 _ rest tok.length c (by simp)⟩

theorem evaluates : ∃ tbl, bookNames renv = .ok tbl := by
  have h : (bookNames renv).toOption.isSome = true := by decide +kernel
  cases hb : bookNames renv with
  | ok t => exact ⟨t, rfl⟩
  | error e => rw [hb] at h; cases h

example : ∃ tbl e o t e' o' t', bookNames renv = .ok tbl ∧
    tbl[0]? = some (some e) ∧ e.result = some o ∧ readSheets o.text = some (("it's".toList, "it's".toList), t) ∧
      readPair readRC t = some ((.rel (-1), .rel 1), (.rel (-1), .rel 1)) ∧
    tbl[1]? = some (some e') ∧ e'.result = some o' ∧ readSheets o'.text = some (("Data".toList, "it's".toList), t') ∧
      readPair readRC t' = some ((.abs 3, .abs 2), (.rel 2, .rel (-1))) := by
  obtain ⟨tbl, htbl⟩ := evaluates
  obtain ⟨e, o, t, h1, h2, h3, h4⟩ := C89_relative_cell_partial renv locs relBook tbl htbl 0 (le16 0) (.rel (-1)) (.rel 1)
    ⟨_, [], rfl, rfl, rfl, (List.append_nil _).symm, rfl⟩ 1 1 (.inl ⟨rfl, rfl, rfl⟩) (by decide) _ _ rfl rfl (by decide) (by decide)
    ⟨⟨by decide, by decide⟩, ⟨by decide, by decide⟩⟩ (.inl rfl)
  obtain ⟨e', o', t', g1, g2, g3, g4⟩ := C89_relative_area_partial renv locs relBook tbl htbl 1 (le16 1) (.abs 3) (.rel 2) (.abs 2) (.rel (-1))
    ⟨_, [], rfl, rfl, rfl, (List.append_nil _).symm, rfl⟩ 0 1 (.inr ⟨rfl, rfl, rfl⟩) (by decide) _ _ rfl rfl (by decide) (by decide)
    ⟨(by decide : 3 < 65536), (by decide : 2 < 256)⟩ ⟨⟨by decide, by decide⟩, ⟨by decide, by decide⟩⟩ (.inr (.inr (.inl rfl)))
  exact ⟨tbl, e, o, t, e', o', t', htbl, h1, h2, h3, h4, g1, g2, g3, g4⟩

example : ∃ tbl e o e' o', bookNames renv = .ok tbl ∧
    tbl[2]? = some (some e) ∧ e.result = some o ∧ read3d o.text = some (("Data".toList, "it's".toList), (1, 9, 1, 4)) ∧
    tbl[3]? = some (some e') ∧ e'.result = some o' ∧ read3d o'.text = some (("it's".toList, "it's".toList), (0, 1, 0, 1)) := by
  obtain ⟨tbl, htbl⟩ := evaluates
  obtain ⟨e, o, h1, h2, h3⟩ := C89_sheets_area_partial renv locs relBook tbl htbl 2 (le16 1) 1 8 1 3
    ⟨_, [], rfl, rfl, rfl, (List.append_nil _).symm, rfl⟩ 0 1 (.inr ⟨rfl, rfl, rfl⟩) (by decide) _ _ rfl rfl (by decide) (by decide)
    (by decide) (by decide) (by decide) (by decide)
  obtain ⟨e', o', g1, g2, g3⟩ := C89_sheets_cell_partial renv locs relBook tbl htbl 3 (le16 0) 0 0
    ⟨_, [], rfl, rfl, rfl, (List.append_nil _).symm, rfl⟩ 1 1 (.inl ⟨rfl, rfl, rfl⟩) (by decide) _ _ rfl rfl (by decide) (by decide) (by decide) (by decide)
  exact ⟨tbl, e, o, e', o', htbl, h1, h2, h3, g1, g2, g3⟩

/-- The texts. -/
example : (bookNames renv).map (fun tbl => tbl.map fun e => (e.bind fun (x : NameEval) => x.result).map fun (o : Opnd) => String.ofList o.text) =
    .ok [some "'it''s'!R[-1]C[1]:R[-1]C[1]", some "Data:'it''s'!R4C3:R[2]C[-1]", some "Data:'it''s'!$B$2:$D$9", some "'it''s'!$A$1"] := by decide +kernel

end RelTextSample

namespace RelSample
open Sample hiding env items ok sheets
open NameSample (env ops env_evaluates refs externData)

/-- The fifth name of `RelSample`, from the records of the file: from row 4 to the row where it is used, in column F of sheet C. -/
example : ∃ b0 tbl e o t, bookNames (nameEnv ops env b0) = .ok tbl ∧ tbl[4]? = some (some e) ∧ e.result = some o ∧
    readSheets o.text = some (("C".toList, "C".toList), t) ∧ readPair readRC t = some ((.abs 3, .abs 5), (.rel 0, .abs 5)) := by
  obtain ⟨b, p, h⟩ := load
  obtain ⟨b0, tbl, hb, ht⟩ := C70_names_evaluated ops env env_evaluates [9, 9] [7] [] (by decide) items ok b p h
  have hn : b.sheetNames[1]? = some "C".toList := by
    have hc : (parseGlobals env ([9, 9] ++ encGlobals items [] ++ [7]) newBook (([9, 9] : Bytes).length : Int)).map (fun q => q.1.sheetNames[1]?) =
        .ok (some "C".toList) := by decide +kernel
    rw [h] at hc
    simpa [Except.map] using hc
  obtain ⟨e, o, t, h1, h2, h3, h4⟩ := C89_relative_workbook_partial env rfl [9, 9] [7] [] (by decide) items ok _ sheets refs externs names namesOk b p h
    (nameEnv ops env b0) rfl hb tbl ht 4 (le16 1) (.abs 3) (.rel 0) (.abs 5) (.abs 5) (formula 4 "column" _ rfl) 1 1 ⟨1, by decide, rfl, ref1⟩ (by decide) _ _ hn hn
    (by decide) (by decide) (by simp [AddrFits, Coord.Fits, rowCount]) (by simp [AddrFits, Coord.Fits, rowCount]) (.inr (.inr (.inl rfl)))
  exact ⟨b0, tbl, e, o, t, ht, h1, h2, h3, h4⟩

end RelSample

namespace OldRelSample
open Sample hiding env items ok sheets sheetData sheetRec
open OldNameSample (onC unused12 raw locC)

/-- The first name of `OldRelSample`: the cell to the left, on sheet C. -/
example : ∃ b0 tbl e o t, bookNames (nameEnv NameSample.ops env b0) = .ok tbl ∧ tbl[0]? = some (some e) ∧ e.result = some o ∧
    readSheets o.text = some (("C".toList, "C".toList), t) ∧ readPair readRC t = some ((.rel 0, .rel (-1)), (.rel 0, .rel (-1))) := by
  obtain ⟨b, p, h⟩ := load
  obtain ⟨b0, tbl, hb, ht⟩ := C70_names_evaluated NameSample.ops env OldNameSample.env_evaluates [9, 9] [7] [] (by decide) items ok b p h
  have hn : b.sheetNames[1]? = some "C".toList := by
    have hc : (parseGlobals env ([9, 9] ++ encGlobals items [] ++ [7]) newBook (([9, 9] : Bytes).length : Int)).map (fun q => q.1.sheetNames[1]?) =
        .ok (some "C".toList) := by decide +kernel
    rw [h] at hc
    simpa [Except.map] using hc
  obtain ⟨e, o, t, h1, h2, h3, h4⟩ := C89_old_relative_workbook_partial env (.inr rfl) [9, 9] [7] [] (by decide) items ok _ sheets names namesOk b p h
    (nameEnv NameSample.ops env b0) rfl hb tbl ht 0 onC.enc (.rel 0) (.rel (-1)) (formula 0 "left" _ rfl) 1 1 ⟨onC, rfl, locC⟩ (by decide) _ _ hn hn
    (by decide) (by decide) (show AddrFits 70 _ _ by simp [AddrFits, Coord.Fits, rowCount]) (.inl rfl)
  exact ⟨b0, tbl, e, o, t, ht, h1, h2, h3, h4⟩

end OldRelSample

end Xlrd
