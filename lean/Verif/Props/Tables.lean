import Verif.Props.Workbook
import Verif.Props.GlobalsExamples
import Verif.Spec.Tables

/-!
# C90 (the formats of a workbook) and C37 (default colours)
-/
set_option linter.unusedSimpArgs false

namespace Xlrd
open Spec

/-! ## Colours -/

theorem defaultPalette_standard {v : Nat} {dflt : List Rgb} (h : defaultPalette v = .ok dflt) : dflt = standardPalette v := by
  unfold defaultPalette at h
  by_cases h1 : v = 80
  · rw [if_pos h1] at h; cases h; subst h1; decide +kernel
  · rw [if_neg h1] at h
    by_cases h2 : v = 70 ∨ v = 50
    · rw [if_pos h2] at h; cases h
      rcases h2 with rfl | rfl <;> decide +kernel
    · rw [if_neg h2] at h
      by_cases h3 : v = 45 ∨ v = 40 ∨ v = 30 ∨ v = 21 ∨ v = 20
      · rw [if_pos h3] at h; cases h
        rcases h3 with rfl | rfl | rfl | rfl | rfl <;> decide +kernel
      · rw [if_neg h3] at h; cases h

/-- **C37** (files).  After a workbook has been opened with formatting information, the colours are the eight fixed ones and the standard palette of its version,
as changed by the PALETTE records. -/
theorem C37_file (env : OpenEnv) (v : Nat) (hv : v = 50 ∨ v = 70 ∨ v = 80) (mem : Bytes) (base : Nat) (items : List GItem)
    (sheets : List SheetRec) (hw : WorkbookStream v (textAt (env.bookEnv v base)) mem base items sheets) (l : Lib)
    (h : openStream env mem base = .ok l) (ps : List (List Rgb)) (hp : Palettes items ps) (i : Nat) :
    itemsGet l.book.fmt.colourMap i = if env.fi then ColourAt (standardPalette v) ps.flatten i else none := by
  obtain ⟨p, b, q, _, hg, ho, pre, eof, post, he, hm, rfl⟩ := stream_opened (by omega) hw h
  rw [hm] at hg
  have hd : ∃ d, defaultPalette v = .ok d := by rcases hv with rfl | rfl | rfl <;> exact ⟨_, rfl⟩
  obtain ⟨d, hd⟩ := hd
  have := C37_workbook (env.bookEnv v base) d hd pre post eof he items hw.ok ps hp b q hg i
  obtain ⟨_, ⟨c, hc⟩, _⟩ := openSheets_frame ho
  rw [hc, ← defaultPalette_standard hd]
  exact this

/-! ## Cell types -/

/-- The numbers of the cell types, which the specifications use by name: empty, text, number, date, boolean, error, blank. -/
theorem cell_type_numbers : [XL_CELL_EMPTY, XL_CELL_TEXT, XL_CELL_NUMBER, XL_CELL_DATE, XL_CELL_BOOLEAN, XL_CELL_ERROR, XL_CELL_BLANK] = List.range 7 := rfl

/-! ## Formats -/

theorem std_none {k : Nat} (h : 81 < k) : stdFormatCodeType k = none := by
  unfold stdFormatCodeType
  have : fmtCodeRanges.find? (fun r => decide (r.1 ≤ k ∧ k ≤ r.2.1)) = none := by
    rw [List.find?_eq_none]
    intro r hr
    simp only [fmtCodeRanges, List.mem_cons, List.not_mem_nil, or_false] at hr
    rcases hr with rfl | rfl | rfl | rfl | rfl | rfl | rfl | rfl | rfl | rfl | rfl | rfl <;> simp <;> omega
  rw [this]
  rfl

theorem stdEntry_builtin (k : Nat) : stdEntry k =
    if k ≤ 22 ∨ (27 ≤ k ∧ k ≤ 62) ∨ (67 ≤ k ∧ k ≤ 81) then some ⟨k, builtinType k, (builtinFormat k).map String.toList⟩ else none := by
  by_cases h : k ≤ 81
  · have : ∀ k : Fin 82, stdEntry k = if k.val ≤ 22 ∨ (27 ≤ k.val ∧ k.val ≤ 62) ∨ (67 ≤ k.val ∧ k.val ≤ 81) then
        some ⟨k, builtinType k, (builtinFormat k).map String.toList⟩ else none := by decide +kernel
    exact this ⟨k, by omega⟩
  · unfold stdEntry
    rw [std_none (by omega), if_neg (by omega)]
    rfl

/-- **C90**.  The formats of a workbook with at least one XF record: the string of the last FORMAT record with a number, or else the built-in format of that number;
the type of a described format is found from its string, that of a built-in format from the number; other numbers have no format. -/
theorem C90_formats (env : OpenEnv) (v : Nat) (hv : v = 50 ∨ v = 70 ∨ v = 80) (mem : Bytes) (base : Nat) (items : List GItem)
    (sheets : List SheetRec) (hw : WorkbookStream v (textAt (env.bookEnv v base)) mem base items sheets) (l : Lib)
    (h : openStream env mem base = .ok l) (fmts : List (Nat × PyStr)) (hf : Formats v (textAt (env.bookEnv v base)) items fmts)
    (xfs : List XF) (hx : Xfs v (textAt (env.bookEnv v base)) items xfs) (hne : xfs ≠ []) (k : Nat) :
    (∀ s, lastFormat fmts k = some s → ∃ f, l.book.fmt.formatMap k = some f ∧ f.key = k ∧ f.str = some s ∧ (IsDateFormat s → f.ty = 1) ∧ (¬ IsDateFormat s → f.ty = 3)) ∧
    (lastFormat fmts k = none → BuiltinKey k → l.book.fmt.formatMap k = some ⟨k, builtinType k, (builtinFormat k).map String.toList⟩) ∧
    (lastFormat fmts k = none → ¬ BuiltinKey k → l.book.fmt.formatMap k = none) := by
  have h50 : 50 ≤ v := by omega
  obtain ⟨p, b, q, _, hg, ho, pre, eof, post, he, hm, rfl⟩ := stream_opened h50 hw h
  rw [hm] at hg
  obtain ⟨_, ⟨c, hc⟩, _⟩ := openSheets_frame ho
  obtain ⟨f, b1, h1, h2, h3, _⟩ := parse_ok he hw.ok hg
  obtain ⟨m, rfl⟩ := colour_map_fields h1
  have hl := xfs_items (env := env.bookEnv v base) h50 hx rfl rfl rfl h2
  have hmap := formats_items (env := env.bookEnv v base) h50 hf rfl rfl h2
  have hcount := xfcount_items items (by rfl) h2
  have hn : b1.fmt.xfcount ≠ 0 := by
    rw [hcount, hl, List.length_mapIdx]
    exact fun hz => hne (List.length_eq_zero_iff.mp hz)
  obtain ⟨os, _, _, _, _, _, rfl⟩ := eof_frame h3
  have key : l.book.fmt.formatMap = fmtMapOf fmts true := by
    rw [hc]
    show b1.fmt.formatMap = _
    rw [hmap]
    simp [hn]
  rw [key]
  unfold fmtMapOf
  refine ⟨?_, ?_, ?_⟩
  · intro s hs
    rw [hs]
    refine ⟨fmtEntry k s, rfl, rfl, rfl, fun hd => ?_, fun hd => ?_⟩
    · simp only [fmtEntry]; rw [if_pos ((isDate_spec s).mpr hd)]
    · simp only [fmtEntry]; rw [if_neg (fun hh => hd ((isDate_spec s).mp hh))]
  · intro hs hb
    rw [hs]
    simp only [if_true]
    rw [stdEntry_builtin, if_pos (show k ≤ 22 ∨ (27 ≤ k ∧ k ≤ 62) ∨ (67 ≤ k ∧ k ≤ 81) from hb)]
  · intro hs hb
    rw [hs]
    simp only [if_true]
    rw [stdEntry_builtin, if_neg (show ¬ (k ≤ 22 ∨ (27 ≤ k ∧ k ≤ 62) ∨ (67 ≤ k ∧ k ≤ 81)) from hb)]

/-- **C90** (no XF record).  The built-in formats are added when the first XF record is read: without one there are only the described formats. -/
theorem C90_no_xfs (env : OpenEnv) (v : Nat) (hv : v = 50 ∨ v = 70 ∨ v = 80) (mem : Bytes) (base : Nat) (items : List GItem)
    (sheets : List SheetRec) (hw : WorkbookStream v (textAt (env.bookEnv v base)) mem base items sheets) (l : Lib)
    (h : openStream env mem base = .ok l) (fmts : List (Nat × PyStr)) (hf : Formats v (textAt (env.bookEnv v base)) items fmts)
    (hx : Xfs v (textAt (env.bookEnv v base)) items []) (k : Nat) :
    (∀ s, lastFormat fmts k = some s → ∃ f, l.book.fmt.formatMap k = some f ∧ f.key = k ∧ f.str = some s ∧ (IsDateFormat s → f.ty = 1) ∧ (¬ IsDateFormat s → f.ty = 3)) ∧
    (lastFormat fmts k = none → l.book.fmt.formatMap k = none) := by
  have h50 : 50 ≤ v := by omega
  obtain ⟨p, b, q, _, hg, ho, pre, eof, post, he, hm, rfl⟩ := stream_opened h50 hw h
  rw [hm] at hg
  obtain ⟨_, ⟨c, hc⟩, _⟩ := openSheets_frame ho
  obtain ⟨f, b1, h1, h2, h3, _⟩ := parse_ok he hw.ok hg
  obtain ⟨m, rfl⟩ := colour_map_fields h1
  have hl := xfs_items (env := env.bookEnv v base) h50 hx rfl rfl rfl h2
  have hmap := formats_items (env := env.bookEnv v base) h50 hf rfl rfl h2
  have hcount := xfcount_items items (by rfl) h2
  have hn : b1.fmt.xfcount = 0 := by
    rw [hcount, hl]; rfl
  obtain ⟨os, _, _, _, _, _, rfl⟩ := eof_frame h3
  have key : l.book.fmt.formatMap = fmtMapOf fmts false := by
    rw [hc]
    show b1.fmt.formatMap = _
    rw [hmap]
    simp [hn]
  rw [key]
  unfold fmtMapOf
  refine ⟨?_, ?_⟩
  · intro s hs
    rw [hs]
    refine ⟨fmtEntry k s, rfl, rfl, rfl, fun hd => ?_, fun hd => ?_⟩
    · simp only [fmtEntry]; rw [if_pos ((isDate_spec s).mpr hd)]
    · simp only [fmtEntry]; rw [if_neg (fun hh => hd ((isDate_spec s).mp hh))]
  · intro hs
    rw [hs]
    rfl

/-- **C90**.  The built-in types agree with the strings: a built-in format with a string is of type date exactly if its string is a date format by the rule for
described formats, so that it makes no difference whether a file describes its built-in formats or not. -/
theorem C90_types_agree (k : Nat) (s : String) (h : builtinFormat k = some s) : (IsDateFormat s.toList ↔ builtinType k = 1) ∧ (builtinType k = 1 ↔ BuiltinDate k) := by
  have hk : k < 50 := by
    unfold builtinFormat at h
    by_cases h1 : k ≤ 22
    · omega
    · rw [if_neg h1] at h
      by_cases h2 : 37 ≤ k
      · rw [if_pos h2] at h
        have := (List.getElem?_eq_some_iff.mp h).1
        simp only [List.length_cons, List.length_nil] at this
        omega
      · rw [if_neg h2] at h; cases h
  have key : ∀ k : Fin 50, ((builtinFormat k).map fun s => isDateFormatString s.toList) = (builtinFormat k).map fun _ => decide (builtinType k = 1) := by decide +kernel
  have := key ⟨k, hk⟩
  simp only [h, Option.map_some, Option.some.injEq] at this
  refine ⟨?_, ?_⟩
  · rw [← isDate_spec, this]; simp
  · have : ∀ k : Fin 50, (builtinType k = 1 ↔ ((14 ≤ k.val ∧ k.val ≤ 22) ∨ (27 ≤ k.val ∧ k.val ≤ 36) ∨ (45 ≤ k.val ∧ k.val ≤ 47) ∨ (50 ≤ k.val ∧ k.val ≤ 58) ∨ (71 ≤ k.val ∧ k.val ≤ 81))) := by
      decide +kernel
    exact this ⟨k, hk⟩

example : IsDateFormat "m/d/yy h:mm".toList := (C90_types_agree 22 "m/d/yy h:mm" (by decide)).1.mpr (by decide)
example : ¬ IsDateFormat "_($* #,##0_);_($* (#,##0);_($* \"-\"_);_(@_)".toList := fun h =>
  absurd ((C90_types_agree 42 _ (by decide)).1.mp h) (by decide)

end Xlrd
