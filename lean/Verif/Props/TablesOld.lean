import Verif.Props.TablesExamples

/-!
# C37: default colours of files before BIFF5
-/
set_option linter.unusedSimpArgs false
namespace Xlrd
open Spec

/-- **C37** (BIFF3 and BIFF4 files): eight fixed colours, then the sixteen standard ones, as changed by the PALETTE records. -/
theorem C37_old_file (env : OpenEnv) (v : Nat) (file : Bytes) (F : OldFile) (hw : OldWorkbook v (textAt (env.recEnv v)) file F) (l : Lib)
    (h : openStream env file 0 = .ok l) (ps : List (List Rgb)) (hp : Palettes F.book ps) (i : Nat) :
    itemsGet l.book.fmt.colourMap i = if env.fi then ColourAt (standardPalette v) ps.flatten i else none := by
  obtain ⟨d, hd⟩ : ∃ d, defaultPalette v = .ok d := by rcases hw.version with rfl | rfl <;> exact ⟨_, rfl⟩
  rw [← defaultPalette_standard hd]
  exact C73_colours env v file F hw l h d hd ps hp i

/-- **C37** (BIFF2 files). -/
theorem C37_biff2_file (env : OpenEnv) (file : Bytes) (F : B2File) (hw : B2Workbook (textAt (env.recEnv 21)) file F) (l : Lib)
    (h : openStream env file 0 = .ok l) (ps : List (List Rgb)) (hp : Palettes F.book ps) (i : Nat) :
    itemsGet l.book.fmt.colourMap i = if env.fi then ColourAt (standardPalette 21) ps.flatten i else none := by
  obtain ⟨d, hd⟩ : ∃ d, defaultPalette 21 = .ok d := ⟨_, rfl⟩
  rw [← defaultPalette_standard hd]
  exact C74_colours env file F hw l h d hd ps hp i

theorem numbered {fmts : List PyStr} {map : Nat → Option Format} (h : map = fun k => (fmts[k]?).map (fmtEntry k)) : NumberedFormats fmts map := by
  intro k
  rw [h]
  cases hk : fmts[k]? with
  | none => simp [hk]
  | some s =>
    simp only [hk, Option.map_some]
    refine ⟨fmtEntry k s, rfl, rfl, rfl, fun hd => ?_, fun hd => ?_⟩
    · simp only [fmtEntry]; rw [if_pos ((isDate_spec s).mpr hd)]
    · simp only [fmtEntry]; rw [if_neg (fun hh => hd ((isDate_spec s).mp hh))]

/-- **C90** (BIFF3 and BIFF4 files): FORMAT records have no number in these versions; they count in file order, and there are no built-in formats. -/
theorem C90_old_formats (env : OpenEnv) (v : Nat) (file : Bytes) (F : OldFile) (hw : OldWorkbook v (textAt (env.recEnv v)) file F) (l : Lib)
    (h : openStream env file 0 = .ok l) (fmts : List PyStr) (hf : OldFormats v (textAt (env.recEnv v)) F.book fmts) :
    NumberedFormats fmts l.book.fmt.formatMap := by
  obtain ⟨f, b1, h1, h2, hit, h3, _⟩ := old_book hw h
  obtain ⟨m, rfl⟩ := colour_map_fields (env := env.recEnv v) h1
  have hv : v = 21 ∨ v = 30 ∨ v = 40 ∨ v = 45 := by have := hw.version; omega
  have := (oldFormats_items (env := env.recEnv v) hv (oldStart_enc _ _) rfl rfl hf hit h2).1
  have e : l.book.fmt.formatMap = b1.fmt.formatMap := by rcases h3 with h3 | h3 <;> rw [h3] <;> rfl
  exact numbered (e.trans this)

/-- **C90** (BIFF2 files with XF records). -/
theorem C90_biff2_formats (env : OpenEnv) (file : Bytes) (F : B2File) (hw : B2Workbook (textAt (env.recEnv 21)) file F) (l : Lib)
    (h : openStream env file 0 = .ok l) (xfs : List XF) (hx : OldXfs 21 (textAt (env.recEnv 21)) F.book xfs) (hxn : xfs ≠ [])
    (fmts : List PyStr) (hf : OldFormats 21 (textAt (env.recEnv 21)) F.book fmts) : NumberedFormats fmts l.book.fmt.formatMap := by
  obtain ⟨f, b1, o, h1, h2, rfl⟩ := b2_opened hw h
  have hm := (b2_xfs hw h1 h2 hx).2.mpr hxn
  obtain ⟨m, rfl⟩ := colour_map_fields (env := env.recEnv 21) h1
  have := (oldFormats_items (env := env.recEnv 21) (.inl rfl) (oldStart_enc _ _) rfl rfl hf (b2Book_items hw.ok) h2.head).1
  have e : o.book.fmt.formatMap = b1.fmt.formatMap := by obtain ⟨fl, _, hk, _⟩ := b2_fmt h2; rw [hk hm]; rfl
  exact numbered (e.trans this)

/-- **C90** (BIFF4 workbooks): the formats of the last worksheet. -/
theorem C90_biff4w_formats (env : OpenEnv) (file : Bytes) (pre : List SheetPart) (x : SheetPart) (last : List GItem)
    (hw : Biff4w (textAt (env.recEnv 45)) file (pre ++ [x]) last) (hlast : NoFormatting last) (l : Lib) (h : openStream env file 0 = .ok l)
    (fmts : List PyStr) (hf : OldFormats 45 (fun its => textAt (env.recEnv 45) (bookOf pre ++ x.before ++ its)) x.file.book fmts) :
    NumberedFormats fmts l.book.fmt.formatMap := by
  obtain ⟨f, shs, b1, b2, _, h2, _, _, _, h5, h6, _⟩ := w_opened hw h
  obtain ⟨sh, g, _, _, hrun, hg⟩ := h2.at rfl
  rw [List.nil_append] at hrun
  obtain ⟨c2, c3, c4, a1, a2, a3, a4, _, a5, a6, a7, _, _, a8, _⟩ := hrun
  have hv4 : (env.recEnv 45).bv = 21 ∨ (env.recEnv 45).bv = 30 ∨ (env.recEnv 45).bv = 40 ∨ (env.recEnv 45).bv = 45 := .inr (.inr (.inr rfl))
  have hm := (oldFormats_after (env := env.recEnv 45) hv4 a1 a2 a3 hf a5 a6).1
  have hb1 : b1.fmt = c4.fmt := (hg rfl).trans a8
  obtain ⟨k1, k2⟩ := noFormatting_keeps hlast h5
  obtain ⟨os, _, _, _, _, _, hb⟩ := eof_frame h6
  have e1 : l.book.fmt.formatMap = c3.fmt.formatMap := by
    rw [hb]
    show b2.fmt.formatMap = _
    rw [k1, hb1]
    rcases a7 with rfl | rfl <;> rfl
  exact numbered (e1.trans hm)

namespace SampleOld

theorem noPalette : Palettes file.book [] := by
  rw [items]
  refine Collected.skip (pre := [_, _, _, _]) (Collected.skip (pre := [_, _, _]) (Collected.skip (pre := [_, _]) (Collected.skip (pre := [_]) (Collected.skip (pre := []) .nil ?_) ?_) ?_) ?_) ?_ <;>
    (rintro c d h; cases h; decide)

def envF : OpenEnv := { env with fi := true }

/-- Colour 23 is the last of the standard ones, 24 an automatic one. -/
example : ∃ l, openStream envF mem 0 = .ok l ∧ itemsGet l.book.fmt.colourMap 23 = some (some (128, 128, 128)) ∧ itemsGet l.book.fmt.colourMap 24 = some none := by
  have h1 : (openStream envF mem 0).toOption.isSome = true := by decide +kernel
  cases h : openStream envF mem 0 with
  | error e => rw [h] at h1; cases h1
  | ok l =>
    have := C37_old_file envF 40 mem file (workbook _) l h [] noPalette
    refine ⟨l, rfl, (this 23).trans ?_, (this 24).trans ?_⟩ <;> decide +kernel

example : ∃ l, openStream env mem 0 = .ok l ∧ NumberedFormats ["0".toList, "d/m/y".toList] l.book.fmt.formatMap := by
  obtain ⟨l, h⟩ := opens
  exact ⟨l, h, C90_old_formats env 40 mem file (workbook _) l h _ formats⟩

end SampleOld
namespace SampleB2

theorem noPalette1 : Palettes file1.book [] := by
  rw [items1]
  refine Collected.skip (pre := [_, _, _, _]) (Collected.skip (pre := [_, _, _]) (Collected.skip (pre := [_, _]) (Collected.skip (pre := [_]) (Collected.skip (pre := []) .nil ?_) ?_) ?_) ?_) ?_ <;>
    (rintro c d h; cases h; decide)

def envF : OpenEnv := { env with fi := true }

example : ∃ l, openStream envF mem1 0 = .ok l ∧ itemsGet l.book.fmt.colourMap 22 = some (some (192, 192, 192)) ∧ itemsGet l.book.fmt.colourMap 26 = none := by
  have h1 : (openStream envF mem1 0).toOption.isSome = true := by decide +kernel
  cases h : openStream envF mem1 0 with
  | error e => rw [h] at h1; cases h1
  | ok l =>
    have := C37_biff2_file envF mem1 file1 (workbook1 _) l h [] noPalette1
    refine ⟨l, rfl, (this 22).trans ?_, (this 26).trans ?_⟩ <;> decide +kernel

example : ∃ l, openStream env mem1 0 = .ok l ∧ NumberedFormats ["0".toList, "d/m/y".toList] l.book.fmt.formatMap := by
  obtain ⟨l, h⟩ := opens1
  exact ⟨l, h, C90_biff2_formats env mem1 file1 (workbook1 _) l h _ xfs1 (by decide) _ formats1⟩

end SampleB2
namespace Sample4w

example : ∃ l, openStream SampleOld.env mem 0 = .ok l ∧ NumberedFormats ["d/m/y".toList] l.book.fmt.formatMap := by
  obtain ⟨l, h⟩ := opens
  exact ⟨l, h, C90_biff4w_formats SampleOld.env mem [part1] part2 [] workbook (by intro c d h; cases h) l h _ formats2⟩

end Sample4w
end Xlrd
