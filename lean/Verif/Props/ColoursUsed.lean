import Verif.Spec.Colours
import Verif.Props.Biff2Examples
import Verif.Props.Biff4wExamples

/-!
# C36 and C66 for whole files of all versions
-/
set_option linter.unusedSimpArgs false
namespace Xlrd
open Spec

theorem usedByXf_iff (st : FmtSt) (c : Nat) : UsedByXf st c ↔ XfUses st.colourMap st.xfList c := by
  unfold UsedByXf XfUses XfColour
  simp [XF.colourIndexes]

/-- What opening the stream of a workbook of BIFF5 or later leaves of the formatting information. -/
theorem opened_fmt {env : OpenEnv} {mem : Bytes} {base : Int} {v : Nat} {p : Int} {l : Lib} (hv : firstBof mem base = .ok (v, p)) (h40 : 40 < v)
    (h : openStream env mem base = .ok l) : ∃ b q, parseGlobals (env.bookEnv v base) mem newBook p = .ok (b, q) ∧ l.book.fmt = b.fmt ∧
      l.book.embedded = b.embedded := by
  unfold openStream at h
  rw [hv] at h
  simp only [bind, Except.bind] at h
  rw [if_neg (by omega)] at h
  cases hg : parseGlobals (env.bookEnv v base) mem newBook p with
  | error e => rw [hg] at h; cases h
  | ok x =>
    rw [hg] at h
    simp only at h
    refine ⟨x.1, x.2, rfl, ?_⟩
    by_cases h45 : v = 45
    · rw [if_pos h45] at h
      cases h
      exact ⟨rfl, rfl⟩
    · rw [if_neg h45] at h
      obtain ⟨_, ⟨c, hc⟩, _⟩ := openSheets_frame h
      rw [hc]
      exact ⟨rfl, rfl⟩

/-- **C36** (files).  Whatever the file and its version, each font and each XF of the book knows its own position in its list. -/
theorem C36_numbering_file (env : OpenEnv) (mem : Bytes) (base : Int) (l : Lib) (h : openStream env mem base = .ok l) :
    (∀ (i : Nat) f, l.book.fmt.fontList[i]? = some f → f.fontIndex = i) ∧ ∀ (i : Nat) x, l.book.fmt.xfList[i]? = some x → x.xfIndex = i := by
  cases hf : firstBof mem base with
  | error e =>
    unfold openStream at h
    rw [hf] at h
    cases h
  | ok x =>
    obtain ⟨v, p⟩ := x
    by_cases h40 : 40 < v
    · obtain ⟨b, q, hg, e, _⟩ := opened_fmt hf h40 h
      rw [e]
      exact C36_numbering env v base mem p b q hg
    · unfold openStream at h
      rw [hf] at h
      simp only [bind, Except.bind] at h
      rw [if_pos (by omega)] at h
      unfold openSingle at h
      obtain ⟨f, h1, h⟩ := bind_ok h
      obtain ⟨⟨w, pos⟩, _, h⟩ := bind_ok h
      obtain ⟨o, h2, h⟩ := bind_ok h
      cases h
      obtain ⟨m, rfl⟩ := colour_map_fields (env := env.recEnv v) h1
      have := oldRead_numbered h2 (by simp [Numbered])
      exact this

/-- **C66** (BIFF5 to BIFF8).  After opening a file, `colour_indexes_used` holds exactly the colours that an XF or a font uses.  Missing: files with SHEETHDR
records, which only files of BIFF4 should have (see `C66_earlier_sheets_count`), and older files (see `C66_font_colour_left_out`). -/
theorem C66_file_partial (env : OpenEnv) (mem : Bytes) (base : Int) (v : Nat) (p : Int) (hv : firstBof mem base = .ok (v, p)) (h40 : 40 < v) (l : Lib)
    (h : openStream env mem base = .ok l) (hn : l.book.embedded = []) (c : Nat) :
    l.book.fmt.coloursUsed c = true ↔ UsedByXf l.book.fmt c ∨ UsedByFont l.book.fmt c := by
  obtain ⟨b, q, hg, e, e'⟩ := opened_fmt hv h40 h
  rw [e]
  rw [C66_colours_used env v base mem p b q hg (by rw [← e']; exact hn) c]
  exact and_or_left

theorem init_used {env : OpenEnv} {v : Nat} {f : FmtSt} (h1 : initialiseColourMap v env.fi newBook.fmt = .ok f) :
    (∀ c, f.coloursUsed c = true ↔ XfUses f.colourMap f.xfList c) ∧ ((env.recEnv v).fi = false → f.colourMap = []) := by
  refine ⟨?_, ?_⟩
  · obtain ⟨m, rfl⟩ := colour_map_fields (env := env.recEnv v) h1
    intro c; simp [XfUses]
  · intro hfi
    unfold initialiseColourMap at h1
    have hfi' : env.fi = false := hfi
    simp only [hfi', Bool.not_false, if_true] at h1
    cases h1
    rfl

theorem used_epilogue {fi : Bool} {st : FmtSt} (h : ∀ c, st.coloursUsed c = true ↔ XfUses st.colourMap st.xfList c) (c : Nat) :
    (xfEpilogue fi st).coloursUsed c = true ↔ XfUses (xfEpilogue fi st).colourMap (xfEpilogue fi st).xfList c := by
  rw [xfEpilogue_list]
  show st.coloursUsed c = true ↔ XfUses st.colourMap (st.xfList.map (fixParent fi st.xfList.length)) c
  rw [h]
  have hfx : ∀ x : XF, (fixParent fi st.xfList.length x).colourIndexes = x.colourIndexes := by
    intro x; unfold fixParent; split_ifs <;> rfl
  unfold XfUses
  simp only [List.mem_map]
  constructor
  · rintro ⟨a, x, hx, hc⟩
    exact ⟨a, _, ⟨x, hx, rfl⟩, by rw [hfx]; exact hc⟩
  · rintro ⟨a, _, ⟨x, hx, rfl⟩, hc⟩
    exact ⟨a, x, hx, by rw [hfx] at hc; exact hc⟩

/-- **C66** (BIFF3 and BIFF4).  After opening a file, `colour_indexes_used` holds exactly the colours that an XF uses.  The colours of fonts are left out
(see `C66_font_colour_left_out`). -/
theorem C66_old_partial (env : OpenEnv) (v : Nat) (file : Bytes) (F : OldFile) (hw : OldWorkbook v (textAt (env.recEnv v)) file F) (l : Lib)
    (h : openStream env file 0 = .ok l) (c : Nat) : l.book.fmt.coloursUsed c = true ↔ UsedByXf l.book.fmt c := by
  obtain ⟨f, b1, h1, h2, _, h3, _⟩ := old_book hw h
  rw [usedByXf_iff]
  obtain ⟨hu, _⟩ := used_items (env := env.recEnv v) (F.book.map newItem) (b0 := oldStart f) (init_used h1) h2
  rcases h3 with h3 | h3
  · rw [h3]; exact hu c
  · rw [h3]; exact used_epilogue hu c

/-- **C66** (BIFF2).  Every colour in `colour_indexes_used` is used by an XF, and if there are XF records all of these are there.  The colours of fonts are
left out, as in `C66_old_partial`, and so are those of the XFs that are made up for the attributes of cells. -/
theorem C66_biff2_partial (env : OpenEnv) (file : Bytes) (F : B2File) (hw : B2Workbook (textAt (env.recEnv 21)) file F) (l : Lib)
    (h : openStream env file 0 = .ok l) (xfs : List XF) (hx : OldXfs 21 (textAt (env.recEnv 21)) F.book xfs) (c : Nat) :
    (xfs ≠ [] → (l.book.fmt.coloursUsed c = true ↔ UsedByXf l.book.fmt c)) ∧ (xfs = [] → l.book.fmt.coloursUsed c = false) := by
  obtain ⟨f, b1, o, h1, h2, rfl⟩ := b2_opened hw h
  obtain ⟨hl, hiff⟩ := b2_xfs hw h1 h2 hx
  obtain ⟨hu, _⟩ := used_items (env := env.recEnv 21) (F.book.map newItem) (b0 := oldStart f) (init_used h1) h2.head
  obtain ⟨fl, _, e1, e2⟩ := b2_fmt h2
  refine ⟨fun hne => ?_, fun he => ?_⟩
  · rw [usedByXf_iff]
    show o.book.fmt.coloursUsed c = true ↔ _
    rw [e1 (hiff.mpr hne)]
    exact used_epilogue hu c
  · have hm : hasXfs b1 = false := by
      cases hb : hasXfs b1 with
      | false => rfl
      | true => exact absurd he (hiff.mp hb)
    show o.book.fmt.coloursUsed c = false
    rw [(e2 hm).rest]
    show b1.fmt.coloursUsed c = false
    cases hb : b1.fmt.coloursUsed c with
    | false => rfl
    | true =>
      obtain ⟨_, x, hx', _⟩ := (hu c).mp hb
      rw [hl, he] at hx'
      simp at hx'

/-! ## Colours left out, colours left over -/

namespace SampleColours

def env : OpenEnv := { SampleOld.env with fi := true }

/-- The font `Ari` in the colour 10. -/
def font : Bytes := le16 200 ++ le16 0 ++ le16 10 ++ Sample4w.name "Ari"

/-- A file of BIFF4: a font, a format and an XF, which uses the colours 0 and 12. -/
def file : OldFile where
  head := [.book 0x231 font, .book 0x41e (SampleOld.fmtData "0"), .book 0x443 (SampleOld.xfData { patternColourIndex := 12, cellLocked := 1 })]
  dim := ⟨0, 1, 0, 1, [0, 0]⟩
  body := [.cell (.number 0 0 0 ⟨false, 1023, 0⟩ [])]
  eof := []

def mem : Bytes := encRec 0x0409 SampleOld.bof ++ encRecs (file.records 40)

/-- A workbook of BIFF4 with this sheet and one without colours. -/
def parts : List SheetPart := [{ Sample4w.part1 with file := file }, Sample4w.part2]
def mem4w : Bytes := encRec 0x0409 (le16 0 ++ le16 0x100 ++ [9]) ++ parts.flatMap SheetPart.bytes ++ encGlobals [] []

/-- What there is to see of the colours. -/
def shown (c : Nat) (l : Lib) : Bool × Bool × List (Nat × Nat) × List (List Nat) :=
  (l.book.fmt.coloursUsed c, (itemsGet l.book.fmt.colourMap c).isSome, l.book.fmt.fontList.map fun f => (f.fontIndex, f.colourIndex),
    l.book.fmt.xfList.map XF.colourIndexes)

theorem opened_shown {env : OpenEnv} {mem : Bytes} {c : Nat} {y : Bool × Bool × List (Nat × Nat) × List (List Nat)}
    (h : (openStream env mem 0).toOption.map (shown c) = some y) : ∃ l, openStream env mem 0 = .ok l ∧ shown c l = y := by
  cases ho : openStream env mem 0 with
  | error e => rw [ho] at h; cases h
  | ok l => rw [ho] at h; exact ⟨l, rfl, Option.some.inj h⟩

end SampleColours

open SampleColours in
/-- **C66** (BIFF2 to BIFF4).  The colour of a font is left out. -/
theorem C66_font_colour_left_out : ∃ env file l, openStream env file 0 = .ok l ∧ l.bv = 40 ∧ UsedByFont l.book.fmt 10 ∧ l.book.fmt.coloursUsed 10 = false := by
  obtain ⟨l, h, hs⟩ := opened_shown (env := env) (mem := mem) (c := 10) (y := (false, true, [(0, 10)], [[0, 0, 0, 0, 0, 12, 0]])) (by decide +kernel)
  refine ⟨env, mem, l, h, ?_, ?_, (Prod.mk.inj hs).1⟩
  · have : (openStream env mem 0).toOption.map (·.bv) = some 40 := by decide +kernel
    rw [h] at this
    exact Option.some.inj this
  · obtain ⟨_, h2, h3, _⟩ : _ ∧ _ ∧ _ ∧ _ := by
      obtain ⟨a, b⟩ := Prod.mk.inj hs
      obtain ⟨b, c⟩ := Prod.mk.inj b
      obtain ⟨c, d⟩ := Prod.mk.inj c
      exact ⟨a, b, c, d⟩
    refine ⟨h2, by decide, ?_⟩
    have : (0, 10) ∈ l.book.fmt.fontList.map fun f => (f.fontIndex, f.colourIndex) := by rw [h3]; simp
    obtain ⟨f, hf, e⟩ := List.mem_map.mp this
    obtain ⟨e1, e2⟩ := Prod.mk.inj e
    exact ⟨f, hf, by rw [e1]; decide, e2⟩

open SampleColours in
/-- **C66** (workbooks of BIFF4).  The colours of an earlier sheet are still there, although its fonts and XFs are not. -/
theorem C66_earlier_sheets_count : ∃ env file l, openStream env file 0 = .ok l ∧ l.bv = 45 ∧ l.book.fmt.coloursUsed 12 = true ∧
    ¬ UsedByXf l.book.fmt 12 ∧ ¬ UsedByFont l.book.fmt 12 := by
  obtain ⟨l, h, hs⟩ := opened_shown (env := env) (mem := mem4w) (c := 12) (y := (true, true, [], [[0, 0, 0, 0, 0, 0, 0]])) (by decide +kernel)
  obtain ⟨h1, _, h3, h4⟩ : _ ∧ _ ∧ _ ∧ _ := by
    obtain ⟨a, b⟩ := Prod.mk.inj hs
    obtain ⟨b, c⟩ := Prod.mk.inj b
    obtain ⟨c, d⟩ := Prod.mk.inj c
    exact ⟨a, b, c, d⟩
  refine ⟨env, mem4w, l, h, ?_, h1, ?_, ?_⟩
  · have : (openStream env mem4w 0).toOption.map (·.bv) = some 45 := by decide +kernel
    rw [h] at this
    exact Option.some.inj this
  · rw [usedByXf_iff]
    rintro ⟨_, x, hx, hc⟩
    have := List.mem_map_of_mem (f := XF.colourIndexes) hx
    rw [h4] at this
    rw [List.mem_singleton.mp this] at hc
    revert hc
    decide
  · rintro ⟨_, _, f, hf, _⟩
    rw [List.map_eq_nil_iff.mp h3] at hf
    cases hf

/-- The files of the other examples meet the hypotheses of the theorems. -/
example (l : Lib) (h : openStream SampleOld.env SampleOld.mem 0 = .ok l) (c : Nat) : l.book.fmt.coloursUsed c = true ↔ UsedByXf l.book.fmt c :=
  C66_old_partial SampleOld.env 40 SampleOld.mem SampleOld.file (SampleOld.workbook _) l h c

example (l : Lib) (h : openStream SampleFile.envF SampleFile.memF 2 = .ok l) (c : Nat) :
    l.book.fmt.coloursUsed c = true ↔ UsedByXf l.book.fmt c ∨ UsedByFont l.book.fmt c := by
  refine C66_file_partial SampleFile.envF SampleFile.memF 2 80 ((2 + (encRec 0x0809 SampleFile.bof).length : Nat) : Int) (by decide +kernel) (by decide) l h ?_ c
  have : (openStream SampleFile.envF SampleFile.memF 2).toOption.map (fun l => l.book.embedded.length) = some 0 := by decide +kernel
  rw [h] at this
  exact List.eq_nil_of_length_eq_zero (Option.some.inj this)

/-- With XF records, the colour 8 of the left border is in use; without, nothing is. -/
example (l : Lib) (h : openStream SampleB2.env SampleB2.mem1 0 = .ok l) (c : Nat) : l.book.fmt.coloursUsed c = true ↔ UsedByXf l.book.fmt c :=
  (C66_biff2_partial SampleB2.env SampleB2.mem1 SampleB2.file1 (SampleB2.workbook1 _) l h _ SampleB2.xfs1 c).1 (by simp)

example (l : Lib) (h : openStream SampleB2.env SampleB2.mem2 0 = .ok l) (c : Nat) : l.book.fmt.coloursUsed c = false :=
  (C66_biff2_partial SampleB2.env SampleB2.mem2 SampleB2.file2 (SampleB2.workbook2 _) l h _ SampleB2.xfs2 c).2 rfl

end Xlrd
