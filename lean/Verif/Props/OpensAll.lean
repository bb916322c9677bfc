import Verif.Props.Opens
import Verif.Props.Iter
import Verif.Lemmas.OldOpenOk

/-!
# C80: which well-formed workbooks open with all their sheets

The condition is about the file alone: the cells of every worksheet fit.
-/
set_option linter.unusedSimpArgs false
namespace Xlrd
open Spec

theorem recordCount_append (c : Nat) (a b : List GItem) : recordCount c (a ++ b) = recordCount c a + recordCount c b := List.countP_append ..

theorem known_items80 {env : BookEnv} {b0 : Book} (h0 : KnownInv 0 b0.fmt) (items : List GItem) :
    ∀ {b : Book}, applyGlobals env b0 items = .ok b → KnownInv (recordCount 0xe0 items) b.fmt := by
  induction items using List.reverseRecOn with
  | nil => intro b h; cases h; exact h0
  | append_singleton pre it ih =>
    intro b h
    obtain ⟨b1, e1, e2⟩ := gItems_snoc h
    obtain ⟨i1, i2, i3⟩ := ih e1
    rw [recordCount_append]
    cases it with
    | sst d more => obtain ⟨t, rfl⟩ := sst_frame e2; exact ⟨i1, i2, i3⟩
    | extern d more => obtain ⟨_, _, _, _, _, _, _, _, rfl⟩ := extern_frame e2; exact ⟨i1, i2, i3⟩
    | one c d =>
      have e2 : globalsRecord env b1 c d = .ok b := e2
      have hf := record_frame e2
      by_cases hc : c = 0xe0
      · subst hc
        have hcount : recordCount 0xe0 [.one 0xe0 d] = 1 := by simp [recordCount]
        rw [hcount]
        obtain ⟨g, h3, e2⟩ := bind_ok (show bookXf env b1 d = .ok b from e2)
        cases e2
        unfold handleXf at h3
        obtain ⟨x, _, h3⟩ := bind_ok h3
        cases h3
        refine ⟨by simp [i1], ?_, ?_⟩
        · intro i y hy
          simp only at hy
          by_cases hlt : i < b1.fmt.xfList.length
          · rw [List.getElem?_append_left hlt] at hy
            exact i2 i y hy
          · rw [List.getElem?_append_right (by omega)] at hy
            have hz : i - b1.fmt.xfList.length = 0 := by
              by_contra hne
              rw [List.getElem?_eq_none (by simp; omega)] at hy
              cases hy
            rw [hz] at hy
            cases hy
            simp only
            omega
        · intro k
          simp only [dictSet]
          by_cases hk : k = b1.fmt.xfList.length
          · rw [if_pos hk]; simp; omega
          · rw [if_neg hk, i3 k]; omega
      · have hcount : recordCount 0xe0 [.one c d] = 0 := by simp [recordCount, hc]
        rw [hcount, Nat.add_zero]
        have hc' : c ≠ XL_XF := hc
        exact ⟨by rw [hf.xfList hc']; exact i1, by rw [hf.xfList hc']; exact i2, by rw [hf.typeMap hc']; exact i3⟩

/-- The XFs of an opened book with a known cell type. -/
theorem opened_types {env : OpenEnv} {v : Nat} {mem : Bytes} {base : Nat} {items : List GItem} {sheets : List SheetRec} (h50 : 50 ≤ v)
    (hw : WorkbookStream v (textAt (env.bookEnv v base)) mem base items sheets) {l : Lib} (h : openStream env mem base = .ok l) (x : Int) :
    (∃ t, (env.sheetEnv v l.book).cfg.typeMap x = some t) ↔ x = 0 ∨ 0 ≤ x ∧ x < (recordCount 0xe0 items : Int) := by
  obtain ⟨p, b, q, _, hg, ho, pre, eof, post, he, hm, hp⟩ := stream_opened h50 hw h
  subst hp
  rw [hm] at hg
  obtain ⟨f, b1, h1, h2, h3, _⟩ := parse_ok he hw.ok hg
  obtain ⟨m, rfl⟩ := colour_map_fields h1
  have hk := known_items80 (env := env.bookEnv v base) (b0 := { newBook with fmt := _ }) ⟨rfl, fun i x hx => (by cases hx), fun k => by
    show ((if k = 0 then some XL_CELL_NUMBER else none : Option Nat)).isSome = true ↔ _
    by_cases hk : k = 0 <;> simp [hk]⟩ items h2
  obtain ⟨os, _, _, _, _, _, rfl⟩ := eof_frame h3
  obtain ⟨_, ⟨c, hc⟩, _⟩ := openSheets_frame ho
  have hx : (env.sheetEnv v l.book).cfg.typeMap x = if 0 ≤ x then (xfEpilogue (env.bookEnv v base).fi b1.fmt).typeMap x.toNat else none := by
    simp only [OpenEnv.sheetEnv, hc]
    rfl
  rw [hx, ← Option.isSome_iff_exists]
  by_cases h0 : 0 ≤ x
  · rw [if_pos h0, known_epilogue hk]; omega
  · rw [if_neg h0]; simp; omega

/-- The shared strings of an opened book. -/
theorem opened_sst {env : OpenEnv} {v : Nat} {mem : Bytes} {base : Nat} {items : List GItem} {sheets : List SheetRec} (h50 : 50 ≤ v)
    (hw : WorkbookStream v (textAt (env.bookEnv v base)) mem base items sheets) {ss : List SStr} (hs : SharedStrings items ss) {l : Lib}
    (h : openStream env mem base = .ok l) : l.book.sst.map Prod.fst = ss.map SStr.text := by
  cases hs with
  | table before after d more total ss hlast hs hn hd =>
    rw [C67_shared_strings_partial env v mem base before after d more sheets h50 hw hlast ss hs total hn hd l h]
    simp [SStr.value]
  | without items hno =>
    obtain ⟨p, b, q, _, hg, ho, pre, eof, post, he, hm, hp⟩ := stream_opened h50 hw h
    subst hp
    rw [hm] at hg
    obtain ⟨f, b1, h1, h2, h3, _⟩ := parse_ok he hw.ok hg
    obtain ⟨os, _, _, _, _, _, rfl⟩ := eof_frame h3
    obtain ⟨_, ⟨c, hc⟩, _⟩ := openSheets_frame ho
    rw [hc]
    show b1.sst.map Prod.fst = _
    rw [sst_unchanged items hno h2]
    rfl

/-- From BIFF8 on, no text is written in the codec of the file. -/
theorem layout_codec {v : Nat} (h8 : 80 ≤ v) {dec dec' : Bytes → R PyStr} {sst : List PyStr} {L : Layout} (h : L.Ok v dec sst) : L.Ok v dec' sst := by
  refine ⟨fun i hi => ?_, h.2.1, h.2.2⟩
  have := h.1 i hi
  cases i with
  | cell x =>
    cases x with
    | label r c xf t body junk => simpa only [SheetItem.Ok, CellRec.Ok, LabelText, if_pos h8] using this
    | rstring r c xf t body runs => simpa only [SheetItem.Ok, CellRec.Ok, LabelText, if_pos h8] using this
    | formula r c xf res code flags junk =>
      cases res with
      | str a t skip code first more => simpa only [SheetItem.Ok, CellRec.Ok, FResult.Ok, StringRec, if_pos h8] using this
      | _ => exact this
    | _ => exact this
  | extra x =>
    cases x with
    | note y =>
      cases y with
      | plain => exact absurd this.1 (by omega)
      | boxed => exact this
    | _ => exact this
  | _ => exact this

/-- What a workbook needs so that its sheets can be judged: where they are and what records they consist of. -/
def Spec.SheetLayouts (v : Nat) (dec : Bytes → R PyStr) (mem : Bytes) (base : Nat) (sheets : List SheetRec) (sst : List PyStr) (Ls : Nat → Layout) : Prop :=
  ∀ k s, worksheet sheets k = some s → SheetAt v mem (base + s.offset) (Ls k) ∧ (Ls k).Ok v dec sst

/-- The cells and merged ranges of a worksheet fit. -/
def Spec.SheetFits (v : Nat) (fi : Bool) (items : List GItem) (sst : List PyStr) (L : Layout) : Prop :=
  CellsFit (if v < 80 then 16384 else 65536) fi (recordCount 0xe0 items) (cellsOf fl fi sst L.items) (mergedRanges fi L.items)

/-- The layouts can be read in the opened book. -/
theorem opened_layout {env : OpenEnv} {v : Nat} {mem : Bytes} {base : Nat} {items : List GItem} {sheets : List SheetRec} (h50 : 50 ≤ v)
    (hw : WorkbookStream v (textAt (env.bookEnv v base)) mem base items sheets) {ss : List SStr} (hs : SharedStrings items ss) {l : Lib}
    (h : openStream env mem base = .ok l) {L : Layout} (hL : L.Ok v (env.codec (textEncoding v env.override (lastCodepage items))) (ss.map SStr.text)) :
    L.Ok v (libDec env l.book) (l.book.sst.map Prod.fst) := by
  rw [opened_sst h50 hw hs h]
  by_cases h8 : v < 80
  · rw [C67_text_encoding env v mem base items sheets h50 h8 hw l h]; exact hL
  · exact layout_codec (by omega) hL

/-- Cells that fit are those that can be loaded. -/
theorem opened_fits {env : OpenEnv} {v : Nat} {mem : Bytes} {base : Nat} {items : List GItem} {sheets : List SheetRec} (h50 : 50 ≤ v)
    (hw : WorkbookStream v (textAt (env.bookEnv v base)) mem base items sheets) {ss : List SStr} (hs : SharedStrings items ss) {l : Lib}
    (h : openStream env mem base = .ok l) (L : Layout) :
    (∃ st, loadCells (env.sheetEnv v l.book).cfg (cellsOf fl env.fi (l.book.sst.map Prod.fst) L.items) (mergedRanges env.fi L.items) = .ok st) ↔
      SheetFits v env.fi items (ss.map SStr.text) L := by
  have hmax : (env.sheetEnv v l.book).cfg.maxRows = if v < 80 then 16384 else 65536 := by
    show (if v ≥ 80 then 65536 else 16384) = _
    by_cases hv : v < 80
    · rw [if_pos hv, if_neg (by omega)]
    · rw [if_neg hv, if_pos (by omega)]
  rw [opened_sst h50 hw hs h]
  have hiff := C12_load_succeeds_iff (env.sheetEnv v l.book).cfg (cellsOf fl env.fi (ss.map SStr.text) L.items) (mergedRanges env.fi L.items) (merged_pos _ _)
  rw [hmax] at hiff
  rw [hiff]
  have ht := opened_types h50 hw h
  constructor
  · rintro ⟨h1, h2⟩
    exact ⟨fun w hw => ⟨(h1 w hw).1, (h1 w hw).2.1⟩, fun w hw hn => (ht _).mp ((h1 w hw).2.2.1 hn), fun hfi w hw => (h1 w hw).2.2.2 hfi, fun hh => (h2 hh).1⟩
  · rintro ⟨h1, h2, h3, h4⟩
    exact ⟨fun w hw => ⟨(h1 w hw).1, (h1 w hw).2, fun hn => (ht _).mpr (h2 w hw hn), fun hfi => h3 hfi w hw⟩, fun hh => ⟨h4 hh, (by decide : 0 < 256)⟩⟩

/-- A book opened with all its sheets holds as many as there are worksheets. -/
theorem opened_all {env : OpenEnv} {v : Nat} {mem : Bytes} {base : Nat} {items : List GItem} {sheets : List SheetRec} (h50 : 50 ≤ v)
    (hw : WorkbookStream v (textAt (env.bookEnv v base)) mem base items sheets) {l : Lib} (h : openStream env mem base = .ok l) (hd : env.onDemand = false) :
    ∃ shs, l.Full shs ∧ shs.length = (sheets.filter SheetRec.isWorksheet).length := by
  have hn := C67_sheet_names env v mem base items sheets h50 hw l h
  obtain ⟨p, b, q, _, _, ho, _⟩ := stream_opened h50 hw h
  obtain ⟨_, ⟨c, hc⟩, _⟩ := openSheets_frame ho
  rw [hc] at hn
  unfold openSheets at ho
  rw [if_neg (by rw [hd]; decide)] at ho
  cases hg : getSheets env b.sheetNames.length 0 ⟨v, b, mem, List.replicate b.sheetNames.length none, false⟩ with
  | error e => simp only [hg] at ho; cases ho
  | ok l1 =>
    simp only [hg] at ho
    cases ho
    obtain ⟨shs, h1, h2⟩ := getSheets_full _ 0 (by simp) (fun k hk => by omega) hg
    refine ⟨shs, h1, ?_⟩
    rw [h2, List.length_replicate]
    have := congrArg List.length hn
    rwa [List.length_map] at this

/-- **C80** (all sheets at once).  A well-formed workbook stream opens with all its sheets exactly if the cells of every worksheet fit. -/
theorem C80_opens_iff_partial (ops : PyOps) (env : OpenEnv) (v : Nat) (hv : v = 50 ∨ v = 70 ∨ v = 80) (mem : Bytes) (base : Nat)
    (hev : EvaluatesNames ops (env.bookEnv v base)) (items : List GItem) (sheets : List SheetRec)
    (hw : WorkbookStream v (textAt (env.bookEnv v base)) mem base items sheets) (names : List NameObj)
    (ho : Openable v env.override env.codec items names) (hn : NamesOpen ops v (fun q => env.codec (textEncoding v env.override (lastCodepage q))) items sheets names)
    (ss : List SStr) (hss : SharedStrings items ss) (Ls : Nat → Layout)
    (hs : SheetLayouts v (env.codec (textEncoding v env.override (lastCodepage items))) mem base sheets (ss.map SStr.text) Ls) (hd : env.onDemand = false) :
    (∃ l, openStream env mem base = .ok l) ↔ ∀ k s, worksheet sheets k = some s → SheetFits v env.fi items (ss.map SStr.text) (Ls k) := by
  have h50 : 50 ≤ v := by omega
  constructor
  · rintro ⟨l, hl⟩ k s hk
    obtain ⟨shs, hfull, hlen⟩ := opened_all h50 hw hl hd
    obtain ⟨hL, hok⟩ := hs k s hk
    have hkl : k < shs.length := by
      rw [hlen]
      exact (List.getElem?_eq_some_iff.mp hk).1
    have hr : (sheetByIndex env (libCalls env l []).2 (k : Int)).1 = .ok shs[k] := by
      show (sheetByIndex env l (k : Int)).1 = _
      rw [full_nat hfull (List.getElem?_eq_getElem hkl)]
    obtain ⟨_, _, h3⟩ := C67_sheet env v mem base items sheets h50 hw l hl k s hk (Ls k) hL (opened_layout h50 hw hss hl hok) [] _ hr
    exact (opened_fits h50 hw hss hl (Ls k)).mp ⟨_, h3⟩
  · intro hfit
    have henv : env = { env with onDemand := false } := by rw [← hd]
    rw [henv]
    refine C80_opens_all_partial ops env v hv mem base hev items sheets hw names ho hn ?_
    intro l hl k s hk
    obtain ⟨hL, hok⟩ := hs k s hk
    have hw' : WorkbookStream v (textAt (OpenEnv.bookEnv { env with onDemand := true } v base)) mem base items sheets := by rw [bookEnv_onDemand]; exact hw
    have hok' := opened_layout (env := { env with onDemand := true }) h50 hw' hss hl hok
    obtain ⟨st, hst⟩ := (opened_fits (env := { env with onDemand := true }) h50 hw' hss hl (Ls k)).mpr (hfit k s hk)
    obtain ⟨sh, h1⟩ := C67_sheet_loads { env with onDemand := true } v mem base items sheets h50 hw' l rfl hl k s hk (Ls k) hL hok' st hst
    exact ⟨Ls k, hL, hok', (C67_sheet_fits { env with onDemand := true } v mem base items sheets h50 hw' l rfl hl k s hk (Ls k) hL hok').mp ⟨sh, h1.1⟩⟩

/-- **C80** (files, all sheets at once).  A file with a well-formed workbook stream opens with all its sheets exactly if the cells of every worksheet fit. -/
theorem C80_file_opens_iff_partial (ops : PyOps) (env : OpenEnv) (v : Nat) (hv : v = 50 ∨ v = 70 ∨ v = 80) (file b : Bytes)
    (hfile : WorkbookFile env.lower env.depth file b) (hfuel : file.length < env.fuel) (hev : ∀ base : Int, EvaluatesNames ops (env.bookEnv v base)) (items : List GItem)
    (sheets : List SheetRec) (hw : WorkbookStream v (textAt (env.bookEnv v 0)) b 0 items sheets) (names : List NameObj)
    (ho : Openable v env.override env.codec items names) (hn : NamesOpen ops v (fun q => env.codec (textEncoding v env.override (lastCodepage q))) items sheets names)
    (ss : List SStr) (hss : SharedStrings items ss) (Ls : Nat → Layout)
    (hs : SheetLayouts v (env.codec (textEncoding v env.override (lastCodepage items))) b 0 sheets (ss.map SStr.text) Ls) (hd : env.onDemand = false) :
    (∃ l, openXls env file = some (.ok l)) ↔ ∀ k s, worksheet sheets k = some s → SheetFits v env.fi items (ss.map SStr.text) (Ls k) := by
  obtain ⟨m, off, rest, e1, e2⟩ := loadStream_ok env file b hfile hfuel
  have hb : b ≠ [] := by cases hfile <;> assumption
  have hw' : WorkbookStream v (textAt (env.bookEnv v (off : Int))) m off items sheets := workbookStream_shift hw e2 hb
  have hs' : SheetLayouts v (env.codec (textEncoding v env.override (lastCodepage items))) m off sheets (ss.map SStr.text) Ls := by
    intro k s hk
    obtain ⟨h1, h2⟩ := hs k s hk
    rw [Nat.zero_add] at h1
    exact ⟨sheetAt_shift h1 e2, h2⟩
  rw [← C80_opens_iff_partial ops env v hv m off (hev off) items sheets hw' names ho hn ss hss Ls hs' hd]
  unfold openXls
  rw [e1]
  simp

end Xlrd
