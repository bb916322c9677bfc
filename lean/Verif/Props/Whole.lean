import Verif.Props.OpensAll
import Verif.Spec.Whole

/-!
# Whole files: what is opened and what it shows, in terms of the file alone (C67, C55)
-/
set_option linter.unusedSimpArgs false
namespace Xlrd
open Spec

theorem xfs_count {v : Nat} {dec : List GItem → Bytes → R PyStr} {items : List GItem} {xfs : List XF} (h : Xfs v dec items xfs) :
    xfs.length = recordCount 0xe0 items := by
  unfold Xfs at h
  induction h with
  | nil => rfl
  | take _ hsel _ ih => rw [recordCount_append, List.length_append, ih]; subst hsel; simp [recordCount]
  | @skip pre xs it _ hsel ih =>
    rw [recordCount_append, ih]
    cases it with
    | one c d => have := hsel c d rfl; simp [recordCount, this]
    | _ => simp [recordCount]

/-- Without XF records, the cell types known to begin with stay. -/
theorem no_xf_items {env : BookEnv} {b0 : Book} (items : List GItem) :
    recordCount 0xe0 items = 0 → ∀ {b : Book}, applyGlobals env b0 items = .ok b → b.fmt.xfList = b0.fmt.xfList ∧ b.fmt.typeMap = b0.fmt.typeMap := by
  induction items using List.reverseRecOn with
  | nil => intro _ b h; cases h; exact ⟨rfl, rfl⟩
  | append_singleton pre it ih =>
    intro hn b h
    rw [recordCount_append] at hn
    obtain ⟨b1, e1, e2⟩ := gItems_snoc h
    obtain ⟨i1, i2⟩ := ih (by omega) e1
    cases it with
    | sst d more => obtain ⟨t, rfl⟩ := sst_frame e2; exact ⟨i1, i2⟩
    | extern d more => obtain ⟨_, _, _, _, _, _, _, _, rfl⟩ := extern_frame e2; exact ⟨i1, i2⟩
    | one c d =>
      have e2 : globalsRecord env b1 c d = .ok b := e2
      have hf := record_frame e2
      by_cases hc : c = 0xe0
      · subst hc
        have hcount : recordCount 0xe0 [.one 0xe0 d] = 1 := by simp [recordCount]
        omega
      · have hc' : c ≠ XL_XF := hc
        exact ⟨(hf.xfList hc').trans i1, (hf.typeMap hc').trans i2⟩

/-- The cell types of the XFs of an opened book. -/
theorem opened_number {env : OpenEnv} {v : Nat} {mem : Bytes} {base : Nat} {items : List GItem} {sheets : List SheetRec} (h50 : 50 ≤ v)
    (hw : WorkbookStream v (textAt (env.bookEnv v base)) mem base items sheets) {fmts : List (Nat × PyStr)} (hf : Formats v (textAt (env.bookEnv v base)) items fmts)
    {xfs : List XF} (hx : Xfs v (textAt (env.bookEnv v base)) items xfs) {l : Lib} (h : openStream env mem base = .ok l) :
    (env.sheetEnv v l.book).cfg.typeMap = numberType fmts xfs := by
  funext x
  have ht := types_of env v mem base items sheets h50 hw fmts hf xfs hx l h
  have ho := opened_types h50 hw h x
  have hcount := xfs_count hx
  unfold numberType
  cases hi : (if 0 ≤ x then xfs[x.toNat]? else none) with
  | some y =>
    by_cases h0 : 0 ≤ x
    · rw [if_pos h0] at hi
      have := ht x.toNat y hi
      rw [Int.toNat_of_nonneg h0] at this
      by_cases hd : DateKey fmts y.formatKey
      · simp only [if_pos hd]; exact this.1 hd
      · simp only [if_neg hd]; exact this.2 hd
    · rw [if_neg h0] at hi; cases hi
  | none =>
    simp only
    by_cases hx0 : x = 0
    · subst hx0
      rw [if_pos rfl]
      rw [if_pos (le_refl _)] at hi
      have hlen : xfs.length = 0 := by
        have := List.getElem?_eq_none_iff.mp hi
        simpa using this
      obtain ⟨p, b, q, _, hg, ho, pre, eof, post, he, hm, hp⟩ := stream_opened h50 hw h
      subst hp
      rw [hm] at hg
      obtain ⟨f, b1, h1, h2, h3, _⟩ := parse_ok he hw.ok hg
      obtain ⟨m, rfl⟩ := colour_map_fields h1
      obtain ⟨n1, n2⟩ := no_xf_items items (by omega) h2
      obtain ⟨os, _, _, _, _, _, rfl⟩ := eof_frame h3
      obtain ⟨_, ⟨c, hc⟩, _⟩ := openSheets_frame ho
      have e : (env.sheetEnv v l.book).cfg.typeMap 0 = (xfEpilogue (env.bookEnv v base).fi b1.fmt).typeMap 0 := by
        simp only [OpenEnv.sheetEnv, hc]
        rfl
      rw [e]
      unfold xfEpilogue
      simp only [n1, n2]
      rfl
    · rw [if_neg hx0]
      by_contra hne
      obtain ⟨t, hsome⟩ := Option.ne_none_iff_exists'.mp hne
      rcases ho.mp ⟨t, hsome⟩ with h1 | ⟨h1, h2⟩
      · exact hx0 h1
      · rw [if_pos h1] at hi
        have := List.getElem?_eq_none_iff.mp hi
        omega

/-- C67 (sheets, in terms of the file alone): whatever has been done with an opened book, a sheet that it returns for an index has the name and the visibility of that worksheet and shows
what the records of that worksheet say. -/
theorem C67_sheet_shows (env : OpenEnv) (hrag : env.ragged = false) (v : Nat) (h50 : 50 ≤ v) (mem : Bytes) (base : Nat) (items : List GItem) (sheets : List SheetRec)
    (hw : WorkbookStream v (textAt (env.bookEnv v base)) mem base items sheets) (fmts : List (Nat × PyStr)) (hf : Formats v (textAt (env.bookEnv v base)) items fmts)
    (xfs : List XF) (hx : Xfs v (textAt (env.bookEnv v base)) items xfs) (ss : List SStr) (hss : SharedStrings items ss)
    (l : Lib) (h : openStream env mem base = .ok l) (k : Nat) (s : SheetRec) (hk : worksheet sheets k = some s) (L : Layout)
    (hL : SheetAt v mem (base + s.offset) L) (hok : L.Ok v (env.codec (textEncoding v env.override (lastCodepage items))) (ss.map SStr.text))
    (cs : List Call) (sh : LSheet) (hr : (sheetByIndex env (libCalls env l cs).2 (k : Int)).1 = .ok sh) :
    sh.name = s.name ∧ sh.visibility = s.visibility ∧
    SheetShows sh env.fi (numberType fmts xfs) (cellsOf fl env.fi (ss.map SStr.text) L.items) (mergedRanges env.fi L.items) := by
  obtain ⟨h1, h2, h3⟩ := C67_sheet env v mem base items sheets h50 hw l h k s hk L hL (opened_layout h50 hw hss h hok) cs sh hr
  rw [opened_sst h50 hw hss h] at h3
  have hn := (C14_dimensions_tight _ _ _ _ (merged_pos _ _) h3)
  have hc := C12_last_write_wins (env.sheetEnv v l.book).cfg _ _ _ (merged_pos _ _) hrag h3
  rw [opened_number h50 hw hf hx h] at hc
  refine ⟨h1, h2, hn.1, hn.2, fun r c hr hcc => ?_, fun r c hno => ?_⟩
  · exact (hc r c).1 ⟨by rw [hn.1]; exact hr, by rw [hn.2]; exact hcc⟩
  · exact (hc r c).2 (by rw [hn.1, hn.2]; exact hno)

/-- **C67** (whole files).  A file with a well-formed workbook stream whose worksheets fit opens; its sheets are the worksheets of the file, in order, and each shows what its records say. -/
theorem C67_file_partial (ops : PyOps) (env : OpenEnv) (hrag : env.ragged = false) (v : Nat) (hv : v = 50 ∨ v = 70 ∨ v = 80) (file b : Bytes)
    (hfile : WorkbookFile env.lower env.depth file b) (hfuel : file.length < env.fuel) (hev : ∀ base : Int, EvaluatesNames ops (env.bookEnv v base)) (items : List GItem)
    (sheets : List SheetRec) (hw : WorkbookStream v (textAt (env.bookEnv v 0)) b 0 items sheets) (names : List NameObj)
    (ho : Openable v env.override env.codec items names) (hn : NamesOpen ops v (fun q => env.codec (textEncoding v env.override (lastCodepage q))) items sheets names)
    (fmts : List (Nat × PyStr)) (hf : Formats v (textAt (env.bookEnv v 0)) items fmts) (xfs : List XF) (hx : Xfs v (textAt (env.bookEnv v 0)) items xfs)
    (ss : List SStr) (hss : SharedStrings items ss) (Ls : Nat → Layout)
    (hs : SheetLayouts v (env.codec (textEncoding v env.override (lastCodepage items))) b 0 sheets (ss.map SStr.text) Ls) (hd : env.onDemand = false)
    (hfit : ∀ k s, worksheet sheets k = some s → SheetFits v env.fi items (ss.map SStr.text) (Ls k)) :
    ∃ l, openXls env file = some (.ok l) ∧ l.book.sheetNames = (sheets.filter SheetRec.isWorksheet).map SheetRec.name ∧
      ∀ k s, worksheet sheets k = some s → ∃ sh, (sheetByIndex env l (k : Int)).1 = .ok sh ∧ sh.name = s.name ∧ sh.visibility = s.visibility ∧
        SheetShows sh env.fi (numberType fmts xfs) (cellsOf fl env.fi (ss.map SStr.text) (Ls k).items) (mergedRanges env.fi (Ls k).items) := by
  have h50 : 50 ≤ v := by omega
  obtain ⟨m, off, rest, e1, e2⟩ := loadStream_ok env file b hfile hfuel
  have hb : b ≠ [] := by cases hfile <;> assumption
  have hw' : WorkbookStream v (textAt (env.bookEnv v (off : Int))) m off items sheets := workbookStream_shift hw e2 hb
  have hs' : SheetLayouts v (env.codec (textEncoding v env.override (lastCodepage items))) m off sheets (ss.map SStr.text) Ls := by
    intro k s hk
    obtain ⟨h1, h2⟩ := hs k s hk
    rw [Nat.zero_add] at h1
    exact ⟨sheetAt_shift h1 e2, h2⟩
  obtain ⟨l, hl⟩ := (C80_opens_iff_partial ops env v hv m off (hev off) items sheets hw' names ho hn ss hss Ls hs' hd).mpr hfit
  refine ⟨l, by unfold openXls; rw [e1]; simp [hl], C67_sheet_names env v m off items sheets h50 hw' l hl, fun k s hk => ?_⟩
  obtain ⟨shs, hfull, hlen⟩ := opened_all h50 hw' hl hd
  have hkl : k < shs.length := by
    rw [hlen]
    exact (List.getElem?_eq_some_iff.mp hk).1
  have hr : (sheetByIndex env l (k : Int)).1 = .ok shs[k] := by rw [full_nat hfull (List.getElem?_eq_getElem hkl)]
  refine ⟨_, hr, ?_⟩
  exact C67_sheet_shows env hrag v h50 m off items sheets hw' fmts hf xfs hx ss hss l hl k s hk (Ls k) (hs' k s hk).1 (hs' k s hk).2 [] _ hr

/-- **C67** (whole files, on demand).  With `on_demand=True` such a file opens whether or not its worksheets fit; a worksheet can be had just if it fits, and then shows what its records say. -/
theorem C67_file_on_demand_partial (ops : PyOps) (env : OpenEnv) (hrag : env.ragged = false) (v : Nat) (hv : v = 50 ∨ v = 70 ∨ v = 80) (file b : Bytes)
    (hfile : WorkbookFile env.lower env.depth file b) (hfuel : file.length < env.fuel) (hev : ∀ base : Int, EvaluatesNames ops (env.bookEnv v base)) (items : List GItem)
    (sheets : List SheetRec) (hw : WorkbookStream v (textAt (env.bookEnv v 0)) b 0 items sheets) (names : List NameObj)
    (ho : Openable v env.override env.codec items names) (hn : NamesOpen ops v (fun q => env.codec (textEncoding v env.override (lastCodepage q))) items sheets names)
    (fmts : List (Nat × PyStr)) (hf : Formats v (textAt (env.bookEnv v 0)) items fmts) (xfs : List XF) (hx : Xfs v (textAt (env.bookEnv v 0)) items xfs)
    (ss : List SStr) (hss : SharedStrings items ss) (Ls : Nat → Layout)
    (hs : SheetLayouts v (env.codec (textEncoding v env.override (lastCodepage items))) b 0 sheets (ss.map SStr.text) Ls) (hd : env.onDemand = true) :
    ∃ l, openXls env file = some (.ok l) ∧ l.book.sheetNames = (sheets.filter SheetRec.isWorksheet).map SheetRec.name ∧
      ∀ k s, worksheet sheets k = some s →
        ((∃ sh, (sheetByIndex env l (k : Int)).1 = .ok sh) ↔ SheetFits v env.fi items (ss.map SStr.text) (Ls k)) ∧
        ∀ (cs : List Call) sh, (sheetByIndex env (libCalls env l cs).2 (k : Int)).1 = .ok sh → sh.name = s.name ∧ sh.visibility = s.visibility ∧
          SheetShows sh env.fi (numberType fmts xfs) (cellsOf fl env.fi (ss.map SStr.text) (Ls k).items) (mergedRanges env.fi (Ls k).items) := by
  have h50 : 50 ≤ v := by omega
  obtain ⟨m, off, rest, e1, e2⟩ := loadStream_ok env file b hfile hfuel
  have hb : b ≠ [] := by cases hfile <;> assumption
  have hw' : WorkbookStream v (textAt (env.bookEnv v (off : Int))) m off items sheets := workbookStream_shift hw e2 hb
  have hs' : SheetLayouts v (env.codec (textEncoding v env.override (lastCodepage items))) m off sheets (ss.map SStr.text) Ls := by
    intro k s hk
    obtain ⟨h1, h2⟩ := hs k s hk
    rw [Nat.zero_add] at h1
    exact ⟨sheetAt_shift h1 e2, h2⟩
  obtain ⟨l, h1⟩ := C80_opens_partial ops env v hv m off (hev off) items sheets hw' names ho hn hd
  refine ⟨l, by unfold openXls; rw [e1]; simp [h1], C67_sheet_names env v m off items sheets h50 hw' l h1, fun k s hk => ⟨?_, fun cs sh hr => ?_⟩⟩
  · obtain ⟨hL, hok⟩ := hs' k s hk
    have hok' := opened_layout h50 hw' hss h1 hok
    rw [← opened_fits h50 hw' hss h1 (Ls k)]
    constructor
    · rintro ⟨sh, hr⟩
      exact ⟨_, (C67_sheet env v m off items sheets h50 hw' l h1 k s hk (Ls k) hL hok' [] sh hr).2.2⟩
    · rintro ⟨st, hst⟩
      obtain ⟨sh, hr, _⟩ := C67_sheet_loads env v m off items sheets h50 hw' l hd h1 k s hk (Ls k) hL hok' st hst
      exact ⟨sh, hr⟩
  · exact C67_sheet_shows env hrag v h50 m off items sheets hw' fmts hf xfs hx ss hss l h1 k s hk (Ls k) (hs' k s hk).1 (hs' k s hk).2 cs sh hr

/-! ## C55 -/

theorem fits_plain {v : Nat} {items : List GItem} {sst : List PyStr} {L : Layout} (h : SheetFits v true items sst L) : SheetFits v false items sst L := by
  unfold SheetFits at h ⊢
  obtain ⟨h1, h2, h3, h4⟩ := h
  have hsub : ∀ w ∈ cellsOf fl false sst L.items, w ∈ cellsOf fl true sst L.items := by
    intro w hw
    rw [cells_without_formatting] at hw
    exact (List.mem_filter.mp hw).1
  exact ⟨fun w hw => h1 w (hsub w hw), fun w hw => h2 w (hsub w hw), fun h => absurd h (by decide), fun h => absurd h (by simp [mergedRanges, maxOf])⟩

theorem same_sheet {sh0 sh1 : LSheet} {types : Int → Option Nat} {sst : List PyStr} {items : List SheetItem}
    (hb : ∀ w ∈ cellsOf fl true sst items, ∀ w' ∈ cellsOf fl true sst items, w.row = w'.row → w.col = w'.col → w.ctype = some XL_CELL_BLANK → w'.ctype = some XL_CELL_BLANK)
    (h0 : SheetShows sh0 false types (cellsOf fl false sst items) (mergedRanges false items))
    (h1 : SheetShows sh1 true types (cellsOf fl true sst items) (mergedRanges true items)) (hname : sh0.name = sh1.name) (hvis : sh0.visibility = sh1.visibility) :
    SameSheet sh0 sh1 := by
  obtain ⟨s1, s2⟩ := size_both sst items
  refine ⟨hname, hvis, by rw [h0.nrows, h1.nrows]; exact s1, by rw [h0.ncols, h1.ncols]; exact s2, fun r c hr hc => ?_, fun r c hr hc hn => ?_⟩
  · rw [h0.nrows] at hr
    rw [h0.ncols] at hc
    obtain ⟨c1, c2, _⟩ := h0.inside r c hr hc
    obtain ⟨d1, d2, _⟩ := h1.inside r c (by omega) (by omega)
    rw [c1, c2, d1, d2]
    rcases cell_both types sst items hb r c with k | ⟨k1, k2, k3⟩
    · rw [k]; exact ⟨rfl, .inl rfl⟩
    · rw [k1, k2, k3]; exact ⟨rfl, .inr ⟨rfl, rfl⟩⟩
  · rw [h0.nrows, h0.ncols] at hn
    rw [h1.nrows] at hr
    rw [h1.ncols] at hc
    obtain ⟨d1, d2, _⟩ := h1.inside r c hr hc
    rw [d1, d2]
    rcases cell_both types sst items hb r c with k | ⟨k1, k2, k3⟩
    · rw [← k, cell_outside types _ _ hn]; exact ⟨rfl, .inl rfl⟩
    · rw [k2, k3]; exact ⟨rfl, .inr rfl⟩

/-- **C55** (whole files).  A file with a well-formed workbook stream that opens with formatting information opens without it; the sheets have the same names, and each has the same cells
but for blank ones.  Missing: cells with both a record for a blank cell and another record (`C55_blank_after_text_differs`). -/
theorem C55_file_partial (ops : PyOps) (env : OpenEnv) (hrag : env.ragged = false) (v : Nat) (hv : v = 50 ∨ v = 70 ∨ v = 80) (file b : Bytes)
    (hfile : WorkbookFile env.lower env.depth file b) (hfuel : file.length < env.fuel) (hev : ∀ base : Int, EvaluatesNames ops (env.bookEnv v base)) (items : List GItem)
    (sheets : List SheetRec) (hw : WorkbookStream v (textAt (env.bookEnv v 0)) b 0 items sheets) (names : List NameObj)
    (ho : Openable v env.override env.codec items names) (hn : NamesOpen ops v (fun q => env.codec (textEncoding v env.override (lastCodepage q))) items sheets names)
    (fmts : List (Nat × PyStr)) (hf : Formats v (textAt (env.bookEnv v 0)) items fmts) (xfs : List XF) (hx : Xfs v (textAt (env.bookEnv v 0)) items xfs)
    (ss : List SStr) (hss : SharedStrings items ss) (Ls : Nat → Layout)
    (hs : SheetLayouts v (env.codec (textEncoding v env.override (lastCodepage items))) b 0 sheets (ss.map SStr.text) Ls) (hd : env.onDemand = false)
    (hb : ∀ k s, worksheet sheets k = some s → BlanksAlone (ss.map SStr.text) (Ls k).items)
    (l1 : Lib) (h1 : openXls { env with fi := true } file = some (.ok l1)) :
    ∃ l0, openXls { env with fi := false } file = some (.ok l0) ∧ l0.book.sheetNames = l1.book.sheetNames ∧
      ∀ k s, worksheet sheets k = some s → ∃ sh0 sh1, (sheetByIndex { env with fi := false } l0 (k : Int)).1 = .ok sh0 ∧
        (sheetByIndex { env with fi := true } l1 (k : Int)).1 = .ok sh1 ∧ SameSheet sh0 sh1 := by
  have hfit1 := (C80_file_opens_iff_partial ops { env with fi := true } v hv file b hfile hfuel hev items sheets hw names ho hn ss hss Ls hs hd).mp ⟨l1, h1⟩
  have hfit0 : ∀ k s, worksheet sheets k = some s → SheetFits v false items (ss.map SStr.text) (Ls k) := fun k s hk => fits_plain (hfit1 k s hk)
  obtain ⟨l1', e1, n1, c1⟩ := C67_file_partial ops { env with fi := true } hrag v hv file b hfile hfuel hev items sheets hw names ho hn fmts hf xfs hx ss hss Ls hs hd hfit1
  obtain ⟨l0, e0, n0, c0⟩ := C67_file_partial ops { env with fi := false } hrag v hv file b hfile hfuel hev items sheets hw names ho hn fmts hf xfs hx ss hss Ls hs hd hfit0
  rw [h1] at e1
  cases e1
  refine ⟨l0, e0, n0.trans n1.symm, fun k s hk => ?_⟩
  obtain ⟨sh0, r0, a0, b0, s0⟩ := c0 k s hk
  obtain ⟨sh1, r1, a1, b1, s1⟩ := c1 k s hk
  exact ⟨sh0, sh1, r0, r1, same_sheet (hb k s hk) s0 s1 (a0.trans a1.symm) (b0.trans b1.symm)⟩

end Xlrd
