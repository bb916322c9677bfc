import Verif.Lemmas.OldFormats
import Verif.Props.Workbook

/-!
# Files of BIFF3 and BIFF4 (C73)
-/
set_option linter.unusedSimpArgs false
namespace Xlrd
open Spec

/-! ## The records about the whole file under their later codes -/

theorem collected_new {α : Type} {sel : Nat → Prop} {Rel : List GItem → Bytes → α → Prop} (h1 : ∀ c, sel c → newCode c = c) (h2 : ∀ c, sel (newCode c) → sel c)
    (h3 : ∀ pre d x, Rel pre d x → Rel (pre.map newItem) d x) {items : List GItem} {xs : List α} (h : Collected sel Rel items xs) :
    Collected sel Rel (items.map newItem) xs := by
  induction h with
  | nil => exact .nil
  | @take pre xs c d x hc0 hsel hrel ih =>
    rw [List.map_append]
    have : newItem (.one c d) = .one c d := by show GItem.one (newCode c) d = _; rw [h1 c hsel]
    rw [List.map_singleton, this]
    exact .take ih hsel (h3 _ _ _ hrel)
  | @skip pre xs it hc0 hns ih =>
    rw [List.map_append]
    refine .skip ih ?_
    intro c d he
    cases it with
    | one c' d' =>
      cases he
      exact fun hs => hns c' _ rfl (h2 _ hs)
    | sst d more => cases he
    | extern d more => cases he

theorem newCode_ne {n c : Nat} (h1 : n ≠ 0xe0) (h2 : n ≠ 0x41e) (h : newCode c = n) : c = n := by
  unfold newCode at h
  split_ifs at h <;> omega

theorem textAt_new (env : BookEnv) (items : List GItem) : textAt env (items.map newItem) = textAt env items := by
  unfold textAt
  rw [lastCodepage_new]

theorem styles_new {env : BookEnv} {items : List GItem} {ss : List StyleRec} (h : Styles env.bv (textAt env) items ss) :
    Styles env.bv (textAt env) (items.map newItem) ss := by
  induction h with
  | nil => exact .nil
  | @take pre ss d s hc0 hrel ih =>
    rw [List.map_append]
    refine .take ih ?_
    rw [textAt_new]; exact hrel
  | @skip pre ss it hc0 hns ih =>
    rw [List.map_append]
    refine .skip ih ?_
    intro d he
    cases it with
    | one c' d' =>
      have h := (GItem.one.injEq .. ▸ he : newCode c' = 0x293 ∧ d' = d)
      exact hns d' (by rw [newCode_ne (by decide) (by decide) h.1])
    | sst d more => cases he
    | extern d more => cases he

/-! ## Opening -/

/-- The book before the first record. -/
def oldStart (f : FmtSt) : Book := { newBook with fmt := f, sheetNames := ["Sheet 1".toList], shAbsPosn := [0], sheetVisibility := [0] }

theorem oldStart_enc (env : BookEnv) (f : FmtSt) : EncInv env [] (oldStart f) := by
  constructor <;> simp [lastCodepage, oldStart, newBook]

theorem book_frame {env : BookEnv} (hv : env.bv = 21 ∨ env.bv = 30 ∨ env.bv = 40 ∨ env.bv = 45) {items : List GItem} (hi : BookItems env.bv items) {b b1 : Book}
    (h : applyGlobals env b (items.map newItem) = .ok b1) : b1.sst = b.sst ∧ b1.sheetNames = b.sheetNames ∧ b1.sheetVisibility = b.sheetVisibility := by
  induction items generalizing b with
  | nil => cases h; exact ⟨rfl, rfl, rfl⟩
  | cons it items ih =>
    obtain ⟨b2, h1, h2⟩ := bind_ok h
    obtain ⟨i1, i2, i3⟩ := ih (fun it hm => hi it (List.mem_cons_of_mem _ hm)) h2
    obtain ⟨c, d, rfl, hc⟩ := hi it (List.mem_cons_self ..)
    have hf := record_frame (env := env) (b := b) (b' := b2) (rc := newCode c) (d := d) h1
    have hn : newCode c ≠ XL_BOUNDSHEET := by
      rcases newCode_cases hv hc with ⟨_, n2⟩ | ⟨_, n2⟩ | ⟨_, _, n3, n4⟩
      · rw [n2]; decide
      · rw [n2]; decide
      · rw [n3]; exact (by decide : ∀ c ∈ [0x31, 0x231, 0x293, 0x92, 0x56, 0x22, 0x42, 0x5c, 0x8c], c ≠ XL_BOUNDSHEET) c n4
    exact ⟨i1.trans hf.sst, i2.trans (hf.sheetNames hn), i3.trans (hf.visibility hn)⟩

theorem book_text {env : OpenEnv} {v : Nat} (hv : v = 21 ∨ v = 30 ∨ v = 40 ∨ v = 45) {items : List GItem} {b0 b1 : Book} (h0 : EncInv (env.recEnv v) [] b0)
    (h : applyGlobals (env.recEnv v) b0 (items.map newItem) = .ok b1) : textDec env v b1 = textAt (env.recEnv v) items := by
  have he := items_enc _ h0 h
  rw [List.nil_append] at he
  have hch := (choose_inv he).2 (Or.inl (show v < 80 by omega))
  rw [← textAt_new]
  funext x
  unfold textDec
  rcases he.enc with h1 | h1
  · rw [h1]
    simp only
    unfold libDec
    rw [hch]
    rfl
  · rw [h1]
    rfl

/-- What opening such a file does. -/
theorem old_opened {env : OpenEnv} {v : Nat} {file : Bytes} {F : OldFile} (hw : OldWorkbook v (textAt (env.recEnv v)) file F) {l : Lib}
    (h : openStream env file 0 = .ok l) :
    ∃ f b1 b2 st, initialiseColourMap v env.fi newBook.fmt = .ok f ∧ applyGlobals (env.recEnv v) (oldStart f) (F.book.map newItem) = .ok b1 ∧
      (b2 = b1 ∨ b2 = runEpilogue env b1) ∧ (b1.fmt.xfList ≠ [] → b2 = runEpilogue env b1) ∧ InText env v b2 l.book ∧ l.bv = v ∧
      l.sheetList = [some ⟨"Sheet 1".toList, 0, 0, st⟩] ∧ l.released = true ∧ b2.sst = [] ∧ textDec env v b2 = textAt (env.recEnv v) F.book ∧
      sheetRead (readEnv env v b2) (encRecs (F.layout.records v)) 0 = .ok st ∧ BookItems v F.book := by
  obtain ⟨hver, ⟨op, bof, rest, hb, hm⟩, hok⟩ := hw
  have hv : v = 30 ∨ v = 40 ∨ v = 45 := by omega
  have hf : firstBof file 0 = .ok (v, ((encRec op bof).length : Int)) := by
    have := C52_first_bof hb [] (encRecs (F.records v) ++ rest)
    rw [if_pos (show StartsFile v 0x10 from Or.inr (Or.inr ⟨by omega, rfl⟩))] at this
    rw [hm, List.append_assoc]
    simpa using this
  have hg : getbof file 0 XL_WORKSHEET = .ok (v, ((encRec op bof).length : Int)) := by
    have := C52_sheet_bof hb [] (encRecs (F.records v) ++ rest)
    rw [if_pos rfl] at this
    rw [hm, List.append_assoc]
    simpa using this
  unfold openStream at h
  rw [hf] at h
  simp only [bind, Except.bind] at h
  rw [if_pos (by omega)] at h
  unfold openSingle at h
  obtain ⟨f, hf1, h⟩ := bind_ok h
  obtain ⟨q, hq, h⟩ := bind_ok h
  rw [hg] at hq
  cases hq
  obtain ⟨o, ho, h⟩ := bind_ok h
  cases h
  have hitems : BookItems v F.book := headBook_items hok.codes
  have ho : oldRead env v file (oldStart f) ((encRec op bof).length : Int) = .ok o := ho
  rw [hm] at ho
  have hdec : ∀ b1, applyGlobals (env.recEnv v) (oldStart f) (F.book.map newItem) = .ok b1 →
      textDec env v b1 = textAt (env.recEnv v) F.book ∧ b1.sst.map Prod.fst = [] := by
    intro b1 hb1
    refine ⟨book_text (.inr hv) (oldStart_enc _ f) hb1, ?_⟩
    rw [(book_frame (env := env.recEnv v) (.inr hv) hitems hb1).1]
    rfl
  obtain ⟨b1, b2, e1, e2, e3, e4, e5, e6⟩ := old_file hv (b0 := oldStart f) rfl hok hdec ho
  have hsst := (book_frame (env := env.recEnv v) (.inr hv) hitems e1).1
  refine ⟨f, b1, b2, o.sheet, hf1, e1, e2, e3 hver, e4, e5, rfl, rfl, ?_, ?_, e6, hitems⟩
  · rcases e2 with rfl | rfl
    · exact hsst
    · exact hsst
  · rcases e2 with rfl | rfl
    · exact (hdec _ e1).1
    · rw [epilogue_textDec]; exact (hdec _ e1).1

/-- C73: the bytes of such a file are opened as they are. -/
theorem C73_file (env : OpenEnv) (v : Nat) (dec : List GItem → Bytes → R PyStr) (file : Bytes) (F : OldFile) (hw : OldWorkbook v dec file F) :
    openXls env file = some (openStream env file 0) := by
  obtain ⟨hver, ⟨op, bof, rest, hb, hm⟩, _⟩ := hw
  have hop : op = 0x209 ∨ op = 0x409 ∨ op = 0x809 := by
    cases hb with
    | biff4 => exact .inr (.inl rfl)
    | biff3 => exact .inl rfl
    | mixed => exact .inr (.inr rfl)
    | _ => omega
  obtain ⟨y, ys, hf⟩ : ∃ y ys, file = 9 :: y :: ys := by
    rw [hm]
    rcases hop with rfl | rfl | rfl
    · exact ⟨_, _, rfl⟩
    · exact ⟨_, _, rfl⟩
    · exact ⟨_, _, rfl⟩
  unfold openXls loadStream
  rw [if_neg (by rw [hf]; simp), if_pos (by
    rw [hf]
    intro h
    unfold sliceTo clampIdx at h
    rw [if_neg (by decide), List.length_cons, show min (Int.toNat 8) ((y :: ys).length + 1) = min 7 (y :: ys).length + 1 by omega, List.take_succ_cons] at h
    have := congrArg List.head? h
    revert this
    simp only [List.head?_cons]
    decide)]

/-- C73: such a file is a book with one sheet, "Sheet 1", visible and loaded, and it stays so: whatever is called, the replies are those of a book that holds just this sheet. -/
theorem C73_one_sheet (env : OpenEnv) (v : Nat) (file : Bytes) (F : OldFile) (hw : OldWorkbook v (textAt (env.recEnv v)) file F) (l : Lib)
    (h : openStream env file 0 = .ok l) :
    ∃ sh, sh.name = "Sheet 1".toList ∧ sh.number = 0 ∧ sh.visibility = 0 ∧ (sheetByIndex env l 0).1 = .ok sh ∧ l.book.sheetNames = ["Sheet 1".toList] ∧
      ∀ cs, (libCalls env l cs).1 = ((⟨["Sheet 1".toList], fun k => if k = 0 then .ok sh else .error .xlrd⟩ : File).calls
        ⟨fun k => if k < 1 then some (k : Int) else none, true⟩ cs).1 := by
  obtain ⟨f, b1, b2, st, h1, h2, h3, _, h4, h5, h6, h7, _, _, _, hi⟩ := old_opened hw h
  have hv : v = 21 ∨ v = 30 ∨ v = 40 ∨ v = 45 := by have := hw.version; omega
  have hn : l.book.sheetNames = ["Sheet 1".toList] := by
    obtain ⟨e, c, u, r, hl⟩ := h4.same
    rw [hl]
    have := (book_frame (env := env.recEnv v) hv hi h2).2.1
    rcases h3 with rfl | rfl
    · exact this
    · exact this
  refine ⟨⟨"Sheet 1".toList, 0, 0, st⟩, rfl, rfl, rfl, ?_, hn, ?_⟩
  · unfold sheetByIndex
    rw [h6]
    rfl
  · intro cs
    have hsim := released_sim (env := env) h7 (by rw [h6, hn]; rfl) (by
      intro k hk
      rw [hn] at hk
      have : k = 0 := by simpa using hk
      subst this
      exact ⟨⟨"Sheet 1".toList, 0, 0, st⟩, by rw [h6]; rfl, rfl⟩)
    have hheld : l.held = (⟨["Sheet 1".toList], fun k => if k = 0 then .ok ⟨"Sheet 1".toList, 0, 0, st⟩ else .error .xlrd⟩ : File) := by
      unfold Lib.held
      rw [hn, h6]
      congr 1
      funext k
      cases k <;> rfl
    have := (sim_calls cs hsim).1
    rw [this, hheld]
    rfl

/-- C73: the records about the whole file do not disturb the sheet: it is what reading the other records alone gives (so that what is proved about reading the
records of a sheet, C31, C39, C40, C58 to C63, C71 and C72, holds of it). -/
theorem C73_sheet (env : OpenEnv) (v : Nat) (file : Bytes) (F : OldFile) (hw : OldWorkbook v (textAt (env.recEnv v)) file F) (l : Lib)
    (h : openStream env file 0 = .ok l) (cs : List Call) (sh : LSheet) (hr : (sheetByIndex env (libCalls env l cs).2 0).1 = .ok sh) :
    ∃ senv : SheetEnv, senv.bv = v ∧ senv.cfg = (env.sheetEnv v l.book).cfg ∧ senv.dec = textAt (env.recEnv v) F.book ∧ senv.sst = [] ∧
      F.layout.Ok v senv.dec senv.sst ∧ sheetRead senv (encRecs (F.layout.records v)) 0 = .ok sh.st := by
  obtain ⟨f, b1, b2, st, h1, h2, h3, _, h4, h5, h6, h7, hs, hd, hsr, hi⟩ := old_opened hw h
  have hv : v = 21 ∨ v = 30 ∨ v = 40 ∨ v = 45 := by have := hw.version; omega
  have hn : l.book.sheetNames = ["Sheet 1".toList] := (C73_one_sheet env v file F hw l h).choose_spec.2.2.2.2.1
  have hsim := released_sim (env := env) h7 (by rw [h6, hn]; rfl) (by
    intro k hk
    rw [hn] at hk
    have : k = 0 := by simpa using hk
    subst this
    exact ⟨⟨"Sheet 1".toList, 0, 0, st⟩, by rw [h6]; rfl, rfl⟩)
  have h9 := (sim_ask (sim_calls cs hsim).2 0).1
  rw [hr] at h9
  symm at h9
  obtain ⟨n, c, _, e2, e3⟩ := ask_no (k := 0) (s' := _) (Prod.ext h9 rfl) (by unfold File.sheetNo Lib.held; rw [hn]; rfl)
  have hc : c = ⟨"Sheet 1".toList, 0, 0, st⟩ := by
    simp only [Lib.held, h6] at e2
    cases e2; rfl
  have hst : sh.st = st := by rw [e3, hc]
  refine ⟨readEnv env v b2, rfl, ?_, hd, ?_, ?_, ?_⟩
  · obtain ⟨e, c, u, r, hl⟩ := h4.same
    rw [hl]; rfl
  · show b2.sst.map Prod.fst = []
    rw [hs]; rfl
  · have : (readEnv env v b2).sst = [] := by show b2.sst.map Prod.fst = []; rw [hs]; rfl
    rw [this, show (readEnv env v b2).dec = _ from hd]
    exact layout_ok hw.ok
  · rw [hst]; exact hsr

/-- The cell types that XF records give to numbers: dates or plain numbers. -/
def OldTypesOf (fmts : List PyStr) (xfs : List XF) (tm : Int → Option Nat) : Prop :=
  ∀ (i : Nat) x, xfs[i]? = some x → ∃ s, fmts[x.formatKey]? = some s ∧ (IsDateFormat s → tm i = some XL_CELL_DATE) ∧ (¬ IsDateFormat s → tm i = some XL_CELL_NUMBER)

theorem old_types {env : OpenEnv} {v : Nat} {file : Bytes} {F : OldFile} (hw : OldWorkbook v (textAt (env.recEnv v)) file F) {l : Lib}
    (h : openStream env file 0 = .ok l) {fmts : List PyStr} (hf : OldFormats v (textAt (env.recEnv v)) F.book fmts) {xfs : List XF}
    (hx : OldXfs v (textAt (env.recEnv v)) F.book xfs) (i : Nat) (x : XF) (hi : xfs[i]? = some x) :
    (env.sheetEnv v l.book).cfg.typeMap i = some (match fmts[x.formatKey]? with
      | some s => if isDateFormatString s then XL_CELL_DATE else XL_CELL_NUMBER
      | none => XL_CELL_TEXT) := by
  obtain ⟨f, b1, b2, st, h1, h2, h3, h3', h4, h5, h6, h7, hs, hd, hsr, hit⟩ := old_opened hw h
  have hv : v = 21 ∨ v = 30 ∨ v = 40 ∨ v = 45 := by have := hw.version; omega
  obtain ⟨m, rfl⟩ := colour_map_fields (env := env.recEnv v) h1
  have hl := oldXfs_items (env := env.recEnv v) hv (oldStart_enc _ _) rfl rfl rfl hx hit h2
  have hne : b1.fmt.xfList ≠ [] := by
    intro hnil
    rw [hl] at hnil
    have : xfs = [] := by simpa using hnil
    rw [this] at hi; cases hi
  have ht := oldTypes_items hv (oldStart_enc _ _) rfl rfl rfl hit hf hx h2 i x hi
  rw [← h3' hne] at ht
  obtain ⟨e, c, u, r, hlb⟩ := h4.same
  rw [hlb]
  simp only [OpenEnv.sheetEnv]
  rw [if_pos (by omega)]
  exact ht

/-- C73: every cell of the sheet: inside the sheet, `cell_type` and `cell_value` (and `cell_xf_index`) are those of the last cell record written for that position (an empty
cell if there is none), a number being a date exactly if the format of its XF is a date format; `nrows` and `ncols` are just large enough. -/
theorem C73_cell_partial (env : OpenEnv) (hrag : env.ragged = false) (v : Nat) (file : Bytes) (F : OldFile) (hw : OldWorkbook v (textAt (env.recEnv v)) file F)
    (fmts : List PyStr) (hf : OldFormats v (textAt (env.recEnv v)) F.book fmts) (hne : fmts ≠ []) (xfs : List XF)
    (hx : OldXfs v (textAt (env.recEnv v)) F.book xfs) (l : Lib)
    (h : openStream env file 0 = .ok l) (cs : List Call) (sh : LSheet) (hr : (sheetByIndex env (libCalls env l cs).2 0).1 = .ok sh) :
    ∃ tm, OldTypesOf fmts xfs tm ∧
      let cells := cellsOf fl env.fi [] F.layout.items
      sh.st.store.nrows = height cells (mergedRanges env.fi F.layout.items) ∧ sh.st.store.ncols = width cells (mergedRanges env.fi F.layout.items) ∧
      ∀ r c : Nat, (r < sh.st.store.nrows ∧ c < sh.st.store.ncols →
          sh.st.store.cellType r c = .ok (cellAt tm cells r c).ty ∧ sh.st.store.cellValue r c = .ok (cellAt tm cells r c).v ∧
          (env.fi = true → sh.st.store.cellXf r c = .ok (cellAt tm cells r c).xf)) ∧
        (¬ (r < sh.st.store.nrows ∧ c < sh.st.store.ncols) → sh.st.store.cellType r c = .error .index ∧ sh.st.store.cellValue r c = .error .index) := by
  obtain ⟨senv, s1, s2, s3, s4, s5, s6⟩ := C73_sheet env v file F hw l h cs sh hr
  have hv : 30 ≤ v := by have := hw.version; omega
  subst s1
  have hcells := C31_sheet_is_its_cells senv hv F.layout s5 [] [] sh.st (by simpa using s6)
  have hfi : senv.cfg.fmtInfo = env.fi := by rw [s2]; rfl
  rw [s4, hfi] at hcells
  refine ⟨senv.cfg.typeMap, ?_, ?_, ?_, ?_⟩
  · intro i x hi
    have hk := oldXfs_known hx hf hne (List.mem_of_getElem? hi)
    have ht := old_types hw h hf hx i x hi
    rw [← s2, List.getElem?_eq_getElem hk] at ht
    refine ⟨_, List.getElem?_eq_getElem hk, ?_, ?_⟩
    · intro hdate
      rw [ht]
      simp only
      rw [if_pos ((isDate_spec _).mpr hdate)]
    · intro hdate
      rw [ht]
      simp only
      rw [if_neg (fun hh => hdate ((isDate_spec _).mp hh))]
  · exact (C14_dimensions_tight _ _ _ _ (merged_pos _ _) hcells).1
  · exact (C14_dimensions_tight _ _ _ _ (merged_pos _ _) hcells).2
  · intro r c
    have := C12_last_write_wins senv.cfg _ _ _ (merged_pos _ _) (by rw [s2]; exact hrag) hcells r c
    rw [hfi] at this
    exact this

/-- C73 without FORMAT records does not hold: a number whose cell has an XF is then a cell of type text. -/
theorem C73_no_formats (env : OpenEnv) (v : Nat) (file : Bytes) (F : OldFile) (hw : OldWorkbook v (textAt (env.recEnv v)) file F)
    (hf : ∀ d, GItem.one (formatCode v) d ∉ F.book) (xfs : List XF) (hx : OldXfs v (textAt (env.recEnv v)) F.book xfs) (l : Lib)
    (h : openStream env file 0 = .ok l) (i : Nat) (hi : i < xfs.length) : (env.sheetEnv v l.book).cfg.typeMap i = some XL_CELL_TEXT := by
  have hf' : OldFormats v (textAt (env.recEnv v)) F.book [] := by
    have : ∀ items : List GItem, (∀ d, GItem.one (formatCode v) d ∉ items) → OldFormats v (textAt (env.recEnv v)) items [] := by
      intro items
      induction items using List.reverseRecOn with
      | nil => intro _; exact .nil
      | append_singleton pre it ih =>
        intro hn
        refine .skip (ih fun d hm => hn d (List.mem_append_left _ hm)) ?_
        rintro c d rfl rfl
        exact hn d (by simp)
    exact this _ hf
  exact old_types hw h hf' hx i xfs[i] (by simp [hi])

/-! ## The book -/

theorem old_book {env : OpenEnv} {v : Nat} {file : Bytes} {F : OldFile} (hw : OldWorkbook v (textAt (env.recEnv v)) file F) {l : Lib}
    (h : openStream env file 0 = .ok l) : ∃ f b1, initialiseColourMap v env.fi newBook.fmt = .ok f ∧
      applyGlobals (env.recEnv v) (oldStart f) (F.book.map newItem) = .ok b1 ∧ BookItems v F.book ∧
      (l.book.fmt = b1.fmt ∨ l.book.fmt = xfEpilogue env.fi b1.fmt) ∧ (b1.fmt.xfList ≠ [] → l.book.fmt = xfEpilogue env.fi b1.fmt) ∧
      l.book.datemode = b1.datemode ∧ l.book.countries = b1.countries := by
  obtain ⟨f, b1, b2, st, h1, h2, h3, h3', h4, _, _, _, _, _, _, hit⟩ := old_opened hw h
  obtain ⟨e, c, u, r, hl⟩ := h4.same
  refine ⟨f, b1, h1, h2, hit, ?_, ?_, ?_, ?_⟩
  · rw [hl]
    rcases h3 with rfl | rfl
    · exact .inl rfl
    · exact .inr rfl
  · intro hne
    rw [hl, h3' hne]
    rfl
  all_goals
    rw [hl]
    rcases h3 with rfl | rfl <;> rfl

/-- C73: the date system and the countries are those of the last DATEMODE and COUNTRY records. -/
theorem C73_settings (env : OpenEnv) (v : Nat) (file : Bytes) (F : OldFile) (hw : OldWorkbook v (textAt (env.recEnv v)) file F) (l : Lib)
    (h : openStream env file 0 = .ok l) (ms : List Nat) (hm : Datemodes F.book ms) (cs : List (Nat × Nat)) (hc : Countries F.book cs) :
    l.book.datemode = ms.getLast?.getD 0 ∧ (l.book.datemode = 0 ∨ l.book.datemode = 1) ∧ l.book.countries = cs.getLast?.getD (0, 0) := by
  obtain ⟨f, b1, h1, h2, hit, _, _, h5, h6⟩ := old_book hw h
  rw [h5, h6]
  obtain ⟨k1, k2⟩ := datemode_items (b0 := oldStart f) (collected_new (items := F.book) (xs := ms) (by rintro c rfl; rfl) (fun c => newCode_ne (by decide) (by decide)) (fun _ _ _ hh => hh) hm) rfl h2
  exact ⟨k1, k2, countries_items (b0 := oldStart f) (collected_new (items := F.book) (xs := cs) (by rintro c rfl; rfl) (fun c => newCode_ne (by decide) (by decide)) (fun _ _ _ hh => hh) hc) rfl h2⟩

/-- C73: the number formats are those of the FORMAT records, numbered in file order. -/
theorem C73_formats (env : OpenEnv) (v : Nat) (file : Bytes) (F : OldFile) (hw : OldWorkbook v (textAt (env.recEnv v)) file F) (l : Lib)
    (h : openStream env file 0 = .ok l) (fmts : List PyStr) (hf : OldFormats v (textAt (env.recEnv v)) F.book fmts) (k : Nat) :
    (l.book.fmt.formatMap k).bind (·.str) = fmts[k]? := by
  obtain ⟨f, b1, h1, h2, hit, h3, _⟩ := old_book hw h
  obtain ⟨m, rfl⟩ := colour_map_fields (env := env.recEnv v) h1
  have hv : v = 21 ∨ v = 30 ∨ v = 40 ∨ v = 45 := by have := hw.version; omega
  have := (oldFormats_items (env := env.recEnv v) hv (oldStart_enc _ _) rfl rfl hf hit h2).1
  have e : l.book.fmt.formatMap = b1.fmt.formatMap := by rcases h3 with h3 | h3 <;> rw [h3] <;> rfl
  rw [e, this]
  cases h : fmts[k]? <;> simp [h, fmtEntry]

/-- C73: the list of XFs holds the XF records in file order (as in C35). -/
theorem C73_xf_list (env : OpenEnv) (v : Nat) (file : Bytes) (F : OldFile) (hw : OldWorkbook v (textAt (env.recEnv v)) file F) (l : Lib)
    (h : openStream env file 0 = .ok l) (xfs : List XF) (hx : OldXfs v (textAt (env.recEnv v)) F.book xfs) :
    l.book.fmt.xfList.length = xfs.length ∧
    ∀ (i : Nat) x, xfs[i]? = some x → l.book.fmt.xfList[i]? = some { x with
      xfIndex := i
      parentStyleIndex := if env.fi = true ∧ x.isStyle = 0 ∧ ¬ x.parentStyleIndex < xfs.length then 0 else x.parentStyleIndex } := by
  obtain ⟨f, b1, h1, h2, hit, h3, h4, _⟩ := old_book hw h
  obtain ⟨m, rfl⟩ := colour_map_fields (env := env.recEnv v) h1
  have hv : v = 21 ∨ v = 30 ∨ v = 40 ∨ v = 45 := by have := hw.version; omega
  have hl := oldXfs_items (env := env.recEnv v) hv (oldStart_enc _ _) rfl rfl rfl hx hit h2
  by_cases hne : b1.fmt.xfList = []
  · have hx0 : xfs = [] := by rw [hl] at hne; simpa using hne
    subst hx0
    have : l.book.fmt.xfList = [] := by
      rcases h3 with h3 | h3
      · rw [h3, hne]
      · rw [h3, xfEpilogue_list, hne]; rfl
    rw [this]
    exact ⟨rfl, fun i x hi => (by cases hi)⟩
  · rw [h4 hne]
    exact parents_fixed hl

/-- C73: with formatting information, the fonts are those of the FONT records, numbered as in C36. -/
theorem C73_fonts (env : OpenEnv) (hfi : env.fi = true) (v : Nat) (file : Bytes) (F : OldFile) (hw : OldWorkbook v (textAt (env.recEnv v)) file F) (l : Lib)
    (h : openStream env file 0 = .ok l) (fonts : List Font) (hf : Fonts v (textAt (env.recEnv v)) F.book fonts) :
    l.book.fmt.fontList.length = (if fonts.length ≤ 4 then fonts.length else fonts.length + 1) ∧
    ∀ (k : Nat) f, fonts[k]? = some f → l.book.fmt.fontList[fontNumber k]? = some { f with fontIndex := fontNumber k } := by
  obtain ⟨f, b1, h1, h2, hit, h3, _⟩ := old_book hw h
  obtain ⟨m, rfl⟩ := colour_map_fields (env := env.recEnv v) h1
  have e : l.book.fmt.fontList = b1.fmt.fontList := by rcases h3 with h3 | h3 <;> rw [h3] <;> rfl
  have hf' : Fonts (env.recEnv v).bv (textAt (env.recEnv v)) (F.book.map newItem) fonts :=
    collected_new (by rintro c (rfl | rfl) <;> rfl) (fun c hc => by
      rcases hc with hc | hc
      · exact .inl (newCode_ne (by decide) (by decide) hc)
      · exact .inr (newCode_ne (by decide) (by decide) hc)) (fun pre d x hh => by rw [textAt_new]; exact hh) hf
  obtain ⟨ha, hb, _⟩ := fonts_items (env := env.recEnv v) hfi hf' (oldStart_enc _ _) rfl h2
  rw [e]
  exact ⟨ha, hb⟩

/-- C73: the colours are those of the version with the PALETTE record, the styles those of the STYLE records. -/
theorem C73_colours (env : OpenEnv) (v : Nat) (file : Bytes) (F : OldFile) (hw : OldWorkbook v (textAt (env.recEnv v)) file F) (l : Lib)
    (h : openStream env file 0 = .ok l) (dflt : List Rgb) (hd : defaultPalette v = .ok dflt) (ps : List (List Rgb)) (hp : Palettes F.book ps) (i : Nat) :
    itemsGet l.book.fmt.colourMap i = if env.fi then ColourAt dflt ps.flatten i else none := by
  obtain ⟨f, b1, h1, h2, hit, h3, _⟩ := old_book hw h
  have e : l.book.fmt.colourMap = b1.fmt.colourMap := by rcases h3 with h3 | h3 <;> rw [h3] <;> rfl
  rw [e]
  exact colours_items (env := env.recEnv v) hd (collected_new (by rintro c rfl; rfl) (fun c => newCode_ne (by decide) (by decide)) (fun _ _ _ hh => hh) hp) h1 rfl h2 i

theorem C73_styles (env : OpenEnv) (hfi : env.fi = true) (v : Nat) (file : Bytes) (F : OldFile) (hw : OldWorkbook v (textAt (env.recEnv v)) file F) (l : Lib)
    (h : openStream env file 0 = .ok l) (ss : List StyleRec) (hs : Styles v (textAt (env.recEnv v)) F.book ss) (name : PyStr) :
    l.book.fmt.styleMap name = ((ss.filter fun s => decide (s.name = name)).getLast?).map fun s => (if s.builtin then 1 else 0, s.xf) := by
  obtain ⟨f, b1, h1, h2, hit, h3, _⟩ := old_book hw h
  obtain ⟨m, rfl⟩ := colour_map_fields (env := env.recEnv v) h1
  have e : l.book.fmt.styleMap = b1.fmt.styleMap := by rcases h3 with h3 | h3 <;> rw [h3] <;> rfl
  rw [e]
  exact congrFun (styles_items (env := env.recEnv v) hfi (styles_new hs) (oldStart_enc _ _) rfl h2) name

/-- C73: such a file is read only where it starts: a stream of BIFF3 or BIFF4 that does not start at byte 0 (as inside a compound document after other bytes) is refused
unless a BOF record happens to stand there. -/
theorem C73_not_at_start (env : OpenEnv) (v : Nat) (hv : v = 30 ∨ v = 40) (op : Nat) (bof : Bytes) (hb : BofRecord v 0x10 op bof) (pre post : Bytes)
    (hp : getbof (pre ++ encRec op bof ++ post) 0 XL_WORKSHEET = .error .xlrd) :
    ∃ e, openStream env (pre ++ encRec op bof ++ post) (pre.length : Int) = .error e := by
  have hf := C52_first_bof hb pre post
  rw [if_pos (show StartsFile v 0x10 from Or.inr (Or.inr ⟨by omega, rfl⟩))] at hf
  unfold openStream
  rw [hf]
  simp only [bind, Except.bind]
  rw [if_pos (by omega)]
  unfold openSingle
  cases hc : initialiseColourMap v env.fi newBook.fmt with
  | error e => exact ⟨e, rfl⟩
  | ok f => simp only [bind, Except.bind]; rw [hp]; exact ⟨_, rfl⟩

end Xlrd
