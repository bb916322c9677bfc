import Verif.Lemmas.Biff4wTypes

/-!
# BIFF4 workbooks (C76)
-/
set_option linter.unusedSimpArgs false
namespace Xlrd
open Spec

/-- C76: the bytes of such a file are opened as they are. -/
theorem C76_file (env : OpenEnv) (dec : List GItem → Bytes → R PyStr) (file : Bytes) (parts : List SheetPart) (last : List GItem) (hw : Biff4w dec file parts last) :
    openXls env file = some (openStream env file 0) := by
  obtain ⟨⟨op, bof, eof, rest, hb, _, hm⟩, _, _⟩ := hw
  have hop : op = 0x409 ∨ op = 0x809 := by
    cases hb with
    | biff4w => exact .inl rfl
    | mixed _ _ _ _ _ _ hu => exact .inr rfl
    | mixed4w => exact .inr rfl
  obtain ⟨y, ys, hf⟩ : ∃ y ys, file = 9 :: y :: ys := by
    rw [hm]
    rcases hop with rfl | rfl
    · exact ⟨_, _, rfl⟩
    · exact ⟨_, _, rfl⟩
  unfold openXls loadStream
  rw [if_neg (by rw [hf]; simp), if_pos (by
    rw [hf]
    intro h
    unfold sliceTo clampIdx at h
    rw [if_neg (by decide), List.length_cons, show min (Int.toNat 8) ((y :: ys).length + 1) = min 7 (y :: ys).length + 1 by omega, List.take_succ_cons] at h
    have := congrArg List.head? h
    revert this
    simp only [List.head?_cons]
    decide)]

/-! ## The list of sheets -/

theorem PartsRun.length {env : OpenEnv} {hist : List GItem} {parts : List SheetPart} {shs : List LSheet} {f : FmtSt} (h : PartsRun env hist parts shs f) :
    shs.length = parts.length := by
  induction h with
  | nil => rfl
  | cons _ _ _ _ ih => simp [ih]

theorem PartsRun.at {env : OpenEnv} {hist : List GItem} {parts : List SheetPart} {shs : List LSheet} {f : FmtSt} (h : PartsRun env hist parts shs f) :
    ∀ {pre x post}, parts = pre ++ x :: post → ∃ sh g, shs[pre.length]? = some sh ∧ sh.name = x.name ∧ SheetRun env (hist ++ bookOf pre ++ x.before) x sh g ∧ (post = [] → f = g) := by
  induction h with
  | nil => intro pre x post h; simp at h
  | @cons hist y ys sh shs f g h hn hg t ih =>
    intro pre x post hp
    cases pre with
    | nil =>
      rw [List.nil_append, List.cons.injEq] at hp
      obtain ⟨rfl, rfl⟩ := hp
      exact ⟨sh, g, rfl, hn, by simpa [bookOf] using h, hg⟩
    | cons z zs =>
      rw [List.cons_append, List.cons.injEq] at hp
      obtain ⟨rfl, hp⟩ := hp
      obtain ⟨sh', g', h1, h2, h3, h4⟩ := ih hp
      exact ⟨sh', g', h1, h2, by simpa [bookOf, List.append_assoc] using h3, h4⟩

theorem PartsRun.names {env : OpenEnv} {hist : List GItem} {parts : List SheetPart} {shs : List LSheet} {f : FmtSt} (h : PartsRun env hist parts shs f) :
    shs.map (·.name) = parts.map (·.name) := by
  induction h with
  | nil => rfl
  | cons _ hn _ _ ih => rw [List.map_cons, List.map_cons, hn, ih]

/-- The sheets that `sheets`, `sheet_by_index` and the like show. -/
theorem w_sheets {env : OpenEnv} {file : Bytes} {parts : List SheetPart} {last : List GItem} (hw : Biff4w (textAt (env.recEnv 45)) file parts last) {l : Lib}
    (h : openStream env file 0 = .ok l) {names : List PyStr} (hn : SheetNames4 (textAt (env.recEnv 45)) (bookOf parts ++ last) names) :
    ∃ shs f, PartsRun env [] parts shs f ∧ l.book.sheetNames = names ∧ l.sheetList = shs.map some ∧ l.released = true ∧
      ∀ (i : Nat) sh, shs[i]? = some sh → names[i]? = some sh.name ∧ sh.number = (i : Int) ∧ sh.visibility = 0 := by
  obtain ⟨f, shs, b1, b2, _, h2, _, _, h4, _, h6, h7, h8, h9, _⟩ := w_opened hw h
  have hn2 := h4.names names hn
  obtain ⟨os, _, _, _, _, _, hb⟩ := eof_frame h6
  refine ⟨shs, b1.fmt, h2, by rw [hb]; exact hn2, h8, h9, ?_⟩
  intro i sh hi
  have := h4.sheets i sh (by rw [h7]; exact hi)
  rw [hn2] at this
  exact this

/-- C76: the names of the sheets are those of the BOUNDSHEET records, and the worksheets follow in this order. -/
theorem C76_names (env : OpenEnv) (file : Bytes) (parts : List SheetPart) (last : List GItem) (hw : Biff4w (textAt (env.recEnv 45)) file parts last) (l : Lib)
    (h : openStream env file 0 = .ok l) (names : List PyStr) (hn : SheetNames4 (textAt (env.recEnv 45)) (bookOf parts ++ last) names) :
    l.book.sheetNames = names ∧ parts.map (·.name) <+: names := by
  obtain ⟨shs, f, h1, h2, _, _, h5⟩ := w_sheets hw h hn
  refine ⟨h2, ?_⟩
  rw [← h1.names, List.prefix_iff_getElem?]
  intro i hi
  rw [List.length_map] at hi
  rw [(h5 i shs[i] (by simp [hi])).1, List.getElem_map]

/-- C76: if there is a worksheet for each name, the book holds these sheets, visible and loaded, and it stays so: whatever is called, the replies are those of a book that
just holds them. -/
theorem C76_sheets (env : OpenEnv) (file : Bytes) (parts : List SheetPart) (last : List GItem) (hw : Biff4w (textAt (env.recEnv 45)) file parts last) (l : Lib)
    (h : openStream env file 0 = .ok l) (names : List PyStr) (hn : SheetNames4 (textAt (env.recEnv 45)) (bookOf parts ++ last) names)
    (hlen : names.length = parts.length) :
    ∃ shs : List LSheet, shs.map (·.name) = names ∧ (∀ (i : Nat) sh, shs[i]? = some sh → sh.number = (i : Int) ∧ sh.visibility = 0) ∧
      ∀ cs, (libCalls env l cs).1 = ((⟨names, fun k => match shs[k]? with | some sh => .ok sh | none => .error .xlrd⟩ : File).calls
        ⟨fun k => if k < names.length then some (k : Int) else none, true⟩ cs).1 := by
  obtain ⟨shs, f, h1, h2, h3, h4, h5⟩ := w_sheets hw h hn
  have hl : shs.length = names.length := by rw [h1.length, hlen]
  refine ⟨shs, ?_, fun i sh hi => (h5 i sh hi).2, ?_⟩
  · apply List.ext_getElem?
    intro i
    rw [List.getElem?_map]
    cases hi : shs[i]? with
    | none => rw [List.getElem?_eq_none_iff] at hi; simp; omega
    | some sh => exact (h5 i sh hi).1.symm
  · intro cs
    have hsim := released_sim (env := env) h4 (by rw [h3, h2, List.length_map, hl]) (by
      intro k hk
      rw [h2, ← hl] at hk
      exact ⟨shs[k], by rw [h3]; simp [hk], (h5 k shs[k] (by simp [hk])).2.1⟩)
    have hheld : l.held = (⟨names, fun k => match shs[k]? with | some sh => .ok sh | none => .error .xlrd⟩ : File) := by
      unfold Lib.held
      rw [h2, h3]
      congr 1
      funext k
      rw [List.getElem?_map]
      cases shs[k]? <;> rfl
    have := (sim_calls cs hsim).1
    rw [this, hheld]
    rfl

/-- C76 needs a worksheet for each name: otherwise `nsheets` counts the names, but asking for a sheet after the last worksheet raises IndexError. -/
theorem C76_missing_sheet (env : OpenEnv) (file : Bytes) (parts : List SheetPart) (last : List GItem) (hw : Biff4w (textAt (env.recEnv 45)) file parts last) (l : Lib)
    (h : openStream env file 0 = .ok l) (names : List PyStr) (hn : SheetNames4 (textAt (env.recEnv 45)) (bookOf parts ++ last) names)
    (k : Nat) (hk : parts.length ≤ k) : (sheetByIndex env l (k : Int)).1 = .error .index := by
  obtain ⟨shs, f, h1, h2, h3, h4, h5⟩ := w_sheets hw h hn
  unfold sheetByIndex
  rw [idx_nat, List.getElem?_eq_none (by rw [h3, List.length_map, h1.length]; exact hk)]

/-! ## The sheets -/

theorem w_sheet {env : OpenEnv} {file : Bytes} {parts : List SheetPart} {last : List GItem} (hw : Biff4w (textAt (env.recEnv 45)) file parts last) {l : Lib}
    (h : openStream env file 0 = .ok l) {names : List PyStr} (hn : SheetNames4 (textAt (env.recEnv 45)) (bookOf parts ++ last) names)
    (hlen : names.length = parts.length) {pre : List SheetPart} {x : SheetPart} {post : List SheetPart} (hp : parts = pre ++ x :: post) (cs : List Call) {sh : LSheet}
    (hr : (sheetByIndex env (libCalls env l cs).2 (pre.length : Int)).1 = .ok sh) :
    sh.name = x.name ∧ ∃ g, SheetRun env (bookOf pre ++ x.before) x sh g := by
  obtain ⟨shs, f, h1, h2, h3, h4, h5⟩ := w_sheets hw h hn
  have hl : shs.length = names.length := by rw [h1.length, hlen]
  have hsim := released_sim (env := env) h4 (by rw [h3, h2, List.length_map, hl]) (by
    intro k hk
    rw [h2, ← hl] at hk
    exact ⟨shs[k], by rw [h3]; simp [hk], (h5 k shs[k] (by simp [hk])).2.1⟩)
  have h9 := (sim_ask (sim_calls cs hsim).2 (pre.length : Int)).1
  rw [hr] at h9
  symm at h9
  have hlt : pre.length < names.length := by rw [hlen, hp]; simp
  obtain ⟨n, c, _, e2, e3⟩ := ask_no (k := pre.length) (s' := _) (Prod.ext h9 rfl) (by
    unfold File.sheetNo Lib.held
    rw [h2]
    simp [hlt])
  obtain ⟨sh', g, k1, k2, k3, _⟩ := h1.at hp
  have hc : c = sh' := by
    simp only [Lib.held, h3, List.getElem?_map, k1, Option.map_some] at e2
    cases e2; rfl
  refine ⟨by rw [e3, hc]; exact k2, g, ?_⟩
  obtain ⟨a1, a2, a3, a⟩ := k3
  refine ⟨a1, a2, a3, ?_⟩
  rw [e3, hc]
  simpa using a

/-- C76: each sheet is what reading its own records alone gives, whatever the other sheets hold (so that what is proved about reading the records of a sheet, C31, C39,
C40, C58 to C63, C71 and C72, holds of it). -/
theorem C76_sheet (env : OpenEnv) (file : Bytes) (parts : List SheetPart) (last : List GItem) (hw : Biff4w (textAt (env.recEnv 45)) file parts last) (l : Lib)
    (h : openStream env file 0 = .ok l) (names : List PyStr) (hn : SheetNames4 (textAt (env.recEnv 45)) (bookOf parts ++ last) names)
    (hlen : names.length = parts.length) (pre : List SheetPart) (x : SheetPart) (post : List SheetPart) (hp : parts = pre ++ x :: post) (cs : List Call) (sh : LSheet)
    (hr : (sheetByIndex env (libCalls env l cs).2 (pre.length : Int)).1 = .ok sh) :
    sh.name = x.name ∧ ∃ senv : SheetEnv, senv.bv = 45 ∧ senv.cfg.fmtInfo = env.fi ∧ senv.cfg.ragged = env.ragged ∧
      senv.dec = textAt (env.recEnv 45) (bookOf pre ++ x.book) ∧ senv.sst = [] ∧ x.file.layout.Ok 45 senv.dec senv.sst ∧
      sheetRead senv (encRecs (x.file.layout.records 45)) 0 = .ok sh.st := by
  obtain ⟨k1, g, b2, b3, b4, _, _, _, _, _, _, _, _, h6, h7, _, h8⟩ := w_sheet hw h hn hlen hp cs hr
  have hbk : bookOf pre ++ x.before ++ x.file.book = bookOf pre ++ x.book := by unfold SheetPart.book; rw [List.append_assoc]
  rw [hbk] at h7
  have hs : (readEnv env 45 b4).sst = [] := by show b4.sst.map Prod.fst = []; rw [h6]; rfl
  refine ⟨k1, readEnv env 45 b4, rfl, rfl, rfl, h7, hs, ?_, h8⟩
  rw [hs, show (readEnv env 45 b4).dec = _ from h7]
  exact layout_ok (hw.parts pre x post hp).file

/-- C76: every cell of every sheet: inside the sheet, `cell_type` and `cell_value` (and `cell_xf_index`) are those of the last cell record of this sheet for that position
(an empty cell if there is none), a number being a date exactly if the format that this sheet's own XF and FORMAT records give it is a date format; `nrows` and `ncols`
are just large enough. -/
theorem C76_cell_partial (env : OpenEnv) (hrag : env.ragged = false) (file : Bytes) (parts : List SheetPart) (last : List GItem)
    (hw : Biff4w (textAt (env.recEnv 45)) file parts last) (l : Lib) (h : openStream env file 0 = .ok l) (names : List PyStr)
    (hn : SheetNames4 (textAt (env.recEnv 45)) (bookOf parts ++ last) names) (hlen : names.length = parts.length)
    (pre : List SheetPart) (x : SheetPart) (post : List SheetPart) (hp : parts = pre ++ x :: post)
    (fmts : List PyStr) (hf : OldFormats 45 (fun its => textAt (env.recEnv 45) (bookOf pre ++ x.before ++ its)) x.file.book fmts)
    (xfs : List XF) (hx : SheetXfs (fun its => textAt (env.recEnv 45) (bookOf pre ++ x.before ++ its)) x.file.book xfs)
    (cs : List Call) (sh : LSheet) (hr : (sheetByIndex env (libCalls env l cs).2 (pre.length : Int)).1 = .ok sh) :
    ∃ tm, OldTypesOf fmts xfs tm ∧
      let cells := cellsOf fl env.fi [] x.file.layout.items
      sh.st.store.nrows = height cells (mergedRanges env.fi x.file.layout.items) ∧ sh.st.store.ncols = width cells (mergedRanges env.fi x.file.layout.items) ∧
      ∀ r c : Nat, (r < sh.st.store.nrows ∧ c < sh.st.store.ncols →
          sh.st.store.cellType r c = .ok (cellAt tm cells r c).ty ∧ sh.st.store.cellValue r c = .ok (cellAt tm cells r c).v ∧
          (env.fi = true → sh.st.store.cellXf r c = .ok (cellAt tm cells r c).xf)) ∧
        (¬ (r < sh.st.store.nrows ∧ c < sh.st.store.ncols) → sh.st.store.cellType r c = .error .index ∧ sh.st.store.cellValue r c = .error .index) := by
  obtain ⟨_, g, b2, b3, b4, a1, a2, a3, a4, _, a5, a6, a7, a8, a9, _, a10⟩ := w_sheet hw h hn hlen hp cs hr
  have hs : (readEnv env 45 b4).sst = [] := by show b4.sst.map Prod.fst = []; rw [a8]; rfl
  have hok : x.file.layout.Ok 45 (readEnv env 45 b4).dec (readEnv env 45 b4).sst := by
    have hbk : bookOf pre ++ x.before ++ x.file.book = bookOf pre ++ x.book := by unfold SheetPart.book; rw [List.append_assoc]
    rw [hbk] at a9
    rw [hs, show (readEnv env 45 b4).dec = _ from a9]
    exact layout_ok (hw.parts pre x post hp).file
  have hcells := C31_sheet_is_its_cells (readEnv env 45 b4) (show 30 ≤ 45 by omega) x.file.layout hok [] [] sh.st (by rw [List.nil_append, List.append_nil]; exact a10)
  rw [hs] at hcells
  refine ⟨(readEnv env 45 b4).cfg.typeMap, part_types a1 a2 a3 a4 a5 a6 a7 hf hx, ?_, ?_, ?_⟩
  · exact (C14_dimensions_tight _ _ _ _ (merged_pos _ _) hcells).1
  · exact (C14_dimensions_tight _ _ _ _ (merged_pos _ _) hcells).2
  · intro r c
    exact C12_last_write_wins (readEnv env 45 b4).cfg _ _ _ (merged_pos _ _) hrag hcells r c

/-! ## The book -/

/-- C76: the date system and the countries are those of the last DATEMODE and COUNTRY records of the file, in the globals or in a sheet. -/
theorem C76_settings (env : OpenEnv) (file : Bytes) (parts : List SheetPart) (last : List GItem) (hw : Biff4w (textAt (env.recEnv 45)) file parts last) (l : Lib)
    (h : openStream env file 0 = .ok l) (ms : List Nat) (hm : Datemodes (bookOf parts ++ last) ms) (cs : List (Nat × Nat)) (hc : Countries (bookOf parts ++ last) cs) :
    l.book.datemode = ms.getLast?.getD 0 ∧ (l.book.datemode = 0 ∨ l.book.datemode = 1) ∧ l.book.countries = cs.getLast?.getD (0, 0) := by
  obtain ⟨f, shs, b1, b2, _, _, _, _, h4, _, h6, _⟩ := w_opened hw h
  obtain ⟨os, _, _, _, _, _, hb⟩ := eof_frame h6
  rw [hb]
  exact ⟨h4.datemode ms hm, h4.range, h4.countries cs hc⟩

/-- No FORMAT or XF records. -/
def NoFormatting (items : List GItem) : Prop := ∀ c d, GItem.one c d ∈ items → c ≠ 0x41e ∧ c ≠ 0xe0

theorem noFormatting_keeps {env : BookEnv} {items : List GItem} (hn : NoFormatting items) {b b' : Book} (h : applyGlobals env b items = .ok b') :
    b'.fmt.formatMap = b.fmt.formatMap ∧ b'.fmt.xfList = b.fmt.xfList := by
  induction items generalizing b with
  | nil => cases h; exact ⟨rfl, rfl⟩
  | cons it items ih =>
    obtain ⟨b1, h1, h2⟩ := bind_ok h
    obtain ⟨i1, i2⟩ := ih (fun c d hm => hn c d (List.mem_cons_of_mem _ hm)) h2
    have key : b1.fmt.formatMap = b.fmt.formatMap ∧ b1.fmt.xfList = b.fmt.xfList := by
      cases it with
      | one c d =>
        have hf := record_frame (env := env) (b := b) (b' := b1) (rc := c) (d := d) h1
        have hc := hn c d (List.mem_cons_self ..)
        exact ⟨hf.formatMap hc.1 hc.2, hf.xfList hc.2⟩
      | sst d more =>
        obtain ⟨_, _, rfl⟩ := sst_frame h1
        exact ⟨rfl, rfl⟩
      | extern d more =>
        obtain ⟨_, _, _, _, _, _, _, _, rfl⟩ := extern_frame h1
        exact ⟨rfl, rfl⟩
    exact ⟨i1.trans key.1, i2.trans key.2⟩

theorem fixParent_twice (fi : Bool) (n : Nat) (x : XF) : fixParent fi n (fixParent fi n x) = fixParent fi n x := by
  unfold fixParent
  cases fi <;> simp <;> split_ifs <;> simp_all

/-- C76: what `format_map` and `xf_list` of the book hold is only what the last worksheet says: `xf_index` of a cell of an earlier sheet means nothing
there. -/
theorem C76_last_formatting (env : OpenEnv) (file : Bytes) (pre : List SheetPart) (x : SheetPart) (last : List GItem)
    (hw : Biff4w (textAt (env.recEnv 45)) file (pre ++ [x]) last) (hlast : NoFormatting last) (l : Lib) (h : openStream env file 0 = .ok l)
    (fmts : List PyStr) (hf : OldFormats 45 (fun its => textAt (env.recEnv 45) (bookOf pre ++ x.before ++ its)) x.file.book fmts)
    (xfs : List XF) (hx : OldXfs 45 (fun its => textAt (env.recEnv 45) (bookOf pre ++ x.before ++ its)) x.file.book xfs) :
    (∀ k, (l.book.fmt.formatMap k).bind (·.str) = fmts[k]?) ∧ l.book.fmt.xfList.length = xfs.length ∧
    ∀ (i : Nat) y, xfs[i]? = some y → l.book.fmt.xfList[i]? = some { y with
      xfIndex := i
      parentStyleIndex := if env.fi = true ∧ y.isStyle = 0 ∧ ¬ y.parentStyleIndex < xfs.length then 0 else y.parentStyleIndex } := by
  obtain ⟨f, shs, b1, b2, _, h2, _, _, _, h5, h6, _⟩ := w_opened hw h
  obtain ⟨sh, g, _, _, hrun, hg⟩ := h2.at rfl
  rw [List.nil_append] at hrun
  obtain ⟨c2, c3, c4, a1, a2, a3, a4, _, a5, a6, a7, _, _, a8, _⟩ := hrun
  have hv4 : (env.recEnv 45).bv = 21 ∨ (env.recEnv 45).bv = 30 ∨ (env.recEnv 45).bv = 40 ∨ (env.recEnv 45).bv = 45 := .inr (.inr (.inr rfl))
  have hm := (oldFormats_after (env := env.recEnv 45) hv4 a1 a2 a3 hf a5 a6).1
  have hl := oldXfs_after (env := env.recEnv 45) hv4 a1 a2 a3 a4 hx a5 a6
  have hb1 : b1.fmt = c4.fmt := (hg rfl).trans a8
  obtain ⟨k1, k2⟩ := noFormatting_keeps hlast h5
  obtain ⟨os, _, _, _, _, _, hb⟩ := eof_frame h6
  have e1 : l.book.fmt.formatMap = c3.fmt.formatMap := by
    rw [hb]
    show b2.fmt.formatMap = _
    rw [k1, hb1]
    rcases a7 with rfl | rfl <;> rfl
  have e2 : l.book.fmt.xfList = (xfEpilogue env.fi c3.fmt).xfList := by
    rw [hb]
    show (xfEpilogue env.fi b2.fmt).xfList = _
    rw [xfEpilogue_list, xfEpilogue_list, k2, hb1]
    rcases a7 with rfl | rfl
    · rfl
    · show ((xfEpilogue env.fi c3.fmt).xfList).map (fixParent env.fi (xfEpilogue env.fi c3.fmt).xfList.length) = _
      rw [xfEpilogue_list, List.map_map, List.length_map]
      congr 1
      funext y
      exact fixParent_twice _ _ _
  refine ⟨?_, ?_⟩
  · intro k
    rw [e1, hm]
    cases h : fmts[k]? <;> simp [h, fmtEntry]
  · rw [e2]
    exact parents_fixed hl

theorem noFonts_keeps {env : BookEnv} {items : List GItem} (hn : ∀ c d, GItem.one c d ∈ items → c ≠ 0x31 ∧ c ≠ 0x231) {b b' : Book}
    (h : applyGlobals env b items = .ok b') : b'.fmt.fontList = b.fmt.fontList := by
  induction items generalizing b with
  | nil => cases h; rfl
  | cons it items ih =>
    obtain ⟨b1, h1, h2⟩ := bind_ok h
    have i1 := ih (fun c d hm => hn c d (List.mem_cons_of_mem _ hm)) h2
    have key : b1.fmt.fontList = b.fmt.fontList := by
      cases it with
      | one c d =>
        have hc := hn c d (List.mem_cons_self ..)
        exact (record_frame (env := env) (b := b) (b' := b1) (rc := c) (d := d) h1).font hc.1 hc.2
      | sst d more =>
        obtain ⟨_, _, rfl⟩ := sst_frame h1
        rfl
      | extern d more =>
        obtain ⟨_, _, _, _, _, _, _, _, rfl⟩ := extern_frame h1
        rfl
    exact i1.trans key

/-- C76: the same for `font_list`: with formatting information it holds the fonts of the last worksheet, numbered as in C36, and no others. -/
theorem C76_last_fonts (env : OpenEnv) (hfi : env.fi = true) (file : Bytes) (pre : List SheetPart) (x : SheetPart) (last : List GItem)
    (hw : Biff4w (textAt (env.recEnv 45)) file (pre ++ [x]) last) (hlast : ∀ c d, GItem.one c d ∈ last → c ≠ 0x31 ∧ c ≠ 0x231) (l : Lib)
    (h : openStream env file 0 = .ok l) (fonts : List Font)
    (hf : Fonts 45 (fun its => textAt (env.recEnv 45) (bookOf pre ++ x.before ++ its)) x.file.book fonts) :
    l.book.fmt.fontList.length = (if fonts.length ≤ 4 then fonts.length else fonts.length + 1) ∧
    ∀ (k : Nat) f, fonts[k]? = some f → l.book.fmt.fontList[fontNumber k]? = some { f with fontIndex := fontNumber k } := by
  obtain ⟨f, shs, b1, b2, _, h2, _, _, _, h5, h6, _⟩ := w_opened hw h
  obtain ⟨sh, g, _, _, hrun, hg⟩ := h2.at rfl
  rw [List.nil_append] at hrun
  obtain ⟨c2, c3, c4, a1, _, _, _, a4, _, a6, a7, _, _, a8, _⟩ := hrun
  have hb1 : b1.fmt = c4.fmt := (hg rfl).trans a8
  obtain ⟨os, _, _, _, _, _, hb⟩ := eof_frame h6
  have e : l.book.fmt.fontList = c3.fmt.fontList := by
    rw [hb]
    show b2.fmt.fontList = _
    rw [noFonts_keeps hlast h5, hb1]
    rcases a7 with rfl | rfl <;> rfl
  have hf' : Fonts (env.recEnv 45).bv (fun its => textAt (env.recEnv 45) (bookOf pre ++ x.before ++ its)) (x.file.book.map newItem) fonts :=
    collected_new (by rintro c (rfl | rfl) <;> rfl) (fun c hc => by
      rcases hc with hc | hc
      · exact .inl (newCode_ne (by decide) (by decide) hc)
      · exact .inr (newCode_ne (by decide) (by decide) hc)) (fun its d y hh => by
        have : textAt (env.recEnv 45) (bookOf pre ++ x.before ++ its.map newItem) = textAt (env.recEnv 45) (bookOf pre ++ x.before ++ its) := by
          unfold textAt
          rw [lastCodepage_after]
        show FontRecord (textAt (env.recEnv 45) (bookOf pre ++ x.before ++ its.map newItem)) y 45 d
        rw [this]; exact hh) hf
  obtain ⟨ha, hb, _⟩ := fonts_after (env := env.recEnv 45) hfi hf' a1 a4 a6
  rw [e]
  exact ⟨ha, hb⟩

end Xlrd
