import Verif.Lemmas.Biff2Fields
import Verif.Props.OldFile

/-!
# Files of BIFF2 (C74, C75)
-/
set_option linter.unusedSimpArgs false
namespace Xlrd
open Spec

/-! ## Opening -/

theorem b2Book_items {dec : Bytes → R PyStr} {F : B2File} (h : F.Ok dec) : BookItems 21 F.book := by
  intro it hit
  unfold B2File.book at hit
  obtain ⟨i, hi, hi2⟩ := List.mem_filterMap.mp hit
  cases i with
  | book c d => cases hi2; exact ⟨c, d, rfl, (h.codes c d hi).1⟩
  | efont c => cases hi2
  | item y => cases hi2

/-- A file has no fonts to begin with. -/
theorem oldStart_fonts {v : Nat} {fi : Bool} {f : FmtSt} (h : initialiseColourMap v fi newBook.fmt = .ok f) : (oldStart f).fmt.fontList = [] := by
  unfold initialiseColourMap at h
  cases fi with
  | false => cases h; rfl
  | true =>
    simp only [Bool.not_true, Bool.false_eq_true, if_false] at h
    obtain ⟨d, _, h⟩ := bind_ok h
    cases h
    rfl

/-- What opening such a file does. -/
theorem b2_opened {env : OpenEnv} {file : Bytes} {F : B2File} (hw : B2Workbook (textAt (env.recEnv 21)) file F) {l : Lib}
    (h : openStream env file 0 = .ok l) :
    ∃ f b1 o, initialiseColourMap 21 env.fi newBook.fmt = .ok f ∧ B2Read env (textAt (env.recEnv 21) F.book) F (oldStart f) b1 o ∧
      l = ⟨o.bv, o.book, file, [some ⟨"Sheet 1".toList, 0, 0, o.sheet⟩], true⟩ := by
  obtain ⟨⟨op, bof, rest, hb, hm⟩, hok⟩ := hw
  have hf : firstBof file 0 = .ok (21, ((encRec op bof).length : Int)) := by
    have := C52_first_bof hb [] (encRecs F.records ++ rest)
    rw [if_pos (show StartsFile 21 0x10 from Or.inr (Or.inr ⟨by omega, rfl⟩))] at this
    rw [hm, List.append_assoc]
    simpa using this
  have hg : getbof file 0 XL_WORKSHEET = .ok (21, ((encRec op bof).length : Int)) := by
    have := C52_sheet_bof hb [] (encRecs F.records ++ rest)
    rw [if_pos rfl] at this
    rw [hm, List.append_assoc]
    simpa using this
  unfold openStream at h
  rw [hf] at h
  simp only [bind, Except.bind] at h
  rw [if_pos (by omega)] at h
  unfold openSingle at h
  obtain ⟨f, hf1, h⟩ := bind_ok h
  obtain ⟨q, hq, h⟩ := bind_ok h
  rw [hg] at hq
  cases hq
  obtain ⟨o, ho, h⟩ := bind_ok h
  cases h
  have ho : oldRead env 21 file (oldStart f) ((encRec op bof).length : Int) = .ok o := ho
  rw [hm] at ho
  obtain ⟨b1, hb1⟩ := b2_file (b0 := oldStart f) rfl (oldStart_fonts hf1) hok (fun b1 hb1 => book_text (.inl rfl) (oldStart_enc _ f) hb1) ho
  exact ⟨f, b1, o, hf1, hb1, rfl⟩

/-- A book of one sheet that is loaded. -/
theorem one_sheet (env : OpenEnv) (l : Lib) (sh : LSheet) (hn : l.book.sheetNames = [sh.name]) (h6 : l.sheetList = [some sh]) (hz : sh.number = 0) (h7 : l.released = true) :
    (sheetByIndex env l 0).1 = .ok sh ∧
      (∀ cs, (libCalls env l cs).1 = ((⟨[sh.name], fun k => if k = 0 then .ok sh else .error .xlrd⟩ : File).calls
        ⟨fun k => if k < 1 then some (k : Int) else none, true⟩ cs).1) ∧
      ∀ cs sh', (sheetByIndex env (libCalls env l cs).2 0).1 = .ok sh' → sh'.st = sh.st := by
  have hsim := released_sim (env := env) h7 (by rw [h6, hn]; rfl) (by
    intro k hk
    rw [hn] at hk
    have : k = 0 := by simpa using hk
    subst this
    exact ⟨sh, by rw [h6]; rfl, hz⟩)
  have hheld : l.held = (⟨[sh.name], fun k => if k = 0 then .ok sh else .error .xlrd⟩ : File) := by
    unfold Lib.held
    rw [hn, h6]
    congr 1
    funext k
    cases k <;> rfl
  refine ⟨?_, ?_, ?_⟩
  · unfold sheetByIndex
    rw [h6]
    rfl
  · intro cs
    have := (sim_calls cs hsim).1
    rw [this, hheld]
    rfl
  · intro cs sh' hr
    have h9 := (sim_ask (sim_calls cs hsim).2 0).1
    rw [hr] at h9
    symm at h9
    obtain ⟨n, c, _, e2, e3⟩ := ask_no (k := 0) (s' := _) (Prod.ext h9 rfl) (by unfold File.sheetNo Lib.held; rw [hn]; rfl)
    have hc : c = sh := by
      simp only [Lib.held, h6] at e2
      cases e2; rfl
    rw [e3, hc]

theorem b2_book {env : OpenEnv} {F : B2File} {dec : Bytes → R PyStr} {b0 b1 : Book} {o : OldSt} (h : B2Read env dec F b0 b1 o) :
    ∃ f e c u r x, o.book = { b1 with fmt := f, encoding := e, codepage := c, userName := u, rawUser := r, xfDone := x } := by
  obtain ⟨fl, o2, ho2, hext, _⟩ := h.ext
  obtain ⟨e, c, u, r, hb⟩ := hext.book
  rw [ho2] at hb
  cases hm : hasXfs b1 with
  | true => rw [if_pos hm] at hb; exact ⟨_, e, c, u, r, true, hb⟩
  | false => rw [if_neg (by rw [hm]; decide)] at hb; exact ⟨_, e, c, u, r, b1.xfDone, hb⟩

theorem b2_names {env : OpenEnv} {file : Bytes} {F : B2File} (hw : B2Workbook (textAt (env.recEnv 21)) file F) {f : FmtSt} {b1 : Book} {o : OldSt}
    (h : B2Read env (textAt (env.recEnv 21) F.book) F (oldStart f) b1 o) : o.book.sheetNames = ["Sheet 1".toList] := by
  obtain ⟨f', e, c, u, r, x, hb⟩ := b2_book h
  rw [hb]
  exact (book_frame (env := env.recEnv 21) (.inl rfl) (b2Book_items hw.ok) h.head).2.1

/-- C74: the bytes of such a file are opened as they are. -/
theorem C74_file (env : OpenEnv) (dec : List GItem → Bytes → R PyStr) (file : Bytes) (F : B2File) (hw : B2Workbook dec file F) :
    openXls env file = some (openStream env file 0) := by
  obtain ⟨⟨op, bof, rest, hb, hm⟩, _⟩ := hw
  have hop : op = 9 ∨ op = 0x809 := by
    cases hb with
    | biff2 => exact .inl rfl
    | mixed _ _ _ _ _ _ hu => exact .inr rfl
  obtain ⟨y, ys, hf⟩ : ∃ y ys, file = 9 :: y :: ys := by
    rw [hm]
    rcases hop with rfl | rfl
    · exact ⟨_, _, rfl⟩
    · exact ⟨_, _, rfl⟩
  unfold openXls loadStream
  rw [if_neg (by rw [hf]; simp), if_pos (by
    rw [hf]
    intro h
    unfold sliceTo clampIdx at h
    rw [if_neg (by decide), List.length_cons, show min (Int.toNat 8) ((y :: ys).length + 1) = min 7 (y :: ys).length + 1 by omega, List.take_succ_cons] at h
    have := congrArg List.head? h
    revert this
    simp only [List.head?_cons]
    decide)]

/-- C74: such a file is a book with one sheet, "Sheet 1", visible and loaded, and it stays so. -/
theorem C74_one_sheet (env : OpenEnv) (file : Bytes) (F : B2File) (hw : B2Workbook (textAt (env.recEnv 21)) file F) (l : Lib)
    (h : openStream env file 0 = .ok l) :
    ∃ sh, sh.name = "Sheet 1".toList ∧ sh.number = 0 ∧ sh.visibility = 0 ∧ (sheetByIndex env l 0).1 = .ok sh ∧ l.book.sheetNames = ["Sheet 1".toList] ∧
      ∀ cs, (libCalls env l cs).1 = ((⟨["Sheet 1".toList], fun k => if k = 0 then .ok sh else .error .xlrd⟩ : File).calls
        ⟨fun k => if k < 1 then some (k : Int) else none, true⟩ cs).1 := by
  obtain ⟨f, b1, o, h1, h2, rfl⟩ := b2_opened hw h
  have hn := b2_names hw h2
  obtain ⟨a1, a2, _⟩ := one_sheet env ⟨o.bv, o.book, file, [some ⟨"Sheet 1".toList, 0, 0, o.sheet⟩], true⟩ ⟨"Sheet 1".toList, 0, 0, o.sheet⟩ hn rfl rfl rfl
  exact ⟨_, rfl, rfl, rfl, a1, hn, a2⟩

theorem b2_returned {env : OpenEnv} {file : Bytes} {F : B2File} (hw : B2Workbook (textAt (env.recEnv 21)) file F) {l : Lib} (h : openStream env file 0 = .ok l)
    {cs : List Call} {sh : LSheet} (hr : (sheetByIndex env (libCalls env l cs).2 0).1 = .ok sh) :
    ∃ f b1 o, initialiseColourMap 21 env.fi newBook.fmt = .ok f ∧ B2Read env (textAt (env.recEnv 21) F.book) F (oldStart f) b1 o ∧
      l.book = o.book ∧ l.bv = o.bv ∧ sh.st = o.sheet := by
  obtain ⟨f, b1, o, h1, h2, rfl⟩ := b2_opened hw h
  obtain ⟨_, _, a3⟩ := one_sheet env ⟨o.bv, o.book, file, [some ⟨"Sheet 1".toList, 0, 0, o.sheet⟩], true⟩ ⟨"Sheet 1".toList, 0, 0, o.sheet⟩ (b2_names hw h2) rfl rfl rfl
  exact ⟨f, b1, o, h1, h2, rfl, rfl, a3 cs sh hr⟩

/-! ## The book -/

/-- C74: the date system and the countries are those of the last DATEMODE and COUNTRY records. -/
theorem C74_settings (env : OpenEnv) (file : Bytes) (F : B2File) (hw : B2Workbook (textAt (env.recEnv 21)) file F) (l : Lib)
    (h : openStream env file 0 = .ok l) (ms : List Nat) (hm : Datemodes F.book ms) (cs : List (Nat × Nat)) (hc : Countries F.book cs) :
    l.book.datemode = ms.getLast?.getD 0 ∧ (l.book.datemode = 0 ∨ l.book.datemode = 1) ∧ l.book.countries = cs.getLast?.getD (0, 0) := by
  obtain ⟨f, b1, o, h1, h2, rfl⟩ := b2_opened hw h
  obtain ⟨f', e, c, u, r, x, hb⟩ := b2_book h2
  show o.book.datemode = _ ∧ (o.book.datemode = 0 ∨ o.book.datemode = 1) ∧ o.book.countries = _
  have hd : o.book.datemode = b1.datemode := by rw [hb]
  have hco : o.book.countries = b1.countries := by rw [hb]
  rw [hd, hco]
  obtain ⟨k1, k2⟩ := datemode_items (b0 := oldStart f) (collected_new (items := F.book) (xs := ms) (by rintro c rfl; rfl) (fun c => newCode_ne (by decide) (by decide)) (fun _ _ _ hh => hh) hm) rfl h2.head
  exact ⟨k1, k2, countries_items (b0 := oldStart f) (collected_new (items := F.book) (xs := cs) (by rintro c rfl; rfl) (fun c => newCode_ne (by decide) (by decide)) (fun _ _ _ hh => hh) hc) rfl h2.head⟩

/-- The formats and XFs at the end, against those of the records about the whole file. -/
theorem b2_fmt {env : OpenEnv} {F : B2File} {dec : Bytes → R PyStr} {b0 b1 : Book} {o : OldSt} (h : B2Read env dec F b0 b1 o) :
    ∃ fl, (env.fi = true → Painted (fontColours F.head) b1.fmt.fontList fl) ∧
      (hasXfs b1 = true → o.book.fmt = { xfEpilogue env.fi b1.fmt with fontList := fl }) ∧ (hasXfs b1 = false → FmtExt { b1.fmt with fontList := fl } o.book.fmt) := by
  obtain ⟨fl, o2, ho2, hext, hp⟩ := h.ext
  refine ⟨fl, hp, fun hm => ?_, fun hm => ?_⟩
  · rw [hext.same hm, ho2, if_pos hm]
    rfl
  · have := hext.fmt
    rw [ho2, if_neg (by rw [hm]; decide)] at this
    exact this

theorem b2_rest {env : OpenEnv} {F : B2File} {dec : Bytes → R PyStr} {b0 b1 : Book} {o : OldSt} (h : B2Read env dec F b0 b1 o) :
    (env.fi = true → Painted (fontColours F.head) b1.fmt.fontList o.book.fmt.fontList) ∧ o.book.fmt.colourMap = b1.fmt.colourMap := by
  obtain ⟨fl, hp, h1, h2⟩ := b2_fmt h
  cases hm : hasXfs b1 with
  | true => rw [h1 hm]; exact ⟨hp, rfl⟩
  | false =>
    have := (h2 hm).rest
    rw [this]; exact ⟨hp, rfl⟩

/-- C74: with formatting information, the fonts are those of the FONT records, numbered as in C36, each in the colour of the EFONT record after it. -/
theorem C74_fonts (env : OpenEnv) (hfi : env.fi = true) (file : Bytes) (F : B2File) (hw : B2Workbook (textAt (env.recEnv 21)) file F) (l : Lib)
    (h : openStream env file 0 = .ok l) (fonts : List Font) (hf : Fonts 21 (textAt (env.recEnv 21)) F.book fonts) :
    l.book.fmt.fontList.length = (if fonts.length ≤ 4 then fonts.length else fonts.length + 1) ∧
    ∀ (k : Nat) f, fonts[k]? = some f → l.book.fmt.fontList[fontNumber k]? =
      some { f with fontIndex := fontNumber k, colourIndex := ((fontColours F.head)[k]?.join).getD f.colourIndex } := by
  obtain ⟨f, b1, o, h1, h2, rfl⟩ := b2_opened hw h
  obtain ⟨m, rfl⟩ := colour_map_fields (env := env.recEnv 21) h1
  have hf' : Fonts (env.recEnv 21).bv (textAt (env.recEnv 21)) (F.book.map newItem) fonts :=
    collected_new (by rintro c (rfl | rfl) <;> rfl) (fun c hc => by
      rcases hc with hc | hc
      · exact .inl (newCode_ne (by decide) (by decide) hc)
      · exact .inr (newCode_ne (by decide) (by decide) hc)) (fun pre d x hh => by rw [textAt_new]; exact hh) hf
  obtain ⟨ha, hb, _⟩ := fonts_items (env := env.recEnv 21) hfi hf' (oldStart_enc _ _) rfl h2.head
  show o.book.fmt.fontList.length = _ ∧ ∀ (k : Nat) f, fonts[k]? = some f → o.book.fmt.fontList[fontNumber k]? = _
  have hp := (b2_rest h2).1 hfi
  exact ⟨hp.same.trans ha, fun k f hk => hp.at_ k _ (hb k f hk)⟩

/-- C74: the colours are those of the version with the PALETTE record. -/
theorem C74_colours (env : OpenEnv) (file : Bytes) (F : B2File) (hw : B2Workbook (textAt (env.recEnv 21)) file F) (l : Lib)
    (h : openStream env file 0 = .ok l) (dflt : List Rgb) (hd : defaultPalette 21 = .ok dflt) (ps : List (List Rgb)) (hp : Palettes F.book ps) (i : Nat) :
    itemsGet l.book.fmt.colourMap i = if env.fi then ColourAt dflt ps.flatten i else none := by
  obtain ⟨f, b1, o, h1, h2, rfl⟩ := b2_opened hw h
  show itemsGet o.book.fmt.colourMap i = _
  rw [(b2_rest h2).2]
  exact colours_items (env := env.recEnv 21) hd (collected_new (by rintro c rfl; rfl) (fun c => newCode_ne (by decide) (by decide)) (fun _ _ _ hh => hh) hp) h1 rfl h2.head i

theorem b2_xfs {env : OpenEnv} {file : Bytes} {F : B2File} (hw : B2Workbook (textAt (env.recEnv 21)) file F) {f : FmtSt} (hf : initialiseColourMap 21 env.fi newBook.fmt = .ok f)
    {b1 : Book} {o : OldSt} (h : B2Read env (textAt (env.recEnv 21) F.book) F (oldStart f) b1 o) {xfs : List XF} (hx : OldXfs 21 (textAt (env.recEnv 21)) F.book xfs) :
    b1.fmt.xfList = xfs.mapIdx (fun i x => { x with xfIndex := i }) ∧ (hasXfs b1 = true ↔ xfs ≠ []) := by
  obtain ⟨m, rfl⟩ := colour_map_fields (env := env.recEnv 21) hf
  have hl := oldXfs_items (env := env.recEnv 21) (.inl rfl) (oldStart_enc _ _) rfl rfl rfl hx (b2Book_items hw.ok) h.head
  refine ⟨hl, ?_⟩
  rw [hasXfs_true, hl]
  simp

/-- C74: with XF records, the number formats are those of the FORMAT records, numbered in file order. -/
theorem C74_formats (env : OpenEnv) (file : Bytes) (F : B2File) (hw : B2Workbook (textAt (env.recEnv 21)) file F) (l : Lib)
    (h : openStream env file 0 = .ok l) (xfs : List XF) (hx : OldXfs 21 (textAt (env.recEnv 21)) F.book xfs) (hxn : xfs ≠ [])
    (fmts : List PyStr) (hf : OldFormats 21 (textAt (env.recEnv 21)) F.book fmts) (k : Nat) :
    (l.book.fmt.formatMap k).bind (·.str) = fmts[k]? := by
  obtain ⟨f, b1, o, h1, h2, rfl⟩ := b2_opened hw h
  have hm := (b2_xfs hw h1 h2 hx).2.mpr hxn
  obtain ⟨m, rfl⟩ := colour_map_fields (env := env.recEnv 21) h1
  have := (oldFormats_items (env := env.recEnv 21) (.inl rfl) (oldStart_enc _ _) rfl rfl hf (b2Book_items hw.ok) h2.head).1
  show (o.book.fmt.formatMap k).bind _ = _
  have e : o.book.fmt.formatMap = b1.fmt.formatMap := by obtain ⟨fl, _, hk, _⟩ := b2_fmt h2; rw [hk hm]; rfl
  rw [e, this]
  cases h : fmts[k]? <;> simp [h, fmtEntry]

/-- C74: with XF records, the list of XFs holds the XF records in file order (as in C35). -/
theorem C74_xf_list (env : OpenEnv) (file : Bytes) (F : B2File) (hw : B2Workbook (textAt (env.recEnv 21)) file F) (l : Lib)
    (h : openStream env file 0 = .ok l) (xfs : List XF) (hx : OldXfs 21 (textAt (env.recEnv 21)) F.book xfs) (hxn : xfs ≠ []) :
    l.bv = 21 ∧ l.book.fmt.xfList.length = xfs.length ∧
    ∀ (i : Nat) x, xfs[i]? = some x → l.book.fmt.xfList[i]? = some { x with
      xfIndex := i
      parentStyleIndex := if env.fi = true ∧ x.isStyle = 0 ∧ ¬ x.parentStyleIndex < xfs.length then 0 else x.parentStyleIndex } := by
  obtain ⟨f, b1, o, h1, h2, rfl⟩ := b2_opened hw h
  obtain ⟨hl, hm⟩ := b2_xfs hw h1 h2 hx
  have hm := hm.mpr hxn
  refine ⟨(h2.inv.xfs hm).1, ?_⟩
  show o.book.fmt.xfList.length = _ ∧ ∀ (i : Nat) x, xfs[i]? = some x → o.book.fmt.xfList[i]? = _
  obtain ⟨fl, _, hk, _⟩ := b2_fmt h2
  rw [hk hm]
  exact parents_fixed hl

/-! ## The sheet -/

macro "plain_cases" x:ident hp:ident hx:ident : tactic =>
  `(tactic| (cases $x:ident <;> first | (cases $hp:ident; done) | (simp only [applyItem, Except.ok.injEq] at $hx:ident; subst $hx:ident; first | rfl | (split_ifs <;> rfl))))

theorem flatMap_if {α β : Type} (b : Bool) (g : List α → List β) (h0 : g [] = []) (h1 : ∀ x l, g (x :: l) = g [x] ++ g l) (l : List α) :
    l.flatMap (fun x => if b then g [x] else []) = if b then g l else [] := by
  cases b with
  | false => simp
  | true =>
    simp only [if_true]
    induction l with
    | nil => rw [h0]; rfl
    | cons x l ih => rw [List.flatMap_cons, ih, ← h1]

theorem apply_one {E : SheetEnv} {s s' : SheetSt} {x : SheetItem} (h : applyItem E s x = .ok s') : applyItems E s [x] = .ok s' := by
  rw [applyItems_cons, h]; rfl

/-- C74: the page breaks, the default sizes, the panes and the magnification are those of the last record of each kind (all page breaks), as in C40 and C58 to C60. -/
theorem C74_sheet_settings (env : OpenEnv) (file : Bytes) (F : B2File) (hw : B2Workbook (textAt (env.recEnv 21)) file F) (l : Lib)
    (h : openStream env file 0 = .ok l) (cs : List Call) (sh : LSheet) (hr : (sheetByIndex env (libCalls env l cs).2 0).1 = .ok sh) :
    let xs := settingsB2 F.items
    sh.st.hbreaks = (if env.fi then hbreaksOf xs else []) ∧ sh.st.vbreaks = (if env.fi then vbreaksOf xs else []) ∧
    sh.st.defcolwidth = (defColWidthsOf xs).getLast? ∧ sh.st.standardwidth = (stdWidthsOf xs).getLast? ∧
    sh.st.defaultRowHeight = (rowHeightsOf xs).getLast?.map (·.1) ∧
    (sh.st.defaultRowHeightMismatch, sh.st.defaultRowHidden, sh.st.defaultSpaceAbove, sh.st.defaultSpaceBelow) =
      (((rowHeightsOf xs).getLast?.map fun x => (bit x.2.1, bit x.2.2.1, bit x.2.2.2.1, bit x.2.2.2.2)).getD (0, 0, 0, 0)) ∧
    (sh.st.vertSplitPos, sh.st.horzSplitPos, sh.st.horzSplitFirstVisible, sh.st.vertSplitFirstVisible, sh.st.splitActivePane) =
      (panesOf xs).getLast?.getD (0, 0, 0, 0, 0) ∧
    sh.st.cookedNormal = scaleOf xs ∧ sh.st.cookedPageBreak = 60 := by
  obtain ⟨f, b1, o, h1, h2, _, _, hst⟩ := b2_returned hw h hr
  intro xs
  rw [hst]
  refine ⟨?_, ?_, ?_, ?_, ?_, ?_, ?_, ?_⟩
  · rw [b2_append (π := fun s => s.hbreaks) ⟨fun _ _ _ _ => rfl, fun _ _ _ _ => rfl, fun _ _ _ _ => rfl, fun _ _ _ _ _ _ => rfl⟩ h2 hw.ok
      (fun x => if env.fi then hbreaksOf [x] else []) rfl (fun s x s' _ hx => items_hbreaks (apply_one hx))]
    exact flatMap_if _ _ rfl (fun x l => by simp [hbreaksOf]) _
  · rw [b2_append (π := fun s => s.vbreaks) ⟨fun _ _ _ _ => rfl, fun _ _ _ _ => rfl, fun _ _ _ _ => rfl, fun _ _ _ _ _ _ => rfl⟩ h2 hw.ok
      (fun x => if env.fi then vbreaksOf [x] else []) rfl (fun s x s' _ hx => items_vbreaks (apply_one hx))]
    exact flatMap_if _ _ rfl (fun x l => by simp [vbreaksOf]) _
  · rw [b2_last (π := fun s => s.defcolwidth) ⟨fun _ _ _ _ => rfl, fun _ _ _ _ => rfl, fun _ _ _ _ => rfl, fun _ _ _ _ _ _ => rfl⟩ h2 hw.ok
      (fun i => match i with | .defcolwidth w _ => some (some w) | _ => none) (fun s x s' hp hx => by plain_cases x hp hx)]
    rw [filterMap_last_d _ _ (fun i => match i with | .defcolwidth w _ => some w | _ => none) some _ (by intro x; cases x <;> rfl)]
    show (Option.map some (defColWidthsOf xs).getLast?).getD none = _
    cases (defColWidthsOf xs).getLast? <;> rfl
  · rw [b2_last (π := fun s => s.standardwidth) ⟨fun _ _ _ _ => rfl, fun _ _ _ _ => rfl, fun _ _ _ _ => rfl, fun _ _ _ _ _ _ => rfl⟩ h2 hw.ok
      (fun i => match i with | .stdwidth w _ => some (some w) | _ => none) (fun s x s' hp hx => by plain_cases x hp hx)]
    rw [filterMap_last_d _ _ (fun i => match i with | .stdwidth w _ => some w | _ => none) some _ (by intro x; cases x <;> rfl)]
    show (Option.map some (stdWidthsOf xs).getLast?).getD none = _
    cases (stdWidthsOf xs).getLast? <;> rfl
  · rw [b2_last (π := fun s => s.defaultRowHeight) ⟨fun _ _ _ _ => rfl, fun _ _ _ _ => rfl, fun _ _ _ _ => rfl, fun _ _ _ _ _ _ => rfl⟩ h2 hw.ok
      (fun i => match i with | .defrowheight _ _ _ _ _ ht => some (some ht) | _ => none) (fun s x s' hp hx => by plain_cases x hp hx)]
    rw [filterMap_last_d _ _ (fun i => match i with | SheetItem.defrowheight m h a b _ ht => some (ht, m, h, a, b) | _ => none)
        (fun x => some x.1) _ (by intro x; cases x <;> rfl)]
    show (Option.map _ (rowHeightsOf xs).getLast?).getD none = _
    cases (rowHeightsOf xs).getLast? <;> rfl
  · rw [b2_last (π := fun s => (s.defaultRowHeightMismatch, s.defaultRowHidden, s.defaultSpaceAbove, s.defaultSpaceBelow))
      ⟨fun _ _ _ _ => rfl, fun _ _ _ _ => rfl, fun _ _ _ _ => rfl, fun _ _ _ _ _ _ => rfl⟩ h2 hw.ok
      (fun i => match i with | .defrowheight m h a b _ _ => some (bit m, bit h, bit a, bit b) | _ => none) (fun s x s' hp hx => by plain_cases x hp hx)]
    rw [filterMap_last_d _ _ (fun i => match i with | SheetItem.defrowheight m h a b _ ht => some (ht, m, h, a, b) | _ => none)
        (fun x : Nat × Bool × Bool × Bool × Bool => (bit x.2.1, bit x.2.2.1, bit x.2.2.2.1, bit x.2.2.2.2)) _ (by intro x; cases x <;> rfl)]
    rfl
  · rw [b2_last (π := fun s => (s.vertSplitPos, s.horzSplitPos, s.horzSplitFirstVisible, s.vertSplitFirstVisible, s.splitActivePane))
      ⟨fun _ _ _ _ => rfl, fun _ _ _ _ => rfl, fun _ _ _ _ => rfl, fun _ _ _ _ _ _ => rfl⟩ h2 hw.ok
      (fun i => match i with | .pane v h hf vf a _ => some (v, h, hf, vf, a.toNat) | _ => none) (fun s x s' hp hx => by plain_cases x hp hx)]
    rfl
  · obtain ⟨s1, a, b, s3, e1, e2, e3⟩ := h2.steps
    obtain ⟨_, f2⟩ := finish_fields e3
    obtain ⟨ca, cb, ec⟩ := cooked_other { s3 with store := o.sheet.store }
    have f3 := f2
    rw [ec] at f3
    have hwin : s3.window2.getD 11 0 = 0 := by
      have := (b2_window h2 hw.ok).2
      rw [f3] at this
      exact this
    have hscl : s3.scl = (zoomsOf xs).getLast?.map fun p => scale p.1 p.2 := by
      have hl := b2_last (π := fun s => s.scl) ⟨fun _ _ _ _ => rfl, fun _ _ _ _ => rfl, fun _ _ _ _ => rfl, fun _ _ _ _ _ _ => rfl⟩ h2 hw.ok
        (fun i => match i with | .zoom n d => some (some (scale n d)) | _ => none) (fun s x s' hp hx => by plain_cases x hp hx)
      rw [filterMap_last_d _ _ (fun i => match i with | SheetItem.zoom n d => some (n, d) | _ => none) (fun p => some (scale p.1 p.2)) _ (by intro x; cases x <;> rfl)] at hl
      have e : o.sheet.scl = s3.scl := by rw [f3]
      rw [← e, hl]
      show (Option.map _ (zoomsOf xs).getLast?).getD none = _
      cases (zoomsOf xs).getLast? <;> rfl
    have hc : s3.cachedPageBreak = 0 := by
      have hl := b2_last (π := fun s => s.cachedPageBreak) ⟨fun _ _ _ _ => rfl, fun _ _ _ _ => rfl, fun _ _ _ _ => rfl, fun _ _ _ _ _ _ => rfl⟩ h2 hw.ok
        (fun _ => none) (fun s x s' hp hx => by plain_cases x hp hx)
      rw [List.filterMap_none] at hl
      have e : o.sheet.cachedPageBreak = s3.cachedPageBreak := by rw [f3]
      rw [← e, hl]; rfl
    rw [f2]
    unfold updateCooked scaleOf
    simp only [hwin, hscl, hc]
    cases (zoomsOf xs).getLast? with
    | none => exact ⟨rfl, rfl⟩
    | some z => exact ⟨rfl, rfl⟩

/-- C74, partly: the first row and column shown, whether the colour of the grid lines is automatic, and this colour (the nearest of the palette) are those of the last WINDOW2
record.  The other options of the record are lost (`C74_window_options_lost`). -/
theorem C74_window_partial (env : OpenEnv) (file : Bytes) (F : B2File) (hw : B2Workbook (textAt (env.recEnv 21)) file F) (l : Lib)
    (h : openStream env file 0 = .ok l) (cs : List Call) (sh : LSheet) (hr : (sheetByIndex env (libCalls env l cs).2 0).1 = .ok sh) :
    match (windowsB2 F.items).getLast? with
    | none => sh.st.window2 = defaultWindow.map bit ∧ sh.st.firstVisibleRowx = 0 ∧ sh.st.firstVisibleColx = 0 ∧ sh.st.gridlineColourIndex = 0x40
    | some (top, left, auto, rgb) => sh.st.window2.getD 5 0 = auto ∧ sh.st.firstVisibleRowx = top ∧ sh.st.firstVisibleColx = left ∧
        sh.st.gridlineColourIndex = nearestColourIndex l.book.fmt.colourMap rgb := by
  obtain ⟨f, b1, o, h1, h2, hb, _, hst⟩ := b2_returned hw h hr
  have := (b2_window h2 hw.ok).1
  rw [hst, hb]
  cases hl : (windowsB2 F.items).getLast? with
  | none => rw [hl] at this; exact this
  | some q =>
    obtain ⟨top, left, auto, rgb⟩ := q
    rw [hl] at this
    obtain ⟨k1, k2, k3, k4⟩ := this
    have k4 : Except.ok (nearestColourIndex o.book.fmt.colourMap rgb) = (Except.ok o.sheet.gridlineColourIndex : R Nat) := k4
    exact ⟨by rw [k1]; rfl, k2, k3, (Except.ok.inj k4).symm⟩

/-- The options of a WINDOW2 record of BIFF2 (show formulas, show grid lines, show headings, freeze panes, show zero values) do not hold: after any such record they are all
reported as set. -/
theorem C74_window_options_lost (env : OpenEnv) (file : Bytes) (F : B2File) (hw : B2Workbook (textAt (env.recEnv 21)) file F) (l : Lib)
    (h : openStream env file 0 = .ok l) (cs : List Call) (sh : LSheet) (hr : (sheetByIndex env (libCalls env l cs).2 0).1 = .ok sh) (hne : windowsB2 F.items ≠ []) :
    sh.st.window2.take 5 = [1, 1, 1, 1, 1] := by
  obtain ⟨f, b1, o, h1, h2, hb, _, hst⟩ := b2_returned hw h hr
  have := (b2_window h2 hw.ok).1
  rw [hst]
  cases hl : (windowsB2 F.items).getLast? with
  | none => rw [List.getLast?_eq_none_iff] at hl; exact absurd hl hne
  | some q =>
    obtain ⟨top, left, auto, rgb⟩ := q
    rw [hl] at this
    rw [this.1]; rfl

theorem b2_types {env : OpenEnv} {file : Bytes} {F : B2File} (hw : B2Workbook (textAt (env.recEnv 21)) file F) {f : FmtSt} (hf : initialiseColourMap 21 env.fi newBook.fmt = .ok f)
    {b1 : Book} {o : OldSt} (h : B2Read env (textAt (env.recEnv 21) F.book) F (oldStart f) b1 o) {fmts : List PyStr} (hfm : OldFormats 21 (textAt (env.recEnv 21)) F.book fmts)
    (hne : fmts ≠ []) {xfs : List XF} (hx : OldXfs 21 (textAt (env.recEnv 21)) F.book xfs) (hxn : xfs ≠ []) : OldTypesOf fmts xfs (o.env env).cfg.typeMap := by
  intro i x hi
  have hm := (b2_xfs hw hf h hx).2.mpr hxn
  obtain ⟨m, rfl⟩ := colour_map_fields (env := env.recEnv 21) hf
  have hk := oldXfs_known hx hfm hne (List.mem_of_getElem? hi)
  have ht := oldTypes_items (.inl rfl) (oldStart_enc _ _) rfl rfl rfl (b2Book_items hw.ok) hfm hx h.head i x hi
  have ht' : (o.env env).cfg.typeMap i = some (if isDateFormatString fmts[x.formatKey] then XL_CELL_DATE else XL_CELL_NUMBER) := by
    show (if (0 : Int) ≤ ((i : Nat) : Int) then o.book.fmt.typeMap ((i : Nat) : Int).toNat else none) = _
    obtain ⟨fl, _, hfm, _⟩ := b2_fmt h
    rw [if_pos (Int.natCast_nonneg _), Int.toNat_natCast, hfm hm]
    have ht : (xfEpilogue env.fi b1.fmt).typeMap i = _ := ht
    rw [List.getElem?_eq_getElem hk] at ht
    exact ht
  refine ⟨_, List.getElem?_eq_getElem hk, ?_, ?_⟩
  · intro hdate
    rw [ht', if_pos ((isDate_spec _).mpr hdate)]
  · intro hdate
    rw [ht', if_neg (fun hh => hdate ((isDate_spec _).mp hh))]

/-- C74: every cell of a file with XF records (Excel 2.1): inside the sheet, `cell_type` and `cell_value` (and `cell_xf_index`) are those of the last cell record written for that
position, a number being a date exactly if the format of its XF is a date format; `nrows` and `ncols` are just large enough.  The XF of a cell is the one that its attributes
name, or the one of the last IXFE record before the cell if they name 63. -/
theorem C74_cell (env : OpenEnv) (hrag : env.ragged = false) (file : Bytes) (F : B2File) (hw : B2Workbook (textAt (env.recEnv 21)) file F)
    (fmts : List PyStr) (hf : OldFormats 21 (textAt (env.recEnv 21)) F.book fmts) (hne : fmts ≠ []) (xfs : List XF)
    (hx : OldXfs 21 (textAt (env.recEnv 21)) F.book xfs) (hxn : xfs ≠ []) (l : Lib)
    (h : openStream env file 0 = .ok l) (cs : List Call) (sh : LSheet) (hr : (sheetByIndex env (libCalls env l cs).2 0).1 = .ok sh) :
    (∀ q ∈ withIxfe none F.items, ∀ a ∈ q.2.attrs env.fi, a.slot = 63 → ∃ x, q.1 = some x) ∧
    ∃ tm, OldTypesOf fmts xfs tm ∧
      let cells := cellsB2 env.fi (fun ixfe a => ixfeIndex ixfe a.slot) F.items
      sh.st.store.nrows = height cells [] ∧ sh.st.store.ncols = width cells [] ∧
      ∀ r c : Nat, (r < sh.st.store.nrows ∧ c < sh.st.store.ncols →
          sh.st.store.cellType r c = .ok (cellAt tm cells r c).ty ∧ sh.st.store.cellValue r c = .ok (cellAt tm cells r c).v ∧
          (env.fi = true → sh.st.store.cellXf r c = .ok (cellAt tm cells r c).xf)) ∧
        (¬ (r < sh.st.store.nrows ∧ c < sh.st.store.ncols) → sh.st.store.cellType r c = .error .index ∧ sh.st.store.cellValue r c = .error .index) := by
  obtain ⟨f, b1, o, h1, h2, hb, _, hst⟩ := b2_returned hw h hr
  have hm := (b2_xfs hw h1 h2 hx).2.mpr hxn
  obtain ⟨p1, _⟩ := b2_parts h2 hw.ok
  have hxf : xfOf (hasXfs b1) o = fun ixfe a => ixfeIndex ixfe a.slot := by
    funext i a
    unfold xfOf
    rw [if_pos hm]
  rw [hxf] at p1
  rw [hst]
  refine ⟨fun q hq a ha h63 => ?_, (o.env env).cfg.typeMap, b2_types hw h1 h2 hf hne hx hxn, ?_, ?_, ?_⟩
  · have := (h2.known q hq a ha).1 hm h63
    exact Option.ne_none_iff_exists'.mp this
  · exact (C14_dimensions_tight _ _ _ _ (fun m hm => by cases hm) p1).1
  · exact (C14_dimensions_tight _ _ _ _ (fun m hm => by cases hm) p1).2
  · intro r c
    exact C12_last_write_wins (o.env env).cfg _ _ _ (fun m hm => by cases hm) hrag p1 r c

/-- C74, partly: the attributes of rows (with formatting information) are those of the last ROW record: height, whether this is the default height, and the default XF, as
for cells; those of columns are the last width and the last default XF given to each.  The other attributes of a row are not set at all (`unset`): asking for its
`outline_level`, for instance, raises AttributeError. -/
theorem C74_rows_partial (env : OpenEnv) (file : Bytes) (F : B2File) (hw : B2Workbook (textAt (env.recEnv 21)) file F) (xfs : List XF)
    (hx : OldXfs 21 (textAt (env.recEnv 21)) F.book xfs) (hxn : xfs ≠ []) (l : Lib)
    (h : openStream env file 0 = .ok l) (cs : List Call) (sh : LSheet) (hr : (sheetByIndex env (libCalls env l cs).2 0).1 = .ok sh) (k : Nat) :
    sh.st.rowinfo k = lastEntry (rowsB2 env.fi (fun ixfe a => ixfeIndex ixfe a.slot) F.items) k ∧
      sh.st.colinfo k = colAt (widthsB2 env.fi F.items) (defaultsB2 env.fi (fun ixfe a => ixfeIndex ixfe a.slot) F.items) k := by
  obtain ⟨f, b1, o, h1, h2, hb, _, hst⟩ := b2_returned hw h hr
  have hm := (b2_xfs hw h1 h2 hx).2.mpr hxn
  obtain ⟨_, p2, p3, _⟩ := b2_parts h2 hw.ok
  have hxf : xfOf (hasXfs b1) o = fun ixfe a => ixfeIndex ixfe a.slot := by
    funext i a
    unfold xfOf
    rw [if_pos hm]
  rw [hxf] at p2 p3
  rw [hst, p2, p3]
  refine ⟨?_, ?_⟩
  · unfold rowMap
    rw [if_pos (Int.natCast_nonneg _), Int.toNat_natCast]
  · unfold colMap
    rw [if_pos (Int.natCast_nonneg _), Int.toNat_natCast]

/-! ## Excel 2.0 -/

/-- The type of a number formatted by these attributes. -/
def AttrType (fmts : List PyStr) (a : CellAttr) (t : Option Nat) : Prop :=
  (IsDateFormat (fmts[a.format]?.getD "General".toList) → t = some XL_CELL_DATE) ∧ (¬ IsDateFormat (fmts[a.format]?.getD "General".toList) → t = some XL_CELL_NUMBER)

/-- What is known of the attributes in a file without XF records. -/
theorem b2_numbers {env : OpenEnv} {file : Bytes} {F : B2File} (hw : B2Workbook (textAt (env.recEnv 21)) file F) {f : FmtSt} (hf : initialiseColourMap 21 env.fi newBook.fmt = .ok f)
    {b1 : Book} {o : OldSt} (h : B2Read env (textAt (env.recEnv 21) F.book) F (oldStart f) b1 o) {fmts : List PyStr} (hfm : OldFormats 21 (textAt (env.recEnv 21)) F.book fmts)
    (hm : hasXfs b1 = false) :
    (∀ a ∈ attrsB2 env.fi F.items, a.slot = 0 ∧ 15 ≤ xfOf false o none a ∧ o.book.fmt.xfList[xfOf false o none a]? = some (a.xf (xfOf false o none a)) ∧
      AttrType fmts a ((o.env env).cfg.typeMap (xfOf false o none a))) ∧
    (∀ a ∈ attrsB2 env.fi F.items, ∀ b ∈ attrsB2 env.fi F.items, xfOf false o none a = xfOf false o none b → a = b) ∧
    (attrsB2 env.fi F.items ≠ [] → o.bv = 20) ∧
    (∀ a ∈ attrsB2 env.fi F.items, xfOf false o none a = attrNumber (attrsB2 env.fi F.items) a) := by
  obtain ⟨m, rfl⟩ := colour_map_fields (env := env.recEnv 21) hf
  have hfmt := (oldFormats_items (env := env.recEnv 21) (.inl rfl) (oldStart_enc _ _) rfl rfl hfm (b2Book_items hw.ok) h.head).1
  obtain ⟨fl, _, _, hext⟩ := b2_fmt h
  have hext := hext hm
  obtain ⟨hbv, hgood⟩ := h.inv.none hm
  have key : ∀ a ∈ attrsB2 env.fi F.items, a.slot = 0 ∧ ∃ k, o.attrXf a.bytes = some k := by
    intro a ha
    obtain ⟨x, hx, hax⟩ := List.mem_flatMap.mp ha
    obtain ⟨i, hi⟩ : ∃ i, (i, x) ∈ withIxfe none F.items := by
      have : ∀ (l : List B2Item) i, x ∈ l → ∃ j, (j, x) ∈ withIxfe i l := by
        intro l
        induction l with
        | nil => intro i h; cases h
        | cons y l ih =>
          intro i hxl
          rw [withIxfe_cons]
          rcases List.mem_cons.mp hxl with rfl | hxl
          · exact ⟨i, List.mem_cons_self ..⟩
          · obtain ⟨j, hj⟩ := ih (nextIxfe i y) hxl
            exact ⟨j, List.mem_cons_of_mem _ hj⟩
      exact this _ _ hx
    exact (h.known _ hi a hax).2 hm
  have hof : ∀ a k, o.attrXf a = some k → ∀ b : CellAttr, b.bytes = a → xfOf false o none b = k := by
    rintro a k hk b rfl
    unfold xfOf
    rw [if_neg (by decide), hk]; rfl
  refine ⟨?_, ?_, ?_, ?_⟩
  · intro a ha
    obtain ⟨h0, k, hk⟩ := key a ha
    rw [hof _ _ hk a rfl]
    obtain ⟨s1, s2, ft, s3, s4⟩ := hgood.stands a k hk
    refine ⟨h0, s1, s2, ?_⟩
    have ht : (o.env env).cfg.typeMap (k : Int) = o.book.fmt.typeMap k := by
      show (if (0 : Int) ≤ ((k : Nat) : Int) then o.book.fmt.typeMap ((k : Nat) : Int).toNat else none) = _
      rw [if_pos (Int.natCast_nonneg _), Int.toNat_natCast]
    rw [ht, s4]
    unfold AttrType
    cases he : fmts[a.format]? with
    | some s =>
      have hk1 := hext.known a.format (fmtEntry a.format s) (by rw [hfmt]; simp [he])
      rw [s3] at hk1
      cases hk1
      simp only [Option.getD_some, fmtEntry]
      refine ⟨fun hd => ?_, fun hd => ?_⟩
      · rw [if_pos ((isDate_spec _).mpr hd)]; rfl
      · rw [if_neg (fun hh => hd ((isDate_spec _).mp hh))]; rfl
    | none =>
      have hnd : ¬ IsDateFormat "General".toList := fun hd => by
        have := (isDate_spec _).mpr hd
        revert this
        decide +kernel
      rcases hext.fresh a.format (by rw [hfmt]; simp [he]) with hk1 | hk1
      · rw [s3] at hk1; cases hk1
      · rw [s3] at hk1
        cases hk1
        exact ⟨fun hd => absurd hd hnd, fun _ => rfl⟩
  · intro a ha b hb e
    obtain ⟨_, k, hk⟩ := key a ha
    obtain ⟨_, k', hk'⟩ := key b hb
    rw [hof _ _ hk a rfl, hof _ _ hk' b rfl] at e
    subst e
    exact attr_bytes_inj (hgood.inj _ _ _ hk hk')
  · intro hne
    obtain ⟨a, ha⟩ := List.exists_mem_of_ne_nil _ hne
    obtain ⟨_, k, hk⟩ := key a ha
    rcases h.inv.ver with hv | hv
    · have := hgood.lt _ _ hk
      rw [hbv hv] at this
      simp at this
    · exact hv
  · intro a ha
    obtain ⟨_, k, hk⟩ := key a ha
    rw [hof _ _ hk a rfl]
    have := (h.num hm).xf a
    rw [hk] at this
    unfold attrNumber
    by_cases c1 : a ∈ ownXfs (attrsB2 env.fi F.items)
    · rw [if_pos c1] at this ⊢
      exact Option.some.inj this
    · rw [if_neg c1] at this ⊢
      by_cases c2 : a = plainAttr ∧ ownXfs (attrsB2 env.fi F.items) ≠ []
      · rw [if_pos c2] at this
        exact Option.some.inj this
      · rw [if_neg c2] at this; cases this

/-- C75: every cell of a file without XF records (Excel 2.0): each combination of cell attributes in use gets a number of its own, in the order of first use (`attrNumber`); the list of XFs has at this number an XF
that says just what the attributes say; a number is a date exactly if the format named by the attributes ("General" if there is no such FORMAT record) is a date format.
Type, value and XF index of a cell are those of the last cell record for its position, and `nrows` and `ncols` are just large enough.  `biff_version` is 20. -/
theorem C75_cell_partial (env : OpenEnv) (hrag : env.ragged = false) (file : Bytes) (F : B2File) (hw : B2Workbook (textAt (env.recEnv 21)) file F)
    (fmts : List PyStr) (hf : OldFormats 21 (textAt (env.recEnv 21)) F.book fmts) (hx : OldXfs 21 (textAt (env.recEnv 21)) F.book []) (l : Lib)
    (h : openStream env file 0 = .ok l) (cs : List Call) (sh : LSheet) (hr : (sheetByIndex env (libCalls env l cs).2 0).1 = .ok sh) :
    (attrsB2 env.fi F.items ≠ [] → l.bv = 20) ∧
    ∃ (tm : Int → Option Nat) (num : CellAttr → Nat),
      (∀ a ∈ attrsB2 env.fi F.items, a.slot = 0 ∧ 15 ≤ num a ∧ l.book.fmt.xfList[num a]? = some (a.xf (num a)) ∧ AttrType fmts a (tm (num a))) ∧
      (∀ a ∈ attrsB2 env.fi F.items, ∀ b ∈ attrsB2 env.fi F.items, num a = num b → a = b) ∧
      (∀ a ∈ attrsB2 env.fi F.items, num a = attrNumber (attrsB2 env.fi F.items) a) ∧
      let cells := cellsB2 env.fi (fun _ => num) F.items
      sh.st.store.nrows = height cells [] ∧ sh.st.store.ncols = width cells [] ∧
      (∀ r c : Nat, (r < sh.st.store.nrows ∧ c < sh.st.store.ncols →
          sh.st.store.cellType r c = .ok (cellAt tm cells r c).ty ∧ sh.st.store.cellValue r c = .ok (cellAt tm cells r c).v ∧
          (env.fi = true → sh.st.store.cellXf r c = .ok (cellAt tm cells r c).xf)) ∧
        (¬ (r < sh.st.store.nrows ∧ c < sh.st.store.ncols) → sh.st.store.cellType r c = .error .index ∧ sh.st.store.cellValue r c = .error .index)) ∧
      ∀ k : Nat, sh.st.rowinfo k = lastEntry (rowsB2 env.fi (fun _ => num) F.items) k ∧
        sh.st.colinfo k = colAt (widthsB2 env.fi F.items) (defaultsB2 env.fi (fun _ => num) F.items) k := by
  obtain ⟨f, b1, o, h1, h2, hb, hv, hst⟩ := b2_returned hw h hr
  have hm : hasXfs b1 = false := by
    cases hm : hasXfs b1 with
    | false => rfl
    | true => exact absurd rfl ((b2_xfs hw h1 h2 hx).2.mp hm)
  obtain ⟨n1, n2, n3, n4⟩ := b2_numbers hw h1 h2 hf hm
  obtain ⟨p1, p2, p3, _⟩ := b2_parts h2 hw.ok
  have hxf : xfOf (hasXfs b1) o = fun _ => xfOf false o none := by
    funext i a
    rw [hm]
    rfl
  rw [hxf] at p1 p2 p3
  rw [hst, hb, hv]
  refine ⟨n3, (o.env env).cfg.typeMap, xfOf false o none, n1, n2, n4, ?_, ?_, ?_, ?_⟩
  · exact (C14_dimensions_tight _ _ _ _ (fun m hm => by cases hm) p1).1
  · exact (C14_dimensions_tight _ _ _ _ (fun m hm => by cases hm) p1).2
  · intro r c
    exact C12_last_write_wins (o.env env).cfg _ _ _ (fun m hm => by cases hm) hrag p1 r c
  · intro k
    rw [p2, p3]
    unfold rowMap colMap
    rw [if_pos (Int.natCast_nonneg _), if_pos (Int.natCast_nonneg _), Int.toNat_natCast]
    exact ⟨rfl, rfl⟩

/-- C75: the XFs of such a file are sixteen and one more for each combination of attributes that has its own; there are none if no attributes are in use. -/
theorem C75_xf_count (env : OpenEnv) (file : Bytes) (F : B2File) (hw : B2Workbook (textAt (env.recEnv 21)) file F) (l : Lib)
    (h : openStream env file 0 = .ok l) (hx : OldXfs 21 (textAt (env.recEnv 21)) F.book []) :
    l.book.fmt.xfList.length = if attrsB2 env.fi F.items = [] then 0 else 16 + (ownXfs (attrsB2 env.fi F.items)).length := by
  obtain ⟨f, b1, o, h1, h2, rfl⟩ := b2_opened hw h
  have hm : hasXfs b1 = false := by
    cases hm : hasXfs b1 with
    | false => rfl
    | true => exact absurd rfl ((b2_xfs hw h1 h2 hx).2.mp hm)
  have hl := (h2.num hm).len
  show o.book.fmt.xfList.length = _
  rw [hl]
  by_cases c : attrsB2 env.fi F.items = []
  · rw [if_pos c, c, if_pos (by rfl)]
  · rw [if_neg c, if_neg]
    intro hn
    have : ∀ as : List CellAttr, ownXfs as = [] → as = [] := by
      intro as
      induction as using List.reverseRecOn with
      | nil => intro _; rfl
      | append_singleton as a ih =>
        intro ho
        rw [ownXfs_snoc] at ho
        by_cases c1 : a ∈ ownXfs as ∨ a = plainAttr ∧ ownXfs as ≠ []
        · rw [if_pos c1] at ho
          rw [ho] at c1
          simp at c1
        · rw [if_neg c1] at ho
          simp at ho
    exact c (this _ hn)

/-- C75: the formats are those of the FORMAT records, numbered in file order; others are "General" if cells use them. -/
theorem C75_formats (env : OpenEnv) (file : Bytes) (F : B2File) (hw : B2Workbook (textAt (env.recEnv 21)) file F) (l : Lib)
    (h : openStream env file 0 = .ok l) (hx : OldXfs 21 (textAt (env.recEnv 21)) F.book [])
    (fmts : List PyStr) (hf : OldFormats 21 (textAt (env.recEnv 21)) F.book fmts) (k : Nat) :
    (∀ s, fmts[k]? = some s → (l.book.fmt.formatMap k).bind (·.str) = some s) ∧
    (fmts[k]? = none → l.book.fmt.formatMap k = none ∨ (l.book.fmt.formatMap k).bind (·.str) = some "General".toList) := by
  obtain ⟨f, b1, o, h1, h2, rfl⟩ := b2_opened hw h
  have hm : hasXfs b1 = false := by
    cases hm : hasXfs b1 with
    | false => rfl
    | true => exact absurd rfl ((b2_xfs hw h1 h2 hx).2.mp hm)
  obtain ⟨m, rfl⟩ := colour_map_fields (env := env.recEnv 21) h1
  have hfmt := (oldFormats_items (env := env.recEnv 21) (.inl rfl) (oldStart_enc _ _) rfl rfl hf (b2Book_items hw.ok) h2.head).1
  obtain ⟨fl, _, _, hext⟩ := b2_fmt h2
  have hext := hext hm
  refine ⟨fun s hs => ?_, fun hn => ?_⟩
  · show (o.book.fmt.formatMap k).bind _ = _
    rw [hext.known k (fmtEntry k s) (by rw [hfmt]; simp [hs])]
    rfl
  · rcases hext.fresh k (by rw [hfmt]; simp [hn]) with hk | hk
    · exact .inl hk
    · right
      show (o.book.fmt.formatMap k).bind _ = _
      rw [hk]; rfl

end Xlrd
