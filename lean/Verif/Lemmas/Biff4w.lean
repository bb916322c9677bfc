import Verif.Spec.Biff4w
import Verif.Props.OldFile
import Verif.Lemmas.UserHist

/-!
# Reading BIFF4 workbooks
-/
set_option linter.unusedSimpArgs false
namespace Xlrd
open Spec

/-! ## What holds of the book after some records -/

theorem collected_inv {α : Type} {sel : Nat → Prop} {Rel : List GItem → Bytes → α → Prop} {items : List GItem} {xs : List α} (h : Collected sel Rel items xs) :
    ∀ {pre : List GItem} {it : GItem}, items = pre ++ [it] →
    (∃ ys c d x, it = .one c d ∧ sel c ∧ Rel pre d x ∧ xs = ys ++ [x] ∧ Collected sel Rel pre ys) ∨
      ((∀ c d, it = .one c d → ¬ sel c) ∧ Collected sel Rel pre xs) := by
  cases h with
  | nil => intro pre it h; simp at h
  | @take pre' ys c d x h1 h2 h3 =>
    intro pre it h
    obtain ⟨rfl, h9⟩ := List.append_inj' h rfl
    rw [List.cons.injEq] at h9
    obtain ⟨rfl, _⟩ := h9
    exact .inl ⟨ys, c, d, x, rfl, h2, h3, rfl, h1⟩
  | @skip pre' ys it' h1 h2 =>
    intro pre it h
    obtain ⟨rfl, h9⟩ := List.append_inj' h rfl
    rw [List.cons.injEq] at h9
    obtain ⟨rfl, _⟩ := h9
    exact .inr ⟨h2, h1⟩

/-- The book after the records `hist`. -/
structure WInv (env : BookEnv) (hist : List GItem) (b : Book) : Prop where
  enc : EncInv env hist b
  sst : b.sst = []
  names : ∀ ns, SheetNames4 (textAt env) hist ns → b.sheetNames = ns
  vis : ∀ v ∈ b.sheetVisibility, v = 0
  datemode : ∀ ms, Datemodes hist ms → b.datemode = ms.getLast?.getD 0
  range : b.datemode = 0 ∨ b.datemode = 1
  countries : ∀ cs, Countries hist cs → b.countries = cs.getLast?.getD (0, 0)
  sheets : ∀ (i : Nat) sh, b.embedded[i]? = some sh → b.sheetNames[i]? = some sh.name ∧ sh.number = (i : Int) ∧ sh.visibility = 0
  user : UserHist env hist b

/-- Nothing that counts has changed. -/
theorem WInv.keep {env : BookEnv} {hist : List GItem} {b b' : Book} (h : WInv env hist b) (he : EncInv env hist b') (h1 : b'.sst = b.sst)
    (h2 : b'.sheetNames = b.sheetNames) (h3 : b'.sheetVisibility = b.sheetVisibility) (h4 : b'.datemode = b.datemode) (h5 : b'.countries = b.countries)
    (h6 : b'.embedded = b.embedded) (h7 : UserHist env hist b') : WInv env hist b' := by
  refine ⟨he, h1.trans h.sst, ?_, ?_, ?_, ?_, ?_, ?_, h7⟩
  · rw [h2]; exact h.names
  · rw [h3]; exact h.vis
  · rw [h4]; exact h.datemode
  · rw [h4]; exact h.range
  · rw [h5]; exact h.countries
  · rw [h6, h2]; exact h.sheets

theorem getLast?_getD_snoc {α : Type} (l : List α) (x d : α) : (l ++ [x]).getLast?.getD d = x := by simp

/-- One record, under its own code or a later one. -/
theorem WInv.record {env : BookEnv} (hbv : env.bv = 45) {hist : List GItem} {b b' : Book} {base : Int} {hdr : Bytes → Book → Bytes → Int → R (Book × Int)} (h : WInv env hist b) {c n : Nat} {d : Bytes}
    (hc : n = c ∨ n ∉ [0x85, 0x22, 0x8c, 0x42, 0x5c] ∧ c ∉ [0x85, 0x22, 0x8c, 0x42, 0x5c])
    (ha : globalsRecord { env with base := base, sheethdr := hdr } b n d = .ok b') : WInv env (hist ++ [.one c d]) b' := by
  have hf := record_frame ha
  have hsel : ∀ k ∈ [0x85, 0x22, 0x8c, 0x42, 0x5c], n = k ↔ c = k := by
    intro k hk
    rcases hc with rfl | ⟨h1, h2⟩
    · rfl
    · constructor
      · rintro rfl; exact absurd hk h1
      · rintro rfl; exact absurd hk h2
  have he : EncInv env (hist ++ [.one c d]) b' := by
    have := item_enc (env := { env with base := base, sheethdr := hdr }) (pre := hist) (it := .one n d) ⟨h.enc.enc, h.enc.page, h.enc.page', h.enc.unset, h.enc.set, h.enc.old⟩ ha
    have hl : lastCodepage (hist ++ [.one n d]) = lastCodepage (hist ++ [.one c d]) := by
      rcases hc with rfl | ⟨h1, h2⟩
      · rfl
      · have : ∀ k, k ≠ 0x42 → codepageOf (.one k d) = none := by
          intro n hn
          unfold codepageOf
          split
          · rename_i h; cases h; exact absurd rfl hn
          · rfl
        rw [lastCodepage_snoc_none (this n (by rintro rfl; simp at h1)), lastCodepage_snoc_none (this c (by rintro rfl; simp at h2))]
    obtain ⟨a1, a2, a3, a4, a5, a6⟩ := this
    rw [hl] at a1 a2 a3 a4 a5 a6
    exact ⟨a1, a2, a3, a4, a5, a6⟩
  have hu : UserHist env (hist ++ [.one c d]) b' := by
    have hcp : codepageOf (.one n d) = codepageOf (.one c d) := by
      rcases hc with rfl | ⟨h1, h2⟩
      · rfl
      · have : ∀ k, k ≠ 0x42 → codepageOf (.one k d) = none := by
          intro n hn
          unfold codepageOf
          split
          · rename_i h; cases h; exact absurd rfl hn
          · rfl
        rw [this n (by rintro rfl; simp at h1), this c (by rintro rfl; simp at h2)]
    have hwr : ∀ d', GItem.one n d = .one 0x5c d' ↔ GItem.one c d = .one 0x5c d' := by
      intro d'
      rcases hc with rfl | ⟨h1, h2⟩
      · rfl
      · constructor
        · intro e; injection e with e1 e2; exact absurd e1 (by rintro rfl; simp at h1)
        · intro e; injection e with e1 e2; exact absurd e1 (by rintro rfl; simp at h2)
    have := UserHist.item (env := { env with base := base, sheethdr := hdr }) (show env.bv < 80 by omega) (hist := hist) (it := .one c d) (ri := .one n d)
      ⟨h.user.wait, h.user.at_last, h.user.without⟩ ⟨h.enc.enc, h.enc.page, h.enc.page', h.enc.unset, h.enc.set, h.enc.old⟩ hcp hwr ha
    exact ⟨this.wait, this.at_last, this.without⟩
  have keepNames : c ≠ 0x85 → b'.sheetNames = b.sheetNames := fun hx => hf.sheetNames (fun e => hx ((hsel 0x85 (by simp)).mp e))
  by_cases h85 : c = 0x85
  · have hn := (hsel 0x85 (by simp)).mpr h85
    subst h85 hn
    have ha : handleBoundsheet _ b d = .ok b' := ha
    unfold handleBoundsheet at ha
    obtain ⟨b1, h1, ha⟩ := bind_ok ha
    obtain ⟨⟨p, v, t, name⟩, h2, ha⟩ := bind_ok ha
    have hi := derive_inv (env := { env with base := base, sheethdr := hdr }) (pre := hist) ⟨h.enc.enc, h.enc.page, h.enc.page', h.enc.unset, h.enc.set, h.enc.old⟩ h1
    unfold boundsheetFields at h2
    rw [if_pos hbv] at h2
    obtain ⟨nm, h3, h2⟩ := bind_ok h2
    have hvt : v = 0 ∧ t = 0 ∧ name = nm := by
      by_cases hz : b1.shAbsPosn.length = 0
      · rw [if_pos hz] at h2
        cases ho : b1.sheetsoffset with
        | none => rw [ho] at h2; cases h2
        | some o => rw [ho] at h2; cases h2; exact ⟨rfl, rfl, rfl⟩
      · rw [if_neg hz] at h2; cases h2; exact ⟨rfl, rfl, rfl⟩
    obtain ⟨rfl, rfl, rfl⟩ := hvt
    have hb' : b' = addSheet b1 p 0 0 name := by cases ha; rfl
    have e1 := derive_frame h1
    have f1 : b'.sheetNames = b.sheetNames ++ [name] := by
      obtain ⟨_, _, _, _, rfl⟩ := e1; rw [hb']; rfl
    have f2 : b'.sheetVisibility = b.sheetVisibility ++ [0] := by
      obtain ⟨_, _, _, _, rfl⟩ := e1; rw [hb']; rfl
    refine ⟨he, hf.sst.trans h.sst, ?_, ?_, ?_, ?_, ?_, ?_, hu⟩
    · intro ns hns
      rw [f1]
      rcases collected_inv hns rfl with ⟨ys, c, d', x, hcd, hs, ⟨txt, tail, ht, hd⟩, rfl, hpre⟩ | ⟨hs, _⟩
      · cases hcd
        rw [h.names ys hpre]
        congr 1
        have hdec : Book.dec { env with base := base, sheethdr := hdr } b1 = textAt env hist := by
          rw [dec_eq (hi.2 (.inl (show env.bv < 80 by omega)))]
        have := (textField_read (dec := textAt env hist) (dec' := Book.dec { env with base := base, sheethdr := hdr } b1) (data := d) (p := 0) (r := tail) (.inl rfl) (fun _ => hdec) ht (by rw [hd]; rfl)).1 (by decide)
        rw [Nat.cast_zero] at this
        rw [this] at h3
        cases h3; rfl
      · exact absurd rfl (hs _ _ rfl)
    · intro v hv
      rw [f2] at hv
      rcases List.mem_append.mp hv with hv | hv
      · exact h.vis v hv
      · simpa using hv
    · intro ms hms
      rcases collected_inv hms rfl with ⟨ys, c, d', x, hcd, hs, _⟩ | ⟨_, hpre⟩
      · cases hcd; exact absurd hs (by decide)
      · rw [hf.datemode (by decide)]; exact h.datemode ms hpre
    · rw [hf.datemode (by decide)]; exact h.range
    · intro cs hcs
      rcases collected_inv hcs rfl with ⟨ys, c, d', x, hcd, hs, _⟩ | ⟨_, hpre⟩
      · cases hcd; exact absurd hs (by decide)
      · rw [hf.countries (by decide)]; exact h.countries cs hpre
    · intro i sh hi
      rw [hf.embedded] at hi
      obtain ⟨k1, k2, k3⟩ := h.sheets i sh hi
      refine ⟨?_, k2, k3⟩
      rw [f1, List.getElem?_append_left (List.getElem?_eq_some_iff.mp k1).1]
      exact k1
  · have hn85 : n ≠ 0x85 := fun e => h85 ((hsel 0x85 (by simp)).mp e)
    refine ⟨he, hf.sst.trans h.sst, ?_, ?_, ?_, ?_, ?_, ?_, hu⟩
    · intro ns hns
      rw [hf.sheetNames hn85]
      rcases collected_inv hns rfl with ⟨ys, c', d', x, hcd, hs, _⟩ | ⟨_, hpre⟩
      · cases hcd; exact absurd hs h85
      · exact h.names ns hpre
    · rw [hf.visibility hn85]; exact h.vis
    · intro ms hms
      rcases collected_inv hms rfl with ⟨ys, c', d', x, hcd, hs, ⟨hx, tail, hd⟩, rfl, hpre⟩ | ⟨hs, hpre⟩
      · cases hcd
        have hn := (hsel 0x22 (by simp)).mpr hs
        subst hn
        obtain ⟨m, h1, ha⟩ := bind_ok (show handleDatemode b d = .ok b' from ha)
        obtain ⟨_, _, ha⟩ := bind_ok ha
        cases ha
        rw [getLast?_getD_snoc]
        show m = x
        rw [hd] at h1
        have := unpackH_at (data := le16 x ++ tail) (p := 0) hx (r := tail) rfl
        rw [Nat.cast_zero, zero_add] at this
        rw [this] at h1
        cases h1; rfl
      · rw [hf.datemode (fun e => hs c d rfl ((hsel 0x22 (by simp)).mp e))]; exact h.datemode ms hpre
    · by_cases h22 : n = 0x22
      · subst h22
        obtain ⟨m, h1, ha⟩ := bind_ok (show handleDatemode b d = .ok b' from ha)
        obtain ⟨_, hm, ha⟩ := bind_ok ha
        cases ha
        simp only [pyAssert] at hm
        split_ifs at hm with hm'
        simpa using hm'
      · rw [hf.datemode h22]; exact h.range
    · intro cs hcs
      rcases collected_inv hcs rfl with ⟨ys, c', d', x, hcd, hs, ⟨hx1, hx2, tail, hd⟩, rfl, hpre⟩ | ⟨hs, hpre⟩
      · cases hcd
        have hn := (hsel 0x8c (by simp)).mpr hs
        subst hn
        obtain ⟨m, h1, ha⟩ := bind_ok (show handleCountry b d = .ok b' from ha)
        obtain ⟨_, _, ha⟩ := bind_ok ha
        cases ha
        rw [getLast?_getD_snoc]
        show (fld m 0 2, fld m 2 2) = x
        have hs : slice (le16 x.1 ++ le16 x.2 ++ tail) 0 4 = le16 x.1 ++ le16 x.2 := slice_front 4 _ _ (by simp [le16])
        have f1 : fld (le16 x.1 ++ le16 x.2) 0 2 = x.1 := by
          have := le_le16 x.1 hx1 (le16 x.2)
          simpa [fld] using this
        have f2 : fld (le16 x.1 ++ le16 x.2) 2 2 = x.2 := by
          have := le_le16 x.2 hx2 []
          simpa [fld, le16] using this
        rw [hd, hs, unpackN_ok (by simp [le16])] at h1
        cases h1
        rw [f1, f2]
      · rw [hf.countries (fun e => hs c d rfl ((hsel 0x8c (by simp)).mp e))]; exact h.countries cs hpre
    · intro i sh hi
      rw [hf.embedded] at hi
      rw [hf.sheetNames hn85]
      exact h.sheets i sh hi

/-- Records of the globals. -/
theorem WInv.items {env : OpenEnv} {base : Int} (items : List GItem) (hn : NoSst items) : ∀ {hist : List GItem} {b b' : Book}, WInv (env.recEnv 45) hist b →
    applyGlobals (env.bookEnv 45 base) b items = .ok b' → WInv (env.recEnv 45) (hist ++ items) b' := by
  induction items with
  | nil => intro hist b b' h ha; cases ha; simpa using h
  | cons it items ih =>
    intro hist b b' h ha
    obtain ⟨b1, h1, h2⟩ := bind_ok ha
    have key : WInv (env.recEnv 45) (hist ++ [it]) b1 := by
      cases it with
      | one c d => exact h.record rfl (.inl rfl) (show globalsRecord { env.recEnv 45 with base := base, sheethdr := handleSheethdr env 45 } b c d = .ok b1 from h1)
      | sst d more => exact absurd (List.mem_cons_self ..) (hn d more)
      | extern d more =>
        have he : EncInv (env.bookEnv 45 base) hist b := ⟨h.enc.enc, h.enc.page, h.enc.page', h.enc.unset, h.enc.set, h.enc.old⟩
        have he' := item_enc he h1
        have hu' := UserHist.item (env := env.bookEnv 45 base) (show 45 < 80 by omega) (it := .extern d more) ⟨h.user.wait, h.user.at_last, h.user.without⟩ he rfl (fun _ => Iff.rfl) h1
        obtain ⟨_, _, _, _, _, _, _, _, rfl⟩ := extern_frame h1
        have hsk : ∀ {α : Type} {sel : Nat → Prop} {Rel : List GItem → Bytes → α → Prop} {xs : List α}, Collected sel Rel (hist ++ [.extern d more]) xs → Collected sel Rel hist xs := by
          intro α sel Rel xs hc
          rcases collected_inv hc rfl with ⟨_, _, _, _, hh, _⟩ | ⟨_, hh⟩
          · cases hh
          · exact hh
        exact ⟨⟨he'.enc, he'.page, he'.page', he'.unset, he'.set, he'.old⟩, h.sst, fun ns hc => h.names ns (hsk hc), h.vis, fun ms hc => h.datemode ms (hsk hc), h.range,
          fun cs hc => h.countries cs (hsk hc), h.sheets, ⟨hu'.wait, hu'.at_last, hu'.without⟩⟩
    have := ih (fun d m hm => hn d m (List.mem_cons_of_mem _ hm)) key h2
    simpa using this

/-- Records about the whole file in a sheet. -/
theorem WInv.sheetItems {env : OpenEnv} (items : List GItem) (hi : BookItems 45 items) : ∀ {hist : List GItem} {b b' : Book}, WInv (env.recEnv 45) hist b →
    applyGlobals (env.recEnv 45) b (items.map newItem) = .ok b' → WInv (env.recEnv 45) (hist ++ items) b' := by
  induction items with
  | nil => intro hist b b' h ha; cases ha; simpa using h
  | cons it items ih =>
    intro hist b b' h ha
    obtain ⟨b1, h1, h2⟩ := bind_ok ha
    obtain ⟨c, d, rfl, hc⟩ := hi it (List.mem_cons_self ..)
    have key : WInv (env.recEnv 45) (hist ++ [.one c d]) b1 := by
      refine h.record rfl ?_ (show globalsRecord { env.recEnv 45 with base := (env.recEnv 45).base, sheethdr := (env.recEnv 45).sheethdr } b (newCode c) d = .ok b1 from h1)
      rcases newCode_cases (.inr (.inr (.inr rfl))) hc with ⟨n1, n2⟩ | ⟨n1, n2⟩ | ⟨_, _, n3, _⟩
      · rw [n2]; subst n1; right; decide
      · rw [n2]; subst n1; right; decide
      · exact .inl n3
    have := ih (fun i hm => hi i (List.mem_cons_of_mem _ hm)) key h2
    simpa using this

theorem WInv.text {env : OpenEnv} {hist : List GItem} {b : Book} (h : EncInv (env.recEnv 45) hist b) : textDec env 45 b = textAt (env.recEnv 45) hist := by
  have hch := (choose_inv h).2 (Or.inl (show 45 < 80 by omega))
  funext x
  unfold textDec
  rcases h.enc with h1 | h1
  · rw [h1]
    simp only
    unfold libDec
    rw [hch]
    rfl
  · rw [h1]
    rfl

theorem applied_embedded {env : BookEnv} {items : List GItem} {b b' : Book} (h : applyGlobals env b items = .ok b') : b'.embedded = b.embedded :=
  gItems_inv (fun x => x.embedded = b.embedded) (fun _ _ _ hb ha => (item_embedded ha).trans hb) items b b' rfl h

theorem idx_some {α : Type} {l : List α} {n : Nat} {x : α} (h : idx l (n : Int) = .ok x) : l[n]? = some x := by
  rw [idx_nat] at h
  cases hl : l[n]? with
  | none => rw [hl] at h; cases h
  | some y => rw [hl] at h; cases h; rfl

/-! ## One sheet -/

/-- How the sheet of a part was read: the records about the whole file made the book, and the sheet is what its other records say.  `f` is the book's formatting afterwards. -/
def SheetRun (env : OpenEnv) (hist : List GItem) (x : SheetPart) (sh : LSheet) (f : FmtSt) : Prop :=
  ∃ b2 b3 b4 : Book, EncInv (env.recEnv 45) hist b2 ∧ b2.fmt.formatMap = (fun _ => none) ∧ b2.fmt.actualfmtcount = 0 ∧ b2.fmt.xfList = [] ∧ b2.fmt.fontList = [] ∧ BookItems 45 x.file.book ∧
    applyGlobals (env.recEnv 45) b2 (x.file.book.map newItem) = .ok b3 ∧ (b4 = b3 ∨ b4 = runEpilogue env b3) ∧ b4.sst = [] ∧
    textDec env 45 b4 = textAt (env.recEnv 45) (hist ++ x.file.book) ∧ f = b4.fmt ∧
    sheetRead (readEnv env 45 b4) (encRecs (x.file.layout.records 45)) 0 = .ok sh.st

theorem sheethdr_run {env : OpenEnv} {mem pre post : Bytes} {hist : List GItem} {x : SheetPart} {dec : List GItem → Bytes → R PyStr}
    (hdec : ∀ items, dec items = textAt (env.recEnv 45) (hist ++ items)) (hx : x.Ok dec)
    (hm : mem = pre ++ x.sheet ++ post) {b b' : Book} {p : Int} (hb : WInv (env.recEnv 45) (hist ++ x.before) b)
    (h : handleSheethdr env 45 mem b x.hdr (pre.length : Int) = .ok (b', p)) :
    WInv (env.recEnv 45) (hist ++ x.book) b' ∧ p = ((pre ++ x.sheet).length : Int) ∧
    ∃ sh, b'.embedded = b.embedded ++ [sh] ∧ sh.name = x.name ∧ SheetRun env (hist ++ x.before) x sh b'.fmt := by
  obtain ⟨x1, x2, x3, x4, x5, x6, x7⟩ := hx
  unfold handleSheethdr at h
  obtain ⟨b1, h1, h⟩ := bind_ok h
  obtain ⟨len, h2, h⟩ := bind_ok h
  obtain ⟨name, h3, h⟩ := bind_ok h
  obtain ⟨shown, h4, h⟩ := bind_ok h
  obtain ⟨_, h5, h⟩ := bind_ok h
  obtain ⟨⟨v, p1⟩, h6, h⟩ := bind_ok h
  obtain ⟨vis, h7, h⟩ := bind_ok h
  obtain ⟨o, h8, h⟩ := bind_ok h
  cases h
  obtain ⟨i1, i2⟩ := derive_inv hb.enc h1
  have hlen : len = (x.sheet.length : Int) := by
    have : sliceTo x.hdr 4 = le32 x.sheet.length := by
      unfold SheetPart.hdr
      rw [List.append_assoc]
      exact sliceTo_app rfl (le32_length _)
    rw [this] at h2
    simp only [unpacki, unpackN_ok (le32_length _), bind, Except.bind, pure, Except.pure, fld_le32 _ (show x.sheet.length < 2 ^ 32 by omega)] at h2
    rw [← Except.ok.inj h2, sgn, if_pos (by omega)]
  have hname : name = x.name := by
    have hd : libDec env b1 = dec x.before := by
      rw [hdec]
      funext y
      unfold libDec
      rw [i2 (.inl (show 45 < 80 by omega))]
      rfl
    have := (textField_read (dec' := libDec env b1) (data := x.hdr) (p := 4) (r := x.more) (.inl rfl) (fun _ => hd) x3 (by
      unfold SheetPart.hdr
      rw [List.append_assoc]
      exact List.drop_left' (le32_length _))).1 (by omega)
    rw [show ((4 : Nat) : Int) = 4 from rfl] at this
    rw [this] at h3
    cases h3; rfl
  have hshown : name = shown := by
    simp only [pyAssert] at h5
    split_ifs at h5 with hc
    simpa using hc
  obtain ⟨e1, e2, e3, e4, hb1⟩ := derive_frame h1
  have hpos : v = 40 ∧ p1 = ((pre ++ encRec x.op x.bof).length : Int) := by
    have := C52_sheet_bof x6 pre (encRecs (x.file.records 45) ++ x.skipped ++ post)
    rw [if_pos rfl] at this
    have hmem : mem = pre ++ encRec x.op x.bof ++ (encRecs (x.file.records 45) ++ x.skipped ++ post) := by
      rw [hm]; simp only [SheetPart.sheet, List.append_assoc]
    rw [hmem, this] at h6
    cases h6
    exact ⟨rfl, rfl⟩
  obtain ⟨rfl, rfl⟩ := hpos
  have hit : BookItems 45 x.file.book := headBook_items x7.codes
  have hb2 : WInv (env.recEnv 45) (hist ++ x.before) (initialiseFormatInfo b1) :=
    hb.keep (i1.congr rfl rfl) (by rw [hb1]; rfl) (by rw [hb1]; rfl) (by rw [hb1]; rfl) (by rw [hb1]; rfl) (by rw [hb1]; rfl) (by rw [hb1]; rfl)
      ((hb.user.derive (show 45 < 80 by omega) hb.enc h1).congr ⟨rfl, rfl, rfl⟩)
  have hd2 : ∀ b3, applyGlobals (env.recEnv 45) (initialiseFormatInfo b1) (x.file.book.map newItem) = .ok b3 → textDec env 45 b3 = dec x.book ∧ b3.sst.map Prod.fst = [] := by
    intro b3 h3
    have hw := hb2.sheetItems _ hit h3
    refine ⟨?_, by rw [hw.sst]; rfl⟩
    rw [WInv.text hw.enc, hdec]
    unfold SheetPart.book
    rw [List.append_assoc]
  have h8' : oldRead env 45 (pre ++ encRec x.op x.bof ++ encRecs (x.file.records 45) ++ (x.skipped ++ post)) (initialiseFormatInfo b1) ((pre ++ encRec x.op x.bof).length : Int) = .ok o := by
    have hmem : mem = pre ++ encRec x.op x.bof ++ encRecs (x.file.records 45) ++ (x.skipped ++ post) := by
      rw [hm]; simp only [SheetPart.sheet, List.append_assoc]
    rw [← hmem]; exact h8
  obtain ⟨b3, b4, f1, f2, _, f4, _, f6⟩ := old_file (.inr (.inr rfl)) (b0 := initialiseFormatInfo b1) rfl x7 hd2 h8'
  have hw3 := hb2.sheetItems _ hit f1
  have hw4 : WInv (env.recEnv 45) (hist ++ x.before ++ x.file.book) b4 := by
    rcases f2 with rfl | rfl
    · exact hw3
    · exact hw3.keep (hw3.enc.congr rfl rfl) rfl rfl rfl rfl rfl rfl (hw3.user.congr ⟨rfl, rfl, rfl⟩)
  have hw5 : WInv (env.recEnv 45) (hist ++ x.before ++ x.file.book) o.book := by
    have he : EncInv (env.recEnv 45) (hist ++ x.before ++ x.file.book) o.book := by
      rcases f4 with f4 | f4
      · rw [f4]; exact hw4.enc
      · exact (ensure_inv hw4.enc f4).1
    have hu : UserHist (env.recEnv 45) (hist ++ x.before ++ x.file.book) o.book := by
      rcases f4 with f4 | f4
      · rw [f4]; exact hw4.user
      · exact hw4.user.ensure (show 45 < 80 by omega) hw4.enc f4
    obtain ⟨g1, g2, g3, g4, hg⟩ := f4.same
    exact hw4.keep he (by rw [hg]) (by rw [hg]) (by rw [hg]) (by rw [hg]) (by rw [hg]) (by rw [hg]) hu
  have hemb3 : b3.embedded = b.embedded := by rw [applied_embedded f1, hb1]; rfl
  have hemb : o.book.embedded = b.embedded := by
    obtain ⟨g1, g2, g3, g4, hg⟩ := f4.same
    rw [hg]
    rcases f2 with rfl | rfl
    · exact hemb3
    · exact hemb3
  have hlen1 : b1.embedded.length = o.book.embedded.length := by rw [hemb, hb1]
  have hnames : o.book.sheetNames = b1.sheetNames := by
    have hn3 := (book_frame (env := env.recEnv 45) (.inr (.inr (.inr rfl))) hit f1).2.1
    obtain ⟨g1, g2, g3, g4, hg⟩ := f4.same
    rw [hg]
    rcases f2 with rfl | rfl
    · exact hn3
    · exact hn3
  refine ⟨?_, by rw [hlen, List.length_append, Nat.cast_add], ⟨shown, b1.embedded.length, vis, o.sheet⟩, by rw [hemb], by rw [← hshown, hname], ?_⟩
  · have hbk : hist ++ x.book = hist ++ x.before ++ x.file.book := by unfold SheetPart.book; rw [List.append_assoc]
    rw [hbk]
    refine ⟨hw5.enc.congr rfl rfl, hw5.sst, hw5.names, hw5.vis, hw5.datemode, hw5.range, hw5.countries, ?_, hw5.user.congr ⟨rfl, rfl, rfl⟩⟩
    intro i sh hi
    have hi : (o.book.embedded ++ [⟨shown, b1.embedded.length, vis, o.sheet⟩])[i]? = some sh := hi
    show o.book.sheetNames[i]? = some sh.name ∧ _
    by_cases hlt : i < o.book.embedded.length
    · rw [List.getElem?_append_left hlt] at hi
      exact hw5.sheets i sh hi
    · rw [List.getElem?_append_right (by omega)] at hi
      have h0 : i - o.book.embedded.length = 0 := by
        by_contra hne
        rw [List.getElem?_eq_none (by simp; omega)] at hi
        cases hi
      rw [h0] at hi
      cases hi
      have hieq : i = b1.embedded.length := by omega
      subst hieq
      refine ⟨by rw [hnames]; exact idx_some h4, rfl, ?_⟩
      exact hb2.vis vis (List.mem_of_getElem? (idx_some h7))
  · refine ⟨initialiseFormatInfo b1, b3, b4, hb2.enc, rfl, rfl, rfl, rfl, hit, f1, f2, hw4.sst, WInv.text hw4.enc, ?_, f6⟩
    obtain ⟨g1, g2, g3, g4, hg⟩ := f4.same
    show o.book.fmt = b4.fmt
    rw [hg]

/-! ## All sheets -/

/-- The sheets of the parts were read one after the other; `f` is the book's formatting after the last one. -/
inductive PartsRun (env : OpenEnv) : List GItem → List SheetPart → List LSheet → FmtSt → Prop
  | nil (hist : List GItem) (f : FmtSt) : PartsRun env hist [] [] f
  | cons {hist : List GItem} {x : SheetPart} {xs : List SheetPart} {sh : LSheet} {shs : List LSheet} {f g : FmtSt} (h : SheetRun env (hist ++ x.before) x sh g)
      (hn : sh.name = x.name) (hg : xs = [] → f = g) (t : PartsRun env (hist ++ x.book) xs shs f) : PartsRun env hist (x :: xs) (sh :: shs) f

theorem partsOk_tail {dec : List GItem → Bytes → R PyStr} {hist : List GItem} {x : SheetPart} {xs : List SheetPart}
    (h : ∀ pre y post, x :: xs = pre ++ y :: post → y.Ok fun items => dec (hist ++ bookOf pre ++ items)) :
    ∀ pre y post, xs = pre ++ y :: post → y.Ok fun items => dec (hist ++ x.book ++ bookOf pre ++ items) := by
  intro pre y post hp
  have := h (x :: pre) y post (by rw [hp]; rfl)
  simpa [bookOf, List.append_assoc] using this

/-- The number of passes through the record loop. -/
def passes (parts : List SheetPart) : Nat := (parts.map fun x => x.before.length + 1).sum

theorem passes_le (parts : List SheetPart) : passes parts ≤ (parts.flatMap SheetPart.bytes).length := by
  induction parts with
  | nil => simp [passes]
  | cons x xs ih =>
    have h1 : passes (x :: xs) = x.before.length + 1 + passes xs := by simp [passes]
    have h2 := items_le_bytes x.before
    have h3 : (x.bytes).length = (encRecs (x.before.flatMap GItem.recs)).length + (4 + x.hdr.length) + x.sheet.length := by
      simp only [SheetPart.bytes, List.length_append, encRec_length]
    rw [h1, List.flatMap_cons, List.length_append]
    omega

theorem parts_loop {env : OpenEnv} {base : Int} {mem post eof : Bytes} (he : eof.length < 65536) {last : List GItem} (hl : GlobalsOk 45 last)
    (parts : List SheetPart) : ∀ (hist : List GItem) (pre : Bytes) (b b' : Book) (fuel : Nat) (p' : Int),
    (∀ q y r, parts = q ++ y :: r → y.Ok fun items => textAt (env.recEnv 45) (hist ++ bookOf q ++ items)) →
    mem = pre ++ parts.flatMap SheetPart.bytes ++ encGlobals last eof ++ post → passes parts + last.length < fuel →
    WInv (env.recEnv 45) hist b →
    globalsLoop (env.bookEnv 45 base) mem fuel b (pre.length : Int) = .ok (b', p') →
    ∃ shs b1 b2, (parts = [] → b1 = b) ∧ PartsRun env hist parts shs b1.fmt ∧ b1.embedded = b.embedded ++ shs ∧ WInv (env.recEnv 45) (hist ++ bookOf parts) b1 ∧
      applyGlobals (env.bookEnv 45 base) b1 last = .ok b2 ∧ globalsEof (env.bookEnv 45 base) b2 = .ok b' := by
  induction parts with
  | nil =>
    intro hist pre b b' fuel p' _ hm hf hb h
    rw [globalsLoop_items (env.bookEnv 45 base) mem post eof he last hl fuel pre.length b (by rw [hm]; simp) (by simpa [passes] using hf)] at h
    obtain ⟨b2, h1, h⟩ := bind_ok h
    obtain ⟨b3, h2, h⟩ := bind_ok h
    cases h
    exact ⟨[], b, b2, fun _ => rfl, .nil _ _, by simp, by simpa [bookOf] using hb, h1, h2⟩
  | cons x xs ih =>
    intro hist pre b b' fuel p' hok hm hf hb h
    have hx := hok [] x xs rfl
    simp only [bookOf, List.flatMap_nil, List.append_nil] at hx
    have hmem : mem = pre ++ (encRecs (x.before.flatMap GItem.recs) ++ (encRec 0x8f x.hdr ++ (x.sheet ++ (xs.flatMap SheetPart.bytes ++ encGlobals last eof ++ post)))) := by
      rw [hm]; simp only [List.flatMap_cons, SheetPart.bytes, List.append_assoc]
    have hd1 : mem.drop pre.length = encRecs (x.before.flatMap GItem.recs) ++ (encRec 0x8f x.hdr ++ (x.sheet ++ (xs.flatMap SheetPart.bytes ++ encGlobals last eof ++ post))) := by
      rw [hmem, List.drop_left]
    have hp : passes (x :: xs) = x.before.length + 1 + passes xs := by simp [passes]
    obtain ⟨k, rfl⟩ : ∃ k, fuel = x.before.length + (k + 1) := ⟨fuel - x.before.length - 1, by omega⟩
    rw [globalsLoop_prefix (env.bookEnv 45 base) mem 0x8f x.hdr _ (by decide) hx.short (by decide) x.before hx.items (k + 1) pre.length b hd1] at h
    obtain ⟨b1, h1, h⟩ := bind_ok h
    have hw1 := hb.items x.before hx.sst h1
    have hd2 := drop_at hd1 rfl
    rw [globalsLoop, getRecordParts_at (by decide) hx.short hd2] at h
    simp only [bind, Except.bind] at h
    rw [if_neg (by decide)] at h
    have hstep : globalsStep (env.bookEnv 45 base) mem b1 0x8f x.hdr ((pre.length + (encRecs (x.before.flatMap GItem.recs)).length + 4 + x.hdr.length : Nat) : Int) =
        handleSheethdr env 45 mem b1 x.hdr ((pre.length + (encRecs (x.before.flatMap GItem.recs)).length + 4 + x.hdr.length : Nat) : Int) := by
      unfold globalsStep
      rw [if_neg (by decide), if_neg (by decide), if_pos (by rfl)]
      rfl
    rw [hstep] at h
    set pre2 := pre ++ encRecs (x.before.flatMap GItem.recs) ++ encRec 0x8f x.hdr with hpre2
    have hlen2 : pre.length + (encRecs (x.before.flatMap GItem.recs)).length + 4 + x.hdr.length = pre2.length := by
      rw [hpre2, List.length_append, List.length_append, encRec_length]; omega
    rw [hlen2] at h
    cases hh : handleSheethdr env 45 mem b1 x.hdr (pre2.length : Int) with
    | error e => rw [hh] at h; cases h
    | ok q =>
      obtain ⟨b2, p2⟩ := q
      rw [hh] at h
      simp only at h
      obtain ⟨r1, r2, sh, r3, r4, r5⟩ := sheethdr_run (env := env) (hist := hist) (post := xs.flatMap SheetPart.bytes ++ encGlobals last eof ++ post) (fun _ => rfl) hx
        (by rw [hmem, hpre2]; simp only [List.append_assoc]) hw1 hh
      rw [r2] at h
      obtain ⟨shs, b3, b4, i0, i1, i2, i3, i4, i5⟩ := ih (hist ++ x.book) (pre2 ++ x.sheet) b2 b' k p' (partsOk_tail hok)
        (by rw [hmem, hpre2]; simp only [List.append_assoc]) (by omega) r1 h
      refine ⟨sh :: shs, b3, b4, (by intro h; cases h), .cons r5 r4 (fun h => by rw [i0 h]) i1, ?_, ?_, i4, i5⟩
      · rw [i2, r3, applied_embedded h1]; simp
      · simpa [bookOf, List.append_assoc] using i3

theorem start_winv (env : OpenEnv) (f : FmtSt) : WInv (env.recEnv 45) [] { newBook with fmt := f } := by
  have hnil : ∀ {α : Type} {sel : Nat → Prop} {Rel : List GItem → Bytes → α → Prop} {xs : List α} {items : List GItem}, Collected sel Rel items xs → items = [] → xs = [] := by
    intro α sel Rel xs items h
    cases h with
    | nil => intro _; rfl
    | take => intro h; simp at h
    | skip => intro h; simp at h
  refine ⟨fresh_enc _ f, rfl, ?_, by simp, ?_, .inl rfl, ?_, by simp, .start _ _ rfl rfl⟩
  · intro ns h; rw [hnil h rfl]
  · intro ns h; rw [hnil h rfl]; rfl
  · intro ns h; rw [hnil h rfl]; rfl

/-- What opening such a file does. -/
theorem w_opened {env : OpenEnv} {file : Bytes} {parts : List SheetPart} {last : List GItem} (hw : Biff4w (textAt (env.recEnv 45)) file parts last) {l : Lib}
    (h : openStream env file 0 = .ok l) :
    ∃ f shs b1 b2, initialiseColourMap 45 env.fi newBook.fmt = .ok f ∧ PartsRun env [] parts shs b1.fmt ∧ (parts = [] → b1 = { newBook with fmt := f }) ∧
      WInv (env.recEnv 45) (bookOf parts) b1 ∧ WInv (env.recEnv 45) (bookOf parts ++ last) b2 ∧
      applyGlobals (env.bookEnv 45 0) b1 last = .ok b2 ∧ globalsEof (env.bookEnv 45 0) b2 = .ok l.book ∧ b2.embedded = shs ∧
      l.sheetList = shs.map some ∧ l.released = true ∧ l.bv = 45 := by
  obtain ⟨⟨op, bof, eof, rest, hb, he, hm⟩, hp, hl1, hl2⟩ := hw
  have hf : firstBof file 0 = .ok (45, ((encRec op bof).length : Int)) := by
    have := C52_first_bof hb [] (parts.flatMap SheetPart.bytes ++ encGlobals last eof ++ rest)
    rw [if_pos (show StartsFile 45 0x100 from Or.inr (Or.inl rfl))] at this
    rw [hm, List.append_assoc, List.append_assoc, ← List.append_assoc (parts.flatMap SheetPart.bytes)]
    simpa using this
  unfold openStream at h
  rw [hf] at h
  simp only [bind, Except.bind] at h
  rw [if_neg (by decide)] at h
  cases hg : parseGlobals (env.bookEnv 45 0) file newBook ((encRec op bof).length : Int) with
  | error e => rw [hg] at h; cases h
  | ok q =>
    obtain ⟨b, p⟩ := q
    rw [hg] at h
    simp only at h
    rw [if_pos trivial] at h
    cases h
    unfold parseGlobals at hg
    obtain ⟨f, g1, g2⟩ := bind_ok hg
    have hlen : passes parts + last.length < file.length + 1 := by
      have h1 := passes_le parts
      have h2 := items_le_bytes last
      have h3 := congrArg List.length hm
      simp only [List.length_append, encGlobals] at h3
      omega
    obtain ⟨shs, b1, b2, i0, i1, i2, i3, i4, i5⟩ := parts_loop (env := env) (base := 0) he hl1 parts [] (encRec op bof) _ b _ p (by simpa using hp) hm hlen (start_winv env f) g2
    have hemb : b2.embedded = shs := by rw [applied_embedded i4, i2]; rfl
    refine ⟨f, shs, b1, b2, g1, i1, i0, by simpa using i3, by simpa using i3.items last hl2 i4, i4, i5, hemb, ?_, rfl, rfl⟩
    show b.embedded.map some = _
    obtain ⟨os, _, _, _, _, _, hb⟩ := eof_frame i5
    rw [hb, ← hemb]

end Xlrd
