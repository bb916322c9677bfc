import Verif.Props.DefinedNames

/-!
# C26, C37 for a whole workbook, C64 settings, C65 styles, C66 colours used
-/
set_option linter.unusedSimpArgs false
namespace Xlrd
open Spec

/-- A part of the book that one kind of record sets. -/
theorem collected_last {env : BookEnv} {α β : Type} {c0 : Nat} {Rel : List GItem → Bytes → α → Prop} (get : Book → β) (val : α → β)
    (htake : ∀ (pre : List GItem) (b1 b : Book) (d : Bytes) (x : α), Rel pre d x →
      applyGItem env b1 (.one c0 d) = .ok b → get b = val x)
    (hskip : ∀ (b1 b : Book) (it : GItem), (∀ d, it ≠ .one c0 d) → applyGItem env b1 it = .ok b → get b = get b1)
    {items : List GItem} {xs : List α} (hc : Collected (· = c0) Rel items xs) :
    ∀ {b0 b : Book}, applyGlobals env b0 items = .ok b → get b = ((xs.getLast?).map val).getD (get b0) := by
  induction hc with
  | nil => intro b0 b h; cases h; rfl
  | @take pre xs c d x hc0 hsel hrel ih =>
    intro b0 b h
    obtain ⟨b1, h1, h2⟩ := gItems_snoc h
    subst hsel
    rw [htake pre b1 b d x hrel h2]
    simp
  | @skip pre xs it hc0 hns ih =>
    intro b0 b h
    obtain ⟨b1, h1, h2⟩ := gItems_snoc h
    rw [hskip b1 b it (fun d h => hns c0 d h rfl) h2]
    exact ih h1

/-! ## C64 -/

theorem datemode_items {env : BookEnv} {items : List GItem} {ms : List Nat} (hm : Datemodes items ms) {b0 b1 : Book} (h0 : b0.datemode = 0)
    (h2 : applyGlobals env b0 items = .ok b1) : b1.datemode = ms.getLast?.getD 0 ∧ (b1.datemode = 0 ∨ b1.datemode = 1) := by
  have hrd : ∀ (b b' : Book) (d : Bytes), handleDatemode b d = .ok b' → b'.datemode = 0 ∨ b'.datemode = 1 := by
    intro b b' d hd
    unfold handleDatemode at hd
    obtain ⟨m, _, hd⟩ := bind_ok hd
    obtain ⟨_, ha, hd⟩ := bind_ok hd
    cases hd
    simp only [pyAssert] at ha
    split_ifs at ha with hm
    simpa using hm
  have e1 := collected_last (env := env) (fun b => b.datemode) id
    (fun _ b1 b d x hx ha => by
      have e : applyGItem env b1 (.one 0x22 d) = handleDatemode b1 d := rfl
      rw [e] at ha
      obtain ⟨hx, tail, rfl⟩ := hx
      unfold handleDatemode at ha
      have hu : unpackH (slice (le16 x ++ tail) 0 2) = .ok x := unpackH_at (p := 0) (r := tail) hx (by simp)
      rw [hu] at ha
      obtain ⟨_, hm, ha⟩ := bind_ok ha
      cases hm
      obtain ⟨_, _, ha⟩ := bind_ok ha
      cases ha
      rfl)
    (fun b1 b it hit ha => by
      cases it with
      | sst d more => obtain ⟨t, rfl⟩ := sst_frame ha; rfl
      | extern d more => obtain ⟨_, _, _, _, _, _, _, _, rfl⟩ := extern_frame ha; rfl
      | one c d => exact (record_frame ha).datemode (fun hc => hit d (by rw [hc]))) hm h2
  have e2 : b1.datemode = 0 ∨ b1.datemode = 1 := by
    refine gItems_inv (fun b => b.datemode = 0 ∨ b.datemode = 1) ?_ items _ _ (Or.inl h0) h2
    intro b it b' hb ha
    cases it with
    | sst d more => obtain ⟨t, rfl⟩ := sst_frame ha; exact hb
    | extern d more => obtain ⟨_, _, _, _, _, _, _, _, rfl⟩ := extern_frame ha; exact hb
    | one c d =>
      by_cases hc : c = 0x22
      · subst hc; exact hrd b b' d ha
      · show b'.datemode = 0 ∨ b'.datemode = 1
        rw [(record_frame ha).datemode hc]; exact hb
  simp only [Option.map_id, id_eq, h0] at e1
  exact ⟨e1, e2⟩

/-- C64: the date system is that of the last DATEMODE record, the 1900 system without one; whatever is loaded
has date system 0 or 1. -/
theorem C64_datemode (env : BookEnv) (pre post eof : Bytes) (he : eof.length < 65536) (items : List GItem) (hok : GlobalsOk env.bv items)
    (ms : List Nat) (hm : Datemodes items ms) (b : Book) (p : Int)
    (h : parseGlobals env (pre ++ encGlobals items eof ++ post) newBook (pre.length : Int) = .ok (b, p)) :
    b.datemode = ms.getLast?.getD 0 ∧ (b.datemode = 0 ∨ b.datemode = 1) := by
  obtain ⟨f, b1, h1, h2, h3, _⟩ := parse_ok he hok h
  obtain ⟨os, _, _, _, _, _, rfl⟩ := eof_frame h3
  exact datemode_items (b0 := { fmt := f }) (b1 := b1) hm rfl h2

theorem countries_items {env : BookEnv} {items : List GItem} {cs : List (Nat × Nat)} (hm : Countries items cs) {b0 b1 : Book} (h0 : b0.countries = (0, 0))
    (h2 : applyGlobals env b0 items = .ok b1) : b1.countries = cs.getLast?.getD (0, 0) := by
  have e1 := collected_last (env := env) (fun b => b.countries) id
    (fun _ b1 b d x hx ha => by
      have e : applyGItem env b1 (.one 0x8c d) = handleCountry b1 d := rfl
      rw [e] at ha
      obtain ⟨hx1, hx2, tail, rfl⟩ := hx
      unfold handleCountry at ha
      have hs : slice (le16 x.1 ++ le16 x.2 ++ tail) 0 4 = le16 x.1 ++ le16 x.2 := slice_front 4 _ _ (by simp [le16])
      have f1 : fld (le16 x.1 ++ le16 x.2) 0 2 = x.1 := by
        have := le_le16 x.1 hx1 (le16 x.2)
        simpa [fld] using this
      have f2 : fld (le16 x.1 ++ le16 x.2) 2 2 = x.2 := by
        have := le_le16 x.2 hx2 []
        simpa [fld, le16] using this
      rw [hs, unpackN_ok (by simp [le16])] at ha
      obtain ⟨_, hm, ha⟩ := bind_ok ha
      cases hm
      obtain ⟨_, _, ha⟩ := bind_ok ha
      cases ha
      simp only [f1, f2, id_eq])
    (fun b1 b it hit ha => by
      cases it with
      | sst d more => obtain ⟨t, rfl⟩ := sst_frame ha; rfl
      | extern d more => obtain ⟨_, _, _, _, _, _, _, _, rfl⟩ := extern_frame ha; rfl
      | one c d => exact (record_frame ha).countries (fun hc => hit d (by rw [hc]))) hm h2
  simp only [Option.map_id, id_eq, h0] at e1
  exact e1

/-- C64: the countries are those of the COUNTRY record, (0, 0) without one. -/
theorem C64_countries (env : BookEnv) (pre post eof : Bytes) (he : eof.length < 65536) (items : List GItem) (hok : GlobalsOk env.bv items)
    (cs : List (Nat × Nat)) (hm : Countries items cs) (b : Book) (p : Int)
    (h : parseGlobals env (pre ++ encGlobals items eof ++ post) newBook (pre.length : Int) = .ok (b, p)) :
    b.countries = cs.getLast?.getD (0, 0) := by
  obtain ⟨f, b1, h1, h2, h3, _⟩ := parse_ok he hok h
  obtain ⟨os, _, _, _, _, _, rfl⟩ := eof_frame h3
  exact countries_items (b0 := { fmt := f }) (b1 := b1) hm rfl h2

/-- The user name does not change if none is waiting to be decoded. -/
def UserSame (b b' : Book) : Prop := b.rawUser = none → b'.userName = b.userName ∧ b'.rawUser = none

theorem UserSame.trans {b b1 b' : Book} (h : UserSame b b1) (h' : UserSame b1 b') : UserSame b b' :=
  fun hr => ⟨(h' (h hr).2).1.trans (h hr).1, (h' (h hr).2).2⟩

theorem choose_user (env : BookEnv) (b : Book) : (chooseEncoding env b).userName = b.userName ∧ (chooseEncoding env b).rawUser = b.rawUser := by
  unfold chooseEncoding
  cases b.codepage with
  | none => split_ifs <;> exact ⟨rfl, rfl⟩
  | some cp => split_ifs <;> exact ⟨rfl, rfl⟩

theorem derive_user {env : BookEnv} {b b' : Book} (h : deriveEncoding env b = .ok b') : UserSame b b' := by
  intro hr
  unfold deriveEncoding at h
  obtain ⟨_, _, h⟩ := bind_ok h
  obtain ⟨e1, e2⟩ := choose_user env b
  unfold decodeUserName at h
  rw [e2, hr] at h
  cases h
  exact ⟨e1, e2.trans hr⟩

theorem ensure_user {env : BookEnv} {b b' : Book} (h : ensureEncoding env b = .ok b') : UserSame b b' := by
  unfold ensureEncoding at h
  cases he : b.encoding with
  | none => rw [he] at h; exact derive_user h
  | some e => rw [he] at h; cases h; exact fun hr => ⟨rfl, hr⟩

theorem UserSame.of_eq {b b' : Book} (h1 : b'.userName = b.userName) (h2 : b'.rawUser = b.rawUser) : UserSame b b' :=
  fun hr => ⟨h1, h2.trans hr⟩

theorem item_user {env : BookEnv} {b b' : Book} {it : GItem} (hn : ∀ d, it ≠ .one 0x5c d) (ha : applyGItem env b it = .ok b') : UserSame b b' := by
  cases it with
  | sst d more => obtain ⟨t, rfl⟩ := sst_frame ha; exact .of_eq rfl rfl
  | extern d more =>
    simp only [applyGItem, externBegin] at ha
    obtain ⟨b2, h0, ha⟩ := bind_ok ha
    obtain ⟨b1, h1, h2⟩ := bind_ok h0
    cases h2
    refine (derive_user h1).trans ?_
    by_cases h8 : env.bv ≥ 80
    · rw [if_pos h8] at ha
      unfold externApply8 at ha
      obtain ⟨n, _, ha⟩ := bind_ok ha
      obtain ⟨refs, _, ha⟩ := bind_ok ha
      cases ha
      exact .of_eq rfl rfl
    · rw [if_neg h8] at ha
      unfold externApply57 at ha
      obtain ⟨n, _, ha⟩ := bind_ok ha
      obtain ⟨b3, h3, ha⟩ := bind_ok ha
      cases ha
      unfold externName57 at h3
      by_cases h4 : fld n 1 1 = 3
      · rw [if_pos h4] at h3
        obtain ⟨name, _, h3⟩ := bind_ok h3
        cases h3
        exact .of_eq rfl rfl
      · rw [if_neg h4] at h3
        cases h3
        exact .of_eq rfl rfl
  | one rc d =>
    simp only [applyGItem, globalsRecord] at ha
    by_cases c1 : rc = XL_FONT ∨ rc = XL_FONT_B3B4
    · rw [if_pos c1] at ha
      unfold bookFont at ha
      split_ifs at ha
      · cases ha; exact .of_eq rfl rfl
      · obtain ⟨b1, h1, ha⟩ := bind_ok ha
        obtain ⟨f, _, ha⟩ := bind_ok ha
        cases ha
        exact (ensure_user h1).trans (.of_eq rfl rfl)
    rw [if_neg c1] at ha
    by_cases c2 : rc = XL_FORMAT
    · rw [if_pos c2] at ha
      unfold bookFormat at ha
      obtain ⟨b1, h1, ha⟩ := bind_ok ha
      obtain ⟨f, _, ha⟩ := bind_ok ha
      cases ha
      exact (ensure_user h1).trans (.of_eq rfl rfl)
    rw [if_neg c2] at ha
    by_cases c3 : rc = XL_XF
    · rw [if_pos c3] at ha
      unfold bookXf at ha
      obtain ⟨f, _, ha⟩ := bind_ok ha
      cases ha
      exact .of_eq rfl rfl
    rw [if_neg c3] at ha
    by_cases c4 : rc = XL_BOUNDSHEET
    · rw [if_pos c4] at ha
      unfold handleBoundsheet at ha
      obtain ⟨b1, h1, ha⟩ := bind_ok ha
      obtain ⟨⟨p, v, t, n⟩, _, ha⟩ := bind_ok ha
      cases ha
      refine (derive_user h1).trans ?_
      unfold addSheet
      split_ifs <;> exact .of_eq rfl rfl
    rw [if_neg c4] at ha
    by_cases c5 : rc = XL_DATEMODE
    · rw [if_pos c5] at ha
      unfold handleDatemode at ha
      obtain ⟨m, _, ha⟩ := bind_ok ha
      obtain ⟨_, _, ha⟩ := bind_ok ha
      cases ha
      exact .of_eq rfl rfl
    rw [if_neg c5] at ha
    by_cases c6 : rc = XL_CODEPAGE
    · rw [if_pos c6] at ha
      unfold handleCodepage at ha
      obtain ⟨m, _, ha⟩ := bind_ok ha
      exact (UserSame.of_eq (b' := { b with codepage := some m }) rfl rfl).trans (derive_user ha)
    rw [if_neg c6] at ha
    by_cases c7 : rc = XL_COUNTRY
    · rw [if_pos c7] at ha
      unfold handleCountry at ha
      obtain ⟨m, _, ha⟩ := bind_ok ha
      obtain ⟨_, _, ha⟩ := bind_ok ha
      cases ha
      exact .of_eq rfl rfl
    rw [if_neg c7] at ha
    by_cases c8 : rc = XL_EXTERNNAME
    · rw [if_pos c8] at ha
      unfold handleExternname at ha
      split_ifs at ha
      · obtain ⟨_, _, ha⟩ := bind_ok ha
        obtain ⟨⟨n, q⟩, _, ha⟩ := bind_ok ha
        obtain ⟨t, _, ha⟩ := bind_ok ha
        cases ha
        split_ifs <;> exact .of_eq rfl rfl
      · cases ha; exact .of_eq rfl rfl
    rw [if_neg c8] at ha
    by_cases c9 : rc = XL_FILEPASS
    · rw [if_pos c9] at ha; cases ha
    rw [if_neg c9] at ha
    by_cases c10 : rc = XL_WRITEACCESS
    · exact absurd (by rw [c10]) (hn d)
    rw [if_neg c10] at ha
    by_cases c11 : rc = XL_SHEETSOFFSET
    · rw [if_pos c11] at ha
      unfold handleSheetsoffset at ha
      obtain ⟨m, _, ha⟩ := bind_ok ha
      cases ha
      exact .of_eq rfl rfl
    rw [if_neg c11] at ha
    by_cases c12 : rc = XL_SUPBOOK
    · rw [if_pos c12] at ha
      unfold handleSupbook at ha
      obtain ⟨m, _, ha⟩ := bind_ok ha
      obtain ⟨t, _, ha⟩ := bind_ok ha
      cases ha
      exact .of_eq rfl rfl
    rw [if_neg c12] at ha
    by_cases c13 : rc = XL_NAME
    · rw [if_pos c13] at ha
      unfold handleName at ha
      split_ifs at ha
      · cases ha; exact .of_eq rfl rfl
      · obtain ⟨b1, h1, ha⟩ := bind_ok ha
        obtain ⟨m, _, ha⟩ := bind_ok ha
        obtain ⟨⟨t, q⟩, _, ha⟩ := bind_ok ha
        cases ha
        exact (derive_user h1).trans (.of_eq rfl rfl)
    rw [if_neg c13] at ha
    by_cases c14 : rc = XL_PALETTE
    · rw [if_pos c14] at ha
      unfold bookPalette at ha
      obtain ⟨f, _, ha⟩ := bind_ok ha
      cases ha
      exact .of_eq rfl rfl
    rw [if_neg c14] at ha
    by_cases c15 : rc = XL_STYLE
    · rw [if_pos c15] at ha
      unfold bookStyle at ha
      obtain ⟨f, _, ha⟩ := bind_ok ha
      cases ha
      exact .of_eq rfl rfl
    rw [if_neg c15] at ha
    cases ha
    exact .of_eq rfl rfl

theorem users_items {env : BookEnv} (h8 : 80 ≤ env.bv) {items : List GItem} {us : List PyStr} (hc : UserNames items us) :
    ∀ {f : FmtSt} {b : Book}, applyGlobals env { fmt := f } items = .ok b →
      b.userName = (us.getLast?.map env.rstrip).getD [] ∧ b.rawUser = none := by
  unfold UserNames at hc
  induction hc with
  | nil => intro f b h; cases h; exact ⟨rfl, rfl⟩
  | @take pre xs c d x hc0 hsel hrel ih =>
    intro f b h
    obtain ⟨b1, h1, h2⟩ := gItems_snoc h
    subst hsel
    have e : applyGItem env b1 (.one 0x5c d) = handleWriteaccess env b1 d := rfl
    rw [e] at h2
    unfold handleWriteaccess at h2
    rw [if_neg (by omega)] at h2
    obtain ⟨u, tail, ok, rfl, hl, rfl⟩ := hrel
    have hw : writeaccess8 (encLen 2 (utf16 u.text).length ++ u.body ++ tail) = .ok u.text := by
      unfold writeaccess8
      have := unpackUnicode_at (data := encLen 2 (utf16 u.text).length ++ u.body ++ tail) (p := 0) (r := tail) u ok (Or.inr rfl) hl (by simp)
      rw [show ((0 : Int)) = ((0 : Nat) : Int) from rfl, this]
    rw [hw] at h2
    cases h2
    simp [(ih h1).2]
  | @skip pre xs it hc0 hns ih =>
    intro f b h
    obtain ⟨b1, h1, h2⟩ := gItems_snoc h
    obtain ⟨i1, i2⟩ := ih h1
    obtain ⟨j1, j2⟩ := item_user (fun d hd => hns 0x5c d hd rfl) h2 i2
    exact ⟨j1.trans i1, j2⟩

/-- C64: the user name of a BIFF8 file is that of the last WRITEACCESS record without trailing white space, empty without one. -/
theorem C64_user_name (env : BookEnv) (h8 : 80 ≤ env.bv) (pre post eof : Bytes) (he : eof.length < 65536) (items : List GItem)
    (hok : GlobalsOk env.bv items) (us : List PyStr) (hu : UserNames items us) (b : Book) (p : Int)
    (h : parseGlobals env (pre ++ encGlobals items eof ++ post) newBook (pre.length : Int) = .ok (b, p)) :
    b.userName = (us.getLast?.map env.rstrip).getD [] := by
  obtain ⟨f, b1, h1, h2, h3, _⟩ := parse_ok he hok h
  obtain ⟨e1, e2⟩ := users_items h8 hu h2
  unfold globalsEof namesEpilogue at h3
  obtain ⟨b2, k1, h3⟩ := bind_ok h3
  obtain ⟨os, k2, k1⟩ := bind_ok k1
  obtain ⟨_, _, k1⟩ := bind_ok k1
  cases k1
  exact (ensure_user h3 e2).1.trans e1

/-! ## C26 -/

theorem sst_unchanged {env : BookEnv} (items : List GItem) (hn : ∀ d more, GItem.sst d more ∉ items) :
    ∀ {b b' : Book}, applyGlobals env b items = .ok b' → b'.sst = b.sst := by
  induction items with
  | nil => intro b b' h; cases h; rfl
  | cons it items ih =>
    intro b b' h
    obtain ⟨b1, h1, h2⟩ := bind_ok h
    rw [ih (fun d more hm => hn d more (List.mem_cons_of_mem _ hm)) h2]
    cases it with
    | sst d more => exact absurd (List.mem_cons_self ..) (hn d more)
    | extern d more => obtain ⟨_, _, _, _, _, _, _, _, rfl⟩ := extern_frame h1; rfl
    | one c d => exact (record_frame h1).sst

/-- C26: the shared strings of a workbook are those of its SST record with the CONTINUE records after it, however the
table is split (within `SStr.Handled`), wherever it stands among the globals. -/
theorem C26_workbook_partial (env : BookEnv) (pre post eof : Bytes) (he : eof.length < 65536) (before after : List GItem) (d : Bytes)
    (more : List Bytes) (hok : GlobalsOk env.bv (before ++ [.sst d more] ++ after)) (hone : ∀ d' more', GItem.sst d' more' ∉ after)
    (ss : List SStr) (hs : ∀ s ∈ ss, s.Legal ∧ s.Handled) (total : Nat) (hn : ss.length < 2 ^ 31)
    (hd : sstRecords (le32 total ++ le32 ss.length) ss = d :: more) (b : Book) (p : Int)
    (h : parseGlobals env (pre ++ encGlobals (before ++ [.sst d more] ++ after) eof ++ post) newBook (pre.length : Int) = .ok (b, p)) :
    b.sst = ss.map SStr.value := by
  obtain ⟨f, b1, h1, h2, h3, _⟩ := parse_ok he hok h
  rw [List.append_assoc, List.singleton_append] at h2
  obtain ⟨b2, b3, h4, h5, h6⟩ := gItems_split h2
  obtain ⟨os, _, _, _, _, _, rfl⟩ := eof_frame h3
  show b1.sst = _
  rw [sst_unchanged after hone h6]
  simp only [applyGItem] at h5
  have hu : unpacki (slice d 4 8) = .ok (ss.length : Int) := by
    have e : d = le32 total ++ (le32 ss.length ++ (recordsOf (ss.flatMap SStr.items)).1) := by
      have : sstRecords (le32 total ++ le32 ss.length) ss =
          ((le32 total ++ le32 ss.length) ++ (recordsOf (ss.flatMap SStr.items)).1) :: (recordsOf (ss.flatMap SStr.items)).2 := rfl
      rw [this] at hd
      simp only [List.cons.injEq] at hd
      rw [← hd.1, List.append_assoc]
    have := unpacki_at (data := d) (p := 4) (r := (recordsOf (ss.flatMap SStr.items)).1) hn (by
      rw [e, show 4 = (le32 total).length from rfl, List.drop_left])
    simpa using this
  rw [hu, ← hd] at h5
  have ht := C26_shared_strings_partial (le32 total ++ le32 ss.length) (by simp [le32, le16]) ss hs
  simp only [bind, Except.bind, ht, pure, Except.pure, Except.ok.injEq] at h5
  rw [← h5]

/-! ## C37 -/

theorem palettes_items {env : BookEnv} (hfi : env.fi = true) {dflt : List Rgb} (hd : defaultPalette env.bv = .ok dflt) {items : List GItem}
    {ps : List (List Rgb)} (hc : Palettes items ps) :
    ∀ {b0 b : Book}, b0.fmt.paletteRecord = [] → (∀ i, itemsGet b0.fmt.colourMap i = ColourAt dflt [] i) →
      applyGlobals env b0 items = .ok b →
      b.fmt.paletteRecord = ps.flatten ∧ ∀ i, itemsGet b.fmt.colourMap i = ColourAt dflt ps.flatten i := by
  unfold Palettes at hc
  induction hc with
  | nil => intro b0 b h1 h2 h; cases h; exact ⟨h1, h2⟩
  | @take pre xs c d x hc0 hsel hrel ih =>
    intro b0 b e1 e2 h
    obtain ⟨b1, h1, h2⟩ := gItems_snoc h
    obtain ⟨i1, i2⟩ := ih e1 e2 h1
    subst hsel
    have e : applyGItem env b1 (.one 0x92 d) = bookPalette env b1 d := rfl
    rw [e] at h2
    unfold bookPalette at h2
    obtain ⟨g, h3, h2⟩ := bind_ok h2
    cases h2
    obtain ⟨cs, tail, r1, r2, r3, rfl, rfl⟩ := hrel
    rw [hfi] at h3
    have hpal : b1.fmt.paletteRecord = [] := by
      unfold handlePalette at h3
      simp only [Bool.not_true, Bool.false_eq_true, if_false] at h3
      obtain ⟨n, _, h3⟩ := bind_ok h3
      split_ifs at h3
      obtain ⟨_, ha, h3⟩ := bind_ok h3
      unfold pyAssert at ha
      split_ifs at ha with hq
      simpa using hq
    rw [hpal] at i1
    rw [← i1] at i2
    have := C37_palette dflt env.bv hd b1.fmt hpal i2 cs r1 r2 tail r3
    split_ifs at this with hlen
    · obtain ⟨st', k1, k2, _, k4, _⟩ := this
      rw [k1] at h3
      cases h3
      simp only [List.flatten_append, List.flatten_cons, List.flatten_nil, List.append_nil, ← i1, List.nil_append]
      exact ⟨k2, k4⟩
    · rw [this] at h3; cases h3
  | @skip pre xs it hc0 hns ih =>
    intro b0 b e1 e2 h
    obtain ⟨b1, h1, h2⟩ := gItems_snoc h
    have ih1 := ih e1 e2 h1
    cases it with
    | sst d more => obtain ⟨t, rfl⟩ := sst_frame h2; exact ih1
    | extern d more => obtain ⟨_, _, _, _, _, _, _, _, rfl⟩ := extern_frame h2; exact ih1
    | one c d =>
      have hc : c ≠ XL_PALETTE := hns c d rfl
      rw [(record_frame h2).palette hc, (record_frame h2).colourMap hc]
      exact ih1

theorem colours_items {env : BookEnv} {dflt : List Rgb} (hd : defaultPalette env.bv = .ok dflt) {items : List GItem} {ps : List (List Rgb)} (hp : Palettes items ps)
    {f : FmtSt} (k1 : initialiseColourMap env.bv env.fi newBook.fmt = .ok f) {b0 b1 : Book} (h0 : b0.fmt = f) (h2 : applyGlobals env b0 items = .ok b1) (i : Nat) :
    itemsGet b1.fmt.colourMap i = if env.fi then ColourAt dflt ps.flatten i else none := by
  obtain ⟨st, k3, k2⟩ := C37_initial_colour_map env.bv dflt hd env.fi newBook.fmt
  rw [k1] at k3
  cases k3
  obtain ⟨m, hm⟩ := colour_map_fields k1
  cases hfi : env.fi with
  | true =>
    rw [if_pos rfl]
    refine (palettes_items hfi hd hp ?_ ?_ h2).2 i
    · rw [h0, hm]
    · intro j; rw [h0, k2 j, hfi, if_pos rfl]
  | false =>
    have : b1.fmt.colourMap = [] := by
      refine gItems_inv (fun b => b.fmt.colourMap = []) ?_ items _ _ ?_ h2
      · intro b it b' hb ha
        cases it with
        | sst d more => obtain ⟨t, rfl⟩ := sst_frame ha; exact hb
        | extern d more => obtain ⟨_, _, _, _, _, _, _, _, rfl⟩ := extern_frame ha; exact hb
        | one c d =>
          by_cases hc : c = XL_PALETTE
          · subst hc
            have e : applyGItem env b (.one XL_PALETTE d) = bookPalette env b d := rfl
            rw [e] at ha
            unfold bookPalette at ha
            rw [hfi, C37_palette_ignored] at ha
            cases ha
            exact hb
          · show b'.fmt.colourMap = []
            rw [(record_frame ha).colourMap hc]; exact hb
      · unfold initialiseColourMap at k1
        simp only [hfi, Bool.not_false, if_true] at k1
        cases k1
        rw [h0]
    rw [this]
    rfl

/-- C37: the colour map of a workbook: the default colours of the version, with those of the PALETTE record in their place;
empty without formatting information. -/
theorem C37_workbook (env : BookEnv) (dflt : List Rgb) (hd : defaultPalette env.bv = .ok dflt) (pre post eof : Bytes)
    (he : eof.length < 65536) (items : List GItem) (hok : GlobalsOk env.bv items) (ps : List (List Rgb)) (hp : Palettes items ps)
    (b : Book) (p : Int) (h : parseGlobals env (pre ++ encGlobals items eof ++ post) newBook (pre.length : Int) = .ok (b, p)) (i : Nat) :
    itemsGet b.fmt.colourMap i = if env.fi then ColourAt dflt ps.flatten i else none := by
  obtain ⟨f, b1, h1, h2, h3, _⟩ := parse_ok he hok h
  obtain ⟨os, _, _, _, _, _, rfl⟩ := eof_frame h3
  exact colours_items (b1 := b1) hd hp h1 rfl h2 i

/-! ## C65 -/

/-- The map after the styles `ss`. -/
def styleMapOf (ss : List StyleRec) (name : PyStr) : Option (Nat × Nat) :=
  ((ss.filter fun s => decide (s.name = name)).getLast?).map fun s => (if s.builtin then 1 else 0, s.xf)

theorem styleMapOf_snoc (ss : List StyleRec) (s : StyleRec) :
    styleMapOf (ss ++ [s]) = dictSet (styleMapOf ss) s.name (if s.builtin then 1 else 0, s.xf) := by
  funext k
  unfold styleMapOf dictSet
  by_cases h : k = s.name
  · subst h; simp
  · rw [if_neg h]
    have : ¬ s.name = k := Ne.symm h
    simp [this]

theorem styleMapOf_normal (ss : List StyleRec) :
    (styleMapOf ss "Normal".toList).isNone = !(ss.any fun t => decide (t.name = "Normal".toList)) := by
  unfold styleMapOf
  rw [Option.isNone_map]
  cases h : ss.any fun t => decide (t.name = "Normal".toList) with
  | false =>
    have : (ss.filter fun s => decide (s.name = "Normal".toList)) = [] := by
      rw [List.filter_eq_nil_iff]
      rw [List.any_eq_false] at h
      exact h
    rw [this]; rfl
  | true =>
    obtain ⟨t, ht, hq⟩ := List.any_eq_true.mp h
    cases hl : (ss.filter fun s => decide (s.name = "Normal".toList)).getLast? with
    | some _ => rfl
    | none =>
      rw [List.getLast?_eq_none_iff, List.filter_eq_nil_iff] at hl
      exact absurd hq (hl t ht)

theorem style_read {bv : Nat} {dec dec' : Bytes → R PyStr} {st : FmtSt} {normal : Bool} {s : StyleRec} {d : Bytes}
    (hn : (st.styleMap "Normal".toList).isNone = !normal) (h : StyleRecord bv dec normal s d) :
    handleStyle bv true dec' st d = ((if s.builtin then .ok s.name else userStyleName bv dec' d) : R PyStr).map fun name =>
      { st with styleMap := dictSet st.styleMap name (if s.builtin then 1 else 0, s.xf) } := by
  unfold handleStyle
  simp only [Bool.not_true, Bool.false_eq_true, if_false]
  cases h with
  | zero h0 =>
    have hu : unpackN 4 (sliceTo [0, 0, 0, 0] 4) = .ok [0, 0, 0, 0] := rfl
    rw [hu]
    simp only [bind, Except.bind]
    rw [if_pos ⟨trivial, by rw [hn, h0]; rfl⟩]
    rfl
  | builtin xf u id level s tail hx hu hi hl hs =>
    have hs4 : sliceTo (leBytes 2 (packFields [(xf, 12), (u, 3), (1, 1)]) ++ [UInt8.ofNat id, UInt8.ofNat level] ++ tail) 4 =
        leBytes 2 (packFields [(xf, 12), (u, 3), (1, 1)]) ++ [UInt8.ofNat id, UInt8.ofNat level] := slice_front 4 _ _ (by simp [leBytes_length])
    have hfit : FieldsFit [(xf, 12), (u, 3), (1, 1)] := by
      intro f hf
      simp only [List.mem_cons, List.not_mem_nil, or_false] at hf
      rcases hf with rfl | rfl | rfl
      · exact hx
      · exact hu
      · decide
    rw [hs4, unpackN_ok (by simp [leBytes_length])]
    simp only [bind, Except.bind]
    have hflag : fld (leBytes 2 (packFields [(xf, 12), (u, 3), (1, 1)]) ++ [UInt8.ofNat id, UInt8.ofNat level]) 0 2 =
        bitsAt (packFields [(xf, 12), (u, 3), (1, 1)]) 0 16 := by
      rw [← fld_leBytes 2 _ 0 2 (by decide)]
      unfold fld
      simp only [List.drop_zero]
      rw [List.take_append_of_le_length (by rw [leBytes_length]), List.take_of_length_le (l := leBytes 2 _) (by rw [leBytes_length])]
    have hb : bitsAt (packFields [(xf, 12), (u, 3), (1, 1)]) 0 16 &&& 0x8000 ≠ 0 := by
      have e : (bitsAt (packFields [(xf, 12), (u, 3), (1, 1)]) 0 16 &&& (2 ^ 1 - 1) * 2 ^ 15) >>> 15 = 1 := by
        rw [bits_mask, bits_bits _ _ _ _ _ (by decide)]
        exact bits_pack _ hfit (by rfl)
      intro h0
      have h1 : (2 ^ 1 - 1) * 2 ^ 15 = 0x8000 := by decide
      rw [h1, h0] at e
      simp at e
    have hxf : bitsAt (packFields [(xf, 12), (u, 3), (1, 1)]) 0 16 &&& 0x0fff = xf := by
      rw [and_bits _ 12 _ (by decide), bits_bits _ _ _ _ _ (by decide)]
      exact bits_pack _ hfit (by rfl)
    have hz : ¬ (leBytes 2 (packFields [(xf, 12), (u, 3), (1, 1)]) ++ [UInt8.ofNat id, UInt8.ofNat level] ++ tail = [0, 0, 0, 0] ∧
        (st.styleMap "Normal".toList).isNone = true) := by
      rintro ⟨h0, _⟩
      apply hb
      have h1 : leBytes 2 (packFields [(xf, 12), (u, 3), (1, 1)]) = [0, 0] := by
        have := congrArg (List.take 2) h0
        rw [List.append_assoc, List.take_left' (leBytes_length _ _)] at this
        exact this
      rw [← hflag, h1]
      simp [fld, le]
    rw [if_neg hz, hflag, if_pos hb, hxf]
    have f1 : fld (leBytes 2 (packFields [(xf, 12), (u, 3), (1, 1)]) ++ [UInt8.ofNat id, UInt8.ofNat level]) 2 1 = id := by
      unfold fld; rw [List.drop_left' (leBytes_length _ _)]; simp [le, u8_toNat_ofNat]; omega
    have f2 : fld (leBytes 2 (packFields [(xf, 12), (u, 3), (1, 1)]) ++ [UInt8.ofNat id, UInt8.ofNat level]) 3 1 = level := by
      unfold fld
      rw [show (3 : Nat) = 2 + 1 from rfl, ← List.drop_drop, List.drop_left' (leBytes_length _ _)]
      simp [le, u8_toNat_ofNat]; omega
    rw [f1, f2]
    have hidx : idx builtInStyleNames (id : Int) = .ok s.toList := by
      unfold idx
      have e : builtInStyleNames[id]? = some s.toList := by
        have : builtInStyleNames = builtinStyles.map String.toList := rfl
        rw [this, List.getElem?_map, hs]; rfl
      rw [if_neg (by omega), if_neg (by omega), Int.toNat_natCast, e]
    unfold builtInStyleName
    rw [hidx]
    simp only [bind, Except.bind, pure, Except.pure, if_true]
    by_cases h12 : id = 1 ∨ id = 2
    · rw [if_pos h12, if_pos (by omega)]; rfl
    · rw [if_neg h12, if_neg (by omega)]; rfl
  | user xf u s txt tail hx hu ht hlen hz =>
    have hfit : FieldsFit [(xf, 12), (u, 3), (0, 1)] := by
      intro f hf
      simp only [List.mem_cons, List.not_mem_nil, or_false] at hf
      rcases hf with rfl | rfl | rfl
      · exact hx
      · exact hu
      · decide
    have hs4 : sliceTo (leBytes 2 (packFields [(xf, 12), (u, 3), (0, 1)]) ++ txt ++ tail) 4 =
        leBytes 2 (packFields [(xf, 12), (u, 3), (0, 1)]) ++ (txt ++ tail).take 2 := by
      have := slice_front 4 (leBytes 2 (packFields [(xf, 12), (u, 3), (0, 1)]) ++ (txt ++ tail).take 2) ((txt ++ tail).drop 2) (by
        simp only [List.length_append, leBytes_length, List.length_take] at hlen ⊢; omega)
      rw [List.append_assoc, List.take_append_drop, ← List.append_assoc] at this
      exact this
    rw [hs4, unpackN_ok (by simp only [List.length_append, leBytes_length, List.length_take] at hlen ⊢; omega)]
    simp only [bind, Except.bind]
    have hflag : fld (leBytes 2 (packFields [(xf, 12), (u, 3), (0, 1)]) ++ (txt ++ tail).take 2) 0 2 =
        bitsAt (packFields [(xf, 12), (u, 3), (0, 1)]) 0 16 := by
      rw [← fld_leBytes 2 _ 0 2 (by decide)]
      unfold fld
      simp only [List.drop_zero]
      rw [List.take_append_of_le_length (by rw [leBytes_length]), List.take_of_length_le (l := leBytes 2 _) (by rw [leBytes_length])]
    have hb : bitsAt (packFields [(xf, 12), (u, 3), (0, 1)]) 0 16 &&& 0x8000 = 0 := by
      have h15 : bitsAt (bitsAt (packFields [(xf, 12), (u, 3), (0, 1)]) 0 16) 15 1 = 0 := by
        rw [bits_bits _ _ _ _ _ (by decide)]
        exact bits_pack _ hfit (by rfl)
      have : (bitsAt (packFields [(xf, 12), (u, 3), (0, 1)]) 0 16).testBit 15 = false := by
        rw [Nat.testBit_eq_decide_div_mod_eq]
        unfold bitsAt at h15 ⊢
        simp only [decide_eq_false_iff_not]
        rw [Nat.pow_one] at h15
        rw [h15]
        decide
      apply Nat.eq_of_testBit_eq
      intro i
      rw [Nat.testBit_and, Nat.zero_testBit, show (0x8000 : Nat) = 2 ^ 15 from rfl, Nat.testBit_two_pow]
      by_cases hi : 15 = i
      · subst hi; rw [this]; rfl
      · simp [hi]
    have hxf : bitsAt (packFields [(xf, 12), (u, 3), (0, 1)]) 0 16 &&& 0x0fff = xf := by
      rw [and_bits _ 12 _ (by decide), bits_bits _ _ _ _ _ (by decide)]
      exact bits_pack _ hfit (by rfl)
    rw [if_neg (by
      rintro ⟨h0, h1⟩
      rw [hn] at h1
      rcases hz with hz | hz
      · rw [hz] at h1; cases h1
      · exact hz h0), hflag, if_neg (by rw [hb]; simp), hxf]
    simp only [Bool.false_eq_true, if_false]
    cases userStyleName bv dec' (leBytes 2 (packFields [(xf, 12), (u, 3), (0, 1)]) ++ txt ++ tail) <;> rfl

/-- The name of a user-defined style. -/
theorem style_name {bv : Nat} {dec dec' : Bytes → R PyStr} {normal : Bool} {s : StyleRec} {d : Bytes} (h : StyleRecord bv dec normal s d)
    (hb : s.builtin = false) : (80 ≤ bv → userStyleName bv dec' d = .ok s.name) ∧
      (bv < 80 → ∃ raw, dec raw = .ok s.name ∧ userStyleName bv dec' d = dec' raw) := by
  cases h with
  | zero h0 => cases hb
  | builtin => cases hb
  | user xf u s txt tail hx hu ht hlen hz =>
    have hp : (leBytes 2 (packFields [(xf, 12), (u, 3), (0, 1)]) ++ txt ++ tail).drop 2 = txt ++ tail := by
      rw [List.append_assoc, List.drop_left' (leBytes_length _ _)]
    unfold userStyleName
    refine ⟨fun h8 => ?_, fun h8 => ?_⟩
    · rw [if_pos h8] at ht ⊢
      exact (textField_read (dec' := dec') (Or.inr rfl) (fun h => by omega) ht hp).2 h8
    · rw [if_neg (by omega)] at ht ⊢
      cases ht with
      | biff8 u h8 => omega
      | older raw h8 text len =>
        exact ⟨raw, text, unpackString_at (p := 2) (r := tail) dec' (Or.inl rfl) len (by rw [hp, List.append_assoc])⟩

theorem styles_items {env : BookEnv} (hfi : env.fi = true) {items : List GItem} {ss : List StyleRec} (hc : Styles env.bv (textAt env) items ss) :
    ∀ {b0 b : Book}, EncInv env [] b0 → b0.fmt.styleMap = (fun _ => none) → applyGlobals env b0 items = .ok b → b.fmt.styleMap = styleMapOf ss := by
  induction hc with
  | nil => intro b0 b _ hf h; cases h; rw [hf]; rfl
  | @take pre ss d s hc0 hrel ih =>
    intro b0 b h0 hf h
    obtain ⟨b1, h1, h2⟩ := gItems_snoc h
    have hi := items_enc pre h0 h1
    simp only [List.nil_append] at hi
    have ih1 := ih h0 hf h1
    have e : applyGItem env b1 (.one 0x293 d) = bookStyle env b1 d := rfl
    rw [e] at h2
    unfold bookStyle at h2
    obtain ⟨g, h3, h2⟩ := bind_ok h2
    cases h2
    rw [hfi, style_read (by rw [ih1, styleMapOf_normal]) hrel] at h3
    have hname : (if s.builtin then .ok s.name else userStyleName env.bv (b1.dec env) d) = (.ok s.name : R PyStr) := by
      cases hb : s.builtin with
      | true => rfl
      | false =>
        rw [if_neg (by simp)]
        obtain ⟨k1, k2⟩ := style_name (dec' := b1.dec env) hrel hb
        by_cases h8 : env.bv < 80
        · obtain ⟨raw, k3, k4⟩ := k2 h8
          rw [k4]
          rcases hi.enc with he | he
          · exfalso
            rw [hb, if_neg (by simp), k4] at h3
            unfold Book.dec at h3
            rw [he] at h3
            cases h3
          · rw [dec_eq he]; exact k3
        · exact k1 (by omega)
    rw [hname] at h3
    cases h3
    rw [styleMapOf_snoc, ← ih1]
  | @skip pre ss it hc0 hns ih =>
    intro b0 b h0 hf h
    obtain ⟨b1, h1, h2⟩ := gItems_snoc h
    have ih1 := ih h0 hf h1
    cases it with
    | sst d more => obtain ⟨t, rfl⟩ := sst_frame h2; exact ih1
    | extern d more => obtain ⟨_, _, _, _, _, _, _, _, rfl⟩ := extern_frame h2; exact ih1
    | one c d =>
      have hc : c ≠ XL_STYLE := fun h => hns d (by rw [h])
      rw [(record_frame h2).style hc]
      exact ih1

/-- C65: with formatting information, `style_name_map` has for each name the last STYLE record with that name: whether it is
built in, and its XF. -/
theorem C65_styles (env : BookEnv) (hfi : env.fi = true) (pre post eof : Bytes) (he : eof.length < 65536) (items : List GItem)
    (hok : GlobalsOk env.bv items) (ss : List StyleRec) (hs : Styles env.bv (textAt env) items ss) (b : Book) (p : Int)
    (h : parseGlobals env (pre ++ encGlobals items eof ++ post) newBook (pre.length : Int) = .ok (b, p)) (name : PyStr) :
    b.fmt.styleMap name = ((ss.filter fun s => decide (s.name = name)).getLast?).map fun s => (if s.builtin then 1 else 0, s.xf) := by
  obtain ⟨f, b1, h1, h2, h3, _⟩ := parse_ok he hok h
  obtain ⟨m, rfl⟩ := colour_map_fields h1
  have := styles_items hfi hs (fresh_enc env _) rfl h2
  obtain ⟨os, _, _, _, _, _, rfl⟩ := eof_frame h3
  exact congrFun this name

/-! ## C66 -/

theorem itemsSet_known {α : Type} (d : List (Nat × α)) (k c : Nat) (v : α) (h : (itemsGet d k).isSome) :
    (itemsGet (itemsSet d k v) c).isSome = (itemsGet d c).isSome := by
  rw [itemsGet_set]
  by_cases hc : c = k
  · subst hc; rw [if_pos rfl, h]; rfl
  · rw [if_neg hc]

theorem paletteLoop_known {cs : List Nat} : ∀ {st st' : FmtSt} {i : Nat}, paletteLoop st i cs = .ok st' → ∀ c,
    (itemsGet st'.colourMap c).isSome = (itemsGet st.colourMap c).isSome := by
  induction cs with
  | nil => intro st st' i h c; cases h; rfl
  | cons x cs ih =>
    intro st st' i h c
    simp only [paletteLoop] at h
    cases hg : itemsGet st.colourMap (8 + i) with
    | none => rw [hg] at h; cases h
    | some v =>
      rw [hg] at h
      rw [ih h c]
      exact itemsSet_known _ _ _ _ (by rw [hg]; rfl)

/-- The indexes used by XFs. -/
def XfUses (m : List (Nat × Option Rgb)) (xfs : List XF) (c : Nat) : Prop := (itemsGet m c).isSome = true ∧ ∃ x ∈ xfs, c ∈ x.colourIndexes

theorem used_items {env : BookEnv} (items : List GItem) {b0 b : Book}
    (h0 : (∀ c, b0.fmt.coloursUsed c = true ↔ XfUses b0.fmt.colourMap b0.fmt.xfList c) ∧ (env.fi = false → b0.fmt.colourMap = []))
    (h : applyGlobals env b0 items = .ok b) :
    (∀ c, b.fmt.coloursUsed c = true ↔ XfUses b.fmt.colourMap b.fmt.xfList c) ∧ (env.fi = false → b.fmt.colourMap = []) := by
  refine gItems_inv (fun b => (∀ c, b.fmt.coloursUsed c = true ↔ XfUses b.fmt.colourMap b.fmt.xfList c) ∧
    (env.fi = false → b.fmt.colourMap = [])) ?_ items _ _ h0 h
  rintro b it b' ⟨hb, hm⟩ ha
  cases it with
  | sst d more => obtain ⟨t, rfl⟩ := sst_frame ha; exact ⟨hb, hm⟩
  | extern d more => obtain ⟨_, _, _, _, _, _, _, _, rfl⟩ := extern_frame ha; exact ⟨hb, hm⟩
  | one c d =>
    by_cases hc : c = XL_XF
    · subst hc
      have e : applyGItem env b (.one XL_XF d) = bookXf env b d := rfl
      rw [e] at ha
      unfold bookXf at ha
      obtain ⟨g, h3, h2⟩ := bind_ok ha
      cases h2
      unfold handleXf at h3
      obtain ⟨x, _, h3⟩ := bind_ok h3
      cases h3
      refine ⟨?_, hm⟩
      intro k
      simp only
      have hx : ∀ y : XF, XfUses b.fmt.colourMap (b.fmt.xfList ++ [y]) k ↔
          XfUses b.fmt.colourMap b.fmt.xfList k ∨ (k ∈ y.colourIndexes ∧ (itemsGet b.fmt.colourMap k).isSome = true) := by
        intro y
        unfold XfUses
        simp only [List.mem_append, List.mem_singleton]
        constructor
        · rintro ⟨a, z, hz | rfl, hk⟩
          · exact Or.inl ⟨a, z, hz, hk⟩
          · exact Or.inr ⟨hk, a⟩
        · rintro (⟨a, z, hz, hk⟩ | ⟨hk, a⟩)
          · exact ⟨a, z, Or.inl hz, hk⟩
          · exact ⟨a, y, Or.inr rfl, hk⟩
      rw [hx]
      cases hfi : env.fi with
      | true =>
        simp only [if_true, checkColourIndexes, Bool.or_eq_true, Bool.and_eq_true, decide_eq_true_eq, hb]
        rfl
      | false =>
        simp only [Bool.false_eq_true, if_false, hb]
        constructor
        · exact Or.inl
        · rintro (a | ⟨_, a⟩)
          · exact a
          · rw [hm hfi] at a; cases a
    · have fr := record_frame ha
      show (∀ c, b'.fmt.coloursUsed c = true ↔ _) ∧ _
      rw [fr.used hc, fr.xfList hc]
      by_cases hp : c = XL_PALETTE
      · subst hp
        have e : applyGItem env b (.one XL_PALETTE d) = bookPalette env b d := rfl
        rw [e] at ha
        unfold bookPalette at ha
        obtain ⟨g, h3, h2⟩ := bind_ok ha
        cases h2
        cases hfi : env.fi with
        | false =>
          rw [hfi, C37_palette_ignored] at h3
          cases h3
          exact ⟨hb, fun _ => hm hfi⟩
        | true =>
          rw [hfi] at h3
          unfold handlePalette at h3
          simp only [Bool.not_true, Bool.false_eq_true, if_false] at h3
          obtain ⟨n, _, h3⟩ := bind_ok h3
          split_ifs at h3
          obtain ⟨_, ha, h3⟩ := bind_ok h3
          refine ⟨?_, fun h => by cases h⟩
          intro k
          rw [hb k]
          unfold XfUses
          simp only
          rw [paletteLoop_known h3 k]
      · rw [fr.colourMap hp]; exact ⟨hb, hm⟩

theorem fonts_used (m : List (Nat × Option Rgb)) (fonts : List Font) (c : Nat) : ∀ used : Nat → Bool,
    (fonts.foldl (fontColourUsed m) used) c = true ↔
      used c = true ∨ ((itemsGet m c).isSome = true ∧ c ≠ 0x7fff ∧ ∃ f ∈ fonts, f.fontIndex ≠ 4 ∧ f.colourIndex = c) := by
  induction fonts with
  | nil => intro used; simp
  | cons f fonts ih =>
    intro used
    rw [List.foldl_cons, ih]
    have h1 : fontColourUsed m used f c = true ↔ used c = true ∨ ((itemsGet m c).isSome = true ∧ c ≠ 0x7fff ∧ f.fontIndex ≠ 4 ∧ f.colourIndex = c) := by
      unfold fontColourUsed
      split_ifs with h4 h7 hs
      · simp [h4]
      · constructor
        · exact Or.inl
        · rintro (a | ⟨_, b, _, d⟩)
          · exact a
          · exact absurd (d.symm.trans h7) b
      · by_cases hc : c = f.colourIndex
        · subst hc; simp [hs, h4, h7]
        · have : ¬ f.colourIndex = c := Ne.symm hc
          simp [hc, this]
      · constructor
        · exact Or.inl
        · rintro (a | ⟨b, _, _, d⟩)
          · exact a
          · rw [d] at hs; exact absurd b hs
    rw [h1]
    simp only [List.mem_cons]
    constructor
    · rintro ((a | ⟨a, b, c, d⟩) | ⟨a, b, g, hg, c, d⟩)
      · exact Or.inl a
      · exact Or.inr ⟨a, b, f, Or.inl rfl, c, d⟩
      · exact Or.inr ⟨a, b, g, Or.inr hg, c, d⟩
    · rintro (a | ⟨a, b, g, rfl | hg, c, d⟩)
      · exact Or.inl (Or.inl a)
      · exact Or.inl (Or.inr ⟨a, b, c, d⟩)
      · exact Or.inr ⟨a, b, g, hg, c, d⟩

/-- C66: whatever bytes are loaded, `colour_indexes_used` holds exactly the indexes in the colour map that an XF uses for a border
or a background, or a font other than the dummy uses (0x7fff, the system text colour, is not counted for fonts).  This is about files whose globals do not contain sheets, that is, all but
BIFF4W files. -/
theorem C66_colours_used (env : OpenEnv) (v : Nat) (base : Int) (mem : Bytes) (pos : Int) (b : Book) (p : Int)
    (h : parseGlobals (env.bookEnv v base) mem newBook pos = .ok (b, p)) (hn : b.embedded = []) (c : Nat) :
    b.fmt.coloursUsed c = true ↔ (itemsGet b.fmt.colourMap c).isSome = true ∧
      ((∃ x ∈ b.fmt.xfList, c = x.leftColourIndex ∨ c = x.rightColourIndex ∨ c = x.topColourIndex ∨ c = x.bottomColourIndex ∨
          c = x.diagColourIndex ∨ c = x.patternColourIndex ∨ c = x.backgroundColourIndex) ∨
       (c ≠ 0x7fff ∧ ∃ f ∈ b.fmt.fontList, f.fontIndex ≠ 4 ∧ f.colourIndex = c)) := by
  obtain ⟨f, b1, h1, h2, h3⟩ := parseGlobals_sound _ mem _ _ _ _ h
  have hn1 : b1.embedded = [] := by
    obtain ⟨os, _, _, _, _, _, rfl⟩ := eof_frame h3
    exact hn
  obtain ⟨items, h2, _⟩ := h2.items (fun b d q b' q' ha => (sheethdr_same ha).2.1) hn1
  have hinit : (∀ c, f.coloursUsed c = true ↔ XfUses f.colourMap f.xfList c) ∧ ((env.bookEnv v base).fi = false → f.colourMap = []) := by
    refine ⟨?_, ?_⟩
    · obtain ⟨m, rfl⟩ := colour_map_fields h1
      intro c; simp [XfUses]
    · intro hfi
      unfold initialiseColourMap at h1
      simp only [hfi, Bool.not_false, if_true] at h1
      cases h1
      rfl
  obtain ⟨hu, _⟩ := used_items items hinit h2
  obtain ⟨os, _, _, _, _, _, rfl⟩ := eof_frame h3
  show ((xfEpilogue env.fi b1.fmt).fontList.foldl (fontColourUsed (xfEpilogue env.fi b1.fmt).colourMap) (xfEpilogue env.fi b1.fmt).coloursUsed) c = true ↔
    (itemsGet (xfEpilogue env.fi b1.fmt).colourMap c).isSome = true ∧ ((∃ x ∈ (xfEpilogue env.fi b1.fmt).xfList, _) ∨
      (c ≠ 0x7fff ∧ ∃ f ∈ (xfEpilogue env.fi b1.fmt).fontList, _))
  rw [fonts_used, xfEpilogue_list]
  show (b1.fmt.coloursUsed c = true ∨ _) ↔ _
  rw [hu]
  unfold XfUses
  have hfx : ∀ x : XF, (fixParent env.fi b1.fmt.xfList.length x).colourIndexes = x.colourIndexes := by
    intro x; unfold fixParent; split_ifs <;> rfl
  have hci : ∀ x : XF, (c = x.leftColourIndex ∨ c = x.rightColourIndex ∨ c = x.topColourIndex ∨ c = x.bottomColourIndex ∨
          c = x.diagColourIndex ∨ c = x.patternColourIndex ∨ c = x.backgroundColourIndex) ↔ c ∈ x.colourIndexes := by
    intro x; simp [XF.colourIndexes]
  simp only [hci, List.mem_map]
  constructor
  · rintro (⟨a, x, hx, hc⟩ | ⟨a, b, g⟩)
    · exact ⟨a, Or.inl ⟨_, ⟨x, hx, rfl⟩, by rw [hfx]; exact hc⟩⟩
    · exact ⟨a, Or.inr ⟨b, g⟩⟩
  · rintro ⟨a, ⟨_, ⟨x, hx, rfl⟩, hc⟩ | ⟨b, g⟩⟩
    · rw [hfx] at hc; exact Or.inl ⟨a, x, hx, hc⟩
    · exact Or.inr ⟨a, b, g⟩

end Xlrd
