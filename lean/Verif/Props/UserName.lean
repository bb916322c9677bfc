import Verif.Props.Settings
import Verif.Props.GlobalsExamples

/-!
# C64: the user name of files before BIFF8
-/
set_option linter.unusedSimpArgs false
namespace Xlrd
open Spec

/-- The user name, whether it is still to be decoded, and the encoding are the same. -/
def SameName (b b' : Book) : Prop := b'.userName = b.userName ∧ b'.rawUser = b.rawUser ∧ b'.encoding = b.encoding

/-- A user name that waits is left alone, or decoded in the encoding chosen. -/
def NameStep (env : BookEnv) (b b' : Book) : Prop :=
  (b.rawUser = none → b'.rawUser = none ∧ b'.userName = b.userName) ∧
  (∀ raw, b.rawUser = some raw → (b'.rawUser = some raw ∧ b'.encoding = b.encoding) ∨
    (b'.rawUser = none ∧ ∃ e s, b'.encoding = some e ∧ unpackString (env.codec e) raw 0 1 = .ok s ∧ b'.userName = env.rstrip s))

/-- What one record does to the user name and, if it has no text, to the encoding. -/
def ItemStep (env : BookEnv) (it : GItem) (b b' : Book) : Prop := NameStep env b b' ∧ (NoText it → b'.encoding = b.encoding)

theorem NameStep.same {env : BookEnv} {b b' : Book} (h : SameName b b') : NameStep env b b' := by
  obtain ⟨h1, h2, h3⟩ := h
  exact ⟨fun hr => ⟨h2.trans hr, h1⟩, fun raw hr => Or.inl ⟨h2.trans hr, h3⟩⟩

theorem NameStep.andThen {env : BookEnv} {b b1 b' : Book} (h : NameStep env b b1) (h' : SameName b1 b') : NameStep env b b' := by
  obtain ⟨h1, h2, h3⟩ := h'
  refine ⟨fun hr => ⟨h2.trans (h.1 hr).1, h1.trans (h.1 hr).2⟩, fun raw hr => ?_⟩
  rcases h.2 raw hr with ⟨a1, a2⟩ | ⟨a1, e, s, a2, a3, a4⟩
  · exact Or.inl ⟨h2.trans a1, h3.trans a2⟩
  · exact Or.inr ⟨h2.trans a1, e, s, h3.trans a2, a3, h1.trans a4⟩

theorem choose_some {env : BookEnv} (h5 : env.bv < 80) (b : Book) : ∃ e, (chooseEncoding env b).encoding = some e := by
  unfold chooseEncoding
  by_cases h : env.override ≠ []
  · rw [if_pos h]; exact ⟨_, rfl⟩
  · rw [if_neg h]
    cases b.codepage with
    | none => simp only [if_pos h5]; exact ⟨_, rfl⟩
    | some cp => exact ⟨_, rfl⟩

theorem derive_name {env : BookEnv} (h5 : env.bv < 80) {b b' : Book} (h : deriveEncoding env b = .ok b') :
    NameStep env b b' ∧ b'.rawUser = none ∧ b'.encoding ≠ none := by
  obtain ⟨e, he⟩ := choose_some h5 b
  have hd := derive_eq h
  unfold deriveEncoding at h
  obtain ⟨_, _, h⟩ := bind_ok h
  obtain ⟨e1, e2⟩ := choose_user env b
  unfold decodeUserName at h
  cases hr : b.rawUser with
  | none =>
    rw [e2, hr] at h
    cases h
    refine ⟨⟨fun _ => ⟨e2.trans hr, e1⟩, fun raw h' => ?_⟩, e2.trans hr, by rw [he]; simp⟩
    rw [hr] at h'
    cases h'
  | some raw =>
    rw [e2, hr] at h
    obtain ⟨s, hs, h⟩ := bind_ok h
    rw [dec_eq he] at hs
    cases h
    refine ⟨⟨fun h' => absurd (hr.symm.trans h') (by simp), fun raw' h' => ?_⟩, rfl, by show (chooseEncoding env b).encoding ≠ none; rw [he]; simp⟩
    rw [hr] at h'
    cases h'
    exact Or.inr ⟨rfl, e, s, he, hs, rfl⟩

theorem ItemStep.same {env : BookEnv} {it : GItem} {b b' : Book} (h : SameName b b') : ItemStep env it b b' := ⟨.same h, fun _ => h.2.2⟩

theorem ItemStep.derive {env : BookEnv} {it : GItem} {b b1 b' : Book} (h5 : env.bv < 80) (hq : ¬ NoText it)
    (h : deriveEncoding env b = .ok b1) (h' : SameName b1 b') : ItemStep env it b b' :=
  ⟨(derive_name h5 h).1.andThen h', fun q => absurd q hq⟩

theorem ItemStep.ensure {env : BookEnv} {it : GItem} {b b1 b' : Book} (h5 : env.bv < 80) (hq : ¬ NoText it)
    (h : ensureEncoding env b = .ok b1) (h' : SameName b1 b') : ItemStep env it b b' := by
  unfold ensureEncoding at h
  cases he : b.encoding with
  | none => rw [he] at h; exact .derive h5 hq h h'
  | some e => rw [he] at h; cases h; exact .same h'

theorem ItemStep.codepage {env : BookEnv} {it : GItem} {b b' : Book} {c : Option Nat} (h5 : env.bv < 80) (hq : ¬ NoText it)
    (h : deriveEncoding env { b with codepage := c } = .ok b') : ItemStep env it b b' := by
  obtain ⟨h1, h2⟩ := (derive_name h5 h).1
  exact ⟨⟨fun hr => h1 hr, fun raw hr => h2 raw hr⟩, fun q => absurd q hq⟩

theorem needs {rc c : Nat} {d : Bytes} (h : rc = c) (hc : c ∈ textCodes) : ¬ NoText (.one rc d) := by
  subst h
  exact fun hq => hq hc

theorem item_name {env : BookEnv} (h5 : env.bv < 80) {b b' : Book} {it : GItem} (hn : ∀ d, it ≠ .one 0x5c d) (ha : applyGItem env b it = .ok b') :
    ItemStep env it b b' := by
  cases it with
  | sst d more => obtain ⟨t, rfl⟩ := sst_frame ha; exact .same ⟨rfl, rfl, rfl⟩
  | extern d more =>
    simp only [applyGItem, externBegin] at ha
    obtain ⟨b2, h0, ha⟩ := bind_ok ha
    obtain ⟨b1, h1, h2⟩ := bind_ok h0
    cases h2
    refine .derive h5 id h1 ?_
    by_cases h8 : env.bv ≥ 80
    · rw [if_pos h8] at ha
      unfold externApply8 at ha
      obtain ⟨n, _, ha⟩ := bind_ok ha
      obtain ⟨refs, _, ha⟩ := bind_ok ha
      cases ha
      exact ⟨rfl, rfl, rfl⟩
    · rw [if_neg h8] at ha
      unfold externApply57 at ha
      obtain ⟨n, _, ha⟩ := bind_ok ha
      obtain ⟨b3, h3, ha⟩ := bind_ok ha
      cases ha
      unfold externName57 at h3
      by_cases h4 : fld n 1 1 = 3
      · rw [if_pos h4] at h3
        obtain ⟨name, _, h3⟩ := bind_ok h3
        cases h3
        exact ⟨rfl, rfl, rfl⟩
      · rw [if_neg h4] at h3
        cases h3
        exact ⟨rfl, rfl, rfl⟩
  | one rc d =>
    simp only [applyGItem, globalsRecord] at ha
    by_cases c1 : rc = XL_FONT ∨ rc = XL_FONT_B3B4
    · rw [if_pos c1] at ha
      unfold bookFont at ha
      split_ifs at ha
      · cases ha; exact .same ⟨rfl, rfl, rfl⟩
      · obtain ⟨b1, h1, ha⟩ := bind_ok ha
        obtain ⟨f, _, ha⟩ := bind_ok ha
        cases ha
        exact .ensure h5 (by rcases c1 with c | c <;> exact needs c (by decide)) h1 ⟨rfl, rfl, rfl⟩
    rw [if_neg c1] at ha
    by_cases c2 : rc = XL_FORMAT
    · rw [if_pos c2] at ha
      unfold bookFormat at ha
      obtain ⟨b1, h1, ha⟩ := bind_ok ha
      obtain ⟨f, _, ha⟩ := bind_ok ha
      cases ha
      exact .ensure h5 (needs c2 (by decide)) h1 ⟨rfl, rfl, rfl⟩
    rw [if_neg c2] at ha
    by_cases c3 : rc = XL_XF
    · rw [if_pos c3] at ha
      unfold bookXf at ha
      obtain ⟨f, _, ha⟩ := bind_ok ha
      cases ha
      exact .same ⟨rfl, rfl, rfl⟩
    rw [if_neg c3] at ha
    by_cases c4 : rc = XL_BOUNDSHEET
    · rw [if_pos c4] at ha
      unfold handleBoundsheet at ha
      obtain ⟨b1, h1, ha⟩ := bind_ok ha
      obtain ⟨⟨p, v, t, n⟩, _, ha⟩ := bind_ok ha
      cases ha
      refine .derive h5 (needs c4 (by decide)) h1 ?_
      unfold addSheet
      split_ifs <;> exact ⟨rfl, rfl, rfl⟩
    rw [if_neg c4] at ha
    by_cases c5 : rc = XL_DATEMODE
    · rw [if_pos c5] at ha
      unfold handleDatemode at ha
      obtain ⟨m, _, ha⟩ := bind_ok ha
      obtain ⟨_, _, ha⟩ := bind_ok ha
      cases ha
      exact .same ⟨rfl, rfl, rfl⟩
    rw [if_neg c5] at ha
    by_cases c6 : rc = XL_CODEPAGE
    · rw [if_pos c6] at ha
      unfold handleCodepage at ha
      obtain ⟨m, _, ha⟩ := bind_ok ha
      exact .codepage h5 (needs c6 (by decide)) ha
    rw [if_neg c6] at ha
    by_cases c7 : rc = XL_COUNTRY
    · rw [if_pos c7] at ha
      unfold handleCountry at ha
      obtain ⟨m, _, ha⟩ := bind_ok ha
      obtain ⟨_, _, ha⟩ := bind_ok ha
      cases ha
      exact .same ⟨rfl, rfl, rfl⟩
    rw [if_neg c7] at ha
    by_cases c8 : rc = XL_EXTERNNAME
    · rw [if_pos c8] at ha
      unfold handleExternname at ha
      split_ifs at ha
      · obtain ⟨_, _, ha⟩ := bind_ok ha
        obtain ⟨⟨n, q⟩, _, ha⟩ := bind_ok ha
        obtain ⟨t, _, ha⟩ := bind_ok ha
        cases ha
        split_ifs <;> exact .same ⟨rfl, rfl, rfl⟩
      · cases ha; exact .same ⟨rfl, rfl, rfl⟩
    rw [if_neg c8] at ha
    by_cases c9 : rc = XL_FILEPASS
    · rw [if_pos c9] at ha; cases ha
    rw [if_neg c9] at ha
    by_cases c10 : rc = XL_WRITEACCESS
    · exact absurd (by rw [c10]) (hn d)
    rw [if_neg c10] at ha
    by_cases c11 : rc = XL_SHEETSOFFSET
    · rw [if_pos c11] at ha
      unfold handleSheetsoffset at ha
      obtain ⟨m, _, ha⟩ := bind_ok ha
      cases ha
      exact .same ⟨rfl, rfl, rfl⟩
    rw [if_neg c11] at ha
    by_cases c12 : rc = XL_SUPBOOK
    · rw [if_pos c12] at ha
      unfold handleSupbook at ha
      obtain ⟨m, _, ha⟩ := bind_ok ha
      obtain ⟨t, _, ha⟩ := bind_ok ha
      cases ha
      exact .same ⟨rfl, rfl, rfl⟩
    rw [if_neg c12] at ha
    by_cases c13 : rc = XL_NAME
    · rw [if_pos c13] at ha
      unfold handleName at ha
      split_ifs at ha
      · cases ha; exact .same ⟨rfl, rfl, rfl⟩
      · obtain ⟨b1, h1, ha⟩ := bind_ok ha
        obtain ⟨m, _, ha⟩ := bind_ok ha
        obtain ⟨⟨t, q⟩, _, ha⟩ := bind_ok ha
        cases ha
        exact .derive h5 (needs c13 (by decide)) h1 ⟨rfl, rfl, rfl⟩
    rw [if_neg c13] at ha
    by_cases c14 : rc = XL_PALETTE
    · rw [if_pos c14] at ha
      unfold bookPalette at ha
      obtain ⟨f, _, ha⟩ := bind_ok ha
      cases ha
      exact .same ⟨rfl, rfl, rfl⟩
    rw [if_neg c14] at ha
    by_cases c15 : rc = XL_STYLE
    · rw [if_pos c15] at ha
      unfold bookStyle at ha
      obtain ⟨f, _, ha⟩ := bind_ok ha
      cases ha
      exact .same ⟨rfl, rfl, rfl⟩
    rw [if_neg c15] at ha
    cases ha
    exact .same ⟨rfl, rfl, rfl⟩

/-- The state of the user name after the WRITEACCESS record `d` that follows `pre` and is the last one. -/
def NameAt (env : BookEnv) (pre : List GItem) (d : Bytes) (done : List GItem) (b : Book) : Prop :=
  (b.rawUser = some d ∧ b.encoding = none) ∨
  (b.rawUser = none ∧ ∃ k s, k ≤ done.length ∧
    unpackString (env.codec (textEncoding env.bv env.override (lastCodepage (pre ++ done.take k)))) d 0 1 = .ok s ∧ b.userName = env.rstrip s)

/-- A user name waits only as long as there is no encoding. -/
def WaitInv (b : Book) : Prop := b.encoding ≠ none → b.rawUser = none

theorem write_at {env : BookEnv} (h5 : env.bv < 80) {pre : List GItem} {b b' : Book} {d : Bytes} (hi : EncInv env pre b) (hw : WaitInv b)
    (h : applyGItem env b (.one 0x5c d) = .ok b') : NameAt env pre d [] b' ∧ b'.encoding = b.encoding := by
  have e : applyGItem env b (.one 0x5c d) = handleWriteaccess env b d := rfl
  rw [e] at h
  unfold handleWriteaccess at h
  rw [if_pos h5] at h
  cases he : b.encoding with
  | none => rw [he] at h; cases h; exact ⟨Or.inl ⟨rfl, by simp [he]⟩, by simp [he]⟩
  | some e =>
    rw [he] at h
    obtain ⟨s, hs, h⟩ := bind_ok h
    cases h
    refine ⟨Or.inr ⟨hw (by rw [he]; simp), 0, s, Nat.le_refl _, ?_, rfl⟩, by simp [he]⟩
    rcases hi.enc with hn | hn
    · rw [he] at hn; cases hn
    · rw [dec_eq hn] at hs
      simpa using hs

theorem wait_item {env : BookEnv} (h5 : env.bv < 80) {pre : List GItem} {b b' : Book} {it : GItem} (hi : EncInv env pre b) (hw : WaitInv b)
    (h : applyGItem env b it = .ok b') : WaitInv b' := by
  by_cases hn : ∃ d, it = .one 0x5c d
  · obtain ⟨d, rfl⟩ := hn
    obtain ⟨h1, h2⟩ := write_at h5 hi hw h
    rcases h1 with ⟨a, c⟩ | ⟨a, _⟩
    · exact fun hc => absurd c hc
    · exact fun _ => a
  · obtain ⟨⟨s1, s2⟩, _⟩ := item_name h5 (fun d hd => hn ⟨d, hd⟩) h
    intro hne
    cases hr : b.rawUser with
    | none => exact (s1 hr).1
    | some raw =>
      rcases s2 raw hr with ⟨a1, a2⟩ | ⟨a1, _⟩
      · rw [a2] at hne
        rw [hw hne] at hr
        cases hr
      · exact a1

theorem wait_items {env : BookEnv} (h5 : env.bv < 80) (items : List GItem) : ∀ {pre : List GItem} {b b' : Book}, EncInv env pre b → WaitInv b →
    applyGlobals env b items = .ok b' → WaitInv b' := by
  induction items with
  | nil => intro pre b b' _ hw ha; cases ha; exact hw
  | cons it items ih =>
    intro pre b b' hi hw ha
    obtain ⟨b1, h1, h2⟩ := bind_ok ha
    exact ih (item_enc hi h1) (wait_item h5 hi hw h1) h2

theorem name_item {env : BookEnv} (h5 : env.bv < 80) {pre done : List GItem} {d : Bytes} {b b' : Book} {it : GItem}
    (hi : EncInv env (pre ++ done) b) (hn : ∀ d', it ≠ .one 0x5c d') (h : NameAt env pre d done b) (ha : applyGItem env b it = .ok b') :
    NameAt env pre d (done ++ [it]) b' := by
  have hi' := item_enc hi ha
  obtain ⟨⟨s1, s2⟩, _⟩ := item_name h5 hn ha
  rcases h with ⟨hr, he⟩ | ⟨hr, k, s, hk, hs, hu⟩
  · rcases s2 d hr with ⟨a1, a2⟩ | ⟨a1, e, s, a2, a3, a4⟩
    · exact Or.inl ⟨a1, a2.trans he⟩
    · refine Or.inr ⟨a1, (done ++ [it]).length, s, Nat.le_refl _, ?_, a4⟩
      rcases hi'.enc with hc | hc
      · rw [a2] at hc; cases hc
      · rw [a2] at hc
        cases hc
        rw [List.take_length, ← List.append_assoc]
        exact a3
  · obtain ⟨a1, a2⟩ := s1 hr
    refine Or.inr ⟨a1, k, s, by simp; omega, ?_, a2.trans hu⟩
    rw [List.take_append_of_le_length hk]
    exact hs

theorem name_items {env : BookEnv} (h5 : env.bv < 80) {pre : List GItem} {d : Bytes} (items : List GItem) :
    ∀ {done : List GItem} {b b' : Book}, EncInv env (pre ++ done) b → (∀ d', GItem.one 0x5c d' ∉ items) → NameAt env pre d done b →
    applyGlobals env b items = .ok b' → NameAt env pre d (done ++ items) b' := by
  induction items with
  | nil => intro done b b' _ _ h ha; cases ha; simpa using h
  | cons it items ih =>
    intro done b b' hi hn h ha
    obtain ⟨b1, h1, h2⟩ := bind_ok ha
    have := ih (by have := item_enc hi h1; rwa [List.append_assoc] at this)
      (fun d' hd => hn d' (List.mem_cons_of_mem _ hd)) (name_item h5 hi (fun d' hd => hn d' (by rw [hd]; exact List.mem_cons_self ..)) h h1) h2
    simpa using this

theorem eof_name {env : BookEnv} {b b' : Book} (h : globalsEof env b = .ok b') :
    ∃ b2, SameName b b2 ∧ b2.codepage = b.codepage ∧ ensureEncoding env b2 = .ok b' := by
  unfold globalsEof namesEpilogue at h
  obtain ⟨b2, k1, h⟩ := bind_ok h
  obtain ⟨os, k2, k1⟩ := bind_ok k1
  obtain ⟨_, _, k1⟩ := bind_ok k1
  cases k1
  refine ⟨_, ?_, ?_, h⟩
  · exact ⟨rfl, rfl, rfl⟩
  · rfl

/-- At the end of the globals a name that still waits is decoded. -/
theorem name_eof {env : BookEnv} (h5 : env.bv < 80) {pre done : List GItem} {d : Bytes} {b b' : Book} (hi : EncInv env (pre ++ done) b)
    (h : NameAt env pre d done b) (ha : globalsEof env b = .ok b') :
    ∃ k s, k ≤ done.length ∧
      unpackString (env.codec (textEncoding env.bv env.override (lastCodepage (pre ++ done.take k)))) d 0 1 = .ok s ∧ b'.userName = env.rstrip s := by
  obtain ⟨b2, ⟨u1, u2, u3⟩, u4, ha⟩ := eof_name ha
  rcases h with ⟨hr, he⟩ | ⟨hr, k, s, hk, hs, hu⟩
  · unfold ensureEncoding at ha
    rw [u3, he] at ha
    have hi2 := (derive_inv (hi.congr u3 u4) ha).1
    obtain ⟨⟨s1, s2⟩, n1, n2⟩ := derive_name h5 ha
    rcases s2 d (u2.trans hr) with ⟨a1, a2⟩ | ⟨a1, e, s, a2, a3, a4⟩
    · rw [n1] at a1; cases a1
    · refine ⟨done.length, s, Nat.le_refl _, ?_, a4⟩
      rcases hi2.enc with hc | hc
      · rw [a2] at hc; cases hc
      · rw [a2] at hc
        cases hc
        rw [List.take_length]
        exact a3
  · exact ⟨k, s, hk, hs, ((ensure_user ha (u2.trans hr)).1).trans (u1.trans hu)⟩

/-- What is still waiting when only records without text follow. -/
theorem quiet_items {env : BookEnv} (h5 : env.bv < 80) (items : List GItem) : ∀ {b b' : Book}, (∀ it ∈ items, NoText it) →
    applyGlobals env b items = .ok b' → b'.encoding = b.encoding := by
  induction items with
  | nil => intro b b' _ h; cases h; rfl
  | cons it items ih =>
    intro b b' hq h
    obtain ⟨b1, h1, h2⟩ := bind_ok h
    rw [ih (fun x hx => hq x (List.mem_cons_of_mem _ hx)) h2]
    by_cases hn : ∃ d, it = .one 0x5c d
    · obtain ⟨d, rfl⟩ := hn
      have e : applyGItem env b (.one 0x5c d) = handleWriteaccess env b d := rfl
      rw [e] at h1
      unfold handleWriteaccess at h1
      rw [if_pos h5] at h1
      cases he : b.encoding with
      | none => rw [he] at h1; cases h1; simp [he]
      | some e =>
        rw [he] at h1
        obtain ⟨s, _, h1⟩ := bind_ok h1
        cases h1
        simp [he]
    · exact (item_name h5 (fun d hd => hn ⟨d, hd⟩) h1).2 (hq it (List.mem_cons_self ..))

/-- C64: the user name of a file before BIFF8 is that of its last WRITEACCESS record without trailing white space. It is decoded in the
workbook's encoding as it is known after that record or after one of those that follow. -/
theorem C64_user_name_old (env : BookEnv) (h5 : env.bv < 80) (pre post eof : Bytes) (he : eof.length < 65536) (before after : List GItem)
    (raw tail : Bytes) (hr : raw.length < 256) (hok : GlobalsOk env.bv (before ++ .one 0x5c (encLen 1 raw.length ++ raw ++ tail) :: after))
    (hlast : ∀ d, GItem.one 0x5c d ∉ after) (b : Book) (p : Int)
    (h : parseGlobals env (pre ++ encGlobals (before ++ .one 0x5c (encLen 1 raw.length ++ raw ++ tail) :: after) eof ++ post) newBook
      (pre.length : Int) = .ok (b, p)) :
    ∃ k s, k ≤ after.length ∧ env.codec (textEncoding env.bv env.override (lastCodepage (before ++ after.take k))) raw = .ok s ∧
      b.userName = env.rstrip s := by
  obtain ⟨f, b1, h1, h2, h3, _⟩ := parse_ok he hok h
  obtain ⟨b2, b3, h4, h5', h6⟩ := gItems_split h2
  have i2 : EncInv env before b2 := by simpa using items_enc before (fresh_enc env f) h4
  have w2 : WaitInv b2 := wait_items h5 before (fresh_enc env f) (fun _ => rfl) h4
  obtain ⟨n3, _⟩ := write_at h5 i2 w2 h5'
  have i3 : EncInv env (before ++ []) b3 := by
    have := item_enc i2 h5'
    rw [List.append_nil]
    obtain ⟨a1, a2, a3, a4, a5, a6⟩ := this
    have e : lastCodepage (before ++ [GItem.one 0x5c (encLen 1 raw.length ++ raw ++ tail)]) = lastCodepage before :=
      lastCodepage_snoc_none (by simp [codepageOf])
    rw [e] at a1 a2 a3 a4 a5 a6
    exact ⟨a1, a2, a3, a4, a5, a6⟩
  have n1 := name_items h5 after i3 hlast n3 h6
  have i1 : EncInv env (before ++ ([] ++ after)) b1 := by
    have := items_enc after i3 h6
    simpa using this
  obtain ⟨k, s, hk, hs, hu⟩ := name_eof h5 i1 n1 h3
  refine ⟨k, s, by simpa using hk, ?_, hu⟩
  rw [show ((0 : Int)) = ((0 : Nat) : Int) from rfl,
    unpackString_at (r := tail) (b := raw) _ (Or.inl rfl) (by simpa using hr) (by simp)] at hs
  simpa using hs

/-- C64: with an `encoding_override` the user name is decoded in it. -/
theorem C64_user_name_override (env : BookEnv) (h5 : env.bv < 80) (hov : env.override ≠ []) (pre post eof : Bytes) (he : eof.length < 65536)
    (before after : List GItem) (raw tail : Bytes) (hr : raw.length < 256)
    (hok : GlobalsOk env.bv (before ++ .one 0x5c (encLen 1 raw.length ++ raw ++ tail) :: after))
    (hlast : ∀ d, GItem.one 0x5c d ∉ after) (b : Book) (p : Int)
    (h : parseGlobals env (pre ++ encGlobals (before ++ .one 0x5c (encLen 1 raw.length ++ raw ++ tail) :: after) eof ++ post) newBook
      (pre.length : Int) = .ok (b, p)) :
    ∃ s, env.codec env.override raw = .ok s ∧ b.userName = env.rstrip s := by
  obtain ⟨k, s, _, hs, hu⟩ := C64_user_name_old env h5 pre post eof he before after raw tail hr hok hlast b p h
  unfold textEncoding at hs
  rw [if_pos hov] at hs
  exact ⟨s, hs, hu⟩

/-- C64: in files as written by Excel 5 and 95, where no text comes before the CODEPAGE record, the user name is decoded in that codepage,
although it comes before it. -/
theorem C64_user_name_codepage (env : BookEnv) (h5 : env.bv < 80) (pre post eof : Bytes) (he : eof.length < 65536) (before mid after : List GItem)
    (raw tail : Bytes) (hr : raw.length < 256) (cp : Nat) (hcp : cp < 65536) (more : Bytes)
    (hok : GlobalsOk env.bv (before ++ .one 0x5c (encLen 1 raw.length ++ raw ++ tail) :: (mid ++ .one 0x42 (le16 cp ++ more) :: after)))
    (hq : ∀ it ∈ before ++ mid, NoText it) (hlast : ∀ d, GItem.one 0x5c d ∉ mid ++ after) (b : Book) (p : Int)
    (h : parseGlobals env (pre ++ encGlobals (before ++ .one 0x5c (encLen 1 raw.length ++ raw ++ tail) ::
      (mid ++ .one 0x42 (le16 cp ++ more) :: after)) eof ++ post) newBook (pre.length : Int) = .ok (b, p)) :
    ∃ s, env.codec (textEncoding env.bv env.override (some cp)) raw = .ok s ∧ b.userName = env.rstrip s := by
  obtain ⟨f, b1, h1, h2, h3, _⟩ := parse_ok he hok h
  obtain ⟨b2, b3, h4, h5', h6⟩ := gItems_split h2
  obtain ⟨b4, b5, h7, h8, h9⟩ := gItems_split h6
  have e2 : b2.encoding = none := quiet_items h5 before (fun it hi => hq it (by simp [hi])) h4
  have i2 : EncInv env before b2 := by simpa using items_enc before (fresh_enc env f) h4
  have w2 : WaitInv b2 := wait_items h5 before (fresh_enc env f) (fun _ => rfl) h4
  obtain ⟨n3, e3⟩ := write_at h5 i2 w2 h5'
  have i3 := item_enc i2 h5'
  have e4 := quiet_items h5 mid (fun it hi => hq it (by simp [hi])) h7
  have i4 := items_enc mid i3 h7
  have r3 : b3.rawUser = some (encLen 1 raw.length ++ raw ++ tail) := by
    have e : applyGItem env b2 (.one 0x5c (encLen 1 raw.length ++ raw ++ tail)) = handleWriteaccess env b2 (encLen 1 raw.length ++ raw ++ tail) := rfl
    rw [e] at h5'
    unfold handleWriteaccess at h5'
    rw [if_pos h5, e2] at h5'
    cases h5'
    rfl
  have r4 : b4.rawUser = some (encLen 1 raw.length ++ raw ++ tail) := by
    have : ∀ (l : List GItem) {b b' : Book}, (∀ it ∈ l, NoText it) → (∀ d, GItem.one 0x5c d ∉ l) → b.encoding = none →
        b.rawUser = some (encLen 1 raw.length ++ raw ++ tail) → applyGlobals env b l = .ok b' →
        b'.rawUser = some (encLen 1 raw.length ++ raw ++ tail) := by
      intro l
      induction l with
      | nil => intro b b' _ _ _ hr h; cases h; exact hr
      | cons it l ih =>
        intro b b' hq hn hb hr h
        obtain ⟨b1, k1, k2⟩ := bind_ok h
        obtain ⟨⟨s1, s2⟩, s3⟩ := item_name h5 (fun d hd => hn d (by rw [hd]; exact List.mem_cons_self ..)) k1
        have hb1 := (s3 (hq it (List.mem_cons_self ..))).trans hb
        refine ih (fun x hx => hq x (List.mem_cons_of_mem _ hx)) (fun d hd => hn d (List.mem_cons_of_mem _ hd)) hb1 ?_ k2
        rcases s2 _ hr with ⟨a, _⟩ | ⟨_, e, s, a, _⟩
        · exact a
        · rw [hb1] at a; cases a
    exact this mid (fun it hi => hq it (by simp [hi])) (fun d hd => hlast d (by simp [hd])) (e3.trans e2) r3 h7
  have c5 := item_enc i4 h8
  have k5 : lastCodepage (before ++ [GItem.one 0x5c (encLen 1 raw.length ++ raw ++ tail)] ++ mid ++ [GItem.one 0x42 (le16 cp ++ more)]) = some cp := by
    refine lastCodepage_snoc_some ?_
    simp only [codepageOf, le16, List.cons_append, List.nil_append, Option.some.injEq]
    simp
    omega
  obtain ⟨⟨s1, s2⟩, _⟩ := item_name h5 (by simp) h8
  have n5 : b5.rawUser = none ∧ ∃ s, env.codec (textEncoding env.bv env.override (some cp)) raw = .ok s ∧ b5.userName = env.rstrip s := by
    rcases s2 _ r4 with ⟨a1, a2⟩ | ⟨a1, e, s, a2, a3, a4⟩
    · exact absurd (c5.set (a2.trans (e4.trans (e3.trans e2)))) (by rw [k5]; simp)
    · refine ⟨a1, s, ?_, a4⟩
      rcases c5.enc with hc | hc
      · rw [a2] at hc; cases hc
      · rw [a2, k5] at hc
        cases hc
        rw [show ((0 : Int)) = ((0 : Nat) : Int) from rfl,
          unpackString_at (r := tail) (b := raw) _ (Or.inl rfl) (by simpa using hr) (by simp)] at a3
        exact a3
  obtain ⟨r5, s, q1, q2⟩ := n5
  have q : ∀ (l : List GItem) {b b' : Book}, (∀ d, GItem.one 0x5c d ∉ l) → b.rawUser = none → applyGlobals env b l = .ok b' →
      b'.rawUser = none ∧ b'.userName = b.userName := by
    intro l
    induction l with
    | nil => intro b b' _ hr h; cases h; exact ⟨hr, rfl⟩
    | cons it l ih =>
      intro b b' hn hr h
      obtain ⟨b1, k1, k2⟩ := bind_ok h
      obtain ⟨j1, j2⟩ := item_user (fun d hd => hn d (by rw [hd]; exact List.mem_cons_self ..)) k1 hr
      obtain ⟨t1, t2⟩ := ih (fun d hd => hn d (List.mem_cons_of_mem _ hd)) j2 k2
      exact ⟨t1, t2.trans j1⟩
  obtain ⟨q3, q4⟩ := q after (fun d hd => hlast d (by simp [hd])) r5 h9
  obtain ⟨b6, ⟨u1, u2, u3⟩, u4, ha⟩ := eof_name h3
  exact ⟨s, q1, ((ensure_user ha (u2.trans q3)).1).trans (u1.trans (q4.trans q2))⟩

namespace UserSample
open Sample

def env5 : BookEnv := { env with bv := 50 }
def name : GItem := .one 0x5c (encLen 1 4 ++ [0x61, 0x62, 0x63, 0x20] ++ [0x20, 0x20])
def date : GItem := .one 0x22 [1, 0]
def items : List GItem := [date] ++ name :: ([date] ++ .one 0x42 (le16 1252 ++ []) :: [date])

theorem ok : GlobalsOk 50 items where
  sized := by unfold GItem.Sized; decide +kernel
  plain := by
    intro it h
    simp only [items, date, name, List.cons_append, List.nil_append, List.mem_cons, List.mem_nil_iff, or_false] at h
    rcases h with rfl | rfl | rfl | rfl | rfl <;> simp [GItem.Plain]
  stray := by simp [items, date, name, NoStrayContinue]

/-- The user name of a BIFF5 file comes before the CODEPAGE record and is decoded in that codepage. -/
example : ∃ b p s, parseGlobals env5 ([9, 9] ++ encGlobals items [] ++ [7]) newBook (([9, 9] : Bytes).length : Int) = .ok (b, p) ∧
    env5.codec "cp1252".toList [0x61, 0x62, 0x63, 0x20] = .ok s ∧ b.userName = env5.rstrip s := by
  cases h : parseGlobals env5 ([9, 9] ++ encGlobals items [] ++ [7]) newBook (([9, 9] : Bytes).length : Int) with
  | ok r =>
    obtain ⟨s, h1, h2⟩ := C64_user_name_codepage env5 (by decide) [9, 9] [7] [] (by decide) [date] [date] [date] [0x61, 0x62, 0x63, 0x20] [0x20, 0x20]
      (by decide) 1252 (by decide) [] ok (by simp [date, NoText, textCodes]) (by simp [date]) r.1 r.2 h
    exact ⟨r.1, r.2, s, rfl, h1, h2⟩
  | error e =>
    have : (parseGlobals env5 ([9, 9] ++ encGlobals items [] ++ [7]) newBook (([9, 9] : Bytes).length : Int)).toOption.isSome = true := by decide +kernel
    rw [h] at this; cases this

end UserSample
end Xlrd
