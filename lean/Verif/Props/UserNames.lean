import Verif.Spec.UserName
import Verif.Props.UserName
import Verif.Props.Workbook
import Verif.Props.Biff2
import Verif.Lemmas.EncKept
import Verif.Lemmas.Biff4w

/-!
# C87: the user name of whole files
-/
set_option linter.unusedSimpArgs false
namespace Xlrd
open Spec

theorem userRecord_eq (raw tail : Bytes) : userRecord raw tail = .one 0x5c (encLen 1 raw.length ++ raw ++ tail) := by
  unfold userRecord encLen
  simp

/-- C87 (BIFF8): the user name is that of the last WRITEACCESS record without trailing white space, and empty without one. -/
theorem C87_user_name_biff8 (env : OpenEnv) (mem : Bytes) (base : Nat) (items : List GItem) (sheets : List SheetRec)
    (hw : WorkbookStream 80 (textAt (env.bookEnv 80 base)) mem base items sheets) (us : List PyStr) (hu : UserNames items us) (l : Lib) (h : openStream env mem base = .ok l) :
    UserNameIs l.book ((us.getLast?.map env.rstrip).getD []) := by
  obtain ⟨p, b, q, _, hg, ho, pre, eof, post, he, hmem, hp⟩ := stream_opened (by decide) hw h
  subst hp
  rw [hmem] at hg
  obtain ⟨f, b1, h1, h2, h3, _⟩ := parse_ok he hw.ok hg
  obtain ⟨e1, e2⟩ := users_items (env := env.bookEnv 80 base) (by decide : 80 ≤ 80) hu h2
  obtain ⟨b2, ⟨u1, u2, _⟩, _, h4⟩ := eof_name h3
  obtain ⟨k1, k2⟩ := ensure_user h4 (u2.trans e2)
  obtain ⟨_, ⟨c, hc⟩, _⟩ := openSheets_frame ho
  rw [hc]
  exact ⟨k2, k1.trans (u1.trans e1)⟩

/-- The name after the records about the whole file. -/
theorem user_at {env : BookEnv} (h5 : env.bv < 80) {b0 b1 : Book} (he : EncInv env [] b0) (hw0 : WaitInv b0) {before after : List GItem} {d : Bytes}
    (hlast : ∀ d, GItem.one 0x5c d ∉ after) (h : applyGlobals env b0 (before ++ .one 0x5c d :: after) = .ok b1) :
    NameAt env before d after b1 ∧ WaitInv b1 ∧ EncInv env (before ++ after) b1 := by
  obtain ⟨b2, b3, h4, h5', h6⟩ := gItems_split h
  have i2 : EncInv env before b2 := by simpa using items_enc before he h4
  have w2 : WaitInv b2 := wait_items h5 before he hw0 h4
  obtain ⟨n3, _⟩ := write_at h5 i2 w2 h5'
  have w3 := wait_item h5 i2 w2 h5'
  have i3 : EncInv env (before ++ []) b3 := by
    have := item_enc i2 h5'
    rw [List.append_nil]
    obtain ⟨a1, a2, a3, a4, a5, a6⟩ := this
    have e : lastCodepage (before ++ [GItem.one 0x5c d]) = lastCodepage before := lastCodepage_snoc_none (by simp [codepageOf])
    rw [e] at a1 a2 a3 a4 a5 a6
    exact ⟨a1, a2, a3, a4, a5, a6⟩
  have n1 := name_items h5 after i3 hlast n3 h6
  rw [List.nil_append] at n1
  have i4 := items_enc after i3 h6
  rw [List.append_nil] at i4
  exact ⟨n1, wait_items h5 after i3 w3 h6, i4⟩

/-- No WRITEACCESS record. -/
theorem no_user {env : BookEnv} (items : List GItem) : (∀ d, GItem.one 0x5c d ∉ items) → ∀ {b b' : Book}, applyGlobals env b items = .ok b' → UserSame b b' := by
  induction items with
  | nil => intro _ b b' h; cases h; exact fun hr => ⟨rfl, hr⟩
  | cons it items ih =>
    intro hn b b' h
    obtain ⟨b1, h1, h2⟩ := bind_ok h
    exact (item_user (fun d hd => hn d (by rw [hd]; exact List.mem_cons_self ..)) h1).trans (ih (fun d hd => hn d (List.mem_cons_of_mem _ hd)) h2)

/-- C87 (BIFF5 and BIFF7): the user name is that of the last WRITEACCESS record without trailing white space, decoded in the encoding that the CODEPAGE records up to there, or
up to a later record, and `encoding_override` give. -/
theorem C87_user_name_biff57 (env : OpenEnv) (v : Nat) (h50 : 50 ≤ v) (h80 : v < 80) (mem : Bytes) (base : Nat) (items : List GItem) (sheets : List SheetRec)
    (hw : WorkbookStream v (textAt (env.bookEnv v base)) mem base items sheets) (before after : List GItem) (raw : Bytes) (hu : LastUser items before raw after)
    (l : Lib) (h : openStream env mem base = .ok l) :
    ∃ k s, k ≤ after.length ∧ env.codec (textEncoding v env.override (lastCodepage (before ++ after.take k))) raw = .ok s ∧ UserNameIs l.book (env.rstrip s) := by
  obtain ⟨p, b, q, _, hg, ho, pre, eof, post, he, hmem, hp⟩ := stream_opened h50 hw h
  subst hp
  rw [hmem] at hg
  obtain ⟨tail, ht⟩ := hu.split
  rw [userRecord_eq] at ht
  obtain ⟨f, b1, h1, h2, h3, _⟩ := parse_ok he hw.ok hg
  rw [ht] at h2
  obtain ⟨n1, w1, i1⟩ := user_at (env := env.bookEnv v base) h80 (fresh_enc _ f) (fun _ => rfl) hu.last h2
  obtain ⟨k, s, hk, hs, hus⟩ := name_eof (env := env.bookEnv v base) h80 i1 n1 h3
  rw [show ((0 : Int)) = ((0 : Nat) : Int) from rfl,
    unpackString_at (r := tail) (b := raw) _ (Or.inl rfl) (by simpa using hu.short) (by simp)] at hs
  obtain ⟨_, ⟨c, hc⟩, _⟩ := openSheets_frame ho
  refine ⟨k, s, hk, hs, ?_, ?_⟩
  · rw [hc]
    show b.rawUser = none
    obtain ⟨b2, ⟨_, u2, u3⟩, _, h4⟩ := eof_name h3
    have : WaitInv b2 := fun hh => u2.trans (w1 (by rw [← u3]; exact hh))
    unfold ensureEncoding at h4
    cases hen : b2.encoding with
    | none => rw [hen] at h4; exact (derive_name (env := env.bookEnv v base) h80 h4).2.1
    | some e => rw [hen] at h4; cases h4; exact this (by rw [hen]; simp)
  · rw [hc]
    exact hus

/-- C87 (BIFF5 and BIFF7, no record). -/
theorem C87_no_user_name_biff57 (env : OpenEnv) (v : Nat) (h50 : 50 ≤ v) (mem : Bytes) (base : Nat) (items : List GItem) (sheets : List SheetRec)
    (hw : WorkbookStream v (textAt (env.bookEnv v base)) mem base items sheets) (hn : ∀ d, GItem.one 0x5c d ∉ items)
    (l : Lib) (h : openStream env mem base = .ok l) : UserNameIs l.book [] := by
  obtain ⟨p, b, q, _, hg, ho, pre, eof, post, he, hmem, hp⟩ := stream_opened h50 hw h
  subst hp
  rw [hmem] at hg
  obtain ⟨f, b1, h1, h2, h3, _⟩ := parse_ok he hw.ok hg
  obtain ⟨e1, e2⟩ := no_user items hn h2 rfl
  obtain ⟨b2, ⟨u1, u2, _⟩, _, h4⟩ := eof_name h3
  obtain ⟨k1, k2⟩ := ensure_user h4 (u2.trans e2)
  obtain ⟨_, ⟨c, hc⟩, _⟩ := openSheets_frame ho
  rw [hc]
  exact ⟨k2, k1.trans (u1.trans e1)⟩

/-! ## Old files -/

/-- After a CODEPAGE or FORMAT record there is an encoding. -/
theorem text_enc {env : BookEnv} (h8 : env.bv < 80) {c : Nat} {d : Bytes} (hc : c = 0x42 ∨ c = 0x41e) (items : List GItem) : GItem.one c d ∈ items → ∀ {b b' : Book},
    applyGlobals env b items = .ok b' → b'.encoding ≠ none := by
  induction items with
  | nil => intro h; cases h
  | cons it items ih =>
    intro hm b b' ha
    obtain ⟨b1, h1, h2⟩ := bind_ok ha
    rcases List.mem_cons.mp hm with rfl | hm
    · refine items_encKept h8 items ?_ h2
      rcases hc with rfl | rfl
      · have e : applyGItem env b (.one 0x42 d) = handleCodepage env b d := rfl
        rw [e] at h1
        unfold handleCodepage at h1
        obtain ⟨_, _, h1⟩ := bind_ok h1
        exact derived_enc h8 h1
      · have e : applyGItem env b (.one 0x41e d) = bookFormat env b d := rfl
        rw [e] at h1
        unfold bookFormat at h1
        obtain ⟨b2, h3, h1⟩ := bind_ok h1
        obtain ⟨_, _, h1⟩ := bind_ok h1
        cases h1
        show b2.encoding ≠ none
        unfold ensureEncoding at h3
        cases he : b.encoding with
        | none => rw [he] at h3; exact derived_enc h8 h3
        | some e => rw [he] at h3; cases h3; rw [he]; simp
    · exact ih hm h2

theorem newItem_user (raw tail : Bytes) : newItem (userRecord raw tail) = userRecord raw tail := rfl

/-- The name of an old file after the records about the whole file. -/
theorem old_user {env : BookEnv} (h5 : env.bv < 80) {f : FmtSt} {b1 : Book} {items before after : List GItem} {raw : Bytes} (hu : LastUser items before raw after)
    (ht : ∃ c d, GItem.one c d ∈ items ∧ (c = 0x42 ∨ c = 0x1e ∨ c = 0x41e)) (h : applyGlobals env (oldStart f) (items.map newItem) = .ok b1) :
    ∃ k s, k ≤ after.length ∧ env.codec (textEncoding env.bv env.override (lastCodepage (before ++ after.take k))) raw = .ok s ∧ UserNameIs b1 (env.rstrip s) := by
  obtain ⟨c, d, hm, hc⟩ := ht
  have henc : b1.encoding ≠ none := by
    have hm' : GItem.one (newCode c) d ∈ items.map newItem := List.mem_map.mpr ⟨_, hm, rfl⟩
    exact text_enc h5 (by rcases hc with rfl | rfl | rfl <;> decide) _ hm' h
  obtain ⟨tail, hs⟩ := hu.split
  rw [hs, List.map_append, List.map_cons, newItem_user, userRecord_eq] at h
  have hlast : ∀ d, GItem.one 0x5c d ∉ after.map newItem := by
    intro d hd
    obtain ⟨it, h1, h2⟩ := List.mem_map.mp hd
    cases it with
    | one c' d' =>
      injection h2 with h3 h4
      subst h4
      have : c' = 0x5c := by
        unfold newCode at h3
        by_cases q1 : c' = 0x43 ∨ c' = 0x243 ∨ c' = 0x443
        · rw [if_pos q1] at h3; cases h3
        · rw [if_neg q1] at h3
          by_cases q2 : c' = 0x1e
          · rw [if_pos q2] at h3; cases h3
          · rw [if_neg q2] at h3; exact h3
      exact hu.last _ (this ▸ h1)
    | sst a b => cases h2
    | extern a b => cases h2
  obtain ⟨n1, w1, i1⟩ := user_at h5 (oldStart_enc _ f) (fun _ => rfl) hlast h
  rcases n1 with ⟨_, hn⟩ | ⟨hr, k, s, hk, hs, hus⟩
  · exact absurd hn henc
  · rw [show ((0 : Int)) = ((0 : Nat) : Int) from rfl,
      unpackString_at (r := tail) (b := raw) _ (Or.inl rfl) (by simpa using hu.short) (by simp)] at hs
    rw [← List.map_take, ← List.map_append, lastCodepage_new] at hs
    exact ⟨k, s, by simpa using hk, hs, hr, hus⟩

/-- C87 (BIFF3 and BIFF4, files with a FORMAT or CODEPAGE record): as for BIFF5. -/
theorem C87_user_name_old_partial (env : OpenEnv) (v : Nat) (file : Bytes) (F : OldFile) (hw : OldWorkbook v (textAt (env.recEnv v)) file F)
    (before after : List GItem) (raw : Bytes) (hu : LastUser F.book before raw after) (ht : ∃ c d, GItem.one c d ∈ F.book ∧ (c = 0x42 ∨ c = 0x1e ∨ c = 0x41e))
    (l : Lib) (h : openStream env file 0 = .ok l) :
    ∃ k s, k ≤ after.length ∧ env.codec (textEncoding v env.override (lastCodepage (before ++ after.take k))) raw = .ok s ∧ UserNameIs l.book (env.rstrip s) := by
  obtain ⟨f, b1, b2, st, h1, h2, h3, _, h4, _⟩ := old_opened hw h
  have hv : v < 80 := by have := hw.version; omega
  obtain ⟨k, s, hk, hs, u1, u2⟩ := old_user (env := env.recEnv v) hv hu ht h2
  refine ⟨k, s, hk, hs, ?_⟩
  have e : b2.rawUser = b1.rawUser ∧ b2.userName = b1.userName := by rcases h3 with rfl | rfl <;> exact ⟨rfl, rfl⟩
  have e2 : UserSame b2 l.book := by
    rcases h4 with h4 | h4
    · rw [h4]; exact fun hr => ⟨rfl, hr⟩
    · exact ensure_user h4
  obtain ⟨k1, k2⟩ := e2 (e.1.trans u1)
  exact ⟨k2, k1.trans (e.2.trans u2)⟩

/-- What the records about the whole of an old file say of its user name. -/
theorem old_hist {env : BookEnv} (h8 : env.bv < 80) (items : List GItem) : ∀ {hist : List GItem} {b b' : Book}, EncInv env hist b → UserHist env hist b →
    applyGlobals env b (items.map newItem) = .ok b' → EncInv env (hist ++ items) b' ∧ UserHist env (hist ++ items) b' := by
  induction items with
  | nil => intro hist b b' h1 h2 h; cases h; simpa using ⟨h1, h2⟩
  | cons it items ih =>
    intro hist b b' h1 h2 h
    obtain ⟨b1, h3, h4⟩ := bind_ok h
    have hc : codepageOf (newItem it) = codepageOf it := by
      have := lastCodepage_new [it]
      simp only [lastCodepage, List.map_cons, List.map_nil, List.filterMap_cons, List.filterMap_nil] at this
      cases e1 : codepageOf (newItem it) <;> cases e2 : codepageOf it <;> simp [e1, e2] at this ⊢
      exact this
    have hw : ∀ d, newItem it = .one 0x5c d ↔ it = .one 0x5c d := by
      intro d
      refine ⟨fun h => ?_, fun h => by rw [h]; rfl⟩
      cases it with
      | one c' d' =>
        injection h with q3 q4
        subst q4
        have : c' = 0x5c := by
          unfold newCode at q3
          by_cases q1 : c' = 0x43 ∨ c' = 0x243 ∨ c' = 0x443
          · rw [if_pos q1] at q3; cases q3
          · rw [if_neg q1] at q3
            by_cases q2 : c' = 0x1e
            · rw [if_pos q2] at q3; cases q3
            · rw [if_neg q2] at q3; exact q3
        rw [this]
      | sst a b => cases h
      | extern a b => cases h
    have e1 : EncInv env (hist ++ [it]) b1 := by
      have hcp : lastCodepage (hist ++ [newItem it]) = lastCodepage (hist ++ [it]) := by simp [lastCodepage, List.filterMap_append, hc]
      obtain ⟨a1, a2, a3, a4, a5, a6⟩ := item_enc h1 h3
      rw [hcp] at a1 a2 a3 a4 a5 a6
      exact ⟨a1, a2, a3, a4, a5, a6⟩
    simpa using ih e1 (h2.item h8 h1 hc hw h3) h4

/-- The user name is decoded, or it waits and there is no encoding. -/
theorem UserHist.result {env : BookEnv} {items before after : List GItem} {raw : Bytes} {b : Book} (h : UserHist env items b) (hu : LastUser items before raw after) :
    (∃ k s, k ≤ after.length ∧ env.codec (textEncoding env.bv env.override (lastCodepage (before ++ after.take k))) raw = .ok s ∧ UserNameIs b (env.rstrip s)) ∨
    (b.encoding = none ∧ ∃ tail, items = before ++ userRecord raw tail :: after ∧ b.rawUser = some (UInt8.ofNat raw.length :: raw ++ tail)) := by
  obtain ⟨tail, ht⟩ := hu.split
  have ht' := ht
  rw [userRecord_eq] at ht'
  rcases h.at_last _ _ _ ht' hu.last with ⟨hr, he⟩ | ⟨hr, k, s, hk, hs, hus⟩
  · refine .inr ⟨he, tail, ht, ?_⟩
    rw [hr]
    unfold encLen
    simp
  · rw [show ((0 : Int)) = ((0 : Nat) : Int) from rfl,
      unpackString_at (r := tail) (b := raw) _ (Or.inl rfl) (by simpa using hu.short) (by simp)] at hs
    exact .inl ⟨k, s, hk, hs, hr, hus⟩

/-- C87 (BIFF3 and BIFF4): as for BIFF5, whatever text the file has and wherever; only if no record has asked for an encoding, and `Book.encoding` is `None`, is `user_name` the
data of the record. -/
theorem C87_user_name_old (env : OpenEnv) (v : Nat) (file : Bytes) (F : OldFile) (hw : OldWorkbook v (textAt (env.recEnv v)) file F)
    (before after : List GItem) (raw : Bytes) (hu : LastUser F.book before raw after) (l : Lib) (h : openStream env file 0 = .ok l) :
    (∃ k s, k ≤ after.length ∧ env.codec (textEncoding v env.override (lastCodepage (before ++ after.take k))) raw = .ok s ∧ UserNameIs l.book (env.rstrip s)) ∨
    (l.book.encoding = none ∧ ∃ tail, F.book = before ++ userRecord raw tail :: after ∧ l.book.rawUser = some (UInt8.ofNat raw.length :: raw ++ tail)) := by
  obtain ⟨f, b1, b2, st, h1, h2, h3, _, h4, _⟩ := old_opened hw h
  have hv : (env.recEnv v).bv < 80 := by show v < 80; have := hw.version; omega
  obtain ⟨i1, u1⟩ := old_hist hv F.book (oldStart_enc _ f) (UserHist.start _ _ rfl rfl) h2
  rw [List.nil_append] at i1 u1
  have i2 : EncInv (env.recEnv v) F.book b2 := by rcases h3 with rfl | rfl; exact i1; exact i1.congr rfl rfl
  have u2 : UserHist (env.recEnv v) F.book b2 := by rcases h3 with rfl | rfl; exact u1; exact u1.congr ⟨rfl, rfl, rfl⟩
  have u3 : UserHist (env.recEnv v) F.book l.book := by
    rcases h4 with h4 | h4
    · rw [h4]; exact u2
    · exact u2.ensure hv i2 h4
  exact u3.result hu

/-- C87 (BIFF2): as for BIFF3. -/
theorem C87_user_name_biff2 (env : OpenEnv) (file : Bytes) (F : B2File) (hw : B2Workbook (textAt (env.recEnv 21)) file F)
    (before after : List GItem) (raw : Bytes) (hu : LastUser F.book before raw after) (l : Lib) (h : openStream env file 0 = .ok l) :
    (∃ k s, k ≤ after.length ∧ env.codec (textEncoding 21 env.override (lastCodepage (before ++ after.take k))) raw = .ok s ∧ UserNameIs l.book (env.rstrip s)) ∨
    (l.book.encoding = none ∧ ∃ tail, F.book = before ++ userRecord raw tail :: after ∧ l.book.rawUser = some (UInt8.ofNat raw.length :: raw ++ tail)) := by
  obtain ⟨f, b1, o, h1, h2, rfl⟩ := b2_opened hw h
  obtain ⟨i1, u1⟩ := old_hist (env := env.recEnv 21) (show 21 < 80 by omega) F.book (oldStart_enc _ f) (UserHist.start _ _ rfl rfl) h2.head
  rw [List.nil_append] at i1 u1
  obtain ⟨fl, o2, ho2, hext, _⟩ := h2.ext
  have i2 : EncInv (env.recEnv 21) F.book o2.book := i1.congr (by rw [ho2]; cases hasXfs b1 <;> rfl) (by rw [ho2]; cases hasXfs b1 <;> rfl)
  have u2 : UserHist (env.recEnv 21) F.book o2.book := u1.congr (by rw [ho2]; cases hasXfs b1 <;> exact ⟨rfl, rfl, rfl⟩)
  exact (hext.user _ i2 u2).2.result hu

/-- C87 (BIFF2, files with a FORMAT or CODEPAGE record): as for BIFF5. -/
theorem C87_user_name_biff2_partial (env : OpenEnv) (file : Bytes) (F : B2File) (hw : B2Workbook (textAt (env.recEnv 21)) file F)
    (before after : List GItem) (raw : Bytes) (hu : LastUser F.book before raw after) (ht : ∃ c d, GItem.one c d ∈ F.book ∧ (c = 0x42 ∨ c = 0x1e ∨ c = 0x41e))
    (l : Lib) (h : openStream env file 0 = .ok l) :
    ∃ k s, k ≤ after.length ∧ env.codec (textEncoding 21 env.override (lastCodepage (before ++ after.take k))) raw = .ok s ∧ UserNameIs l.book (env.rstrip s) := by
  rcases C87_user_name_biff2 env file F hw before after raw hu l h with hh | ⟨hn, _⟩
  · exact hh
  · exfalso
    obtain ⟨f, b1, o, h1, h2, rfl⟩ := b2_opened hw h
    obtain ⟨c, d, hm, hc⟩ := ht
    have henc : b1.encoding ≠ none := by
      have hm' : GItem.one (newCode c) d ∈ F.book.map newItem := List.mem_map.mpr ⟨_, hm, rfl⟩
      exact text_enc (env := env.recEnv 21) (show 21 < 80 by omega) (by rcases hc with rfl | rfl | rfl <;> decide) _ hm' h2.head
    obtain ⟨fl, o2, ho2, hext, _⟩ := h2.ext
    exact hext.enc (by rw [ho2]; cases hasXfs b1 <;> exact henc) hn

/-- No WRITEACCESS record in an old file. -/
theorem old_no_user {env : BookEnv} {f : FmtSt} {b1 : Book} {items : List GItem} (hn : ∀ d, GItem.one 0x5c d ∉ items)
    (h : applyGlobals env (oldStart f) (items.map newItem) = .ok b1) : UserNameIs b1 [] := by
  have hn' : ∀ d, GItem.one 0x5c d ∉ items.map newItem := by
    intro d hd
    obtain ⟨it, h1, h2⟩ := List.mem_map.mp hd
    cases it with
    | one c' d' =>
      injection h2 with h3 h4
      subst h4
      have : c' = 0x5c := by
        unfold newCode at h3
        by_cases q1 : c' = 0x43 ∨ c' = 0x243 ∨ c' = 0x443
        · rw [if_pos q1] at h3; cases h3
        · rw [if_neg q1] at h3
          by_cases q2 : c' = 0x1e
          · rw [if_pos q2] at h3; cases h3
          · rw [if_neg q2] at h3; exact h3
      exact hn _ (this ▸ h1)
    | sst a b => cases h2
    | extern a b => cases h2
  obtain ⟨e1, e2⟩ := no_user _ hn' h rfl
  exact ⟨e2, e1⟩

/-- C87 (BIFF3 and BIFF4, no record). -/
theorem C87_no_user_name_old (env : OpenEnv) (v : Nat) (file : Bytes) (F : OldFile) (hw : OldWorkbook v (textAt (env.recEnv v)) file F)
    (hn : ∀ d, GItem.one 0x5c d ∉ F.book) (l : Lib) (h : openStream env file 0 = .ok l) : UserNameIs l.book [] := by
  obtain ⟨f, b1, b2, st, h1, h2, h3, _, h4, _⟩ := old_opened hw h
  obtain ⟨u1, u2⟩ := old_no_user hn h2
  have e : b2.rawUser = b1.rawUser ∧ b2.userName = b1.userName := by rcases h3 with rfl | rfl <;> exact ⟨rfl, rfl⟩
  have e2 : UserSame b2 l.book := by
    rcases h4 with h4 | h4
    · rw [h4]; exact fun hr => ⟨rfl, hr⟩
    · exact ensure_user h4
  obtain ⟨k1, k2⟩ := e2 (e.1.trans u1)
  exact ⟨k2, k1.trans (e.2.trans u2)⟩

/-- C87 (BIFF2, no record). -/
theorem C87_no_user_name_biff2 (env : OpenEnv) (file : Bytes) (F : B2File) (hw : B2Workbook (textAt (env.recEnv 21)) file F)
    (hn : ∀ d, GItem.one 0x5c d ∉ F.book) (l : Lib) (h : openStream env file 0 = .ok l) : UserNameIs l.book [] := by
  obtain ⟨f, b1, o, h1, h2, rfl⟩ := b2_opened hw h
  obtain ⟨i1, u1⟩ := old_hist (env := env.recEnv 21) (show 21 < 80 by omega) F.book (oldStart_enc _ f) (UserHist.start _ _ rfl rfl) h2.head
  rw [List.nil_append] at i1 u1
  obtain ⟨fl, o2, ho2, hext, _⟩ := h2.ext
  have i2 : EncInv (env.recEnv 21) F.book o2.book := i1.congr (by rw [ho2]; cases hasXfs b1 <;> rfl) (by rw [ho2]; cases hasXfs b1 <;> rfl)
  have u2 : UserHist (env.recEnv 21) F.book o2.book := u1.congr (by rw [ho2]; cases hasXfs b1 <;> exact ⟨rfl, rfl, rfl⟩)
  exact (hext.user _ i2 u2).2.without hn

/-! ## BIFF4 workbooks -/

/-- C87 (BIFF4 workbooks): as for BIFF5; the records are those of the globals and, in between, those in the sheets. -/
theorem C87_user_name_biff4w (env : OpenEnv) (file : Bytes) (parts : List SheetPart) (last : List GItem) (hw : Biff4w (textAt (env.recEnv 45)) file parts last)
    (before after : List GItem) (raw : Bytes) (hu : LastUser (bookOf parts ++ last) before raw after) (l : Lib) (h : openStream env file 0 = .ok l) :
    ∃ k s, k ≤ after.length ∧ env.codec (textEncoding 45 env.override (lastCodepage (before ++ after.take k))) raw = .ok s ∧ UserNameIs l.book (env.rstrip s) := by
  obtain ⟨f, shs, b1, b2, _, _, _, _, h4, _, h6, _⟩ := w_opened hw h
  obtain ⟨tail, ht⟩ := hu.split
  rw [userRecord_eq] at ht
  have hn : NameAt (env.bookEnv 45 0) before (encLen 1 raw.length ++ raw ++ tail) after b2 := h4.user.at_last _ _ _ ht hu.last
  have hi : EncInv (env.bookEnv 45 0) (before ++ after) b2 := by
    have hcp : lastCodepage (bookOf parts ++ last) = lastCodepage (before ++ after) := by rw [ht]; simp [lastCodepage, codepageOf]
    obtain ⟨a1, a2, a3, a4, a5, a6⟩ := h4.enc
    rw [hcp] at a1 a2 a3 a4 a5 a6
    exact ⟨a1, a2, a3, a4, a5, a6⟩
  obtain ⟨k, s, hk, hs, hus⟩ := name_eof (env := env.bookEnv 45 0) (show 45 < 80 by omega) hi hn h6
  rw [show ((0 : Int)) = ((0 : Nat) : Int) from rfl,
    unpackString_at (r := tail) (b := raw) _ (Or.inl rfl) (by simpa using hu.short) (by simp)] at hs
  refine ⟨k, s, hk, hs, ?_, hus⟩
  obtain ⟨b3, ⟨_, u2, u3⟩, _, h7⟩ := eof_name h6
  have hwt : WaitInv b3 := fun hh => u2.trans (h4.user.wait (by rw [← u3]; exact hh))
  unfold ensureEncoding at h7
  cases hen : b3.encoding with
  | none => rw [hen] at h7; exact (derive_name (env := env.bookEnv 45 0) (show 45 < 80 by omega) h7).2.1
  | some e => rw [hen] at h7; cases h7; exact hwt (by rw [hen]; simp)

/-- C87 (BIFF4 workbooks, no record). -/
theorem C87_no_user_name_biff4w (env : OpenEnv) (file : Bytes) (parts : List SheetPart) (last : List GItem) (hw : Biff4w (textAt (env.recEnv 45)) file parts last)
    (hn : ∀ d, GItem.one 0x5c d ∉ bookOf parts ++ last) (l : Lib) (h : openStream env file 0 = .ok l) : UserNameIs l.book [] := by
  obtain ⟨f, shs, b1, b2, _, _, _, _, h4, _, h6, _⟩ := w_opened hw h
  obtain ⟨e1, e2⟩ := h4.user.without hn
  obtain ⟨b3, ⟨u1, u2, _⟩, _, h7⟩ := eof_name h6
  obtain ⟨k1, k2⟩ := ensure_user h7 (u2.trans e1)
  exact ⟨k2, k1.trans (u1.trans e2)⟩

end Xlrd
