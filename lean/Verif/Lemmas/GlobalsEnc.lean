import Verif.Lemmas.GlobalsLoop

/-!
# Text encoding in the globals, and induction over the items
-/
set_option linter.unusedSimpArgs false
namespace Xlrd
open Spec

/-- The last step of a list of items. -/
theorem gItems_snoc {env : BookEnv} {b b' : Book} {pre : List GItem} {it : GItem} (h : applyGlobals env b (pre ++ [it]) = .ok b') :
    ∃ b1, applyGlobals env b pre = .ok b1 ∧ applyGItem env b1 it = .ok b' := by
  rw [gItems_append] at h
  obtain ⟨b1, h1, h2⟩ := bind_ok h
  refine ⟨b1, h1, ?_⟩
  simp only [applyGlobals] at h2
  obtain ⟨b2, h2, h3⟩ := bind_ok h2
  cases h3
  exact h2

/-- Three parts of a list of items. -/
theorem gItems_split {env : BookEnv} {b b' : Book} {pre post : List GItem} {it : GItem}
    (h : applyGlobals env b (pre ++ it :: post) = .ok b') :
    ∃ b1 b2, applyGlobals env b pre = .ok b1 ∧ applyGItem env b1 it = .ok b2 ∧ applyGlobals env b2 post = .ok b' := by
  rw [gItems_append] at h
  obtain ⟨b1, h1, h2⟩ := bind_ok h
  obtain ⟨b2, h2, h3⟩ := bind_ok h2
  exact ⟨b1, b2, h1, h2, h3⟩

/-- An invariant that every item keeps. -/
theorem gItems_inv {env : BookEnv} (P : Book → Prop) (hP : ∀ b it b', P b → applyGItem env b it = .ok b' → P b') (items : List GItem) :
    ∀ b b', P b → applyGlobals env b items = .ok b' → P b' := by
  induction items with
  | nil => intro b b' hb h; cases h; exact hb
  | cons it items ih =>
    intro b b' hb h
    obtain ⟨b1, h1, h2⟩ := bind_ok h
    exact ih b1 b' (hP _ _ _ hb h1) h2

/-- The codepages with a codec of their own. -/
def tabled (cp : Nat) : Prop :=
  cp = 1200 ∨ cp = 10000 ∨ cp = 10006 ∨ cp = 10007 ∨ cp = 10029 ∨ cp = 10079 ∨ cp = 10081 ∨ cp = 32768 ∨ cp = 32769

theorem codepage_cases (bv cp : Nat) :
    (tabled cp ∧ codepageEncoding bv cp = (codepageName bv cp, cp)) ∨
    (¬ tabled cp ∧ codepageEncoding bv cp = (if 300 ≤ cp ∧ cp ≤ 1999 then ("cp".toList ++ natDec cp, cp)
        else if bv ≥ 80 then ("utf_16_le".toList, 1200) else ("unknown_codepage_".toList ++ natDec cp, cp)) ∧
      codepageName bv cp = (if 300 ≤ cp ∧ cp ≤ 1999 then "cp".toList ++ natDec cp
        else if bv ≥ 80 then "utf_16_le".toList else "unknown_codepage_".toList ++ natDec cp)) := by
  by_cases ht : tabled cp
  · left
    refine ⟨ht, ?_⟩
    rcases ht with h | h | h | h | h | h | h | h | h <;> subst h <;> rfl
  · right
    refine ⟨ht, ?_⟩
    unfold tabled at ht
    simp only [not_or] at ht
    obtain ⟨h1, h2, h3, h4, h5, h6, h7, h8, h9⟩ := ht
    have hn : itemsGet encodingFromCodepage cp = none := by
      simp only [encodingFromCodepage, itemsGet]
      rw [if_neg (Ne.symm h1), if_neg (Ne.symm h2), if_neg (Ne.symm h3), if_neg (Ne.symm h4), if_neg (Ne.symm h5), if_neg (Ne.symm h6),
        if_neg (Ne.symm h7), if_neg (Ne.symm h8), if_neg (Ne.symm h9)]
    constructor
    · unfold codepageEncoding; rw [hn]
    · unfold codepageName
      rw [if_neg h1, if_neg (by rintro (h | h); exact h2 h; exact h8 h), if_neg h3, if_neg h4, if_neg h5, if_neg h6, if_neg h7, if_neg h9]

theorem codepageEncoding_eq (bv cp : Nat) : (codepageEncoding bv cp).1 = codepageName bv cp := by
  rcases codepage_cases bv cp with ⟨_, h⟩ | ⟨_, h1, h2⟩
  · rw [h]
  · rw [h1, h2]; split_ifs <;> rfl

theorem codepageEncoding_stable (bv cp : Nat) : codepageName bv (codepageEncoding bv cp).2 = codepageName bv cp := by
  rcases codepage_cases bv cp with ⟨_, h⟩ | ⟨_, h1, h2⟩
  · rw [h]
  · rw [h1, h2]
    by_cases h3 : 300 ≤ cp ∧ cp ≤ 1999
    · rw [if_pos h3, if_pos h3]; simp only; rw [h2, if_pos h3]
    · rw [if_neg h3, if_neg h3]
      by_cases h4 : bv ≥ 80
      · rw [if_pos h4, if_pos h4]; rfl
      · rw [if_neg h4, if_neg h4]; simp only; rw [h2, if_neg h3, if_neg h4]

/-- What is known about the encoding after some items. -/
structure EncInv (env : BookEnv) (pre : List GItem) (b : Book) : Prop where
  enc : b.encoding = none ∨ b.encoding = some (textEncoding env.bv env.override (lastCodepage pre))
  page : ∀ c, b.codepage = some c → env.bv < 80 ∨ (lastCodepage pre).isSome ∨ c = 1200
  page' : ∀ c, b.codepage = some c → textEncoding env.bv [] (some c) = textEncoding env.bv [] (lastCodepage pre)
  unset : b.codepage = none → lastCodepage pre = none
  set : b.encoding = none → lastCodepage pre = none
  old : env.bv < 80 → b.codepage.isSome → (lastCodepage pre).isSome

/-- The encoding is settled. -/
def Settled (env : BookEnv) (pre : List GItem) : Prop := env.bv < 80 ∨ env.override ≠ [] ∨ (lastCodepage pre).isSome

theorem choose_inv {env : BookEnv} {pre : List GItem} {b : Book} (h : EncInv env pre b) :
    EncInv env pre (chooseEncoding env b) ∧
    (Settled env pre → (chooseEncoding env b).encoding = some (textEncoding env.bv env.override (lastCodepage pre))) := by
  obtain ⟨h1, h2, h3, h4, h5, h6⟩ := h
  unfold chooseEncoding
  by_cases ho : env.override ≠ []
  · rw [if_pos ho]
    have e : ∀ cp, textEncoding env.bv env.override cp = env.override := by intro cp; unfold textEncoding; rw [if_pos ho]
    exact ⟨⟨Or.inr (by rw [e]), h2, h3, h4, by simp, h6⟩, fun _ => by rw [e]⟩
  · rw [if_neg ho]
    have ho' : env.override = [] := by simpa using ho
    rw [ho'] at h1 ⊢
    cases hc : b.codepage with
    | none =>
      have hn := h4 hc
      simp only
      by_cases h8 : env.bv < 80
      · rw [if_pos h8]
        have e : textEncoding env.bv [] (lastCodepage pre) = "iso-8859-1".toList := by rw [hn]; simp [textEncoding, h8]
        refine ⟨⟨Or.inr (by rw [ho', e]), ?_, ?_, fun _ => hn, by simp, ?_⟩, fun _ => by rw [e]⟩ <;> simp [hc]
      · rw [if_neg h8]
        have e : textEncoding env.bv [] (lastCodepage pre) = "utf_16_le".toList := by rw [hn]; simp [textEncoding, h8]
        refine ⟨⟨by rw [ho']; exact h1, ?_, ?_, by simp, h5, fun h => absurd h h8⟩, ?_⟩
        · intro c hc'; cases hc'; exact Or.inr (Or.inr rfl)
        · intro c hc'; cases hc'; rw [e]; simp [textEncoding, codepageName]
        · rintro (h | h | h)
          · exact absurd h h8
          · exact absurd ho' h
          · rw [hn] at h; simp at h
    | some cp =>
      have e3 := h3 cp hc
      have e1 : some (codepageEncoding env.bv cp).1 = some (textEncoding env.bv [] (lastCodepage pre)) := by
        rw [codepageEncoding_eq, ← e3]; simp [textEncoding]
      simp only
      refine ⟨⟨Or.inr (by rw [ho']; exact e1), ?_, ?_, by simp, by simp, fun h _ => h6 h (by simp [hc])⟩, fun _ => e1⟩
      · intro c hc'
        simp only [Option.some.injEq] at hc'
        subst hc'
        rcases h2 cp hc with h | h | h
        · exact Or.inl h
        · exact Or.inr (Or.inl h)
        · subst h
          right; right
          simp [codepageEncoding, encodingFromCodepage, itemsGet]
      · intro c hc'
        simp only [Option.some.injEq] at hc'
        subst hc'
        rw [← e3]
        simp only [textEncoding, ne_eq, not_true_eq_false, if_false, codepageEncoding_stable]

theorem inv_user {env : BookEnv} {pre : List GItem} {b : Book} (h : EncInv env pre b) (u : PyStr) (r : Option Bytes) :
    EncInv env pre { b with userName := u, rawUser := r } := ⟨h.enc, h.page, h.page', h.unset, h.set, h.old⟩

theorem EncInv.congr {env : BookEnv} {pre : List GItem} {b b' : Book} (h : EncInv env pre b) (h1 : b'.encoding = b.encoding)
    (h2 : b'.codepage = b.codepage) : EncInv env pre b' := by
  obtain ⟨a1, a2, a3, a4, a5, a6⟩ := h
  constructor <;> simp only [h1, h2] <;> assumption

theorem derive_eq {env : BookEnv} {b b' : Book} (h : deriveEncoding env b = .ok b') :
    b'.encoding = (chooseEncoding env b).encoding ∧ b'.codepage = (chooseEncoding env b).codepage := by
  unfold deriveEncoding at h
  obtain ⟨_, _, h⟩ := bind_ok h
  unfold decodeUserName at h
  cases hr : (chooseEncoding env b).rawUser with
  | none => simp only [hr] at h; cases h; exact ⟨rfl, rfl⟩
  | some raw =>
    simp only [hr] at h
    obtain ⟨s, _, h⟩ := bind_ok h
    cases h
    exact ⟨rfl, rfl⟩

theorem derive_inv {env : BookEnv} {pre : List GItem} {b b' : Book} (h : EncInv env pre b) (hd : deriveEncoding env b = .ok b') :
    EncInv env pre b' ∧ (Settled env pre → b'.encoding = some (textEncoding env.bv env.override (lastCodepage pre))) := by
  obtain ⟨e1, e2⟩ := derive_eq hd
  obtain ⟨c1, c2⟩ := choose_inv h
  exact ⟨c1.congr e1 e2, fun hs => e1.trans (c2 hs)⟩

theorem ensure_inv {env : BookEnv} {pre : List GItem} {b b' : Book} (h : EncInv env pre b) (hd : ensureEncoding env b = .ok b') :
    EncInv env pre b' ∧ (Settled env pre → b'.encoding = some (textEncoding env.bv env.override (lastCodepage pre))) := by
  unfold ensureEncoding at hd
  cases he : b.encoding with
  | none => rw [he] at hd; exact derive_inv h hd
  | some e =>
    rw [he] at hd
    cases hd
    refine ⟨h, fun _ => ?_⟩
    rcases h.enc with h | h
    · rw [he] at h; cases h
    · exact h

theorem lastCodepage_snoc_none {pre : List GItem} {it : GItem} (h : codepageOf it = none) : lastCodepage (pre ++ [it]) = lastCodepage pre := by
  simp [lastCodepage, h]

theorem lastCodepage_snoc_some {pre : List GItem} {it : GItem} {cp : Nat} (h : codepageOf it = some cp) : lastCodepage (pre ++ [it]) = some cp := by
  simp [lastCodepage, h]

theorem EncInv.skip {env : BookEnv} {pre : List GItem} {it : GItem} {b : Book} (h : EncInv env pre b) (hn : codepageOf it = none) :
    EncInv env (pre ++ [it]) b := by
  obtain ⟨a1, a2, a3, a4, a5, a6⟩ := h
  constructor <;> rw [lastCodepage_snoc_none hn] <;> assumption

theorem unpackH_two {d : Bytes} {cp : Nat} (h : unpackH (slice d 0 2) = .ok cp) : ∃ x y r, d = x :: y :: r ∧ cp = x.toNat + 256 * y.toNat := by
  unfold unpackH at h
  obtain ⟨v, h1, h2⟩ := bind_ok h
  unfold unpackN at h1
  by_cases hl : (slice d 0 2).length = 2
  · rw [if_pos hl] at h1
    match d, hl with
    | x :: y :: r, hl =>
      refine ⟨x, y, r, rfl, ?_⟩
      have e : slice (x :: y :: r) 0 2 = [x, y] := by
        have := slice_nat (x :: y :: r) 0 2
        simpa using this
      rw [e] at h1
      cases h1
      cases h2
      simp [fld, le]
    | [x], hl => have := slice_nat [x] 0 2; simp at this; simp [this] at hl
    | [], hl => have := slice_nat ([] : Bytes) 0 2; simp at this; simp [this] at hl
  · rw [if_neg hl] at h1; cases h1

theorem codepage_step {env : BookEnv} {pre : List GItem} {b b' : Book} {d : Bytes} (h : EncInv env pre b)
    (hd : handleCodepage env b d = .ok b') :
    EncInv env (pre ++ [.one 0x42 d]) b' ∧ ∃ cp, codepageOf (.one 0x42 d) = some cp := by
  unfold handleCodepage at hd
  obtain ⟨cp, h1, h2⟩ := bind_ok hd
  obtain ⟨x, y, r, rfl, rfl⟩ := unpackH_two h1
  have hcp : codepageOf (.one 0x42 (x :: y :: r)) = some (x.toNat + 256 * y.toNat) := rfl
  refine ⟨?_, _, hcp⟩
  have hl := lastCodepage_snoc_some (pre := pre) hcp
  obtain ⟨e1, e2⟩ := derive_eq h2
  have key : ∀ b1 : Book, b1.codepage = some (x.toNat + 256 * y.toNat) →
      (chooseEncoding env b1).encoding = some (textEncoding env.bv env.override (lastCodepage (pre ++ [.one 0x42 (x :: y :: r)]))) ∧
      ∀ c, (chooseEncoding env b1).codepage = some c → textEncoding env.bv [] (some c) = textEncoding env.bv [] (some (x.toNat + 256 * y.toNat)) := by
    intro b1 hb
    unfold chooseEncoding
    rw [hl]
    by_cases ho : env.override ≠ []
    · rw [if_pos ho]
      refine ⟨by simp [textEncoding, ho], fun c hc => ?_⟩
      simp only [hb, Option.some.injEq] at hc
      rw [hc]
    · rw [if_neg ho, hb]
      simp only
      refine ⟨by rw [codepageEncoding_eq]; simp [textEncoding, ho], fun c hc => ?_⟩
      simp only [Option.some.injEq] at hc
      subst hc
      simp only [textEncoding, ne_eq, not_true_eq_false, if_false, codepageEncoding_stable]
  obtain ⟨k1, k2⟩ := key { b with codepage := some (x.toNat + 256 * y.toNat) } rfl
  have hsome : (lastCodepage (pre ++ [.one 0x42 (x :: y :: r)])).isSome := by rw [hl]; rfl
  have hne : b'.codepage ≠ none := by
    rw [e2]
    unfold chooseEncoding
    by_cases ho : env.override ≠ []
    · rw [if_pos ho]; simp
    · rw [if_neg ho]; simp
  refine ⟨Or.inr (by rw [e1]; exact k1), fun c _ => Or.inr (Or.inl hsome), fun c hc => ?_, fun h => absurd h hne, ?_, fun _ _ => hsome⟩
  · rw [hl]; exact k2 c (by rw [← e2]; exact hc)
  · intro h; rw [e1, k1] at h; cases h

/-- Every item keeps the invariant. -/
theorem item_enc {env : BookEnv} {pre : List GItem} {b b' : Book} {it : GItem} (h : EncInv env pre b) (ha : applyGItem env b it = .ok b') :
    EncInv env (pre ++ [it]) b' := by
  cases it with
  | sst d more => obtain ⟨t, rfl⟩ := sst_frame ha; exact (h.skip rfl).congr rfl rfl
  | extern d more =>
    refine EncInv.skip ?_ rfl
    simp only [applyGItem, externBegin] at ha
    obtain ⟨b2, h0, ha⟩ := bind_ok ha
    obtain ⟨b1, h1, h2⟩ := bind_ok h0
    cases h2
    have hi := (derive_inv h h1).1
    by_cases h8 : env.bv ≥ 80
    · rw [if_pos h8] at ha
      unfold externApply8 at ha
      obtain ⟨n, _, ha⟩ := bind_ok ha
      obtain ⟨refs, _, ha⟩ := bind_ok ha
      cases ha
      exact hi.congr rfl rfl
    · rw [if_neg h8] at ha
      unfold externApply57 at ha
      obtain ⟨n, _, ha⟩ := bind_ok ha
      obtain ⟨b3, h3, ha⟩ := bind_ok ha
      cases ha
      unfold externName57 at h3
      by_cases h4 : fld n 1 1 = 3
      · rw [if_pos h4] at h3
        obtain ⟨name, _, h3⟩ := bind_ok h3
        cases h3
        exact hi.congr rfl rfl
      · rw [if_neg h4] at h3
        cases h3
        exact hi.congr rfl rfl
  | one rc d =>
    simp only [applyGItem] at ha
    by_cases c6 : rc = XL_CODEPAGE
    · subst c6
      have : globalsRecord env b XL_CODEPAGE d = handleCodepage env b d := rfl
      rw [this] at ha
      exact (codepage_step h ha).1
    refine EncInv.skip ?_ (by unfold codepageOf; split <;> simp_all)
    unfold globalsRecord at ha
    by_cases c1 : rc = XL_FONT ∨ rc = XL_FONT_B3B4
    · rw [if_pos c1] at ha
      unfold bookFont at ha
      cases hf : env.fi with
      | false => simp only [hf, Bool.not_false, if_true] at ha; cases ha; exact h
      | true =>
        simp only [hf, Bool.not_true, Bool.false_eq_true, if_false] at ha
        obtain ⟨b1, h1, ha⟩ := bind_ok ha
        obtain ⟨f, h2, ha⟩ := bind_ok ha
        cases ha
        exact (ensure_inv h h1).1.congr rfl rfl
    rw [if_neg c1] at ha
    by_cases c2 : rc = XL_FORMAT
    · rw [if_pos c2] at ha
      unfold bookFormat at ha
      obtain ⟨b1, h1, ha⟩ := bind_ok ha
      obtain ⟨f, h2, ha⟩ := bind_ok ha
      cases ha
      exact (ensure_inv h h1).1.congr rfl rfl
    rw [if_neg c2] at ha
    by_cases c3 : rc = XL_XF
    · rw [if_pos c3] at ha
      unfold bookXf at ha
      obtain ⟨f, h2, ha⟩ := bind_ok ha
      cases ha
      exact h.congr rfl rfl
    rw [if_neg c3] at ha
    by_cases c4 : rc = XL_BOUNDSHEET
    · rw [if_pos c4] at ha
      unfold handleBoundsheet at ha
      obtain ⟨b1, h1, ha⟩ := bind_ok ha
      obtain ⟨⟨p, v, t, n⟩, _, ha⟩ := bind_ok ha
      cases ha
      refine (derive_inv h h1).1.congr ?_ ?_ <;> (unfold addSheet; split <;> rfl)
    rw [if_neg c4] at ha
    by_cases c5 : rc = XL_DATEMODE
    · rw [if_pos c5] at ha
      unfold handleDatemode at ha
      obtain ⟨m, _, ha⟩ := bind_ok ha
      obtain ⟨_, _, ha⟩ := bind_ok ha
      cases ha
      exact h.congr rfl rfl
    rw [if_neg c5, if_neg c6] at ha
    by_cases c7 : rc = XL_COUNTRY
    · rw [if_pos c7] at ha
      unfold handleCountry at ha
      obtain ⟨m, _, ha⟩ := bind_ok ha
      obtain ⟨_, _, ha⟩ := bind_ok ha
      cases ha
      exact h.congr rfl rfl
    rw [if_neg c7] at ha
    by_cases c8 : rc = XL_EXTERNNAME
    · rw [if_pos c8] at ha
      unfold handleExternname at ha
      by_cases h8 : env.bv ≥ 80
      · rw [if_pos h8] at ha
        obtain ⟨_, _, ha⟩ := bind_ok ha
        obtain ⟨⟨n, p⟩, _, ha⟩ := bind_ok ha
        obtain ⟨t, _, ha⟩ := bind_ok ha
        by_cases ht : t = some SUPBOOK_ADDIN
        · rw [if_pos ht] at ha; cases ha; exact h.congr rfl rfl
        · rw [if_neg ht] at ha; cases ha; exact h
      · rw [if_neg h8] at ha; cases ha; exact h
    rw [if_neg c8] at ha
    by_cases c9 : rc = XL_FILEPASS
    · rw [if_pos c9] at ha; cases ha
    rw [if_neg c9] at ha
    by_cases c10 : rc = XL_WRITEACCESS
    · rw [if_pos c10] at ha
      unfold handleWriteaccess at ha
      by_cases h8 : env.bv < 80
      · rw [if_pos h8] at ha
        cases he : b.encoding with
        | none => rw [he] at ha; cases ha; exact h.congr he.symm rfl
        | some e =>
          rw [he] at ha
          obtain ⟨s, _, ha⟩ := bind_ok ha
          cases ha; exact h.congr he.symm rfl
      · rw [if_neg h8] at ha
        obtain ⟨s, _, ha⟩ := bind_ok ha
        cases ha; exact h.congr rfl rfl
    rw [if_neg c10] at ha
    by_cases c11 : rc = XL_SHEETSOFFSET
    · rw [if_pos c11] at ha
      unfold handleSheetsoffset at ha
      obtain ⟨m, _, ha⟩ := bind_ok ha
      cases ha
      exact h.congr rfl rfl
    rw [if_neg c11] at ha
    by_cases c12 : rc = XL_SUPBOOK
    · rw [if_pos c12] at ha
      unfold handleSupbook at ha
      obtain ⟨m, _, ha⟩ := bind_ok ha
      obtain ⟨t, _, ha⟩ := bind_ok ha
      cases ha
      exact h.congr rfl rfl
    rw [if_neg c12] at ha
    by_cases c13 : rc = XL_NAME
    · rw [if_pos c13] at ha
      unfold handleName at ha
      by_cases h5 : env.bv < 50
      · rw [if_pos h5] at ha; cases ha; exact h
      · rw [if_neg h5] at ha
        obtain ⟨b1, h1, ha⟩ := bind_ok ha
        obtain ⟨_, _, ha⟩ := bind_ok ha
        obtain ⟨⟨n, p⟩, _, ha⟩ := bind_ok ha
        cases ha
        exact (derive_inv h h1).1.congr rfl rfl
    rw [if_neg c13] at ha
    by_cases c14 : rc = XL_PALETTE
    · rw [if_pos c14] at ha
      unfold bookPalette at ha
      obtain ⟨f, h2, ha⟩ := bind_ok ha
      cases ha
      exact h.congr rfl rfl
    rw [if_neg c14] at ha
    by_cases c15 : rc = XL_STYLE
    · rw [if_pos c15] at ha
      unfold bookStyle at ha
      obtain ⟨f, h2, ha⟩ := bind_ok ha
      cases ha
      exact h.congr rfl rfl
    rw [if_neg c15] at ha
    cases ha
    exact h

theorem items_enc {env : BookEnv} (items : List GItem) : ∀ {pre : List GItem} {b b' : Book}, EncInv env pre b →
    applyGlobals env b items = .ok b' → EncInv env (pre ++ items) b' := by
  induction items with
  | nil => intro pre b b' h ha; cases ha; simpa using h
  | cons it items ih =>
    intro pre b b' h ha
    obtain ⟨b1, h1, h2⟩ := bind_ok ha
    have := ih (item_enc h h1) h2
    simpa using this

theorem fresh_enc (env : BookEnv) (f : FmtSt) : EncInv env [] { fmt := f } := by
  constructor <;> simp [lastCodepage]

/-- With a settled encoding, `unicode(b, self.encoding)` uses the specified codec. -/
theorem dec_eq {env : BookEnv} {b : Book} {e : PyStr} (h : b.encoding = some e) : b.dec env = env.codec e := by
  funext x; unfold Book.dec; rw [h]

/-- A text field in a record is read as its text. -/
theorem textField_read {bv : Nat} {dec dec' : Bytes → R PyStr} {l : Nat} {s : PyStr} {txt data r : Bytes} {p : Nat} (hl : l = 1 ∨ l = 2)
    (hd : bv < 80 → dec' = dec) (h : TextField bv dec l s txt) (hp : data.drop p = txt ++ r) :
    (bv < 80 → unpackString dec' data (p : Int) l = .ok s) ∧ (80 ≤ bv → unpackUnicode data (p : Int) l = .ok s) := by
  cases h with
  | biff8 u h8 ok text len =>
    subst text
    refine ⟨fun h => by omega, fun _ => ?_⟩
    exact unpackUnicode_at u ok hl len (r := r) (by rw [hp]; simp)
  | older raw h8 text len =>
    refine ⟨fun _ => ?_, fun h => by omega⟩
    rw [unpackString_at dec' hl len (r := r) (by rw [hp]; simp), hd h8, text]

end Xlrd
