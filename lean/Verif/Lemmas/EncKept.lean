import Verif.Props.DefinedNames

/-!
# The encoding of a book with names
-/
set_option linter.unusedSimpArgs false
namespace Xlrd
open Spec

theorem derived_enc {env : BookEnv} {b b' : Book} (h8 : env.bv < 80) (h : deriveEncoding env b = .ok b') : b'.encoding ≠ none := by
  rw [(derive_eq h).1]
  unfold chooseEncoding
  by_cases ho : env.override ≠ []
  · rw [if_pos ho]; simp
  · rw [if_neg ho]
    cases b.codepage with
    | none => simp only; rw [if_pos h8]; simp
    | some c => simp

theorem ensured_enc {env : BookEnv} {b b' : Book} (h : b.encoding ≠ none) (hd : ensureEncoding env b = .ok b') : b'.encoding ≠ none := by
  unfold ensureEncoding at hd
  cases he : b.encoding with
  | none => exact absurd he h
  | some e => rw [he] at hd; cases hd; exact h

/-- An encoding stays. -/
theorem item_encKept {env : BookEnv} (h8' : env.bv < 80) {b b' : Book} {it : GItem} (h : b.encoding ≠ none) (ha : applyGItem env b it = .ok b') : b'.encoding ≠ none := by
  cases it with
  | sst d more => obtain ⟨t, rfl⟩ := sst_frame ha; exact h
  | extern d more =>
    simp only [applyGItem, externBegin] at ha
    obtain ⟨b2, h0, ha⟩ := bind_ok ha
    obtain ⟨b1, h1, h2⟩ := bind_ok h0
    cases h2
    have hi := derived_enc h8' h1
    by_cases h8 : env.bv ≥ 80
    · rw [if_pos h8] at ha
      unfold externApply8 at ha
      obtain ⟨n, _, ha⟩ := bind_ok ha
      obtain ⟨refs, _, ha⟩ := bind_ok ha
      cases ha
      exact hi
    · rw [if_neg h8] at ha
      unfold externApply57 at ha
      obtain ⟨n, _, ha⟩ := bind_ok ha
      obtain ⟨b3, h3, ha⟩ := bind_ok ha
      cases ha
      unfold externName57 at h3
      by_cases h4 : fld n 1 1 = 3
      · rw [if_pos h4] at h3
        obtain ⟨name, _, h3⟩ := bind_ok h3
        cases h3
        exact hi
      · rw [if_neg h4] at h3
        cases h3
        exact hi
  | one rc d =>
    simp only [applyGItem] at ha
    by_cases c6 : rc = XL_CODEPAGE
    · subst c6
      have : globalsRecord env b XL_CODEPAGE d = handleCodepage env b d := rfl
      rw [this] at ha
      unfold handleCodepage at ha
      obtain ⟨_, _, ha⟩ := bind_ok ha
      exact derived_enc h8' ha
    unfold globalsRecord at ha
    by_cases c1 : rc = XL_FONT ∨ rc = XL_FONT_B3B4
    · rw [if_pos c1] at ha
      unfold bookFont at ha
      cases hf : env.fi with
      | false => simp only [hf, Bool.not_false, if_true] at ha; cases ha; exact h
      | true =>
        simp only [hf, Bool.not_true, Bool.false_eq_true, if_false] at ha
        obtain ⟨b1, h1, ha⟩ := bind_ok ha
        obtain ⟨f, h2, ha⟩ := bind_ok ha
        cases ha
        exact (ensured_enc h h1 :)
    rw [if_neg c1] at ha
    by_cases c2 : rc = XL_FORMAT
    · rw [if_pos c2] at ha
      unfold bookFormat at ha
      obtain ⟨b1, h1, ha⟩ := bind_ok ha
      obtain ⟨f, h2, ha⟩ := bind_ok ha
      cases ha
      exact (ensured_enc h h1 :)
    rw [if_neg c2] at ha
    by_cases c3 : rc = XL_XF
    · rw [if_pos c3] at ha
      unfold bookXf at ha
      obtain ⟨f, h2, ha⟩ := bind_ok ha
      cases ha
      exact h
    rw [if_neg c3] at ha
    by_cases c4 : rc = XL_BOUNDSHEET
    · rw [if_pos c4] at ha
      unfold handleBoundsheet at ha
      obtain ⟨b1, h1, ha⟩ := bind_ok ha
      obtain ⟨⟨p, v, t, n⟩, _, ha⟩ := bind_ok ha
      cases ha
      have := derived_enc h8' h1
      unfold addSheet
      split <;> exact this
    rw [if_neg c4] at ha
    by_cases c5 : rc = XL_DATEMODE
    · rw [if_pos c5] at ha
      unfold handleDatemode at ha
      obtain ⟨m, _, ha⟩ := bind_ok ha
      obtain ⟨_, _, ha⟩ := bind_ok ha
      cases ha
      exact h
    rw [if_neg c5, if_neg c6] at ha
    by_cases c7 : rc = XL_COUNTRY
    · rw [if_pos c7] at ha
      unfold handleCountry at ha
      obtain ⟨m, _, ha⟩ := bind_ok ha
      obtain ⟨_, _, ha⟩ := bind_ok ha
      cases ha
      exact h
    rw [if_neg c7] at ha
    by_cases c8 : rc = XL_EXTERNNAME
    · rw [if_pos c8] at ha
      unfold handleExternname at ha
      by_cases h8 : env.bv ≥ 80
      · rw [if_pos h8] at ha
        obtain ⟨_, _, ha⟩ := bind_ok ha
        obtain ⟨⟨n, p⟩, _, ha⟩ := bind_ok ha
        obtain ⟨t, _, ha⟩ := bind_ok ha
        by_cases ht : t = some SUPBOOK_ADDIN
        · rw [if_pos ht] at ha; cases ha; exact h
        · rw [if_neg ht] at ha; cases ha; exact h
      · rw [if_neg h8] at ha; cases ha; exact h
    rw [if_neg c8] at ha
    by_cases c9 : rc = XL_FILEPASS
    · rw [if_pos c9] at ha; cases ha
    rw [if_neg c9] at ha
    by_cases c10 : rc = XL_WRITEACCESS
    · rw [if_pos c10] at ha
      unfold handleWriteaccess at ha
      by_cases h8 : env.bv < 80
      · rw [if_pos h8] at ha
        cases he : b.encoding with
        | none => exact absurd he h
        | some e =>
          rw [he] at ha
          obtain ⟨s, _, ha⟩ := bind_ok ha
          cases ha; exact (by simp)
      · rw [if_neg h8] at ha
        obtain ⟨s, _, ha⟩ := bind_ok ha
        cases ha; exact h
    rw [if_neg c10] at ha
    by_cases c11 : rc = XL_SHEETSOFFSET
    · rw [if_pos c11] at ha
      unfold handleSheetsoffset at ha
      obtain ⟨m, _, ha⟩ := bind_ok ha
      cases ha
      exact h
    rw [if_neg c11] at ha
    by_cases c12 : rc = XL_SUPBOOK
    · rw [if_pos c12] at ha
      unfold handleSupbook at ha
      obtain ⟨m, _, ha⟩ := bind_ok ha
      obtain ⟨t, _, ha⟩ := bind_ok ha
      cases ha
      exact h
    rw [if_neg c12] at ha
    by_cases c13 : rc = XL_NAME
    · rw [if_pos c13] at ha
      unfold handleName at ha
      by_cases h5 : env.bv < 50
      · rw [if_pos h5] at ha; cases ha; exact h
      · rw [if_neg h5] at ha
        obtain ⟨b1, h1, ha⟩ := bind_ok ha
        obtain ⟨_, _, ha⟩ := bind_ok ha
        obtain ⟨⟨n, p⟩, _, ha⟩ := bind_ok ha
        cases ha
        exact (derived_enc h8' h1 :)
    rw [if_neg c13] at ha
    by_cases c14 : rc = XL_PALETTE
    · rw [if_pos c14] at ha
      unfold bookPalette at ha
      obtain ⟨f, h2, ha⟩ := bind_ok ha
      cases ha
      exact h
    rw [if_neg c14] at ha
    by_cases c15 : rc = XL_STYLE
    · rw [if_pos c15] at ha
      unfold bookStyle at ha
      obtain ⟨f, h2, ha⟩ := bind_ok ha
      cases ha
      exact h
    rw [if_neg c15] at ha
    cases ha
    exact h


theorem items_encKept {env : BookEnv} (h8 : env.bv < 80) (items : List GItem) : ∀ {b b' : Book}, b.encoding ≠ none → applyGlobals env b items = .ok b' → b'.encoding ≠ none := by
  induction items with
  | nil => intro b b' h ha; cases ha; exact h
  | cons it items ih =>
    intro b b' h ha
    obtain ⟨b1, h1, h2⟩ := bind_ok ha
    exact ih (item_encKept h8 h h1) h2

/-- After a NAME record the encoding is known. -/
theorem named_enc {env : BookEnv} (h50 : 50 ≤ env.bv) (h8 : env.bv < 80) {d : Bytes} (items : List GItem) : GItem.one 0x18 d ∈ items → ∀ {b b' : Book},
    applyGlobals env b items = .ok b' → b'.encoding ≠ none := by
  induction items with
  | nil => intro h; cases h
  | cons it items ih =>
    intro hm b b' ha
    obtain ⟨b1, h1, h2⟩ := bind_ok ha
    rcases List.mem_cons.mp hm with rfl | hm
    · refine items_encKept h8 items ?_ h2
      have e : applyGItem env b (.one 0x18 d) = handleName env b d := rfl
      rw [e] at h1
      unfold handleName at h1
      rw [if_neg (by omega)] at h1
      obtain ⟨b2, h3, h1⟩ := bind_ok h1
      obtain ⟨_, _, h1⟩ := bind_ok h1
      obtain ⟨⟨n, p⟩, _, h1⟩ := bind_ok h1
      cases h1
      exact (derived_enc h8 h3 :)
    · exact ih hm h2

theorem names_record {bv : Nat} {dec : List GItem → Bytes → R PyStr} {items : List GItem} {names : List NameObj} (hc : Names bv dec items names) (hn : names ≠ []) :
    ∃ d, GItem.one 0x18 d ∈ items := by
  unfold Names at hc
  induction hc with
  | nil => exact absurd rfl hn
  | @take pre xs c d x hc0 hsel hrel ih =>
    subst hsel
    exact ⟨d, by simp⟩
  | skip _ _ ih =>
    obtain ⟨d, hd⟩ := ih hn
    exact ⟨d, List.mem_append_left _ hd⟩

/-- Texts in the formulas of names are read with the encoding of the book. -/
theorem names_dec {env : BookEnv} (h50 : 50 ≤ env.bv) (h8 : env.bv < 80) {items : List GItem} {names : List NameObj} (hn : Names env.bv (textAt env) items names)
    (hne : names ≠ []) {f : FmtSt} {b : Book} (h : applyGlobals env { fmt := f } items = .ok b) : b.dec env = textAt env items := by
  obtain ⟨d, hd⟩ := names_record hn hne
  have h1 := named_enc h50 h8 items hd h
  have h2 := items_enc items (fresh_enc env f) h
  simp only [List.nil_append] at h2
  exact dec_eq (h2.enc.resolve_left h1)

end Xlrd
