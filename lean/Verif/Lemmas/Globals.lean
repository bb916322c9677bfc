import Verif.Model.Globals
import Verif.Spec.Globals
import Verif.Props.SheetRead

/-!
# Which record changes which part of the book
-/
set_option linter.unusedSimpArgs false
namespace Xlrd
open Spec

/-- One item of the globals. -/
def applyGItem (env : BookEnv) (b : Book) : GItem → R Book
  | .one c d => globalsRecord env b c d
  | .sst d more => do
    let unique ← unpacki (slice d 4 8)
    let t ← unpackSstTable (d :: more) unique
    pure { b with sst := t }
  | .extern d more => do
    let b ← externBegin env b
    if env.bv ≥ 80 then externApply8 b (d ++ more.flatten) else externApply57 env b d

/-- All items. -/
def applyGlobals (env : BookEnv) : Book → List GItem → R Book
  | b, [] => .ok b
  | b, it :: its => do
    let b ← applyGItem env b it
    applyGlobals env b its

theorem gItems_append (env : BookEnv) (xs ys : List GItem) : ∀ b,
    applyGlobals env b (xs ++ ys) = (do let b ← applyGlobals env b xs; applyGlobals env b ys) := by
  induction xs with
  | nil => intro b; rfl
  | cons x xs ih =>
    intro b
    simp only [List.cons_append, applyGlobals, bind, Except.bind]
    cases applyGItem env b x with
    | error e => rfl
    | ok b1 => exact ih b1

/-- `derive_encoding` sets only these four. -/
theorem derive_frame {env : BookEnv} {b b' : Book} (h : deriveEncoding env b = .ok b') :
    ∃ e c u r, b' = { b with encoding := e, codepage := c, userName := u, rawUser := r } := by
  unfold deriveEncoding at h
  obtain ⟨_, _, h⟩ := bind_ok h
  have hc : ∃ e c, chooseEncoding env b = { b with encoding := e, codepage := c } := by
    unfold chooseEncoding
    by_cases ho : env.override ≠ []
    · rw [if_pos ho]; exact ⟨some env.override, b.codepage, rfl⟩
    · rw [if_neg ho]
      cases hcp : b.codepage with
      | none =>
        simp only
        by_cases h8 : env.bv < 80
        · rw [if_pos h8]; exact ⟨some "iso-8859-1".toList, none, by rw [← hcp]⟩
        · rw [if_neg h8]; exact ⟨b.encoding, some 1200, rfl⟩
      | some cp => exact ⟨_, _, rfl⟩
  obtain ⟨e, c, hc⟩ := hc
  rw [hc] at h
  unfold decodeUserName at h
  cases hr : b.rawUser with
  | none =>
    simp only [hr] at h
    cases h
    exact ⟨e, c, b.userName, none, by rw [← hr]⟩
  | some raw =>
    simp only [hr] at h
    obtain ⟨s, _, h⟩ := bind_ok h
    cases h
    exact ⟨e, c, env.rstrip s, none, rfl⟩

theorem ensure_frame {env : BookEnv} {b b' : Book} (h : ensureEncoding env b = .ok b') :
    ∃ e c u r, b' = { b with encoding := e, codepage := c, userName := u, rawUser := r } := by
  unfold ensureEncoding at h
  cases he : b.encoding with
  | none => rw [he] at h; exact derive_frame h
  | some e => rw [he] at h; cases h; exact ⟨b.encoding, b.codepage, b.userName, b.rawUser, rfl⟩

/-- The parts of a book that a record with code `rc` leaves alone. -/
structure Frame (rc : Nat) (b b' : Book) : Prop where
  font : rc ≠ XL_FONT → rc ≠ XL_FONT_B3B4 → b'.fmt.fontList = b.fmt.fontList
  formatMap : rc ≠ XL_FORMAT → rc ≠ XL_XF → b'.fmt.formatMap = b.fmt.formatMap
  formatList : rc ≠ XL_FORMAT → b'.fmt.formatList = b.fmt.formatList
  xfList : rc ≠ XL_XF → b'.fmt.xfList = b.fmt.xfList
  xfcount : rc ≠ XL_XF → b'.fmt.xfcount = b.fmt.xfcount
  typeMap : rc ≠ XL_XF → b'.fmt.typeMap = b.fmt.typeMap
  used : rc ≠ XL_XF → b'.fmt.coloursUsed = b.fmt.coloursUsed
  colourMap : rc ≠ XL_PALETTE → b'.fmt.colourMap = b.fmt.colourMap
  palette : rc ≠ XL_PALETTE → b'.fmt.paletteRecord = b.fmt.paletteRecord
  style : rc ≠ XL_STYLE → b'.fmt.styleMap = b.fmt.styleMap
  sheetNames : rc ≠ XL_BOUNDSHEET → b'.sheetNames = b.sheetNames
  shAbsPosn : rc ≠ XL_BOUNDSHEET → b'.shAbsPosn = b.shAbsPosn
  visibility : rc ≠ XL_BOUNDSHEET → b'.sheetVisibility = b.sheetVisibility
  allSheets : rc ≠ XL_BOUNDSHEET → b'.allSheetsMap = b.allSheetsMap
  allCount : rc ≠ XL_BOUNDSHEET → b'.allSheetsCount = b.allSheetsCount
  numFromName : rc ≠ XL_BOUNDSHEET → b'.sheetNumFromName = b.sheetNumFromName
  supTypes : rc ≠ XL_SUPBOOK → b'.supbookTypes = b.supbookTypes
  supCount : rc ≠ XL_SUPBOOK → b'.supbookCount = b.supbookCount
  supLocals : rc ≠ XL_SUPBOOK → b'.supbookLocalsInx = b.supbookLocalsInx
  supAddins : rc ≠ XL_SUPBOOK → b'.supbookAddinsInx = b.supbookAddinsInx
  addins : rc ≠ XL_EXTERNNAME → b'.addinFuncNames = b.addinFuncNames
  names : rc ≠ XL_NAME → b'.nameObjs = b.nameObjs
  datemode : rc ≠ XL_DATEMODE → b'.datemode = b.datemode
  countries : rc ≠ XL_COUNTRY → b'.countries = b.countries
  externInfo : b'.externsheetInfo = b.externsheetInfo
  externTypes : b'.externsheetTypeB57 = b.externsheetTypeB57
  externNames : b'.extnshtNameFromNum = b.extnshtNameFromNum
  externCount : b'.extnshtCount = b.extnshtCount
  sst : b'.sst = b.sst
  maps : b'.nameAndScopeMap = b.nameAndScopeMap ∧ b'.nameMap = b.nameMap
  embedded : b'.embedded = b.embedded
  offset : rc ≠ XL_SHEETSOFFSET → b'.sheetsoffset = b.sheetsoffset

theorem Frame.of_eq (rc : Nat) {b b' : Book} (h : ∃ e c u r, b' = { b with encoding := e, codepage := c, userName := u, rawUser := r }) :
    Frame rc b b' := by
  obtain ⟨e, c, u, r, rfl⟩ := h
  constructor <;> first | (intros; rfl) | exact ⟨rfl, rfl⟩

theorem Frame.trans {rc : Nat} {b b1 b' : Book} (h : Frame rc b b1) (h' : Frame rc b1 b') : Frame rc b b' where
  font a c := (h'.font a c).trans (h.font a c)
  formatMap a c := (h'.formatMap a c).trans (h.formatMap a c)
  formatList a := (h'.formatList a).trans (h.formatList a)
  xfList a := (h'.xfList a).trans (h.xfList a)
  xfcount a := (h'.xfcount a).trans (h.xfcount a)
  typeMap a := (h'.typeMap a).trans (h.typeMap a)
  used a := (h'.used a).trans (h.used a)
  colourMap a := (h'.colourMap a).trans (h.colourMap a)
  palette a := (h'.palette a).trans (h.palette a)
  style a := (h'.style a).trans (h.style a)
  sheetNames a := (h'.sheetNames a).trans (h.sheetNames a)
  shAbsPosn a := (h'.shAbsPosn a).trans (h.shAbsPosn a)
  visibility a := (h'.visibility a).trans (h.visibility a)
  allSheets a := (h'.allSheets a).trans (h.allSheets a)
  allCount a := (h'.allCount a).trans (h.allCount a)
  numFromName a := (h'.numFromName a).trans (h.numFromName a)
  supTypes a := (h'.supTypes a).trans (h.supTypes a)
  supCount a := (h'.supCount a).trans (h.supCount a)
  supLocals a := (h'.supLocals a).trans (h.supLocals a)
  supAddins a := (h'.supAddins a).trans (h.supAddins a)
  addins a := (h'.addins a).trans (h.addins a)
  names a := (h'.names a).trans (h.names a)
  datemode a := (h'.datemode a).trans (h.datemode a)
  countries a := (h'.countries a).trans (h.countries a)
  externInfo := h'.externInfo.trans h.externInfo
  externTypes := h'.externTypes.trans h.externTypes
  externNames := h'.externNames.trans h.externNames
  externCount := h'.externCount.trans h.externCount
  sst := h'.sst.trans h.sst
  maps := ⟨h'.maps.1.trans h.maps.1, h'.maps.2.trans h.maps.2⟩
  embedded := h'.embedded.trans h.embedded
  offset a := (h'.offset a).trans (h.offset a)

/-- Closes the fields of a frame whose states are explicit. -/
macro "frame_fields" : tactic => `(tactic| (constructor <;> first
  | exact ⟨rfl, rfl⟩
  | (intros; rfl)
  | (intros; exact absurd rfl (by assumption))
  | (intros; contradiction)))

theorem paletteLoop_frame {st st' : FmtSt} {i : Nat} {cs : List Nat} (h : paletteLoop st i cs = .ok st') :
    ∃ m p, st' = { st with colourMap := m, paletteRecord := p } := by
  induction cs generalizing st i with
  | nil => simp only [paletteLoop, Except.ok.injEq] at h; subst h; exact ⟨_, _, rfl⟩
  | cons c cs ih =>
    simp only [paletteLoop] at h
    cases hg : itemsGet st.colourMap (8 + i) with
    | none => rw [hg] at h; cases h
    | some v =>
      rw [hg] at h
      obtain ⟨m, p, rfl⟩ := ih h
      exact ⟨m, p, rfl⟩

theorem record_frame {env : BookEnv} {b b' : Book} {rc : Nat} {d : Bytes} (h : globalsRecord env b rc d = .ok b') : Frame rc b b' := by
  unfold globalsRecord at h
  by_cases c1 : rc = XL_FONT ∨ rc = XL_FONT_B3B4
  · rw [if_pos c1] at h
    unfold bookFont at h
    cases hf : env.fi with
    | false => simp only [hf, Bool.not_false, if_true] at h; cases h; exact Frame.of_eq rc ⟨_, _, _, _, rfl⟩
    | true =>
      simp only [hf, Bool.not_true, Bool.false_eq_true, if_false] at h
      obtain ⟨b1, h1, h⟩ := bind_ok h
      obtain ⟨f, h2, h⟩ := bind_ok h
      cases h
      refine (Frame.of_eq rc (ensure_frame h1)).trans ?_
      unfold handleFont at h2
      simp only [Bool.not_true, Bool.false_eq_true, if_false] at h2
      obtain ⟨g, _, h2⟩ := bind_ok h2
      cases h2
      rcases c1 with rfl | rfl <;> frame_fields
  rw [if_neg c1] at h
  by_cases c2 : rc = XL_FORMAT
  · rw [if_pos c2] at h
    subst c2
    unfold bookFormat at h
    obtain ⟨b1, h1, h⟩ := bind_ok h
    obtain ⟨f, h2, h⟩ := bind_ok h
    cases h
    refine (Frame.of_eq _ (ensure_frame h1)).trans ?_
    unfold handleFormat at h2
    obtain ⟨k, _, h2⟩ := bind_ok h2
    obtain ⟨s, _, h2⟩ := bind_ok h2
    cases h2
    frame_fields
  rw [if_neg c2] at h
  by_cases c3 : rc = XL_XF
  · rw [if_pos c3] at h
    subst c3
    unfold bookXf at h
    obtain ⟨f, h2, h⟩ := bind_ok h
    cases h
    unfold handleXf at h2
    obtain ⟨x, _, h2⟩ := bind_ok h2
    cases h2
    frame_fields
  rw [if_neg c3] at h
  by_cases c4 : rc = XL_BOUNDSHEET
  · rw [if_pos c4] at h
    subst c4
    unfold handleBoundsheet at h
    obtain ⟨b1, h1, h⟩ := bind_ok h
    obtain ⟨⟨p, v, t, n⟩, _, h⟩ := bind_ok h
    cases h
    refine (Frame.of_eq _ (derive_frame h1)).trans ?_
    unfold addSheet
    by_cases ht : t ≠ 0
    · rw [if_pos ht]; frame_fields
    · rw [if_neg ht]; frame_fields
  rw [if_neg c4] at h
  by_cases c5 : rc = XL_DATEMODE
  · rw [if_pos c5] at h
    subst c5
    unfold handleDatemode at h
    obtain ⟨m, _, h⟩ := bind_ok h
    obtain ⟨_, _, h⟩ := bind_ok h
    cases h
    frame_fields
  rw [if_neg c5] at h
  by_cases c6 : rc = XL_CODEPAGE
  · rw [if_pos c6] at h
    subst c6
    unfold handleCodepage at h
    obtain ⟨m, _, h⟩ := bind_ok h
    obtain ⟨e, c, u, r, rfl⟩ := derive_frame h
    frame_fields
  rw [if_neg c6] at h
  by_cases c7 : rc = XL_COUNTRY
  · rw [if_pos c7] at h
    subst c7
    unfold handleCountry at h
    obtain ⟨m, _, h⟩ := bind_ok h
    obtain ⟨_, _, h⟩ := bind_ok h
    cases h
    frame_fields
  rw [if_neg c7] at h
  by_cases c8 : rc = XL_EXTERNNAME
  · rw [if_pos c8] at h
    subst c8
    unfold handleExternname at h
    by_cases h8 : env.bv ≥ 80
    · rw [if_pos h8] at h
      obtain ⟨_, _, h⟩ := bind_ok h
      obtain ⟨⟨n, p⟩, _, h⟩ := bind_ok h
      obtain ⟨t, _, h⟩ := bind_ok h
      by_cases ht : t = some SUPBOOK_ADDIN
      · rw [if_pos ht] at h; cases h; frame_fields
      · rw [if_neg ht] at h; cases h; frame_fields
    · rw [if_neg h8] at h; cases h; frame_fields
  rw [if_neg c8] at h
  by_cases c9 : rc = XL_FILEPASS
  · rw [if_pos c9] at h; cases h
  rw [if_neg c9] at h
  by_cases c10 : rc = XL_WRITEACCESS
  · rw [if_pos c10] at h
    subst c10
    unfold handleWriteaccess at h
    by_cases h8 : env.bv < 80
    · rw [if_pos h8] at h
      cases he : b.encoding with
      | none => rw [he] at h; cases h; exact Frame.of_eq _ ⟨_, _, _, _, rfl⟩
      | some e =>
        rw [he] at h
        obtain ⟨s, _, h⟩ := bind_ok h
        cases h; exact Frame.of_eq _ ⟨_, _, _, _, rfl⟩
    · rw [if_neg h8] at h
      obtain ⟨s, _, h⟩ := bind_ok h
      cases h; exact Frame.of_eq _ ⟨_, _, _, _, rfl⟩
  rw [if_neg c10] at h
  by_cases c11 : rc = XL_SHEETSOFFSET
  · rw [if_pos c11] at h
    subst c11
    unfold handleSheetsoffset at h
    obtain ⟨m, _, h⟩ := bind_ok h
    cases h
    frame_fields
  rw [if_neg c11] at h
  by_cases c12 : rc = XL_SUPBOOK
  · rw [if_pos c12] at h
    subst c12
    unfold handleSupbook at h
    obtain ⟨m, _, h⟩ := bind_ok h
    obtain ⟨t, _, h⟩ := bind_ok h
    cases h
    frame_fields
  rw [if_neg c12] at h
  by_cases c13 : rc = XL_NAME
  · rw [if_pos c13] at h
    subst c13
    unfold handleName at h
    by_cases h5 : env.bv < 50
    · rw [if_pos h5] at h; cases h; frame_fields
    · rw [if_neg h5] at h
      obtain ⟨b1, h1, h⟩ := bind_ok h
      obtain ⟨_, _, h⟩ := bind_ok h
      obtain ⟨⟨n, p⟩, _, h⟩ := bind_ok h
      cases h
      refine (Frame.of_eq _ (derive_frame h1)).trans ?_
      frame_fields
  rw [if_neg c13] at h
  by_cases c14 : rc = XL_PALETTE
  · rw [if_pos c14] at h
    subst c14
    unfold bookPalette at h
    obtain ⟨f, h2, h⟩ := bind_ok h
    cases h
    unfold handlePalette at h2
    cases hf : env.fi with
    | false => simp only [hf, Bool.not_false, if_true] at h2; cases h2; frame_fields
    | true =>
      simp only [hf, Bool.not_true, Bool.false_eq_true, if_false] at h2
      obtain ⟨n, _, h2⟩ := bind_ok h2
      by_cases hx : ¬ (4 * n + 2 ≤ d.length ∧ d.length ≤ 4 * n + 2 + 4)
      · rw [if_pos hx] at h2; cases h2
      · rw [if_neg hx] at h2
        obtain ⟨_, _, h2⟩ := bind_ok h2
        obtain ⟨m, p, rfl⟩ := paletteLoop_frame h2
        frame_fields
  rw [if_neg c14] at h
  by_cases c15 : rc = XL_STYLE
  · rw [if_pos c15] at h
    subst c15
    unfold bookStyle at h
    obtain ⟨f, h2, h⟩ := bind_ok h
    cases h
    unfold handleStyle at h2
    cases hf : env.fi with
    | false => simp only [hf, Bool.not_false, if_true] at h2; cases h2; frame_fields
    | true =>
      simp only [hf, Bool.not_true, Bool.false_eq_true, if_false] at h2
      obtain ⟨n, _, h2⟩ := bind_ok h2
      by_cases hx : d = [0, 0, 0, 0] ∧ (b.fmt.styleMap "Normal".toList).isNone
      · rw [if_pos hx] at h2; cases h2; frame_fields
      · rw [if_neg hx] at h2
        by_cases hy : fld n 0 2 &&& 0x8000 ≠ 0
        · rw [if_pos hy] at h2
          obtain ⟨s, _, h2⟩ := bind_ok h2
          cases h2; frame_fields
        · rw [if_neg hy] at h2
          obtain ⟨s, _, h2⟩ := bind_ok h2
          cases h2; frame_fields
  rw [if_neg c15] at h
  cases h
  exact Frame.of_eq _ ⟨_, _, _, _, rfl⟩

/-- What an SST or EXTERNSHEET item leaves alone. -/
theorem sst_frame {env : BookEnv} {b b' : Book} {d : Bytes} {more : List Bytes} (h : applyGItem env b (.sst d more) = .ok b') :
    ∃ t, b' = { b with sst := t } := by
  simp only [applyGItem] at h
  obtain ⟨u, _, h⟩ := bind_ok h
  obtain ⟨t, _, h⟩ := bind_ok h
  cases h
  exact ⟨t, rfl⟩

theorem extern_frame {env : BookEnv} {b b' : Book} {d : Bytes} {more : List Bytes} (h : applyGItem env b (.extern d more) = .ok b') :
    ∃ e c u r i t n k, b' = { b with encoding := e, codepage := c, userName := u, rawUser := r, externsheetInfo := i,
                                     externsheetTypeB57 := t, extnshtNameFromNum := n, extnshtCount := k } := by
  simp only [applyGItem, externBegin] at h
  obtain ⟨b2, h0, h⟩ := bind_ok h
  obtain ⟨b1, h1, h2⟩ := bind_ok h0
  cases h2
  obtain ⟨e, c, u, r, rfl⟩ := derive_frame h1
  by_cases h8 : env.bv ≥ 80
  · rw [if_pos h8] at h
    unfold externApply8 at h
    obtain ⟨n, _, h⟩ := bind_ok h
    obtain ⟨refs, _, h⟩ := bind_ok h
    cases h
    exact ⟨_, _, _, _, _, _, _, _, rfl⟩
  · rw [if_neg h8] at h
    unfold externApply57 at h
    obtain ⟨n, _, h⟩ := bind_ok h
    obtain ⟨b3, h3, h⟩ := bind_ok h
    cases h
    unfold externName57 at h3
    by_cases h4 : fld n 1 1 = 3
    · rw [if_pos h4] at h3
      obtain ⟨name, _, h3⟩ := bind_ok h3
      cases h3
      exact ⟨_, _, _, _, _, _, _, _, rfl⟩
    · rw [if_neg h4] at h3
      cases h3
      exact ⟨_, _, _, _, _, _, _, _, rfl⟩

/-- No item adds a sheet that is embedded in the globals. -/
theorem item_embedded {env : BookEnv} {b b' : Book} {it : GItem} (h : applyGItem env b it = .ok b') : b'.embedded = b.embedded := by
  cases it with
  | one c d => exact (record_frame h).embedded
  | sst d more => obtain ⟨t, rfl⟩ := sst_frame h; rfl
  | extern d more => obtain ⟨_, _, _, _, _, _, _, _, rfl⟩ := extern_frame h; rfl

end Xlrd
