import Verif.Props.CellKinds
import Verif.Lemmas.OldFrame
import Verif.Lemmas.Biff4w

/-!
# C92: types and values of cells of files before BIFF5
-/
set_option linter.unusedSimpArgs false
namespace Xlrd
open Spec

/-- The types that XF indexes lead to in old files. -/
def OldTypes (f : FmtSt) : Prop := ∀ k t, f.typeMap k = some t → t = 1 ∨ t = 2 ∨ t = 3

/-- What is kept while an old sheet is read. -/
def OldKinds (o : OldSt) : Prop := OldTypes o.book.fmt ∧ Kinds OldCellOk o.sheet.store

theorem OldTypes.of_eq {f g : FmtSt} (h : OldTypes f) (e : g.typeMap = f.typeMap) : OldTypes g := by
  unfold OldTypes; rw [e]; exact h

theorem OldKinds.numbers {env : OpenEnv} {o : OldSt} (h : OldTypes o.book.fmt) : NumberTypes OldCellOk (o.env env).cfg.typeMap := by
  intro i t x e
  have e : (if 0 ≤ i then o.book.fmt.typeMap i.toNat else none) = some t := e
  split at e
  · rcases h _ _ e with rfl | rfl | rfl
    · exact .inr ⟨rfl, x, rfl⟩
    · exact .inl ⟨x, rfl⟩
    · exact .inl ⟨x, rfl⟩
  · cases e

theorem cellTypeOf_old (m : Nat → Option Format) (k : Nat) {d : Nat} (h : d = 1 ∨ d = 2) : cellTypeOf m k d = 1 ∨ cellTypeOf m k d = 2 ∨ cellTypeOf m k d = 3 := by
  unfold cellTypeOf
  cases m k with
  | none => rcases h with rfl | rfl
            · exact .inl rfl
            · exact .inr (.inl rfl)
  | some f => exact .inr (cellty_number _)

theorem dictSet_old {tm : Nat → Option Nat} (h : ∀ k t, tm k = some t → t = 1 ∨ t = 2 ∨ t = 3) (i : Nat) {t : Nat} (ht : t = 1 ∨ t = 2 ∨ t = 3) :
    ∀ k t', dictSet tm i t k = some t' → t' = 1 ∨ t' = 2 ∨ t' = 3 := by
  intro k t' e
  simp only [dictSet] at e
  split at e
  · cases e; exact ht
  · exact h k t' e

theorem handleXf_old {bv : Nat} {fi : Bool} {f g : FmtSt} {d : Bytes} (h : OldTypes f) (e : handleXf bv fi f d = .ok g) : OldTypes g := by
  obtain ⟨x, _, e⟩ := bind_ok e
  cases e
  exact dictSet_old h _ (cellTypeOf_old _ _ (.inr rfl))

theorem epilogue_old {fi : Bool} {f : FmtSt} (h : OldTypes f) : OldTypes (xfEpilogue fi f) := by
  show ∀ k t, f.xfList.foldl (fun tm x => dictSet tm x.xfIndex (cellTypeOf f.formatMap x.formatKey XL_CELL_TEXT)) f.typeMap k = some t → _
  have key : ∀ (xs : List XF) (tm : Nat → Option Nat), (∀ k t, tm k = some t → t = 1 ∨ t = 2 ∨ t = 3) →
      ∀ k t, xs.foldl (fun tm x => dictSet tm x.xfIndex (cellTypeOf f.formatMap x.formatKey XL_CELL_TEXT)) tm k = some t → t = 1 ∨ t = 2 ∨ t = 3 := by
    intro xs
    induction xs with
    | nil => intro tm h; exact h
    | cons x xs ih => intro tm h; exact ih _ (dictSet_old h _ (cellTypeOf_old _ _ (.inl rfl)))
  exact key _ _ h

/-- The records of `globalsRecord` other than XF do not change the types. -/
theorem global_types {env : BookEnv} {b b' : Book} (c : Nat) {d : Bytes} (hc : c ≠ XL_XF) (h : OldTypes b.fmt) (e : globalsRecord env b c d = .ok b') : OldTypes b'.fmt :=
  h.of_eq ((record_frame e).typeMap hc)

theorem oldFormat_old {env : OpenEnv} {o : OldSt} {d : Bytes} {f2 : Bool} {b' : Book} (hi : OldTypes o.book.fmt) (h : oldFormat env o d f2 = .ok b') : OldTypes b'.fmt := by
  obtain ⟨b1, h1, h⟩ := bind_ok h
  obtain ⟨f, h2, h⟩ := bind_ok h
  cases h
  have e1 := (ensure_rest h1).2.2
  obtain ⟨_, _, h2⟩ := bind_ok h2
  obtain ⟨_, _, h2⟩ := bind_ok h2
  cases h2
  exact hi.of_eq (by rw [← e1])

theorem oldBook_old {env : OpenEnv} {o : OldSt} {rc : Nat} {d : Bytes} {b' : Book} (hi : OldTypes o.book.fmt) (h : oldBookRecord env o rc d = .ok b') : OldTypes b'.fmt := by
  unfold oldBookRecord at h
  by_cases c1 : rc = XL_FORMAT
  · rw [if_pos c1] at h; exact oldFormat_old hi h
  rw [if_neg c1] at h
  by_cases c2 : rc = XL_FORMAT2
  · rw [if_pos c2] at h; exact oldFormat_old hi h
  rw [if_neg c2] at h
  by_cases c3 : rc = XL_FONT ∨ rc = XL_FONT_B3B4
  · rw [if_pos c3] at h; exact global_types XL_FONT (by decide) hi (env := env.recEnv o.bv) (d := d) h
  rw [if_neg c3] at h
  by_cases c4 : rc = XL_STYLE
  · rw [if_pos c4] at h
    unfold oldStyle at h
    have hi' : OldTypes (if o.book.xfDone then o.book else runEpilogue env o.book).fmt := by
      split
      · exact hi
      · exact epilogue_old hi
    exact global_types XL_STYLE (by decide) hi' (env := env.recEnv o.bv) (d := d) h
  rw [if_neg c4] at h
  by_cases c5 : rc = XL_PALETTE
  · rw [if_pos c5] at h; exact global_types XL_PALETTE (by decide) hi (env := env.recEnv o.bv) (d := d) h
  rw [if_neg c5] at h
  by_cases c6 : rc = XL_BUILTINFMTCOUNT
  · rw [if_pos c6] at h
    obtain ⟨f, _, h⟩ := bind_ok h
    cases h
    exact hi
  rw [if_neg c6] at h
  by_cases c7 : rc = XL_XF4 ∨ rc = XL_XF3 ∨ rc = XL_XF2
  · rw [if_pos c7] at h
    obtain ⟨f, h1, h⟩ := bind_ok h
    cases h
    exact handleXf_old hi h1
  rw [if_neg c7] at h
  by_cases c8 : rc = XL_DATEMODE
  · rw [if_pos c8] at h; exact global_types XL_DATEMODE (by decide) hi (env := env.recEnv o.bv) (d := d) h
  rw [if_neg c8] at h
  by_cases c9 : rc = XL_CODEPAGE
  · rw [if_pos c9] at h; exact global_types XL_CODEPAGE (by decide) hi (env := env.recEnv o.bv) (d := d) h
  rw [if_neg c9] at h
  by_cases c10 : rc = XL_FILEPASS
  · rw [if_pos c10] at h; cases h
  rw [if_neg c10] at h
  by_cases c11 : rc = XL_WRITEACCESS
  · rw [if_pos c11] at h; exact global_types XL_WRITEACCESS (by decide) hi (env := env.recEnv o.bv) (d := d) h
  rw [if_neg c11] at h
  obtain ⟨f, h1, h⟩ := bind_ok h
  cases h
  unfold handleEfont at h1
  cases hf : env.fi with
  | false => simp only [hf, Bool.not_false, if_true] at h1; cases h1; exact hi
  | true =>
    simp only [hf, Bool.not_true, Bool.false_eq_true, if_false] at h1
    obtain ⟨c, _, h1⟩ := bind_ok h1
    cases hl : o.book.fmt.fontList.getLast? with
    | none => rw [hl] at h1; cases h1
    | some x => rw [hl] at h1; cases h1; exact hi

/-- What a step does that may add XFs but leaves the sheet alone. -/
def XfStep (o o' : OldSt) : Prop := (OldTypes o.book.fmt → OldTypes o'.book.fmt) ∧ o'.sheet = o.sheet

theorem XfStep.refl (o : OldSt) : XfStep o o := ⟨id, rfl⟩
theorem XfStep.trans {a b c : OldSt} (h : XfStep a b) (h' : XfStep b c) : XfStep a c := ⟨fun x => h'.1 (h.1 x), h'.2.trans h.2⟩
theorem XfStep.kinds {o o' : OldSt} (h : XfStep o o') (hi : OldKinds o) : OldKinds o' := ⟨h.1 hi.1, by rw [h.2]; exact hi.2⟩

theorem insertXf_step {o o' : OldSt} {attr : Bytes} {s : Bool} {k : Nat} (h : insertXf o attr s = .ok (k, o')) : XfStep o o' := by
  unfold insertXf at h
  obtain ⟨x, _, h⟩ := bind_ok h
  cases h
  refine ⟨fun hi => ?_, rfl⟩
  have : OldTypes (ensureFormat o.book.fmt x.formatKey) := by
    unfold ensureFormat
    split
    · exact hi
    · exact hi
  exact dictSet_old this _ (cellTypeOf_old _ _ (.inr rfl))

theorem insertStyles_step : ∀ (n i : Nat) {o o' : OldSt}, insertStyles n i o = .ok o' → XfStep o o'
  | 0, _, _, _, h => by cases h; exact XfStep.refl _
  | n + 1, i, o, o', h => by
    rw [insertStyles] at h
    obtain ⟨⟨k, o1⟩, h1, h⟩ := bind_ok h
    exact (insertXf_step h1).trans (insertStyles_step n (i + 1) h)

theorem attrIndex_step {o o' : OldSt} {attr : Bytes} {k : Nat} (h : attrIndex o attr = .ok (k, o')) : XfStep o o' := by
  unfold attrIndex at h
  obtain ⟨s, _, h⟩ := bind_ok h
  obtain ⟨_, _, h⟩ := bind_ok h
  cases ha : o.attrXf attr with
  | some x => simp only [ha] at h; cases h; exact XfStep.refl _
  | none =>
    simp only [ha] at h
    obtain ⟨o1, h1, h⟩ := bind_ok h
    refine XfStep.trans ?_ (insertXf_step h)
    unfold withStyles at h1
    by_cases hx : o.book.fmt.xfList = []
    · rw [if_pos hx] at h1; exact insertStyles_step _ _ h1
    · rw [if_neg hx] at h1; cases h1; exact XfStep.refl _

theorem fixXf_step {o o' : OldSt} {attr : Option Bytes} {t : Option Nat} {k : Nat} (h : fixXf o attr t = .ok (k, o')) : XfStep o o' := by
  unfold fixXf at h
  by_cases hb : o.bv = 21 ∧ o.book.fmt.xfList ≠ []
  · rw [if_pos hb] at h
    obtain ⟨x, _, h⟩ := bind_ok h
    by_cases hx : x = 0x3F
    · rw [if_pos hx] at h
      cases hi : o.ixfe with
      | none => rw [hi] at h; cases h
      | some i => rw [hi] at h; cases h; exact XfStep.refl _
    · rw [if_neg hx] at h; cases h; exact XfStep.refl _
  · rw [if_neg hb] at h
    cases attr with
    | none => cases h
    | some a =>
      simp only at h
      have := attrIndex_step h
      by_cases h21 : o.bv = 21
      · rw [if_pos h21] at this; exact this
      · rw [if_neg h21] at this; exact this

theorem withEncoding_step {env : OpenEnv} {o o' : OldSt} {n : Bool} (h : o.withEncoding env n = .ok o') : XfStep o o' := by
  refine ⟨fun hi => by rw [(withEncoding_same h).2]; exact hi, ?_⟩
  unfold OldSt.withEncoding at h
  cases n with
  | false => cases h; rfl
  | true =>
    obtain ⟨b, _, rfl⟩ := onBook_ok (show o.onBook _ = .ok o' from h)
    rfl

theorem oldPut_kinds {env : OpenEnv} {o o' : OldSt} {r c : Nat} {ct : Option Nat} {v : Val} {xf : Nat} (hi : OldKinds o)
    (hx : (ct = none ∧ ∃ x, v = .num x) ∨ ∃ t, ct = some t ∧ CellOk t v) (h : o.put env r c ct v xf = .ok o') : OldKinds o' := by
  have hb := put_book h
  obtain ⟨s, h1, h⟩ := bind_ok (show o.onSheet _ = .ok o' from h)
  cases h
  exact ⟨hi.1, put_kinds (OldKinds.numbers hi.1) hi.2 hx h1⟩

theorem fixPut_kinds {env : OpenEnv} {o o' : OldSt} {attr : Option Bytes} {t : Option Nat} {r c : Nat} {ct : Option Nat} {v : Val} (hi : OldKinds o)
    (hx : (ct = none ∧ ∃ x, v = .num x) ∨ ∃ t, ct = some t ∧ CellOk t v)
    (h : (do let (x, o) ← fixXf o attr t; o.put env r c ct v x) = .ok o') : OldKinds o' := by
  obtain ⟨⟨x, o1⟩, h1, h⟩ := bind_ok h
  exact oldPut_kinds ((fixXf_step h1).kinds hi) hx h

theorem columnDefaults_kinds (data : Bytes) : ∀ (n c off : Nat) {o o' : OldSt}, OldKinds o → columnDefaults data n c off o = .ok o' → OldKinds o'
  | 0, _, _, _, _, hi, h => by cases h; exact hi
  | n + 1, c, off, o, o', hi, h => by
    rw [columnDefaults] at h
    obtain ⟨⟨k, o1⟩, h1, h⟩ := bind_ok h
    simp only at h
    refine columnDefaults_kinds data n _ _ ?_ h
    exact (fixXf_step h1).kinds hi

theorem oldSheet_kinds {env : OpenEnv} {o o' : OldSt} {rc len : Nat} {d : Bytes} (hi : OldKinds o) (h : oldSheetRecord env o rc len d = .ok o') : OldKinds o' := by
  unfold oldSheetRecord at h
  by_cases c1 : rc = XL_IXFE
  · rw [if_pos c1] at h
    obtain ⟨x, _, h⟩ := bind_ok h
    cases h
    exact hi
  rw [if_neg c1] at h
  by_cases c2 : rc = XL_NUMBER_B2
  · rw [if_pos c2] at h
    obtain ⟨b, _, h⟩ := bind_ok h
    exact fixPut_kinds hi (.inl ⟨rfl, _, rfl⟩) h
  rw [if_neg c2] at h
  by_cases c3 : rc = XL_INTEGER
  · rw [if_pos c3] at h
    obtain ⟨b, _, h⟩ := bind_ok h
    exact fixPut_kinds hi (.inl ⟨rfl, _, rfl⟩) h
  rw [if_neg c3] at h
  by_cases c4 : rc = XL_LABEL_B2
  · rw [if_pos c4] at h
    obtain ⟨b, _, h⟩ := bind_ok h
    obtain ⟨o1, h1, h⟩ := bind_ok h
    obtain ⟨t, _, h⟩ := bind_ok h
    exact fixPut_kinds (ct := some XL_CELL_TEXT) (v := .text t) ((withEncoding_step h1).kinds hi) (.inr ⟨_, rfl, t, rfl⟩) h
  rw [if_neg c4] at h
  by_cases c5 : rc = XL_BOOLERR_B2
  · rw [if_pos c5] at h
    obtain ⟨b, _, h⟩ := bind_ok h
    obtain ⟨t, h1, h⟩ := bind_ok h
    refine fixPut_kinds hi (.inr ⟨_, rfl, ?_⟩) h
    have hm := idx_mem h1
    simp only [List.mem_cons, List.not_mem_nil, or_false] at hm
    rcases hm with rfl | rfl <;> exact ⟨_, rfl, fld1_le b 7⟩
  rw [if_neg c5] at h
  by_cases c6 : rc = XL_BLANK_B2
  · rw [if_pos c6] at h
    unfold recBlankB2 at h
    cases hf : env.fi with
    | false => simp only [hf, Bool.false_eq_true, if_false] at h; cases h; exact hi
    | true =>
      simp only [hf, if_true] at h
      obtain ⟨b, _, h⟩ := bind_ok h
      exact fixPut_kinds (ct := some XL_CELL_BLANK) (v := emptyVal) hi (.inr ⟨_, rfl, rfl⟩) h
  rw [if_neg c6] at h
  by_cases c7 : rc = XL_ROW_B2
  · rw [if_pos c7] at h
    unfold recRowB2 at h
    cases hf : env.fi with
    | false => simp only [hf, Bool.false_eq_true, if_false] at h; cases h; exact hi
    | true =>
      simp only [hf, if_true] at h
      obtain ⟨b, _, h⟩ := bind_ok h
      by_cases hr : fld b 0 2 < (o.env env).cfg.maxRows
      · rw [if_pos hr] at h
        obtain ⟨⟨x, o1⟩, h1, h⟩ := bind_ok h
        cases h
        have key : XfStep o o1 := by
          unfold rowXfB2 at h1
          by_cases hb : fld b 10 1 &&& 1 = 0
          · rw [if_pos hb] at h1; cases h1; exact XfStep.refl _
          rw [if_neg hb] at h1
          by_cases hl : len = 18
          · rw [if_pos hl] at h1
            obtain ⟨y, _, h1⟩ := bind_ok h1
            obtain ⟨⟨z, o2⟩, h2, h1⟩ := bind_ok h1
            cases h1
            exact fixXf_step h2
          · rw [if_neg hl] at h1
            obtain ⟨⟨z, o2⟩, h2, h1⟩ := bind_ok h1
            cases h1
            exact fixXf_step h2
        exact (key.kinds hi :)
      · rw [if_neg hr] at h; cases h; exact hi
  rw [if_neg c7] at h
  by_cases c8 : rc = XL_COLWIDTH
  · rw [if_pos c8] at h
    unfold recColWidth at h
    cases hf : env.fi with
    | false => simp only [hf, Bool.false_eq_true, if_false] at h; cases h; exact hi
    | true =>
      simp only [hf, if_true] at h
      obtain ⟨b, _, h⟩ := bind_ok h
      by_cases hr : fld b 0 1 ≤ fld b 1 1
      · rw [if_pos hr] at h; cases h; exact hi
      · rw [if_neg hr] at h; cases h; exact hi
  rw [if_neg c8] at h
  by_cases c9 : rc = XL_COLUMNDEFAULT
  · rw [if_pos c9] at h
    unfold recColumnDefault at h
    cases hf : env.fi with
    | false => simp only [hf, Bool.false_eq_true, if_false] at h; cases h; exact hi
    | true =>
      simp only [hf, if_true] at h
      obtain ⟨b, _, h⟩ := bind_ok h
      exact columnDefaults_kinds _ _ _ _ hi h
  rw [if_neg c9] at h
  unfold recWindow2B2 at h
  obtain ⟨b, _, h⟩ := bind_ok h
  obtain ⟨c, _, h⟩ := bind_ok h
  obtain ⟨k, _, h⟩ := bind_ok h
  cases h
  exact hi

theorem oldFormula_kinds {env : OpenEnv} {bv : Nat} {mem : Bytes} {o o' : OldSt} {pos p' : Int} {d : Bytes} (hi : OldKinds o)
    (h : oldFormula env bv mem o pos d = .ok (o', p')) : OldKinds o' := by
  unfold oldFormula at h
  by_cases hb : bv ≥ 30
  · rw [if_pos hb] at h
    obtain ⟨o1, h1, h⟩ := bind_ok h
    obtain ⟨⟨s, p⟩, h2, h⟩ := bind_ok h
    cases h
    have hi1 := (withEncoding_step h1).kinds hi
    exact ⟨hi1.1, recFormula_keep (OldKinds.numbers hi1.1) h2 hi1.2⟩
  · rw [if_neg hb] at h
    unfold recFormulaB2 at h
    obtain ⟨b, _, h⟩ := bind_ok h
    obtain ⟨⟨x, o1⟩, h1, h⟩ := bind_ok h
    obtain ⟨o2, h2, h⟩ := bind_ok h
    obtain ⟨⟨ty, v, p⟩, h4, h⟩ := bind_ok h
    obtain ⟨o3, h3, h⟩ := bind_ok h
    cases h
    exact oldPut_kinds ((withEncoding_step h2).kinds ((fixXf_step h1).kinds hi)) (formulaResult_kind h4) h3

theorem oldRecord_kinds {env : OpenEnv} {bv : Nat} {mem : Bytes} {o o' : OldSt} {pos p' : Int} {rc len : Nat} {d : Bytes} (hi : OldKinds o)
    (h : oldRecord env bv mem o pos rc len d = .ok (o', p')) : OldKinds o' := by
  unfold oldRecord at h
  by_cases c1 : rc ∈ XL_FORMULA_OPCODES
  · rw [if_pos c1] at h; exact oldFormula_kinds hi h
  rw [if_neg c1] at h
  by_cases c2 : rc ∈ bofcodes
  · rw [if_pos c2] at h
    obtain ⟨p, _, h⟩ := bind_ok h
    cases h
    exact hi
  rw [if_neg c2] at h
  by_cases c3 : rc = XL_COUNTRY
  · rw [if_pos c3] at h
    obtain ⟨o1, h1, h⟩ := bind_ok h
    cases h
    obtain ⟨b, h2, rfl⟩ := onBook_ok h1
    exact ⟨by rw [(country_same h2).2]; exact hi.1, hi.2⟩
  rw [if_neg c3] at h
  by_cases c4 : rc ∈ otherCodes
  · rw [if_pos c4] at h
    obtain ⟨o1, h1, h⟩ := bind_ok h
    obtain ⟨⟨e, p⟩, _, h⟩ := bind_ok h
    cases h
    exact ((withEncoding_step h1).kinds hi :)
  rw [if_neg c4] at h
  by_cases c5 : rc = XL_DIMENSION ∨ rc = XL_DIMENSION2
  · rw [if_pos c5] at h
    obtain ⟨o1, h1, h⟩ := bind_ok h
    cases h
    unfold oldDimension at h1
    obtain ⟨o2, h2, h1⟩ := bind_ok h1
    have hi2 : OldKinds o2 := by
      obtain ⟨s, h3, h2⟩ := bind_ok (show o.onSheet _ = .ok o2 from h2)
      cases h2
      exact ⟨hi.1, dim_keep h3 hi.2⟩
    cases h1
    by_cases hc : len ≠ 0 ∧ (bv = 21 ∨ bv = 30 ∨ bv = 40) ∧ o2.book.fmt.xfList ≠ [] ∧ o2.book.xfDone = false
    · rw [if_pos hc]; exact ⟨epilogue_old hi2.1, hi2.2⟩
    · rw [if_neg hc]; exact hi2
  rw [if_neg c5] at h
  by_cases c6 : bv ≤ 45 ∧ rc ∈ oldBookCodes
  · rw [if_pos c6] at h
    obtain ⟨o1, h1, h⟩ := bind_ok h
    cases h
    obtain ⟨b, h2, rfl⟩ := onBook_ok h1
    exact ⟨oldBook_old hi.1 h2, hi.2⟩
  rw [if_neg c6] at h
  by_cases c7 : bv ≤ 45 ∧ rc ∈ oldSheetCodes
  · rw [if_pos c7] at h
    obtain ⟨o1, h1, h⟩ := bind_ok h
    cases h
    exact oldSheet_kinds hi h1
  rw [if_neg c7] at h
  obtain ⟨o1, h1, h⟩ := bind_ok h
  obtain ⟨o2, h2, h⟩ := bind_ok h
  cases h
  have hi1 := (withEncoding_step h1).kinds hi
  obtain ⟨s, h3, h2⟩ := bind_ok (show o1.onSheet _ = .ok _ from h2)
  cases h2
  exact ⟨hi1.1, plain_keep (OldKinds.numbers hi1.1) h3 hi1.2⟩

theorem oldLoop_kinds {env : OpenEnv} {bv : Nat} {mem : Bytes} : ∀ (fuel : Nat) {o o' : OldSt} {pos : Int}, OldKinds o → oldLoop env bv mem fuel o pos = .ok o' → OldKinds o'
  | 0, _, _, _, _, h => by cases h
  | fuel + 1, o, o', pos, hi, h => by
    rw [oldLoop] at h
    obtain ⟨⟨⟨rc, len, d⟩, p1⟩, _, h⟩ := bind_ok h
    simp only at h
    by_cases hE : rc = XL_EOF
    · rw [if_pos hE] at h; cases h; exact hi
    · rw [if_neg hE] at h
      obtain ⟨⟨o1, p2⟩, h1, h⟩ := bind_ok h
      exact oldLoop_kinds fuel (oldRecord_kinds hi h1) h

theorem oldRead_kinds {env : OpenEnv} {bv : Nat} {mem : Bytes} {b : Book} {o : OldSt} {pos : Int} (hb : OldTypes b.fmt) (h : oldRead env bv mem b pos = .ok o) :
    CellsAre OldCellOk o.sheet.store := by
  unfold oldRead at h
  obtain ⟨o1, h1, h⟩ := bind_ok h
  have hi : OldKinds o1 := oldLoop_kinds _ (o := { bv := bv, book := b }) ⟨hb, [], rfl, rfl, by intro row hr; cases hr⟩ h1
  obtain ⟨s, h2, h⟩ := bind_ok (show o1.onSheet _ = .ok o from h)
  cases h
  obtain ⟨st, h3, h2⟩ := bind_ok h2
  cases h2
  show CellsAre _ (updateCooked _).store
  rw [updateCooked_store]
  exact kinds_ok (tidy_kinds hi.2 h3)

theorem OldTypes.init {f : FmtSt} (h : f.typeMap = fun k => if k = 0 then some XL_CELL_NUMBER else none) : OldTypes f := by
  intro k t e
  rw [h] at e
  simp only at e
  split at e
  · cases e; exact .inr (.inl rfl)
  · cases e

/-! ## Calls on a book without its file -/

/-- The book does not read any more, and its sheets have the property `Q`. -/
def Released (Q : LSheet → Prop) (l : Lib) : Prop := l.released = true ∧ ∀ sh, some sh ∈ l.sheetList → Q sh

theorem released_index {Q : LSheet → Prop} {env : OpenEnv} {l : Lib} (h : Released Q l) (n : Int) :
    (sheetByIndex env l n).2 = l ∧ ∀ sh, (sheetByIndex env l n).1 = .ok sh → Q sh := by
  unfold sheetByIndex
  cases hi : idx l.sheetList n with
  | error e => exact ⟨rfl, fun sh e => by cases e⟩
  | ok x =>
    cases x with
    | some sh => exact ⟨rfl, fun sh' e => by cases e; exact h.2 sh (idx_mem hi)⟩
    | none =>
      have : getSheet env l n = .error .xlrd := by unfold getSheet; rw [if_pos h.1]
      simp only [this, h.1, if_true]
      exact ⟨trivial, fun sh e => by cases e⟩

theorem released_all {Q : LSheet → Prop} {env : OpenEnv} : ∀ (k n : Nat) {l : Lib}, Released Q l → (loadAll env k n l).2 = l
  | 0, _, _, _ => rfl
  | k + 1, n, l, h => by
    have h1 := (released_index (env := env) h (n : Int)).1
    rw [loadAll]
    rcases hs : sheetByIndex env l (n : Int) with ⟨r, l'⟩
    rw [hs] at h1
    cases h1
    cases r with
    | error e => rfl
    | ok sh => exact released_all k (n + 1) h

theorem released_call {Q : LSheet → Prop} {env : OpenEnv} {l : Lib} (h : Released Q l) (c : Call) : Released Q (libCall env l c).2 := by
  have byName : ∀ s, (sheetByName env l s).2 = l := by
    intro s
    unfold sheetByName
    cases nameIndex s l.book.sheetNames with
    | none => rfl
    | some n => exact (released_index h _).1
  cases c with
  | byIndex n => show Released Q (sheetByIndex env l n).2; rw [(released_index h n).1]; exact h
  | byName s => show Released Q (sheetByName env l s).2; rw [byName]; exact h
  | item k =>
    cases k with
    | index n => show Released Q (sheetByIndex env l n).2; rw [(released_index h n).1]; exact h
    | name s => show Released Q (sheetByName env l s).2; rw [byName]; exact h
  | loaded k => exact h
  | unload k =>
    show Released Q (unloadSheet l k).2
    unfold unloadSheet
    cases keyIndex l k with
    | error e => exact h
    | ok n =>
      cases hs : setIdx l.sheetList n none with
      | error e => simp only [hs]; exact h
      | ok sl =>
        simp only [hs]
        refine ⟨h.1, fun sh hm => h.2 sh ?_⟩
        unfold setIdx at hs
        simp only at hs
        generalize (if n < 0 then n + (l.sheetList.length : Int) else n) = k at hs
        by_cases h0 : k < 0
        · rw [if_pos h0] at hs; cases hs
        rw [if_neg h0] at hs
        by_cases h1 : k.toNat < l.sheetList.length
        · rw [if_pos h1] at hs
          cases hs
          rcases List.mem_or_eq_of_mem_set hm with hm | hm
          · exact hm
          · cases hm
        · rw [if_neg h1] at hs; cases hs
  | release => exact ⟨rfl, h.2⟩
  | sheets =>
    show Released Q (bookSheets env l).2
    unfold bookSheets
    have := released_all (env := env) l.sheetList.length 0 h
    rcases hs : loadAll env l.sheetList.length 0 l with ⟨r, l'⟩
    rw [hs] at this
    cases this
    cases r <;> exact h
  | names => exact h

theorem released_calls {Q : LSheet → Prop} {env : OpenEnv} : ∀ (cs : List Call) {l : Lib}, Released Q l → Released Q (libCalls env l cs).2
  | [], _, h => h
  | c :: cs, _, h => released_calls cs (released_call h c)

theorem opened_old {env : OpenEnv} {mem : Bytes} {base : Int} {v : Nat} {p : Int} {l : Lib} (hv : firstBof mem base = .ok (v, p)) (h45 : v ≤ 45)
    (h : openStream env mem base = .ok l) : Released (fun sh => CellsAre OldCellOk sh.st.store) l := by
  unfold openStream at h
  rw [hv] at h
  have hm : v ≤ 40 ∨ v = 45 := by
    obtain ⟨⟨w, q⟩, _, hv⟩ := bind_ok hv
    simp only at hv
    by_cases h0 : w = 0
    · rw [if_pos h0] at hv; cases hv
    rw [if_neg h0] at hv
    by_cases h1 : w ∉ [80, 70, 50, 45, 40, 30, 21, 20]
    · rw [if_pos h1] at hv; cases hv
    rw [if_neg h1] at hv
    cases hv
    simp only [List.mem_cons, List.not_mem_nil, or_false, not_not] at h1
    omega
  have h : (if v ≤ 40 then openSingle env v mem
    else do
      let (b, _) ← parseGlobals (env.bookEnv v base) mem newBook p
      if v = 45 then pure ⟨v, b, mem, b.embedded.map some, true⟩
      else openSheets env ⟨v, b, mem, List.replicate b.sheetNames.length none, false⟩ : R Lib) = .ok l := h
  by_cases h40 : v ≤ 40
  · rw [if_pos h40] at h
    obtain ⟨f, h1, h⟩ := bind_ok h
    obtain ⟨⟨_, pos⟩, _, h⟩ := bind_ok h
    obtain ⟨o, h2, h⟩ := bind_ok h
    cases h
    refine ⟨rfl, fun sh hs => ?_⟩
    simp only [List.mem_singleton, Option.some.injEq] at hs
    subst hs
    obtain ⟨m, rfl⟩ := colour_map_fields (env := env.recEnv v) h1
    exact oldRead_kinds (OldTypes.init rfl) h2
  · rw [if_neg h40] at h
    obtain ⟨⟨b, q⟩, hg, h⟩ := bind_ok h
    have h5 : v = 45 := by omega
    simp only [if_pos h5] at h
    cases h
    obtain ⟨f, b1, h1, h2, h3⟩ := parseGlobals_sound _ mem _ _ _ _ hg
    have key : ∀ sh ∈ b1.embedded, CellsAre OldCellOk sh.st.store := by
      refine h2.inv (fun b => ∀ sh ∈ b.embedded, CellsAre OldCellOk sh.st.store) (fun b it b' hb ha => by rw [item_embedded ha]; exact hb) ?_ (by intro sh hs; cases hs)
      intro b d p b' p' hb ha
      have ha : handleSheethdr env v mem b d p = .ok (b', p') := ha
      unfold handleSheethdr at ha
      obtain ⟨b1, g1, ha⟩ := bind_ok ha
      obtain ⟨len, _, ha⟩ := bind_ok ha
      obtain ⟨name, _, ha⟩ := bind_ok ha
      obtain ⟨shown, _, ha⟩ := bind_ok ha
      obtain ⟨_, _, ha⟩ := bind_ok ha
      obtain ⟨⟨_, p1⟩, _, ha⟩ := bind_ok ha
      obtain ⟨vis, _, ha⟩ := bind_ok ha
      obtain ⟨o, g2, ha⟩ := bind_ok ha
      cases ha
      intro sh hs
      have e1 : o.book.embedded = b.embedded := (oldRead_same g2).1.2.trans (derive_rest g1).2.1
      have hs : sh ∈ o.book.embedded ++ [_] := hs
      rw [e1] at hs
      rcases List.mem_append.mp hs with hs | hs
      · exact hb sh hs
      · rw [List.mem_singleton.mp hs]
        exact oldRead_kinds (OldTypes.init rfl) g2
    obtain ⟨os, _, _, _, _, _, rfl⟩ := eof_frame h3
    refine ⟨rfl, fun sh hs => ?_⟩
    obtain ⟨x, hx, e⟩ := List.mem_map.mp hs
    cases e
    exact key _ hx

/-- **C92** (before BIFF5).  The same holds for every file of BIFF2 to BIFF4 but for one thing: a number may have the type of text. -/
theorem C92_old_cells_partial (env : OpenEnv) (mem : Bytes) (base : Int) (v : Nat) (p : Int) (l : Lib) (hv : firstBof mem base = .ok (v, p)) (h45 : v ≤ 45)
    (h : openStream env mem base = .ok l) (cs : List Call) (i : Int) (sh : LSheet) (hr : (sheetByIndex env (libCalls env l cs).2 i).1 = .ok sh) :
    CellsAre OldCellOk sh.st.store :=
  (released_index (released_calls cs (opened_old hv h45 h)) i).2 sh hr

end Xlrd
