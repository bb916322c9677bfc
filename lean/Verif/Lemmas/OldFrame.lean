import Verif.Model.OldSheet
import Verif.Lemmas.GlobalsEnc

/-!
# What reading a sheet changes in the book
-/
set_option linter.unusedSimpArgs false
namespace Xlrd
open Spec

/-- A book without the parts that reading a sheet may change. -/
def Book.rest (b : Book) : Book :=
  { b with fmt := {}, encoding := none, codepage := none, userName := [], rawUser := none, countries := (0, 0), datemode := 0,
           xfDone := false, embedded := [] }

theorem derive_rest {env : BookEnv} {b b' : Book} (h : deriveEncoding env b = .ok b') :
    b'.rest = b.rest ∧ b'.embedded = b.embedded ∧ b'.fmt = b.fmt := by
  obtain ⟨e, c, u, r, rfl⟩ := derive_frame h
  exact ⟨rfl, rfl, rfl⟩

theorem ensure_rest {env : BookEnv} {b b' : Book} (h : ensureEncoding env b = .ok b') :
    b'.rest = b.rest ∧ b'.embedded = b.embedded ∧ b'.fmt = b.fmt := by
  obtain ⟨e, c, u, r, rfl⟩ := ensure_frame h
  exact ⟨rfl, rfl, rfl⟩

/-- The parts of the book that a handler of an old sheet leaves alone. -/
def Same (b b' : Book) : Prop := b'.rest = b.rest ∧ b'.embedded = b.embedded

theorem Same.refl (b : Book) : Same b b := ⟨rfl, rfl⟩

theorem Same.trans {a b c : Book} (h : Same a b) (h' : Same b c) : Same a c := ⟨h'.1.trans h.1, h'.2.trans h.2⟩

theorem Same.fmt (b : Book) (f : FmtSt) : Same b { b with fmt := f } := ⟨rfl, rfl⟩

theorem country_same {b b' : Book} {d : Bytes} (h : handleCountry b d = .ok b') : Same b b' ∧ b'.fmt = b.fmt := by
  unfold handleCountry at h
  obtain ⟨_, _, h⟩ := bind_ok h
  obtain ⟨_, _, h⟩ := bind_ok h
  cases h
  exact ⟨⟨rfl, rfl⟩, rfl⟩

theorem oldFormat_same {env : OpenEnv} {o : OldSt} {d : Bytes} {f2 : Bool} {b' : Book} (h : oldFormat env o d f2 = .ok b') : Same o.book b' := by
  unfold oldFormat at h
  obtain ⟨b1, h1, h⟩ := bind_ok h
  obtain ⟨f, _, h⟩ := bind_ok h
  cases h
  have := ensure_rest h1
  exact Same.trans ⟨this.1, this.2.1⟩ (Same.fmt _ _)

theorem bookFont_same {env : BookEnv} {b b' : Book} {d : Bytes} (h : bookFont env b d = .ok b') : Same b b' := by
  unfold bookFont at h
  cases hf : env.fi with
  | false => simp only [hf, Bool.not_false, if_true] at h; cases h; exact Same.refl _
  | true =>
    simp only [hf, Bool.not_true, Bool.false_eq_true, if_false] at h
    obtain ⟨b1, h1, h⟩ := bind_ok h
    obtain ⟨f, _, h⟩ := bind_ok h
    cases h
    have := ensure_rest h1
    exact Same.trans ⟨this.1, this.2.1⟩ (Same.fmt _ _)

theorem oldBookRecord_same {env : OpenEnv} {o : OldSt} {rc : Nat} {d : Bytes} {b' : Book} (h : oldBookRecord env o rc d = .ok b') :
    Same o.book b' := by
  unfold oldBookRecord at h
  by_cases c1 : rc = XL_FORMAT
  · rw [if_pos c1] at h; exact oldFormat_same h
  rw [if_neg c1] at h
  by_cases c2 : rc = XL_FORMAT2
  · rw [if_pos c2] at h; exact oldFormat_same h
  rw [if_neg c2] at h
  by_cases c3 : rc = XL_FONT ∨ rc = XL_FONT_B3B4
  · rw [if_pos c3] at h; exact bookFont_same h
  rw [if_neg c3] at h
  by_cases c4 : rc = XL_STYLE
  · rw [if_pos c4] at h
    unfold oldStyle bookStyle at h
    obtain ⟨f, _, h⟩ := bind_ok h
    cases h
    split <;> exact ⟨rfl, rfl⟩
  rw [if_neg c4] at h
  by_cases c5 : rc = XL_PALETTE
  · rw [if_pos c5] at h
    unfold bookPalette at h
    obtain ⟨f, _, h⟩ := bind_ok h
    cases h
    exact Same.fmt _ _
  rw [if_neg c5] at h
  by_cases c6 : rc = XL_BUILTINFMTCOUNT
  · rw [if_pos c6] at h
    unfold handleBuiltinfmtcount at h
    obtain ⟨f, _, h⟩ := bind_ok h
    cases h
    exact Same.refl _
  rw [if_neg c6] at h
  by_cases c7 : rc = XL_XF4 ∨ rc = XL_XF3 ∨ rc = XL_XF2
  · rw [if_pos c7] at h
    unfold bookXf at h
    obtain ⟨f, _, h⟩ := bind_ok h
    cases h
    exact Same.fmt _ _
  rw [if_neg c7] at h
  by_cases c8 : rc = XL_DATEMODE
  · rw [if_pos c8] at h
    unfold handleDatemode at h
    obtain ⟨m, _, h⟩ := bind_ok h
    obtain ⟨_, _, h⟩ := bind_ok h
    cases h
    exact ⟨rfl, rfl⟩
  rw [if_neg c8] at h
  by_cases c9 : rc = XL_CODEPAGE
  · rw [if_pos c9] at h
    unfold handleCodepage at h
    obtain ⟨m, _, h⟩ := bind_ok h
    have := derive_rest h
    exact ⟨this.1, this.2.1⟩
  rw [if_neg c9] at h
  by_cases c10 : rc = XL_FILEPASS
  · rw [if_pos c10] at h; cases h
  rw [if_neg c10] at h
  by_cases c11 : rc = XL_WRITEACCESS
  · rw [if_pos c11] at h
    unfold handleWriteaccess at h
    by_cases h8 : (env.recEnv o.bv).bv < 80
    · rw [if_pos h8] at h
      cases he : o.book.encoding with
      | none => rw [he] at h; cases h; exact ⟨rfl, rfl⟩
      | some e =>
        rw [he] at h
        obtain ⟨_, _, h⟩ := bind_ok h
        cases h
        exact ⟨rfl, rfl⟩
    · rw [if_neg h8] at h
      obtain ⟨_, _, h⟩ := bind_ok h
      cases h
      exact ⟨rfl, rfl⟩
  rw [if_neg c11] at h
  obtain ⟨f, _, h⟩ := bind_ok h
  cases h
  exact Same.fmt _ _

theorem insertXf_same {o o' : OldSt} {attr : Bytes} {s : Bool} {k : Nat} (h : insertXf o attr s = .ok (k, o')) : Same o.book o'.book := by
  unfold insertXf at h
  obtain ⟨x, _, h⟩ := bind_ok h
  cases h
  exact Same.fmt _ _

theorem insertStyles_same : ∀ (n i : Nat) {o o' : OldSt}, insertStyles n i o = .ok o' → Same o.book o'.book
  | 0, _, _, _, h => by cases h; exact Same.refl _
  | n + 1, i, o, o', h => by
    rw [insertStyles] at h
    obtain ⟨⟨k, o1⟩, h1, h⟩ := bind_ok h
    exact (insertXf_same h1).trans (insertStyles_same n (i + 1) h)

theorem attrIndex_same {o o' : OldSt} {attr : Bytes} {k : Nat} (h : attrIndex o attr = .ok (k, o')) : Same o.book o'.book := by
  unfold attrIndex at h
  obtain ⟨s, _, h⟩ := bind_ok h
  obtain ⟨_, _, h⟩ := bind_ok h
  cases ha : o.attrXf attr with
  | some x => simp only [ha] at h; cases h; exact Same.refl _
  | none =>
    simp only [ha] at h
    obtain ⟨o1, h1, h⟩ := bind_ok h
    refine Same.trans ?_ (insertXf_same h)
    unfold withStyles at h1
    by_cases hx : o.book.fmt.xfList = []
    · rw [if_pos hx] at h1; exact insertStyles_same _ _ h1
    · rw [if_neg hx] at h1; cases h1; exact Same.refl _

theorem fixXf_same {o o' : OldSt} {attr : Option Bytes} {t : Option Nat} {k : Nat} (h : fixXf o attr t = .ok (k, o')) :
    Same o.book o'.book := by
  unfold fixXf at h
  by_cases hb : o.bv = 21 ∧ o.book.fmt.xfList ≠ []
  · rw [if_pos hb] at h
    obtain ⟨x, _, h⟩ := bind_ok h
    by_cases hx : x = 0x3F
    · rw [if_pos hx] at h
      cases hi : o.ixfe with
      | none => rw [hi] at h; cases h
      | some i => rw [hi] at h; cases h; exact Same.refl _
    · rw [if_neg hx] at h; cases h; exact Same.refl _
  · rw [if_neg hb] at h
    cases attr with
    | none => cases h
    | some a =>
      simp only at h
      have := attrIndex_same h
      by_cases h21 : o.bv = 21
      · rw [if_pos h21] at this; exact this
      · rw [if_neg h21] at this; exact this

theorem onSheet_book {o o' : OldSt} {r : R SheetSt} (h : o.onSheet r = .ok o') : o'.book = o.book := by
  unfold OldSt.onSheet at h
  obtain ⟨s, _, h⟩ := bind_ok h
  cases h
  rfl

theorem onBook_ok {o o' : OldSt} {r : R Book} (h : o.onBook r = .ok o') : ∃ b, r = .ok b ∧ o' = { o with book := b } := by
  unfold OldSt.onBook at h
  obtain ⟨s, h1, h⟩ := bind_ok h
  cases h
  exact ⟨s, h1, rfl⟩

theorem withEncoding_same {env : OpenEnv} {o o' : OldSt} {n : Bool} (h : o.withEncoding env n = .ok o') :
    Same o.book o'.book ∧ o'.book.fmt = o.book.fmt := by
  unfold OldSt.withEncoding at h
  cases n with
  | false => cases h; exact ⟨Same.refl _, rfl⟩
  | true =>
    rw [if_pos rfl] at h
    obtain ⟨b, h1, rfl⟩ := onBook_ok h
    have := ensure_rest h1
    exact ⟨⟨this.1, this.2.1⟩, this.2.2⟩

theorem put_book {env : OpenEnv} {o o' : OldSt} {r c : Nat} {ct : Option Nat} {v : Val} {xf : Nat} (h : o.put env r c ct v xf = .ok o') :
    o'.book = o.book := onSheet_book h

theorem columnDefaults_same (data : Bytes) : ∀ (n c off : Nat) {o o' : OldSt}, columnDefaults data n c off o = .ok o' → Same o.book o'.book
  | 0, _, _, _, _, h => by cases h; exact Same.refl _
  | n + 1, c, off, o, o', h => by
    rw [columnDefaults] at h
    obtain ⟨⟨k, o1⟩, h1, h⟩ := bind_ok h
    refine (fixXf_same h1).trans ?_
    simp only at h
    have := columnDefaults_same data n _ _ h
    exact this

/-- A cell of BIFF2. -/
theorem fixPut_same {env : OpenEnv} {o o' : OldSt} {attr : Option Bytes} {t : Option Nat} {r c : Nat} {ct : Option Nat} {v : Val}
    (h : (do let (x, o) ← fixXf o attr t; o.put env r c ct v x) = .ok o') : Same o.book o'.book := by
  obtain ⟨⟨x, o1⟩, h1, h⟩ := bind_ok h
  have := put_book h
  exact (fixXf_same h1).trans (by rw [this]; exact Same.refl _)

theorem oldSheetRecord_same {env : OpenEnv} {o o' : OldSt} {rc len : Nat} {d : Bytes} (h : oldSheetRecord env o rc len d = .ok o') :
    Same o.book o'.book := by
  unfold oldSheetRecord at h
  by_cases c1 : rc = XL_IXFE
  · rw [if_pos c1] at h
    obtain ⟨x, _, h⟩ := bind_ok h
    cases h
    exact Same.refl _
  rw [if_neg c1] at h
  by_cases c2 : rc = XL_NUMBER_B2
  · rw [if_pos c2] at h
    obtain ⟨b, _, h⟩ := bind_ok h
    exact fixPut_same h
  rw [if_neg c2] at h
  by_cases c3 : rc = XL_INTEGER
  · rw [if_pos c3] at h
    obtain ⟨b, _, h⟩ := bind_ok h
    exact fixPut_same h
  rw [if_neg c3] at h
  by_cases c4 : rc = XL_LABEL_B2
  · rw [if_pos c4] at h
    obtain ⟨b, _, h⟩ := bind_ok h
    obtain ⟨o1, h1, h⟩ := bind_ok h
    obtain ⟨t, _, h⟩ := bind_ok h
    exact (withEncoding_same h1).1.trans (fixPut_same h)
  rw [if_neg c4] at h
  by_cases c5 : rc = XL_BOOLERR_B2
  · rw [if_pos c5] at h
    obtain ⟨b, _, h⟩ := bind_ok h
    obtain ⟨t, _, h⟩ := bind_ok h
    exact fixPut_same h
  rw [if_neg c5] at h
  by_cases c6 : rc = XL_BLANK_B2
  · rw [if_pos c6] at h
    unfold recBlankB2 at h
    cases hf : env.fi with
    | false => simp only [hf, Bool.false_eq_true, if_false] at h; cases h; exact Same.refl _
    | true =>
      simp only [hf, if_true] at h
      obtain ⟨b, _, h⟩ := bind_ok h
      exact fixPut_same h
  rw [if_neg c6] at h
  by_cases c7 : rc = XL_ROW_B2
  · rw [if_pos c7] at h
    unfold recRowB2 at h
    cases hf : env.fi with
    | false => simp only [hf, Bool.false_eq_true, if_false] at h; cases h; exact Same.refl _
    | true =>
      simp only [hf, if_true] at h
      obtain ⟨b, _, h⟩ := bind_ok h
      by_cases hr : fld b 0 2 < (o.env env).cfg.maxRows
      · rw [if_pos hr] at h
        obtain ⟨⟨x, o1⟩, h1, h⟩ := bind_ok h
        cases h
        unfold rowXfB2 at h1
        by_cases hb : fld b 10 1 &&& 1 = 0
        · rw [if_pos hb] at h1; cases h1; exact Same.refl _
        rw [if_neg hb] at h1
        by_cases hl : len = 18
        · rw [if_pos hl] at h1
          obtain ⟨y, _, h1⟩ := bind_ok h1
          obtain ⟨⟨z, o2⟩, h2, h1⟩ := bind_ok h1
          cases h1
          exact (fixXf_same h2 :)
        · rw [if_neg hl] at h1
          obtain ⟨⟨z, o2⟩, h2, h1⟩ := bind_ok h1
          cases h1
          exact (fixXf_same h2 :)
      · rw [if_neg hr] at h; cases h; exact Same.refl _
  rw [if_neg c7] at h
  by_cases c8 : rc = XL_COLWIDTH
  · rw [if_pos c8] at h
    unfold recColWidth at h
    cases hf : env.fi with
    | false => simp only [hf, Bool.false_eq_true, if_false] at h; cases h; exact Same.refl _
    | true =>
      simp only [hf, if_true] at h
      obtain ⟨b, _, h⟩ := bind_ok h
      by_cases hr : fld b 0 1 ≤ fld b 1 1
      · rw [if_pos hr] at h; cases h; exact Same.refl _
      · rw [if_neg hr] at h; cases h; exact Same.refl _
  rw [if_neg c8] at h
  by_cases c9 : rc = XL_COLUMNDEFAULT
  · rw [if_pos c9] at h
    unfold recColumnDefault at h
    cases hf : env.fi with
    | false => simp only [hf, Bool.false_eq_true, if_false] at h; cases h; exact Same.refl _
    | true =>
      simp only [hf, if_true] at h
      obtain ⟨b, _, h⟩ := bind_ok h
      exact columnDefaults_same _ _ _ _ h
  rw [if_neg c9] at h
  unfold recWindow2B2 at h
  obtain ⟨b, _, h⟩ := bind_ok h
  obtain ⟨c, _, h⟩ := bind_ok h
  obtain ⟨k, _, h⟩ := bind_ok h
  cases h
  exact Same.refl _

theorem oldFormula_same {env : OpenEnv} {bv : Nat} {mem : Bytes} {o o' : OldSt} {pos p' : Int} {d : Bytes}
    (h : oldFormula env bv mem o pos d = .ok (o', p')) : Same o.book o'.book ∧ (30 ≤ bv → o'.book.fmt = o.book.fmt) := by
  unfold oldFormula at h
  by_cases hb : bv ≥ 30
  · rw [if_pos hb] at h
    obtain ⟨o1, h1, h⟩ := bind_ok h
    obtain ⟨⟨s, p⟩, _, h⟩ := bind_ok h
    cases h
    have := withEncoding_same h1
    exact ⟨this.1, fun _ => this.2⟩
  · rw [if_neg hb] at h
    refine ⟨?_, fun h' => absurd h' hb⟩
    unfold recFormulaB2 at h
    obtain ⟨b, _, h⟩ := bind_ok h
    obtain ⟨⟨x, o1⟩, h1, h⟩ := bind_ok h
    obtain ⟨o2, h2, h⟩ := bind_ok h
    obtain ⟨⟨ty, v, p⟩, _, h⟩ := bind_ok h
    obtain ⟨o3, h3, h⟩ := bind_ok h
    cases h
    have h4 := put_book h3
    exact (fixXf_same h1).trans ((withEncoding_same h2).1.trans (by rw [h4]; exact Same.refl _))

/-- One record of an old sheet. -/
theorem oldRecord_same {env : OpenEnv} {bv : Nat} {mem : Bytes} {o o' : OldSt} {pos p' : Int} {rc len : Nat} {d : Bytes}
    (h : oldRecord env bv mem o pos rc len d = .ok (o', p')) : Same o.book o'.book ∧ (50 ≤ bv → o'.book.fmt = o.book.fmt) := by
  unfold oldRecord at h
  by_cases c1 : rc ∈ XL_FORMULA_OPCODES
  · rw [if_pos c1] at h
    exact ⟨(oldFormula_same h).1, fun hv => (oldFormula_same h).2 (by omega)⟩
  rw [if_neg c1] at h
  by_cases c2 : rc ∈ bofcodes
  · rw [if_pos c2] at h
    obtain ⟨p, _, h⟩ := bind_ok h
    cases h
    exact ⟨Same.refl _, fun _ => rfl⟩
  rw [if_neg c2] at h
  by_cases c3 : rc = XL_COUNTRY
  · rw [if_pos c3] at h
    obtain ⟨o1, h1, h⟩ := bind_ok h
    cases h
    obtain ⟨b, h2, rfl⟩ := onBook_ok h1
    have := country_same h2
    exact ⟨this.1, fun _ => this.2⟩
  rw [if_neg c3] at h
  by_cases c4 : rc ∈ otherCodes
  · rw [if_pos c4] at h
    obtain ⟨o1, h1, h⟩ := bind_ok h
    obtain ⟨⟨e, p⟩, _, h⟩ := bind_ok h
    cases h
    have := withEncoding_same h1
    exact ⟨this.1, fun _ => this.2⟩
  rw [if_neg c4] at h
  by_cases c5 : rc = XL_DIMENSION ∨ rc = XL_DIMENSION2
  · rw [if_pos c5] at h
    obtain ⟨o1, h1, h⟩ := bind_ok h
    cases h
    unfold oldDimension at h1
    obtain ⟨o2, h2, h1⟩ := bind_ok h1
    have hb := onSheet_book h2
    cases h1
    by_cases hc : len ≠ 0 ∧ (bv = 21 ∨ bv = 30 ∨ bv = 40) ∧ o2.book.fmt.xfList ≠ [] ∧ o2.book.xfDone = false
    · rw [if_pos hc, ← hb]
      exact ⟨⟨rfl, rfl⟩, fun hv => by omega⟩
    · rw [if_neg hc, ← hb]
      exact ⟨Same.refl _, fun _ => rfl⟩
  rw [if_neg c5] at h
  by_cases c6 : bv ≤ 45 ∧ rc ∈ oldBookCodes
  · rw [if_pos c6] at h
    obtain ⟨o1, h1, h⟩ := bind_ok h
    cases h
    obtain ⟨b, h2, rfl⟩ := onBook_ok h1
    exact ⟨oldBookRecord_same h2, fun hv => by omega⟩
  rw [if_neg c6] at h
  by_cases c7 : bv ≤ 45 ∧ rc ∈ oldSheetCodes
  · rw [if_pos c7] at h
    obtain ⟨o1, h1, h⟩ := bind_ok h
    cases h
    exact ⟨oldSheetRecord_same h1, fun hv => by omega⟩
  rw [if_neg c7] at h
  obtain ⟨o1, h1, h⟩ := bind_ok h
  obtain ⟨o2, h2, h⟩ := bind_ok h
  cases h
  have hb := onSheet_book h2
  have := withEncoding_same h1
  rw [hb]
  exact ⟨this.1, fun _ => this.2⟩

theorem oldLoop_same {env : OpenEnv} {bv : Nat} {mem : Bytes} : ∀ (fuel : Nat) {o o' : OldSt} {pos : Int},
    oldLoop env bv mem fuel o pos = .ok o' → Same o.book o'.book ∧ (50 ≤ bv → o'.book.fmt = o.book.fmt)
  | 0, _, _, _, h => by cases h
  | fuel + 1, o, o', pos, h => by
    rw [oldLoop] at h
    obtain ⟨⟨⟨rc, len, d⟩, p1⟩, _, h⟩ := bind_ok h
    simp only at h
    by_cases hE : rc = XL_EOF
    · rw [if_pos hE] at h; cases h; exact ⟨Same.refl _, fun _ => rfl⟩
    · rw [if_neg hE] at h
      obtain ⟨⟨o1, p2⟩, h1, h⟩ := bind_ok h
      have a := oldRecord_same h1
      have b := oldLoop_same fuel h
      exact ⟨a.1.trans b.1, fun hv => (b.2 hv).trans (a.2 hv)⟩

theorem oldRead_same {env : OpenEnv} {bv : Nat} {mem : Bytes} {b : Book} {o : OldSt} {pos : Int} (h : oldRead env bv mem b pos = .ok o) :
    Same b o.book ∧ (50 ≤ bv → o.book.fmt = b.fmt) := by
  unfold oldRead at h
  obtain ⟨o1, h1, h⟩ := bind_ok h
  have := oldLoop_same _ h1
  rw [onSheet_book h]
  exact this

/-- A SHEETHDR record: one more sheet, and nothing changes about the list of sheets, the names and the references. -/
theorem sheethdr_same {env : OpenEnv} {bv : Nat} {mem : Bytes} {b b' : Book} {d : Bytes} {pos p' : Int}
    (h : handleSheethdr env bv mem b d pos = .ok (b', p')) :
    b'.rest = b.rest ∧ (∃ sh, b'.embedded = b.embedded ++ [sh]) ∧ (50 ≤ bv → b'.fmt = (initialiseFormatInfo b).fmt) := by
  unfold handleSheethdr at h
  obtain ⟨b1, h1, h⟩ := bind_ok h
  obtain ⟨len, _, h⟩ := bind_ok h
  obtain ⟨name, _, h⟩ := bind_ok h
  obtain ⟨shown, _, h⟩ := bind_ok h
  obtain ⟨_, _, h⟩ := bind_ok h
  obtain ⟨⟨v, p1⟩, _, h⟩ := bind_ok h
  obtain ⟨vis, _, h⟩ := bind_ok h
  obtain ⟨o, h2, h⟩ := bind_ok h
  cases h
  have hd := derive_rest h1
  have ho := oldRead_same h2
  refine ⟨?_, ⟨⟨shown, b1.embedded.length, vis, o.sheet⟩, ?_⟩, ?_⟩
  · have : o.book.rest = (initialiseFormatInfo b1).rest := ho.1.1
    exact this.trans hd.1
  · have : o.book.embedded = b1.embedded := ho.1.2
    simp only [this, hd.2.1]
  · intro hv
    have := ho.2 hv
    simp only [this, initialiseFormatInfo, hd.2.2]

/-! ## Reading the globals does not depend on `on_demand` -/

theorem oldRecord_onDemand (env : OpenEnv) (d : Bool) (bv : Nat) (mem : Bytes) (o : OldSt) (pos : Int) (rc len : Nat) (data : Bytes) :
    oldRecord { env with onDemand := d } bv mem o pos rc len data = oldRecord env bv mem o pos rc len data := rfl

theorem oldRead_onDemand (env : OpenEnv) (d : Bool) (bv : Nat) (mem : Bytes) (b : Book) (pos : Int) :
    oldRead { env with onDemand := d } bv mem b pos = oldRead env bv mem b pos := by
  have loop : ∀ (fuel : Nat) (o : OldSt) (pos : Int),
      oldLoop { env with onDemand := d } bv mem fuel o pos = oldLoop env bv mem fuel o pos := by
    intro fuel
    induction fuel with
    | zero => intro o pos; rfl
    | succ fuel ih =>
      intro o pos
      simp only [oldLoop, oldRecord_onDemand, ih]
  unfold oldRead
  rw [loop]
  rfl

theorem bookEnv_onDemand (env : OpenEnv) (d : Bool) (v : Nat) (base : Int) :
    OpenEnv.bookEnv { env with onDemand := d } v base = env.bookEnv v base := by
  have : handleSheethdr { env with onDemand := d } v = handleSheethdr env v := by
    funext mem b data pos
    unfold handleSheethdr
    simp only [oldRead_onDemand]
    rfl
  unfold OpenEnv.bookEnv
  rw [this]
  rfl

end Xlrd
