import Verif.Lemmas.OldLoop
import Verif.Spec.OldFile

/-!
# The records before the DIMENSION record of an old file
-/
set_option linter.unusedSimpArgs false
namespace Xlrd
open Spec

/-- The record of the globals of later versions that means the same. -/
def newCode (c : Nat) : Nat := if c = 0x43 ∨ c = 0x243 ∨ c = 0x443 then 0xe0 else if c = 0x1e then 0x41e else c

def newItem : GItem → GItem
  | .one c d => .one (newCode c) d
  | it => it

/-- Records about the whole file after which the epilogue may have been run. -/
theorem choose_fmt (env : BookEnv) (b : Book) (f : FmtSt) (d : Bool) :
    chooseEncoding env { b with fmt := f, xfDone := d } = { chooseEncoding env b with fmt := f, xfDone := d } := by
  unfold chooseEncoding
  by_cases h : env.override ≠ []
  · rw [if_pos h, if_pos h]
  · rw [if_neg h, if_neg h]
    cases hc : b.codepage with
    | none =>
      simp only [hc]
      by_cases h8 : env.bv < 80
      · rw [if_pos h8, if_pos h8]
      · rw [if_neg h8, if_neg h8]
    | some cp => simp only [hc]

theorem derive_fmt (env : BookEnv) (b : Book) (f : FmtSt) (d : Bool) :
    deriveEncoding env { b with fmt := f, xfDone := d } = (deriveEncoding env b).map fun b => { b with fmt := f, xfDone := d } := by
  unfold deriveEncoding
  simp only [choose_fmt]
  generalize chooseEncoding env b = b1
  have e1 : trialDecode env { b1 with fmt := f, xfDone := d } = trialDecode env b1 := rfl
  rw [e1]
  cases trialDecode env b1 with
  | error e => rfl
  | ok u =>
    simp only [bind, Except.bind]
    unfold decodeUserName
    cases hr : b1.rawUser with
    | none => simp only [hr, Except.map]
    | some raw =>
      simp only [hr]
      have e2 : ∀ b2 : Book, b2.encoding = b1.encoding → Book.dec env b2 = Book.dec env b1 := by
        intro b2 h; unfold Book.dec; rw [h]
      rw [e2]
      · cases unpackString (b1.dec env) raw 0 1 <;> rfl
      · rfl

theorem ensure_fmt (env : BookEnv) (b : Book) (f : FmtSt) (d : Bool) :
    ensureEncoding env { b with fmt := f, xfDone := d } = (ensureEncoding env b).map fun b => { b with fmt := f, xfDone := d } := by
  have e : ∀ b2 : Book, ensureEncoding env b2 = if b2.encoding.isNone then deriveEncoding env b2 else .ok b2 := by
    intro b2; unfold ensureEncoding; cases b2.encoding <;> rfl
  rw [e, e]
  show (if b.encoding.isNone then _ else _) = _
  by_cases h : b.encoding.isNone
  · rw [if_pos h, if_pos h]; exact derive_fmt env b f d
  · rw [if_neg h, if_neg h]; rfl

theorem dec_congr {env : BookEnv} {b b' : Book} (h : b.encoding = b'.encoding) : b.dec env = b'.dec env := by
  unfold Book.dec; rw [h]

theorem palette_loop_epilogue (fi : Bool) (cs : List Nat) : ∀ (i : Nat) (st : FmtSt),
    paletteLoop (xfEpilogue fi st) i cs = (paletteLoop st i cs).map (xfEpilogue fi) := by
  induction cs with
  | nil => intro i st; rfl
  | cons c cs ih =>
    intro i st
    simp only [paletteLoop]
    show (match itemsGet st.colourMap (8 + i) with | none => _ | some _ => _) = _
    cases itemsGet st.colourMap (8 + i) with
    | none => rfl
    | some _ => exact ih (i + 1) { st with paletteRecord := st.paletteRecord ++ [paletteRgb c], colourMap := itemsSet st.colourMap (8 + i) (some (paletteRgb c)) }

theorem palette_epilogue (fi : Bool) (st : FmtSt) (d : Bytes) : handlePalette fi (xfEpilogue fi st) d = (handlePalette fi st d).map (xfEpilogue fi) := by
  unfold handlePalette
  cases fi with
  | false => rfl
  | true =>
    simp only [Bool.not_true, Bool.false_eq_true, if_false]
    cases unpackH (sliceTo d 2) with
    | error e => rfl
    | ok n =>
      simp only [bind, Except.bind]
      by_cases h : ¬ (4 * n + 2 ≤ d.length ∧ d.length ≤ 4 * n + 2 + 4)
      · rw [if_pos h, if_pos h]; rfl
      · rw [if_neg h, if_neg h]
        have : pyAssert (decide ((xfEpilogue true st).paletteRecord = [])) = pyAssert (decide (st.paletteRecord = [])) := rfl
        rw [this]
        cases pyAssert (decide (st.paletteRecord = [])) with
        | error e => rfl
        | ok _ => exact palette_loop_epilogue true _ 0 st

theorem font_epilogue (bv : Nat) (fi : Bool) (dec : Bytes → R PyStr) (st : FmtSt) (d : Bytes) :
    handleFont bv fi dec (xfEpilogue fi st) d = (handleFont bv fi dec st d).map (xfEpilogue fi) := by
  unfold handleFont
  cases fi with
  | false => rfl
  | true =>
    simp only [Bool.not_true, Bool.false_eq_true, if_false]
    show ((decodeFont bv dec (fontPad st.fontList).length d).bind _) = (((decodeFont bv dec (fontPad st.fontList).length d)).bind _).map _
    cases decodeFont bv dec (fontPad st.fontList).length d <;> rfl

theorem style_epilogue (bv : Nat) (fi : Bool) (dec : Bytes → R PyStr) (st : FmtSt) (d : Bytes) :
    handleStyle bv fi dec (xfEpilogue fi st) d = (handleStyle bv fi dec st d).map (xfEpilogue fi) := by
  unfold handleStyle
  cases fi with
  | false => rfl
  | true =>
    simp only [Bool.not_true, Bool.false_eq_true, if_false]
    cases unpackN 4 (sliceTo d 4) with
    | error e => rfl
    | ok b =>
      simp only [bind, Except.bind]
      by_cases h : d = [0, 0, 0, 0] ∧ (st.styleMap "Normal".toList).isNone
      · rw [if_pos h, if_pos (show d = [0, 0, 0, 0] ∧ ((xfEpilogue true st).styleMap "Normal".toList).isNone from h)]; rfl
      · rw [if_neg h, if_neg (show ¬ (d = [0, 0, 0, 0] ∧ ((xfEpilogue true st).styleMap "Normal".toList).isNone) from h)]
        by_cases h2 : fld b 0 2 &&& 0x8000 ≠ 0
        · rw [if_pos h2, if_pos h2]; cases builtInStyleName (fld b 2 1) (fld b 3 1) <;> rfl
        · rw [if_neg h2, if_neg h2]; cases userStyleName bv dec d <;> rfl

/-- Records about the whole file other than FORMAT and XF records do not mind whether the XFs have been finished. -/
theorem globals_epilogue {env : OpenEnv} {v : Nat} {c : Nat} {d : Bytes} (b : Book) (hc : c ∈ [0x31, 0x231, 0x293, 0x92, 0x56, 0x22, 0x42, 0x5c, 0x8c]) :
    globalsRecord (env.recEnv v) (runEpilogue env b) c d = (globalsRecord (env.recEnv v) b c d).map (runEpilogue env) := by
  simp only [List.mem_cons, List.not_mem_nil, or_false] at hc
  rcases hc with rfl | rfl | rfl | rfl | rfl | rfl | rfl | rfl | rfl
  · show bookFont _ _ _ = (bookFont _ _ _).map _
    unfold bookFont
    cases hf : (env.recEnv v).fi with
    | false => rfl
    | true =>
      simp only [Bool.not_true, Bool.false_eq_true, if_false]
      unfold runEpilogue
      rw [ensure_fmt]
      cases he : ensureEncoding (env.recEnv v) b with
      | error e => rfl
      | ok b1 =>
        have hb1 : b1.fmt = b.fmt := (ensure_rest he).2.2
        have hf' : env.fi = true := hf
        simp only [Except.map, bind, Except.bind]
        have := font_epilogue (env.recEnv v).bv env.fi (b1.dec (env.recEnv v)) b.fmt d
        rw [hf'] at this ⊢
        rw [dec_congr (b' := b1), this, hb1]
        · cases handleFont (env.recEnv v).bv true (b1.dec (env.recEnv v)) b.fmt d <;> rfl
        · rfl
  · show bookFont _ _ _ = (bookFont _ _ _).map _
    unfold bookFont
    cases hf : (env.recEnv v).fi with
    | false => rfl
    | true =>
      simp only [Bool.not_true, Bool.false_eq_true, if_false]
      unfold runEpilogue
      rw [ensure_fmt]
      cases he : ensureEncoding (env.recEnv v) b with
      | error e => rfl
      | ok b1 =>
        have hb1 : b1.fmt = b.fmt := (ensure_rest he).2.2
        have hf' : env.fi = true := hf
        simp only [Except.map, bind, Except.bind]
        have := font_epilogue (env.recEnv v).bv env.fi (b1.dec (env.recEnv v)) b.fmt d
        rw [hf'] at this ⊢
        rw [dec_congr (b' := b1), this, hb1]
        · cases handleFont (env.recEnv v).bv true (b1.dec (env.recEnv v)) b.fmt d <;> rfl
        · rfl
  · show bookStyle _ _ _ = (bookStyle _ _ _).map _
    unfold bookStyle
    have := style_epilogue (env.recEnv v).bv env.fi (b.dec (env.recEnv v)) b.fmt d
    rw [show handleStyle (env.recEnv v).bv (env.recEnv v).fi (Book.dec (env.recEnv v) (runEpilogue env b)) (runEpilogue env b).fmt d = _ from this]
    show _ = ((handleStyle (env.recEnv v).bv env.fi (b.dec (env.recEnv v)) b.fmt d).bind _).map _
    cases handleStyle (env.recEnv v).bv env.fi (b.dec (env.recEnv v)) b.fmt d <;> rfl
  · show bookPalette _ _ _ = (bookPalette _ _ _).map _
    unfold bookPalette
    have := palette_epilogue env.fi b.fmt d
    rw [show handlePalette (env.recEnv v).fi (runEpilogue env b).fmt d = _ from this]
    show _ = ((handlePalette env.fi b.fmt d).bind _).map _
    cases handlePalette env.fi b.fmt d <;> rfl
  · rfl
  · show handleDatemode _ _ = (handleDatemode _ _).map _
    unfold handleDatemode
    cases unpackH (slice d 0 2) with
    | error e => rfl
    | ok m => simp only [bind, Except.bind]; cases pyAssert (decide (m = 0) || decide (m = 1)) <;> rfl
  · show handleCodepage _ _ _ = (handleCodepage _ _ _).map _
    unfold handleCodepage
    cases hu : unpackH (slice d 0 2) with
    | error e => rfl
    | ok m =>
      simp only [bind, Except.bind]
      have := derive_fmt (env.recEnv v) { b with codepage := some m } (xfEpilogue env.fi b.fmt) true
      rw [show deriveEncoding (env.recEnv v) { runEpilogue env b with codepage := some m } = _ from this]
      cases hd : deriveEncoding (env.recEnv v) { b with codepage := some m } with
      | error e => rfl
      | ok b1 =>
        have : b1.fmt = b.fmt := (derive_rest hd).2.2
        simp only [Except.map, runEpilogue, this]
  · show handleWriteaccess _ _ _ = (handleWriteaccess _ _ _).map _
    by_cases h8 : (env.recEnv v).bv < 80
    · have e : ∀ b2 : Book, handleWriteaccess (env.recEnv v) b2 d = if b2.encoding.isNone then .ok { b2 with rawUser := some d } else
          (unpackString (b2.dec (env.recEnv v)) d 0 1).bind fun s => .ok { b2 with userName := (env.recEnv v).rstrip s } := by
        intro b2; unfold handleWriteaccess; rw [if_pos h8]; cases b2.encoding <;> rfl
      rw [e, e]
      show (if b.encoding.isNone then _ else _) = _
      by_cases h : b.encoding.isNone
      · rw [if_pos h, if_pos h]; rfl
      · rw [if_neg h, if_neg h, dec_congr (b := runEpilogue env b) (b' := b) rfl]
        cases unpackString (b.dec (env.recEnv v)) d 0 1 <;> rfl
    · unfold handleWriteaccess
      rw [if_neg h8, if_neg h8]
      cases writeaccess8 d <;> rfl
  · show handleCountry _ _ = (handleCountry _ _).map _
    unfold handleCountry
    cases unpackN 4 (slice d 0 4) with
    | error e => rfl
    | ok m =>
      simp only [bind, Except.bind]
      show ((pyAssert (decide (b.countries = (0, 0)) || decide (b.countries = (fld m 0 2, fld m 2 2)))).bind _) = _
      cases pyAssert (decide (b.countries = (0, 0)) || decide (b.countries = (fld m 0 2, fld m 2 2))) <;> rfl

/-! ## One record -/

/-- A record about the whole file. -/
theorem book_step {env : OpenEnv} {v : Nat} (hv : v = 21 ∨ v = 30 ∨ v = 40 ∨ v = 45) {mem : Bytes} {o o' : OldSt} {pos p' : Int} {c len : Nat} {d : Bytes}
    (hver : o.bv = v) (hc : c ∈ bookCodes v) (hr : oldRecord env v mem o pos c len d = .ok (o', p')) :
    p' = pos ∧ ∃ b', o' = { o with book := b' } ∧
      globalsRecord (env.recEnv v) (if c = 0x293 ∧ o.book.xfDone = false then runEpilogue env o.book else o.book) (newCode c) d = .ok b' := by
  have key : ∀ r : R Book, oldRecord env v mem o pos c len d = (do pure (← o.onBook r, pos)) →
      p' = pos ∧ ∃ b', o' = { o with book := b' } ∧ r = .ok b' := by
    intro r h
    rw [h] at hr
    obtain ⟨o1, h1, hr⟩ := bind_ok hr
    unfold OldSt.onBook at h1
    obtain ⟨b1, h2, h1⟩ := bind_ok h1
    cases h1
    obtain ⟨rfl, rfl⟩ : _ = o' ∧ pos = p' := by simpa [pure, Except.pure] using hr
    exact ⟨rfl, b1, rfl, h2⟩
  obtain ⟨bv0, book, sheet, ixfe, attr⟩ := o
  subst hver
  simp only at hv
  simp only [bookCodes, List.mem_cons, List.not_mem_nil, or_false] at hc
  rcases hc with rfl | rfl | rfl | rfl | rfl | rfl | rfl | rfl | rfl | rfl
  · rcases hv with rfl | rfl | rfl | rfl <;> exact key _ rfl
  · rcases hv with rfl | rfl | rfl | rfl <;> exact key _ rfl
  · rcases hv with rfl | rfl | rfl | rfl <;> exact key _ rfl
  · obtain ⟨e1, b', e2, e3⟩ := key (oldStyle env ⟨bv0, book, sheet, ixfe, attr⟩ d) (by rcases hv with rfl | rfl | rfl | rfl <;> rfl)
    refine ⟨e1, b', e2, ?_⟩
    show bookStyle _ (if (0x293 : Nat) = 0x293 ∧ book.xfDone = false then runEpilogue env book else book) d = _
    unfold oldStyle at e3
    simp only at e3
    cases hx : book.xfDone with
    | false => rw [if_neg (by simp [hx])] at e3; rw [if_pos ⟨rfl, rfl⟩]; exact e3
    | true => rw [if_pos hx] at e3; rw [if_neg (by simp)]; exact e3
  · rcases hv with rfl | rfl | rfl | rfl <;> exact key _ rfl
  · obtain ⟨e1, b', e2, e3⟩ := key (handleBuiltinfmtcount book d) (by rcases hv with rfl | rfl | rfl | rfl <;> rfl)
    refine ⟨e1, b', e2, ?_⟩
    unfold handleBuiltinfmtcount at e3
    obtain ⟨_, _, e3⟩ := bind_ok e3
    exact e3
  · rcases hv with rfl | rfl | rfl | rfl <;> exact key _ rfl
  · rcases hv with rfl | rfl | rfl | rfl <;> exact key _ rfl
  · rcases hv with rfl | rfl | rfl | rfl <;> exact key _ rfl
  · rcases hv with rfl | rfl | rfl | rfl <;> exact key _ rfl

/-- A setting is one record without text. -/
theorem setting_record {v : Nat} {dec : Bytes → R PyStr} {sst : List PyStr} {x : SheetItem} (hx : x.isSetting = true) (ho : x.OldOk v dec sst) :
    ∃ c d, x.records v = [(c, d)] ∧ c < 65536 ∧ c ≠ 0xa ∧ c ∉ oldBad ∧ c ∉ [XL_LABEL, XL_RSTRING, XL_NOTE] ++ XL_FORMULA_OPCODES := by
  cases x with
  | cell y => cases hx
  | window y => cases hx
  | extra y => cases hx
  | embedded a b c d => cases hx
  | unknown c d =>
    obtain ⟨h1, h2⟩ : c < 65536 ∧ c ∉ specialCodes := ho.1
    have h3 : c ∉ oldCodes := ho.2 c d rfl
    exact ⟨c, d, rfl, h1, fun h => h2 (by rw [h]; decide), fun h => h3 ((by decide : ∀ c ∈ oldBad, c ∈ oldCodes) c h),
      fun h => h2 ((by decide : ∀ c ∈ [XL_LABEL, XL_RSTRING, XL_NOTE] ++ XL_FORMULA_OPCODES, c ∈ specialCodes) c h)⟩
  | _ => exact ⟨_, _, rfl, by decide, by decide, by decide, by decide⟩

theorem setting_ok {v : Nat} {dec dec' : Bytes → R PyStr} {sst sst' : List PyStr} {x : SheetItem} (hx : x.isSetting = true) (ho : x.Ok v dec sst) : x.Ok v dec' sst' := by
  cases x with
  | cell y => cases hx
  | window y => cases hx
  | extra y => cases hx
  | embedded a b c d => cases hx
  | _ => exact ho

theorem fits_old {v : Nat} (h30 : 30 ≤ v) {dec : Bytes → R PyStr} {sst : List PyStr} {x : SheetItem} (ho : x.OldOk v dec sst) : FitsItem v oldBad x := by
  cases x with
  | cell y =>
    cases y with
    | formula r c xf res code flags junk =>
      obtain ⟨_, _, _, _, k5, _⟩ := ho.1
      refine ⟨h30, ?_⟩
      rcases k5 with rfl | rfl | rfl <;> decide
    | _ => trivial
  | window y => exact h30
  | unknown c d => exact fun h => ho.2 c d rfl ((by decide : ∀ c ∈ oldBad, c ∈ oldCodes) c h)
  | _ => trivial

/-- What a setting does to the sheet does not depend on the book. -/
theorem setting_apply {env : OpenEnv} {v : Nat} {x : SheetItem} (hx : x.isSetting = true) (b b' : Book) (s : SheetSt) :
    applyItem (readEnv env v b) s x = applyItem (readEnv env v b') s x := by
  cases x with
  | cell y => cases hx
  | window y => cases hx
  | extra y => cases hx
  | embedded a b c d => cases hx
  | _ => rfl

theorem setting_step {env : OpenEnv} {v : Nat} (h8 : v < 80) (h30 : 30 ≤ v) {mem rest : Bytes} {o fin : OldSt} {x : SheetItem} (hx : x.isSetting = true)
    {dec : Bytes → R PyStr} {sst : List PyStr} (ho : x.OldOk v dec sst) (hs : x.Short v) {p k : Nat} (hver : o.bv = v)
    (hm : mem.drop p = encRecs (x.records v) ++ rest) (h : oldLoop env v mem (k + 1) o (p : Int) = .ok fin) :
    ∃ s', (∀ b, applyItem (readEnv env v b) o.sheet x = .ok s') ∧
      oldLoop env v mem k { o with sheet := s' } ((p + (encRecs (x.records v)).length : Nat) : Int) = .ok fin := by
  obtain ⟨c, d, hr, c1, c2, c3, c4⟩ := setting_record hx ho
  have hb : (x.Short v) := hs
  have hl : d.length < 65536 := hb (c, d) (by rw [hr]; simp)
  have hn : ∀ y, x ≠ .extra y := by rintro y rfl; cases hx
  have h1 := plainItem_step (rounds_follows (readEnv env v o.book) mem oldBad good_old) 0 o.sheet x hn (fits_old h30 ho) (setting_ok hx ho.1) hs hm
  have hm' : mem.drop p = encRec c d ++ rest := by rw [hm, hr]; simp [encRecs]
  have hg := getRecordParts_at c1 hl hm'
  rw [oldLoop, hg] at h
  simp only [bind, Except.bind] at h
  rw [if_neg (show ¬ c = XL_EOF from c2)] at h
  obtain ⟨⟨o', q⟩, h2, h3⟩ := bind_ok h
  have ha : At env v o.book o o := ⟨hver, .inl rfl, rfl, rfl⟩
  obtain ⟨_, a2⟩ := old_step h8 ha c3 (.inl h30) h2
  have a3 := old_step_same c3 c4 h2
  rw [rounds, hg] at h1
  simp only [bind, Except.bind] at h1
  rw [if_neg (by tauto), a2] at h1
  simp only [rounds] at h1
  cases hq : applyItem (readEnv env v o.book) o.sheet x with
  | error e => rw [hq] at h1; cases h1
  | ok s =>
    rw [hq] at h1
    simp only [Except.ok.injEq, Option.some.injEq, Prod.mk.injEq] at h1
    obtain ⟨e1, e2⟩ := h1
    refine ⟨s, fun b => by rw [setting_apply hx b o.book, hq], ?_⟩
    have e2 : q = ((p + (encRecs (x.records v)).length : Nat) : Int) := e2
    rw [← e1, ← e2, ← a3]
    exact h3

/-! ## All records before the DIMENSION record -/

theorem record_done {env : OpenEnv} {v : Nat} {b b' : Book} {c : Nat} {d : Bytes} (hc : c ∈ [0x41e, 0xe0, 0x31, 0x231, 0x293, 0x92, 0x56, 0x22, 0x42, 0x5c, 0x8c])
    (h : globalsRecord (env.recEnv v) b c d = .ok b') : b'.xfDone = b.xfDone := by
  simp only [List.mem_cons, List.not_mem_nil, or_false] at hc
  rcases hc with rfl | rfl | rfl | rfl | rfl | rfl | rfl | rfl | rfl | rfl | rfl
  · obtain ⟨b1, h1, h2⟩ := bind_ok (show bookFormat _ _ _ = _ from h)
    obtain ⟨_, _, h3⟩ := bind_ok h2
    obtain ⟨_, _, _, _, rfl⟩ := ensure_frame h1
    cases h3; rfl
  · obtain ⟨_, _, h3⟩ := bind_ok (show bookXf _ _ _ = _ from h); cases h3; rfl
  · have h : bookFont _ _ _ = _ := h
    unfold bookFont at h
    cases hf : (env.recEnv v).fi with
    | false => simp only [hf, Bool.not_false, if_true] at h; cases h; rfl
    | true =>
      simp only [hf, Bool.not_true, Bool.false_eq_true, if_false] at h
      obtain ⟨b1, h1, h2⟩ := bind_ok h
      obtain ⟨_, _, h3⟩ := bind_ok h2
      obtain ⟨_, _, _, _, rfl⟩ := ensure_frame h1
      cases h3; rfl
  · have h : bookFont _ _ _ = _ := h
    unfold bookFont at h
    cases hf : (env.recEnv v).fi with
    | false => simp only [hf, Bool.not_false, if_true] at h; cases h; rfl
    | true =>
      simp only [hf, Bool.not_true, Bool.false_eq_true, if_false] at h
      obtain ⟨b1, h1, h2⟩ := bind_ok h
      obtain ⟨_, _, h3⟩ := bind_ok h2
      obtain ⟨_, _, _, _, rfl⟩ := ensure_frame h1
      cases h3; rfl
  · obtain ⟨_, _, h3⟩ := bind_ok (show bookStyle _ _ _ = _ from h); cases h3; rfl
  · obtain ⟨_, _, h3⟩ := bind_ok (show bookPalette _ _ _ = _ from h); cases h3; rfl
  · cases h; rfl
  · obtain ⟨_, _, h3⟩ := bind_ok (show handleDatemode _ _ = _ from h)
    obtain ⟨_, _, h3⟩ := bind_ok h3
    cases h3; rfl
  · obtain ⟨_, _, h3⟩ := bind_ok (show handleCodepage _ _ _ = _ from h)
    obtain ⟨_, _, _, _, rfl⟩ := derive_frame h3
    rfl
  · have h : handleWriteaccess _ _ _ = _ := h
    unfold handleWriteaccess at h
    by_cases h8 : (env.recEnv v).bv < 80
    · rw [if_pos h8] at h
      cases he : b.encoding with
      | none => rw [he] at h; cases h; rfl
      | some e =>
        rw [he] at h
        obtain ⟨_, _, h⟩ := bind_ok h
        cases h; rfl
    · rw [if_neg h8] at h
      obtain ⟨_, _, h⟩ := bind_ok h
      cases h; rfl
  · obtain ⟨_, _, h3⟩ := bind_ok (show handleCountry _ _ = _ from h)
    obtain ⟨_, _, h3⟩ := bind_ok h3
    cases h3; rfl

def headBook (l : List OldItem) : List GItem := l.filterMap fun i => match i with | .book c d => some (.one c d) | _ => none
def headSettings (l : List OldItem) : List SheetItem := l.filterMap fun i => match i with | .sheet y => some y | _ => none

theorem newCode_cases {v : Nat} (hv : v = 21 ∨ v = 30 ∨ v = 40 ∨ v = 45) {c : Nat} (hc : c ∈ bookCodes v) :
    (c = formatCode v ∧ newCode c = 0x41e) ∨ (c = xfCode v ∧ newCode c = 0xe0) ∨
      (c ≠ formatCode v ∧ c ≠ xfCode v ∧ newCode c = c ∧ c ∈ [0x31, 0x231, 0x293, 0x92, 0x56, 0x22, 0x42, 0x5c, 0x8c]) := by
  simp only [bookCodes, List.mem_cons, List.not_mem_nil, or_false] at hc
  rcases hv with rfl | rfl | rfl | rfl <;> rcases hc with rfl | rfl | rfl | rfl | rfl | rfl | rfl | rfl | rfl | rfl <;> decide

/-- The book while the records before the DIMENSION record are read: the XFs are finished at the first STYLE record. -/
def headState (env : OpenEnv) (styled : Bool) (b : Book) : Book := if styled then runEpilogue env b else b

theorem head_book {env : OpenEnv} {v : Nat} (hv : v = 21 ∨ v = 30 ∨ v = 40 ∨ v = 45) {c : Nat} {d : Bytes} (hcc : c ∈ bookCodes v) {bk b b' : Book} {styled : Bool}
    (h2 : bk = headState env styled b) (h3 : b.xfDone = false) (hst : styled = true → c ≠ xfCode v ∧ c ≠ formatCode v)
    (h6 : globalsRecord (env.recEnv v) (if c = 0x293 ∧ bk.xfDone = false then runEpilogue env bk else bk) (newCode c) d = .ok b') :
    ∃ b2 styled2, globalsRecord (env.recEnv v) b (newCode c) d = .ok b2 ∧ b' = headState env styled2 b2 ∧ b2.xfDone = false ∧
      (styled2 = true → styled = true ∨ c = 0x293) := by
  rcases newCode_cases hv hcc with ⟨n1, n2⟩ | ⟨n1, n2⟩ | ⟨n1, n2, n3, n4⟩
  · have hns : styled = false := by
      cases styled with
      | false => rfl
      | true => exact absurd n1 (hst rfl).2
    subst hns
    have hne : c ≠ 0x293 := by rw [n1]; rcases hv with rfl | rfl | rfl | rfl <;> decide
    rw [if_neg (fun h => hne h.1), h2] at h6
    refine ⟨b', false, h6, rfl, ?_, fun h => by cases h⟩
    rw [record_done (by rw [n2]; decide) h6]; exact h3
  · have hns : styled = false := by
      cases styled with
      | false => rfl
      | true => exact absurd n1 (hst rfl).1
    subst hns
    have hne : c ≠ 0x293 := by rw [n1]; rcases hv with rfl | rfl | rfl | rfl <;> decide
    rw [if_neg (fun h => hne h.1), h2] at h6
    refine ⟨b', false, h6, rfl, ?_, fun h => by cases h⟩
    rw [record_done (by rw [n2]; decide) h6]; exact h3
  · have hr : ∀ b2, globalsRecord (env.recEnv v) b (newCode c) d = .ok b2 → b2.xfDone = false := by
      intro b2 hb2
      rw [record_done (by rw [n3]; exact List.mem_cons_of_mem _ (List.mem_cons_of_mem _ n4)) hb2]; exact h3
    have hE : globalsRecord (env.recEnv v) (runEpilogue env b) (newCode c) d = .ok b' →
        ∃ b2, globalsRecord (env.recEnv v) b (newCode c) d = .ok b2 ∧ b' = runEpilogue env b2 := by
      intro hh
      rw [n3, globals_epilogue b n4, ← n3] at hh
      cases hg : globalsRecord (env.recEnv v) b (newCode c) d with
      | error e => rw [hg] at hh; cases hh
      | ok b2 => rw [hg] at hh; cases hh; exact ⟨b2, rfl, rfl⟩
    cases styled with
    | true =>
      rw [if_neg (by rw [h2]; simp [headState, runEpilogue]), h2] at h6
      obtain ⟨b2, e1, e2⟩ := hE h6
      exact ⟨b2, true, e1, e2, hr b2 e1, fun _ => .inl rfl⟩
    | false =>
      have hd : bk.xfDone = false := by rw [h2]; exact h3
      by_cases hc9 : c = 0x293
      · rw [if_pos ⟨hc9, hd⟩, h2] at h6
        obtain ⟨b2, e1, e2⟩ := hE h6
        exact ⟨b2, true, e1, e2, hr b2 e1, fun _ => .inr hc9⟩
      · rw [if_neg (fun h => hc9 h.1), h2] at h6
        exact ⟨b', false, h6, rfl, hr b' h6, fun h => by cases h⟩

theorem bookCodes_lt {v : Nat} (hv : v = 21 ∨ v = 30 ∨ v = 40 ∨ v = 45) {c : Nat} (hcc : c ∈ bookCodes v) : c < 65536 ∧ c ≠ 0xa := by
  simp only [bookCodes, List.mem_cons, List.not_mem_nil, or_false] at hcc
  rcases hv with rfl | rfl | rfl | rfl <;> rcases hcc with rfl | rfl | rfl | rfl | rfl | rfl | rfl | rfl | rfl | rfl <;> decide

theorem head_step {env : OpenEnv} {v : Nat} (hv : v = 30 ∨ v = 40 ∨ v = 45) {mem rest : Bytes} {fin : OldSt} {dec : Bytes → R PyStr} {sst : List PyStr} (k : Nat) :
    ∀ (head : List OldItem) (p : Nat) (o : OldSt) (b : Book) (styled : Bool), o.bv = v → o.book = headState env styled b → b.xfDone = false →
      (∀ c d, OldItem.book c d ∈ head → c ∈ bookCodes v) →
      (∀ y, OldItem.sheet y ∈ head → y.isSetting = true ∧ y.OldOk v dec sst) →
      (styled = true → ∀ d', OldItem.book (xfCode v) d' ∉ head ∧ OldItem.book (formatCode v) d' ∉ head) →
      (∀ pre d post, head = pre ++ .book 0x293 d :: post → ∀ d', OldItem.book (xfCode v) d' ∉ post ∧ OldItem.book (formatCode v) d' ∉ post) →
      (∀ q ∈ head.flatMap (·.records v), q.2.length < 65536) →
      mem.drop p = encRecs (head.flatMap (·.records v)) ++ rest →
      oldLoop env v mem (k + head.length) o (p : Int) = .ok fin →
      ∃ b1 o1 styled', applyGlobals (env.recEnv v) b ((headBook head).map newItem) = .ok b1 ∧ b1.xfDone = false ∧ o1.bv = v ∧
        o1.book = headState env styled' b1 ∧ (∀ b, applyItems (readEnv env v b) o.sheet (headSettings head) = .ok o1.sheet) ∧
        oldLoop env v mem k o1 ((p + (encRecs (head.flatMap (·.records v))).length : Nat) : Int) = .ok fin := by
  have h8 : v < 80 := by omega
  have h30 : 30 ≤ v := by omega
  intro head
  induction head with
  | nil =>
    intro p o b styled h1 h2 h3 _ _ _ _ _ _ h
    exact ⟨b, o, styled, rfl, h3, h1, h2, fun _ => rfl, h⟩
  | cons it head ih =>
    intro p o b styled h1 h2 h3 hc hy hst hsty hs hm h
    rw [List.flatMap_cons, encRecs_append, List.append_assoc] at hm
    have hm2 := drop_at hm rfl
    have hs2 : ∀ q ∈ head.flatMap (·.records v), q.2.length < 65536 := fun q hq => hs q (by rw [List.flatMap_cons]; exact List.mem_append_right _ hq)
    have hc2 : ∀ c d, OldItem.book c d ∈ head → c ∈ bookCodes v := fun c d hm => hc c d (List.mem_cons_of_mem _ hm)
    have hy2 : ∀ y, OldItem.sheet y ∈ head → y.isSetting = true ∧ y.OldOk v dec sst := fun y hm => hy y (List.mem_cons_of_mem _ hm)
    have hst2 : styled = true → ∀ d', OldItem.book (xfCode v) d' ∉ head ∧ OldItem.book (formatCode v) d' ∉ head := fun h d' =>
      ⟨fun hm => (hst h d').1 (List.mem_cons_of_mem _ hm), fun hm => (hst h d').2 (List.mem_cons_of_mem _ hm)⟩
    have hsty2 : ∀ pre d post, head = pre ++ .book 0x293 d :: post → ∀ d', OldItem.book (xfCode v) d' ∉ post ∧ OldItem.book (formatCode v) d' ∉ post :=
      fun pre d post he => hsty (it :: pre) d post (by rw [he]; rfl)
    have hlen : ∀ n, p + n + (encRecs (head.flatMap (·.records v))).length = p + (n + (encRecs (head.flatMap (·.records v))).length) := by intro n; omega
    rw [List.length_cons, show k + (head.length + 1) = k + head.length + 1 by omega] at h
    cases it with
    | sheet y =>
      obtain ⟨s', e1, e2⟩ := setting_step h8 h30 (hy y (by simp)).1 (hy y (by simp)).2
        (fun q hq => hs q (by rw [List.flatMap_cons]; exact List.mem_append_left _ hq)) h1 hm h
      obtain ⟨b1, o1, styled', g1, g2, g3, g4, g5, g6⟩ := ih _ { o with sheet := s' } b styled h1 h2 h3 hc2 hy2 hst2 hsty2 hs2 hm2 e2
      refine ⟨b1, o1, styled', g1, g2, g3, g4, ?_, ?_⟩
      · intro b
        show applyItems _ _ (y :: headSettings head) = _
        rw [applyItems_cons, e1 b]
        exact g5 b
      · rw [List.flatMap_cons, encRecs_append, List.length_append, ← hlen]
        exact g6
    | book c d =>
      have hcc := hc c d (by simp)
      have hl : d.length < 65536 := hs (c, d) (by simp [OldItem.records])
      have hm' : mem.drop p = encRec c d ++ (encRecs (head.flatMap (·.records v)) ++ rest) := by rw [hm]; simp [OldItem.records, encRecs]
      obtain ⟨hlt, hne⟩ := bookCodes_lt (.inr hv) hcc
      rw [oldLoop, getRecordParts_at hlt hl hm'] at h
      simp only [bind, Except.bind] at h
      rw [if_neg (show ¬ c = XL_EOF from hne)] at h
      obtain ⟨⟨o', q⟩, h4, h5⟩ := bind_ok h
      obtain ⟨rfl, b', rfl, h6⟩ := book_step (.inr hv) h1 hcc h4
      obtain ⟨b2, styled2, k1, k2, k3, k4⟩ := head_book (.inr hv) hcc h2 h3 (fun h => ⟨fun e => (hst h d).1 (by rw [e]; simp), fun e => (hst h d).2 (by rw [e]; simp)⟩) h6
      have hpos : ((p + 4 + d.length : Nat) : Int) = ((p + (encRecs (OldItem.records v (.book c d))).length : Nat) : Int) := by
        simp [OldItem.records, encRecs, encRec_length]; ring
      rw [hpos] at h5
      have k5 : styled2 = true → ∀ d', OldItem.book (xfCode v) d' ∉ head ∧ OldItem.book (formatCode v) d' ∉ head := by
        intro h
        rcases k4 h with k | rfl
        · exact hst2 k
        · exact hsty [] d head rfl
      obtain ⟨b1, o1, styled', g1, g2, g3, g4, g5, g6⟩ := ih _ { o with book := b' } b2 styled2 h1 k2 k3 hc2 hy2 k5 hsty2 hs2 hm2 h5
      refine ⟨b1, o1, styled', ?_, g2, g3, g4, g5, ?_⟩
      · show applyGlobals _ _ (.one (newCode c) d :: (headBook head).map newItem) = _
        simp only [applyGlobals, applyGItem]
        rw [k1]
        exact g1
      · rw [List.flatMap_cons, encRecs_append, List.length_append, ← hlen]
        exact g6

end Xlrd
