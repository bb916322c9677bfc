import Verif.Spec.Openable
import Verif.Props.NameValues
import Verif.Props.Settings

/-!
# Records that can be read are read
-/
set_option linter.unusedSimpArgs false
namespace Xlrd
open Spec

/-! ## The encoding -/

theorem codepage_utf16 (bv cp : Nat) (h : codepageName bv cp = "utf_16_le".toList) : (codepageEncoding bv cp).2 = 1200 := by
  rcases codepage_cases bv cp with ⟨ht, h1⟩ | ⟨_, h1, h2⟩
  · rw [h1]
    rcases ht with e | e | e | e | e | e | e | e | e <;> subst e
    · rfl
    all_goals exact absurd h (by simp [codepageName])
  · rw [h1]
    rw [h2] at h
    by_cases h3 : 300 ≤ cp ∧ cp ≤ 1999
    · rw [if_pos h3] at h
      exact absurd h (by simp)
    · rw [if_neg h3] at h ⊢
      by_cases h4 : bv ≥ 80
      · rw [if_pos h4]
      · rw [if_neg h4] at h
        exact absurd h (by simp)

theorem trial_ok {env : BookEnv} {b : Book} {cp : Option Nat} (hu : CodecUsable env.bv env.override env.codec cp)
    (he : b.codepage = some 1200 ∨ b.encoding = some (textEncoding env.bv env.override cp))
    (h16 : env.override = [] → textEncoding env.bv [] cp = "utf_16_le".toList → b.codepage = some 1200) : trialDecode env b = .ok () := by
  unfold trialDecode
  by_cases hc : b.codepage = some 1200
  · rw [if_neg (by simp [hc])]; rfl
  · rw [if_pos hc]
    rcases he with he | he
    · exact absurd he hc
    · rcases hu with ⟨s, hs⟩ | ⟨h1, h2⟩
      · rw [dec_eq he, hs]; rfl
      · exact absurd (h16 h1 h2) hc

/-- The raw user name, if there is one, can be decoded after any of the items. -/
def RawOk (env : BookEnv) (items : List GItem) (b : Book) : Prop :=
  ∀ data, b.rawUser = some data → env.bv < 80 ∧ ∃ raw tail, raw.length < 256 ∧ data = encLen 1 raw.length ++ raw ++ tail ∧
    ∀ q, q <+: items → ∃ s, textAt env q raw = .ok s

theorem derive_core {env : BookEnv} {items q : List GItem} {b : Book} (hq : q <+: items) (ht : trialDecode env (chooseEncoding env b) = .ok ())
    (he : env.bv < 80 → (chooseEncoding env b).encoding = some (textEncoding env.bv env.override (lastCodepage q))) (hr : RawOk env items b) :
    ∃ b', deriveEncoding env b = .ok b' ∧ b'.rawUser = none := by
  have hraw : (chooseEncoding env b).rawUser = b.rawUser := by
    unfold chooseEncoding
    split
    · rfl
    · split
      · split <;> rfl
      · rfl
  unfold deriveEncoding
  simp only [ht, bind, Except.bind]
  unfold decodeUserName
  rw [hraw]
  cases hc : b.rawUser with
  | none => exact ⟨_, rfl, by rw [hraw, hc]⟩
  | some data =>
    obtain ⟨h8, raw, tail, hl, rfl, hd⟩ := hr data hc
    obtain ⟨s, hs⟩ := hd q hq
    have hu := unpackString_at (data := encLen 1 raw.length ++ raw ++ tail) (r := tail) (p := 0) ((chooseEncoding env b).dec env) (Or.inl rfl) (by simpa using hl)
      (by simp)
    rw [dec_eq (he h8)] at hu
    rw [Int.natCast_zero] at hu
    simp only
    rw [dec_eq (he h8), hu, show env.codec (textEncoding env.bv env.override (lastCodepage q)) raw = .ok s from hs]
    exact ⟨_, rfl, rfl⟩

theorem derive_ok {env : BookEnv} {items pre : List GItem} {b : Book} (hq : pre <+: items) (hu : CodecUsable env.bv env.override env.codec (lastCodepage pre))
    (hi : EncInv env pre b) (hr : RawOk env items b) : ∃ b', deriveEncoding env b = .ok b' ∧ b'.rawUser = none := by
  obtain ⟨c1, c2⟩ := choose_inv hi
  refine derive_core hq (trial_ok hu ?_ ?_) (fun h8 => c2 (Or.inl h8)) hr
  · by_cases hs : Settled env pre
    · exact Or.inr (c2 hs)
    · left
      unfold Settled at hs
      simp only [not_or, not_not] at hs
      obtain ⟨s1, s2, s3⟩ := hs
      unfold chooseEncoding
      rw [if_neg (by simp [s2])]
      cases hc : b.codepage with
      | none => simp only; rw [if_neg s1]
      | some c =>
        rcases hi.page c hc with h | h | h
        · exact absurd h s1
        · exact absurd h s3
        · subst h; simp [codepageEncoding, encodingFromCodepage, itemsGet]
  · intro ho h16
    unfold chooseEncoding
    rw [if_neg (by simp [ho])]
    cases hc : b.codepage with
    | none =>
      simp only
      by_cases h8 : env.bv < 80
      · rw [hi.unset hc] at h16
        simp [textEncoding, h8] at h16
      · rw [if_neg h8]
    | some c =>
      simp only
      have := hi.page' c hc
      rw [h16] at this
      simp only [textEncoding, ne_eq, not_true_eq_false, if_false] at this
      rw [codepage_utf16 _ _ this]

theorem ensure_ok {env : BookEnv} {items pre : List GItem} {b : Book} (hq : pre <+: items) (hu : CodecUsable env.bv env.override env.codec (lastCodepage pre))
    (hi : EncInv env pre b) (hr : RawOk env items b) : ∃ b', ensureEncoding env b = .ok b' ∧ (b'.rawUser = none ∨ b'.rawUser = b.rawUser) := by
  unfold ensureEncoding
  cases he : b.encoding with
  | none =>
    obtain ⟨b', h1, h2⟩ := derive_ok hq hu hi hr
    exact ⟨b', h1, Or.inl h2⟩
  | some e => exact ⟨b, rfl, Or.inr rfl⟩

theorem codepage_ok {env : BookEnv} {items pre : List GItem} {b : Book} {cp : Nat} {tail : Bytes} (hcp : cp < 65536)
    (hq : pre ++ [.one 0x42 (le16 cp ++ tail)] <+: items)
    (hu : CodecUsable env.bv env.override env.codec (lastCodepage (pre ++ [.one 0x42 (le16 cp ++ tail)]))) (hr : RawOk env items b) :
    ∃ b', handleCodepage env b (le16 cp ++ tail) = .ok b' ∧ b'.rawUser = none := by
  have hl : lastCodepage (pre ++ [.one 0x42 (le16 cp ++ tail)]) = some cp := by
    refine lastCodepage_snoc_some ?_
    simp [codepageOf, le16, u8_toNat_ofNat]
    omega
  unfold handleCodepage
  have hu2 : unpackH (slice (le16 cp ++ tail) 0 2) = .ok cp := unpackH_at (p := 0) (r := tail) hcp (by simp)
  rw [hu2]
  simp only [bind, Except.bind]
  rw [hl] at hu
  have hE : (chooseEncoding env { b with codepage := some cp }).encoding = some (textEncoding env.bv env.override (some cp)) := by
    unfold chooseEncoding textEncoding
    by_cases ho : env.override ≠ []
    · rw [if_pos ho, if_pos ho]
    · rw [if_neg ho, if_neg ho]
      simp only [codepageEncoding_eq]
  refine derive_core hq (trial_ok hu (Or.inr hE) ?_) (fun _ => by rw [hl]; exact hE) hr
  intro ho h16
  unfold chooseEncoding
  rw [if_neg (by simp [ho])]
  simp only [textEncoding, ne_eq, not_true_eq_false, if_false] at h16
  simp only [codepage_utf16 _ _ h16]

/-! ## One item -/

/-- What is known after the items `pre`. -/
structure OpenInv (env : BookEnv) (items pre : List GItem) (b : Book) : Prop where
  enc : EncInv env pre b
  raw : RawOk env items b
  country : b.countries = (0, 0) ∨ ∃ d, GItem.one 0x8c d ∈ pre ∧ b.countries = (fld (d.take 4) 0 2, fld (d.take 4) 2 2)
  palette : env.fi = true → ¬ Occurs 0x92 pre → b.fmt.paletteRecord = [] ∧
    ∃ dflt, defaultPalette env.bv = .ok dflt ∧ dflt.length = paletteSize env.bv ∧ ∀ i, itemsGet b.fmt.colourMap i = ColourAt dflt [] i
  style : ¬ Occurs 0x293 pre → b.fmt.styleMap "Normal".toList = none
  sup : Occurs 0x1ae pre → b.supbookTypes ≠ []
  count : b.extnshtCount = (externsOf pre).length
  extNames : env.bv < 80 → ∀ (k : Nat) nc rest, (externsOf pre)[k]? = some (nc :: 3 :: rest) → ∃ s, b.extnshtNameFromNum (k + 1) = some s

theorem raw_of {env : BookEnv} {items : List GItem} {b b' : Book} (h : RawOk env items b) (hr : b'.rawUser = none ∨ b'.rawUser = b.rawUser) :
    RawOk env items b' := by
  intro d hd
  rcases hr with hr | hr
  · rw [hr] at hd; cases hd
  · exact h d (by rw [← hr]; exact hd)

theorem supbook_sheets_ok (names : List UStr) (hn : ∀ u ∈ names, u.FitsIn 2) : ∀ {data tail : Bytes} {p : Nat},
    data.drop p = names.flatMap (unicodeField 2) ++ tail → supbookSheets data names.length (p : Int) = .ok () := by
  induction names with
  | nil => intro data tail p _; rfl
  | cons u us ih =>
    intro data tail p h
    obtain ⟨h1, h2⟩ := hn u (by simp)
    have e : data.drop p = encLen 2 (utf16 u.text).length ++ (u.body ++ (us.flatMap (unicodeField 2) ++ tail)) := by
      rw [h]; simp [unicodeField]
    have hr := unicodeLen_at u h1 (Or.inr rfl) h2 e
    simp only [List.length_cons, supbookSheets, hr]
    refine ih (fun u h => hn u (by simp [h])) (tail := tail) ?_
    rw [Nat.add_assoc, ← List.drop_drop, e, ← List.append_assoc, List.drop_left']
    simp [encLen_length]

theorem supbook_ok {b : Book} {d : Bytes} (h : SupbookRecord d) : ∃ t, handleSupbook b d = .ok { b with
    supbookTypes := b.supbookTypes ++ [some t], supbookCount := b.supbookCount + 1
    supbookLocalsInx := if t = SUPBOOK_INTERNAL then some b.supbookCount else b.supbookLocalsInx
    supbookAddinsInx := if t = SUPBOOK_ADDIN then some b.supbookCount else b.supbookAddinsInx } := by
  suffices h : ∃ n t, unpackH (slice d 0 2) = .ok n ∧ supbookType d n = .ok t by
    obtain ⟨n, t, h1, h2⟩ := h
    refine ⟨t, ?_⟩
    unfold handleSupbook
    rw [h1]
    simp only [bind, Except.bind, h2]
    rfl
  cases h with
  | ours n tail =>
    have hs : slice (le16 n ++ [0x01, 0x04] ++ tail) 2 4 = [0x01, 0x04] := by
      have := slice_nat (le16 n ++ [0x01, 0x04] ++ tail) 2 4
      simpa [le16] using this
    have h2 : ∃ m, unpackH (slice (le16 n ++ [0x01, 0x04] ++ tail) 0 2) = .ok m := by
      have := slice_nat (le16 n ++ [0x01, 0x04] ++ tail) 0 2
      simp only [Nat.cast_zero, Nat.cast_ofNat] at this
      rw [this]
      exact ⟨_, rfl⟩
    obtain ⟨m, hm⟩ := h2
    refine ⟨m, SUPBOOK_INTERNAL, hm, ?_⟩
    unfold supbookType
    rw [if_pos hs]
  | addins tail =>
    refine ⟨1, SUPBOOK_ADDIN, ?_, ?_⟩
    · have := slice_nat ([0x01, 0x00, 0x01, 0x3A] ++ tail) 0 2
      simp only [Nat.cast_zero, Nat.cast_ofNat] at this
      rw [this]; rfl
    · have h4 := slice_nat ([0x01, 0x00, 0x01, 0x3A] ++ tail) 0 4
      have h2 := slice_nat ([0x01, 0x00, 0x01, 0x3A] ++ tail) 2 4
      simp only [Nat.cast_zero, Nat.cast_ofNat] at h4 h2
      unfold supbookType
      rw [h4, h2]
      simp
  | other url names tail hu hn hl =>
    obtain ⟨u1, u2⟩ := hu
    have h0 : unpackH (slice (le16 names.length ++ unicodeField 2 url ++ names.flatMap (unicodeField 2) ++ tail) 0 2) = .ok names.length :=
      unpackH_at (p := 0) (r := unicodeField 2 url ++ names.flatMap (unicodeField 2) ++ tail) hl (by simp)
    have e : (le16 names.length ++ unicodeField 2 url ++ names.flatMap (unicodeField 2) ++ tail).drop 2 =
        encLen 2 (utf16 url.text).length ++ (url.body ++ (names.flatMap (unicodeField 2) ++ tail)) := by
      simp [le16, unicodeField]
    have hr := unicodeLen_at url u1 (Or.inr rfl) u2 e
    have hs := supbook_sheets_ok names hn (tail := tail) (p := 2 + 2 + url.body.length)
      (data := le16 names.length ++ unicodeField 2 url ++ names.flatMap (unicodeField 2) ++ tail) (by
        rw [Nat.add_assoc, ← List.drop_drop, e, ← List.append_assoc, List.drop_left']
        simp [encLen_length])
    refine ⟨names.length, (if slice (le16 names.length ++ unicodeField 2 url ++ names.flatMap (unicodeField 2) ++ tail) 2 4 = [0x01, 0x04] then
      SUPBOOK_INTERNAL else if slice (le16 names.length ++ unicodeField 2 url ++ names.flatMap (unicodeField 2) ++ tail) 0 4 = [0x01, 0x00, 0x01, 0x3A] then
      SUPBOOK_ADDIN else if names.length = 0 then SUPBOOK_DDEOLE else SUPBOOK_EXTERNAL), h0, ?_⟩
    unfold supbookType
    simp only [Nat.cast_ofNat] at hr
    rw [hr]
    simp only [bind, Except.bind, hs]
    split_ifs <;> rfl

theorem extern_refs_ok (data : Bytes) : ∀ (n p : Nat), p + 6 * n ≤ data.length → ∃ r, externRefs data n (p : Int) = .ok r := by
  intro n
  induction n with
  | zero => intro p _; exact ⟨[], rfl⟩
  | succ n ih =>
    intro p h
    obtain ⟨r, hr⟩ := ih (p + 6) (by omega)
    have hs := slice_nat data p (p + 6)
    have hl : (slice data (p : Int) ((p : Int) + 6)).length = 6 := by
      push_cast at hs
      rw [hs]
      simp
      omega
    simp only [externRefs]
    unfold unpackN
    rw [if_pos hl]
    push_cast at hr
    simp only [bind, Except.bind, hr]
    exact ⟨_, rfl⟩

theorem text_of {env : BookEnv} {pre : List GItem} {b : Book} (he : env.bv < 80 → b.encoding = some (textEncoding env.bv env.override (lastCodepage pre))) :
    env.bv < 80 → b.dec env = textAt env pre := fun h => dec_eq (he h)

theorem font_ok {env : BookEnv} {items pre : List GItem} {b : Book} {d : Bytes} {f : Font} (hq : pre <+: items)
    (hu : CodecUsable env.bv env.override env.codec (lastCodepage pre)) (hi : OpenInv env items pre b) (h : FontRecord (textAt env pre) f env.bv d) :
    ∃ b', bookFont env b d = .ok b' ∧ RawOk env items b' := by
  unfold bookFont
  cases hf : env.fi with
  | false => exact ⟨b, rfl, hi.raw⟩
  | true =>
    obtain ⟨b1, h1, h2⟩ := ensure_ok hq hu hi.enc hi.raw
    simp only [Bool.not_true, Bool.false_eq_true, if_false, h1, bind, Except.bind]
    have hd : decodeFont env.bv (b1.dec env) (fontPad b1.fmt.fontList).length d = .ok { f with fontIndex := (fontPad b1.fmt.fontList).length } := by
      by_cases h8 : env.bv < 80
      · rw [text_of (fun h => (ensure_inv hi.enc h1).2 (Or.inl h)) h8]
        exact fontRecord_read h _
      · have e : ∀ dec', decodeFont env.bv dec' (fontPad b1.fmt.fontList).length d = decodeFont env.bv (textAt env pre) (fontPad b1.fmt.fontList).length d := by
          intro dec'
          unfold decodeFont
          rw [if_pos (by omega), if_pos (by omega)]
          simp only [if_pos (show env.bv ≥ 80 by omega)]
        rw [e]
        exact fontRecord_read h _
    unfold handleFont
    simp only [Bool.not_true, Bool.false_eq_true, if_false, hd, bind, Except.bind]
    exact ⟨_, rfl, raw_of hi.raw h2⟩

theorem format_ok {env : BookEnv} {items pre : List GItem} {b : Book} {d : Bytes} {f : Nat × PyStr} (h50 : 50 ≤ env.bv) (hq : pre <+: items)
    (hu : CodecUsable env.bv env.override env.codec (lastCodepage pre)) (hi : OpenInv env items pre b) (h : FormatRecord env.bv (textAt env pre) f d) :
    ∃ b', bookFormat env b d = .ok b' ∧ RawOk env items b' := by
  unfold bookFormat
  obtain ⟨b1, h1, h2⟩ := ensure_ok hq hu hi.enc hi.raw
  have i2 := (ensure_inv hi.enc h1).2
  simp only [h1, bind, Except.bind]
  obtain ⟨txt, tail, ht, hk, rfl⟩ := h
  unfold handleFormat
  simp only [Bool.false_eq_true, if_false]
  have hkey : formatKeyOf env.bv b1.fmt.actualfmtcount (le16 f.1 ++ txt ++ tail) = .ok f.1 := by
    unfold formatKeyOf
    rw [if_pos h50]
    exact unpackH_at (p := 0) (r := txt ++ tail) hk (by simp)
  have hstr : formatStrOf env.bv (b1.dec env) (le16 f.1 ++ txt ++ tail) = .ok f.2 := by
    have hp : (le16 f.1 ++ txt ++ tail).drop 2 = txt ++ tail := by simp [le16]
    unfold formatStrOf
    by_cases h8 : env.bv ≥ 80
    · rw [if_pos h8] at ht ⊢
      exact (textField_read (dec' := textAt env pre) (Or.inr rfl) (fun _ => rfl) ht hp).2 h8
    · rw [if_neg h8] at ht ⊢
      rw [if_neg (by omega)]
      exact (textField_read (Or.inl rfl) (fun h9 => dec_eq (i2 (Or.inl h9))) ht hp).1 (by omega)
  simp only [hkey, hstr, bind, Except.bind]
  exact ⟨_, rfl, raw_of hi.raw h2⟩

theorem style_ok {env : BookEnv} {items pre : List GItem} {b : Book} {d : Bytes} {s : StyleRec} (hi : OpenInv env items pre b)
    (h : StyleRecord env.bv (textAt env pre) true s d) (hcp : s.builtin = true ∨ 80 ≤ env.bv ∨ (lastCodepage pre).isSome) :
    ∃ b', bookStyle env b d = .ok b' ∧ RawOk env items b' := by
  suffices h : ∃ f, handleStyle env.bv env.fi (b.dec env) b.fmt d = .ok f by
    obtain ⟨f, hf⟩ := h
    unfold bookStyle
    rw [hf]
    exact ⟨_, rfl, hi.raw⟩
  cases hf : env.fi with
  | false => exact ⟨_, rfl⟩
  | true =>
    by_cases hz : d = [0, 0, 0, 0] ∧ (b.fmt.styleMap "Normal".toList).isNone = true
    · obtain ⟨rfl, hz⟩ := hz
      unfold handleStyle
      have hu : unpackN 4 (sliceTo [0, 0, 0, 0] 4) = .ok [0, 0, 0, 0] := rfl
      simp only [Bool.not_true, Bool.false_eq_true, if_false, hu, bind, Except.bind]
      rw [if_pos ⟨trivial, hz⟩]
      exact ⟨_, rfl⟩
    · have h' : StyleRecord env.bv (textAt env pre) (!(b.fmt.styleMap "Normal".toList).isNone) s d := by
        cases h with
        | builtin xf u id level s tail hx hu hi hl hs => exact .builtin xf u id level s tail hx hu hi hl hs
        | user xf u s txt tail hx hu ht hlen _ =>
          refine .user xf u s txt tail hx hu ht hlen ?_
          cases hN : (b.fmt.styleMap "Normal".toList).isNone with
          | false => exact Or.inl rfl
          | true => right; intro he; exact hz ⟨he, hN⟩
        | zero hn => cases hn
      rw [style_read (by simp) h']
      cases hb : s.builtin with
      | true => exact ⟨_, rfl⟩
      | false =>
        obtain ⟨n1, n2⟩ := style_name (dec' := b.dec env) h' hb
        simp only [Bool.false_eq_true, if_false]
        by_cases h8 : 80 ≤ env.bv
        · rw [n1 h8]; exact ⟨_, rfl⟩
        · obtain ⟨raw, r1, r2⟩ := n2 (by omega)
          have he : b.encoding = some (textEncoding env.bv env.override (lastCodepage pre)) := by
            rcases hi.enc.enc with he | he
            · have := hi.enc.set he
              rw [this, hb] at hcp
              simp at hcp
              omega
            · exact he
          rw [r2, dec_eq he, show env.codec (textEncoding env.bv env.override (lastCodepage pre)) raw = .ok s.name from r1]
          exact ⟨_, rfl⟩

theorem name_ok {env : BookEnv} {items pre : List GItem} {b : Book} {d : Bytes} {o : NameObj} (h50 : 50 ≤ env.bv) (hq : pre <+: items)
    (hu : CodecUsable env.bv env.override env.codec (lastCodepage pre)) (hi : OpenInv env items pre b) (h : NameRecord env.bv (textAt env pre) o d) :
    ∃ b', handleName env b d = .ok b' ∧ RawOk env items b' := by
  unfold handleName
  rw [if_neg (by omega)]
  obtain ⟨b1, h1, h2⟩ := derive_ok hq hu hi.enc hi.raw
  have i2 := (derive_inv hi.enc h1).2
  obtain ⟨s, n, e1, e2, _, e4, _, _, _, t, q, e5, _⟩ := name_read (b := b1) h50 (fun h8 => dec_eq (i2 (Or.inl h8))) h
  simp only [h1, bind, Except.bind, e1, unpackN, if_pos e2, e4, e5]
  exact ⟨_, rfl, raw_of hi.raw (Or.inl h2)⟩

theorem boundsheet_ok {env : BookEnv} {items pre : List GItem} {b : Book} {d : Bytes} {s : SheetRec} (h50 : 50 ≤ env.bv) (hq : pre <+: items)
    (hu : CodecUsable env.bv env.override env.codec (lastCodepage pre)) (hi : OpenInv env items pre b) (h : BoundsheetRecord env.bv (textAt env pre) s d) :
    ∃ b', handleBoundsheet env b d = .ok b' ∧ RawOk env items b' := by
  unfold handleBoundsheet
  obtain ⟨b1, h1, h2⟩ := derive_ok hq hu hi.enc hi.raw
  have i2 := (derive_inv hi.enc h1).2
  have hb := boundsheet_read (b := b1) h50 h (fun h8 => i2 (Or.inl h8))
  simp only [h1, bind, Except.bind, hb]
  refine ⟨_, rfl, raw_of hi.raw (Or.inl ?_)⟩
  unfold addSheet
  by_cases ht : s.ty ≠ 0
  · rw [if_pos ht]; exact h2
  · rw [if_neg ht]; exact h2

theorem extern_ok {env : BookEnv} {items pre : List GItem} {b : Book} {d : Bytes} {more : List Bytes} (hq : pre <+: items)
    (hu : CodecUsable env.bv env.override env.codec (lastCodepage pre)) (hi : OpenInv env items pre b)
    (h8 : 80 ≤ env.bv → ExternComplete env.bv d more)
    (h5 : env.bv < 80 → ∃ nc ty rest, d = nc :: ty :: rest ∧ (ty = 3 → ∃ s, textAt env pre (rest.take nc.toNat) = .ok s)) :
    ∃ b', applyGItem env b (.extern d more) = .ok b' ∧ RawOk env items b' ∧ b'.extnshtCount = b.extnshtCount + 1 ∧
      (env.bv < 80 → (∀ k, k ≠ b.extnshtCount + 1 → b'.extnshtNameFromNum k = b.extnshtNameFromNum k) ∧
        ∀ nc rest, d = nc :: 3 :: rest → ∃ s, b'.extnshtNameFromNum (b.extnshtCount + 1) = some s) := by
  obtain ⟨b1, h1, h2⟩ := derive_ok hq hu hi.enc hi.raw
  have i2 := (derive_inv hi.enc h1).2
  obtain ⟨fe, fc, fu, fr, hfr⟩ := derive_frame h1
  have hc1 : b1.extnshtCount = b.extnshtCount := by rw [hfr]
  have hn1 : b1.extnshtNameFromNum = b.extnshtNameFromNum := by rw [hfr]
  simp only [applyGItem, externBegin, h1, bind, Except.bind, pure, Except.pure]
  by_cases hv : env.bv ≥ 80
  · rw [if_pos hv]
    have hx := h8 hv
    unfold ExternComplete at hx
    rw [if_pos hv] at hx
    obtain ⟨n, rest, rfl, hn, hl, _⟩ := hx
    have hu : unpackH (slice (le16 n ++ rest ++ more.flatten) 0 2) = .ok n :=
      unpackH_at (p := 0) (r := rest ++ more.flatten) hn (by simp)
    obtain ⟨r, hr⟩ := extern_refs_ok (le16 n ++ rest ++ more.flatten) n 2 (by simp [le16] at hl ⊢; omega)
    unfold externApply8
    simp only [Nat.cast_ofNat] at hr
    simp only [hu, hr, bind, Except.bind]
    exact ⟨_, rfl, raw_of hi.raw (Or.inl h2), by show b1.extnshtCount + 1 = _; rw [hc1], fun h => absurd hv (by omega)⟩
  · rw [if_neg hv]
    obtain ⟨nc, ty, rest, rfl, hd⟩ := h5 (by omega)
    unfold externApply57
    have hu : unpackN 2 (sliceTo (nc :: ty :: rest) 2) = .ok [nc, ty] := by
      have : sliceTo (nc :: ty :: rest) 2 = [nc, ty] := by
        have := slice_nat (nc :: ty :: rest) 0 2
        simp [sliceTo, clampIdx] at *
      rw [this]; rfl
    have f0 : fld [nc, ty] 0 1 = nc.toNat := by simp [fld, le]
    have f1 : fld [nc, ty] 1 1 = ty.toNat := by simp [fld, le]
    simp only [hu, bind, Except.bind, f0, f1]
    unfold externName57
    by_cases h3 : ty.toNat = 3
    · have ht : ty = 3 := UInt8.toNat_inj.mp h3
      obtain ⟨s, hs⟩ := hd ht
      rw [if_pos h3]
      have hsl : slice (nc :: ty :: rest) 2 ((nc.toNat : Int) + 2) = rest.take nc.toNat := by
        have := slice_nat (nc :: ty :: rest) 2 (nc.toNat + 2)
        push_cast at this
        rw [this]
        simp
      have hdec : Book.dec env { b1 with extnshtCount := b1.extnshtCount + 1 } (rest.take nc.toNat) = .ok s := by
        rw [dec_eq (show ({ b1 with extnshtCount := b1.extnshtCount + 1 } : Book).encoding = _ from i2 (Or.inl (by omega)))]
        exact hs
      rw [hsl, hdec]
      refine ⟨_, rfl, raw_of hi.raw (Or.inl h2), by show b1.extnshtCount + 1 = _; rw [hc1], fun _ => ⟨?_, ?_⟩⟩
      · intro k hk
        show dictSet b1.extnshtNameFromNum (b1.extnshtCount + 1) s k = _
        rw [hc1, hn1]
        simp [dictSet, hk]
      · intro _ _ _
        refine ⟨s, ?_⟩
        show dictSet b1.extnshtNameFromNum (b1.extnshtCount + 1) s _ = _
        rw [hc1]
        simp [dictSet]
    · rw [if_neg h3]
      refine ⟨_, rfl, raw_of hi.raw (Or.inl h2), by show b1.extnshtCount + 1 = _; rw [hc1], fun _ => ⟨?_, ?_⟩⟩
      · intro k _
        show b1.extnshtNameFromNum k = _
        rw [hn1]
      · intro nc' rest' he
        simp only [List.cons.injEq] at he
        rw [he.2.1] at h3
        exact absurd rfl h3

theorem writeaccess8_ok {data tail : Bytes} {u : UStr} (hu : u.FitsIn 2) (hd : data = unicodeField 2 u ++ tail) : writeaccess8 data = .ok u.text := by
  have h := unpackUnicode_at (data := data) (p := 0) (r := tail) u hu.1 (Or.inr rfl) hu.2 (by rw [hd]; simp [unicodeField])
  rw [Int.natCast_zero] at h
  unfold writeaccess8
  rw [h]

/-- A readable item is read. -/
theorem item_ok {env : BookEnv} {items pre : List GItem} {b : Book} {it : GItem}
    (h50 : 50 ≤ env.bv ∨ ∀ d, it ≠ .one 0x41e d ∧ it ≠ .one 0x85 d ∧ it ≠ .one 0x18 d) (hq : pre ++ [it] <+: items)
    (hu : ∀ q, q <+: items → CodecUsable env.bv env.override env.codec (lastCodepage q)) (hi : OpenInv env items pre b)
    (hr : Readable env.bv (textAt env) items pre it) : ∃ b', applyGItem env b it = .ok b' ∧ RawOk env items b' := by
  have hp : pre <+: items := (List.prefix_append pre [it]).trans hq
  have hup := hu pre hp
  cases hr with
  | font c d f hc h =>
    have e : applyGItem env b (.one c d) = bookFont env b d := by rcases hc with rfl | rfl <;> rfl
    rw [e]; exact font_ok hp hup hi h
  | format d f h =>
    rcases h50 with h50 | h50
    · exact format_ok h50 hp hup hi h
    · exact absurd rfl (h50 d).1
  | xf d x h =>
    have e : applyGItem env b (.one 0xe0 d) = bookXf env b d := rfl
    rw [e]
    unfold bookXf handleXf
    rw [decodeXf_record h]
    exact ⟨_, rfl, hi.raw⟩
  | boundsheet d s h =>
    rcases h50 with h50 | h50
    · exact boundsheet_ok h50 hp hup hi h
    · exact absurd rfl (h50 d).2.1
  | datemode m tail h =>
    have e : applyGItem env b (.one 0x22 (le16 m ++ tail)) = handleDatemode b (le16 m ++ tail) := rfl
    rw [e]
    unfold handleDatemode
    have : unpackH (slice (le16 m ++ tail) 0 2) = .ok m := unpackH_at (p := 0) (r := tail) (by omega) (by simp)
    rw [this]
    have ha : pyAssert (m = 0 || m = 1) = .ok () := by rcases h with rfl | rfl <;> rfl
    simp only [bind, Except.bind, ha]
    exact ⟨_, rfl, hi.raw⟩
  | codepage cp tail h =>
    obtain ⟨b', h1, h2⟩ := codepage_ok h hq (hu _ hq) hi.raw
    exact ⟨b', h1, raw_of hi.raw (Or.inl h2)⟩
  | country x y tail hx hy same =>
    have e : applyGItem env b (.one 0x8c (le16 x ++ le16 y ++ tail)) = handleCountry b (le16 x ++ le16 y ++ tail) := rfl
    rw [e]
    unfold handleCountry
    have hs : slice (le16 x ++ le16 y ++ tail) 0 4 = le16 x ++ le16 y := slice_front 4 _ _ (by simp [le16])
    have hl : (le16 x ++ le16 y).length = 4 := by simp [le16]
    have ha : (b.countries = (0, 0) || b.countries = (fld (le16 x ++ le16 y) 0 2, fld (le16 x ++ le16 y) 2 2)) = true := by
      rcases hi.country with h | ⟨d, h1, h2⟩
      · simp [h]
      · rw [same d h1] at h2
        simp [h2]
    rw [hs]
    simp only [unpackN, if_pos hl, bind, Except.bind]
    rw [ha]
    exact ⟨_, rfl, hi.raw⟩
  | supbook d h =>
    obtain ⟨t, ht⟩ := supbook_ok (b := b) h
    exact ⟨_, ht, hi.raw⟩
  | externname8 opts tail u h8 ho hf hs =>
    have e : applyGItem env b (.one 0x23 (opts ++ unicodeField 1 u ++ tail)) = handleExternname env b (opts ++ unicodeField 1 u ++ tail) := rfl
    rw [e]
    unfold handleExternname
    rw [if_pos h8]
    have hl : (sliceTo (opts ++ unicodeField 1 u ++ tail) 6).length = 6 := by
      simp [sliceTo, clampIdx, ho]
    have hn := unicodeLen_at (data := opts ++ unicodeField 1 u ++ tail) (p := 6) (r := tail) u hf.1 (Or.inl rfl) hf.2 (by
      rw [List.append_assoc, List.drop_left' ho]; simp [unicodeField])
    simp only [Nat.cast_ofNat] at hn
    obtain ⟨t, ht⟩ : ∃ t, idx b.supbookTypes (-1) = .ok t := by
      have hne := hi.sup hs
      have hpos : 0 < b.supbookTypes.length := List.length_pos_iff.mpr hne
      unfold idx
      have h0 : (0 : Int) ≤ -1 + (b.supbookTypes.length : Int) := by omega
      simp
      rw [if_neg hne]
      cases hg : b.supbookTypes[(-1 + (b.supbookTypes.length : Int)).toNat]? with
      | none => rw [List.getElem?_eq_none_iff] at hg; omega
      | some t => exact ⟨t, rfl⟩
    simp only [unpackN, if_pos hl, bind, Except.bind, hn, ht]
    refine ⟨_, rfl, raw_of hi.raw (Or.inr ?_)⟩
    by_cases hA : t = some SUPBOOK_ADDIN
    · rw [if_pos hA]
    · rw [if_neg hA]
  | externname d h8 =>
    refine ⟨b, ?_, hi.raw⟩
    have e : applyGItem env b (.one 0x23 d) = handleExternname env b d := rfl
    rw [e]
    unfold handleExternname
    rw [if_neg (by omega)]
  | writeaccess8 u tail h8 hf =>
    have e : applyGItem env b (.one 0x5c (unicodeField 2 u ++ tail)) = handleWriteaccess env b (unicodeField 2 u ++ tail) := rfl
    rw [e]
    unfold handleWriteaccess
    rw [if_neg (by omega), writeaccess8_ok hf rfl]
    exact ⟨_, rfl, hi.raw⟩
  | writeaccess raw tail h8 hl h =>
    have e : applyGItem env b (.one 0x5c (encLen 1 raw.length ++ raw ++ tail)) = handleWriteaccess env b (encLen 1 raw.length ++ raw ++ tail) := rfl
    rw [e]
    unfold handleWriteaccess
    rw [if_pos h8]
    cases he : b.encoding with
    | none =>
      refine ⟨_, rfl, ?_⟩
      intro data hd
      simp only [Option.some.injEq] at hd
      subst hd
      exact ⟨h8, raw, tail, hl, rfl, h⟩
    | some en =>
      have hen : b.encoding = some (textEncoding env.bv env.override (lastCodepage pre)) := by
        rcases hi.enc.enc with h | h
        · rw [h] at he; cases he
        · exact h
      obtain ⟨s, hs⟩ := h pre hp
      have hus := unpackString_at (data := encLen 1 raw.length ++ raw ++ tail) (r := tail) (p := 0) (b.dec env) (Or.inl rfl) (by simpa using hl) (by simp)
      rw [Int.natCast_zero, dec_eq hen, show env.codec (textEncoding env.bv env.override (lastCodepage pre)) raw = .ok s from hs] at hus
      simp only
      rw [dec_eq hen, hus]
      exact ⟨_, rfl, hi.raw⟩
  | name d o h =>
    rcases h50 with h50 | h50
    · exact name_ok h50 hp hup hi h
    · exact absurd rfl (h50 d).2.2
  | palette cs tail h hl ht first =>
    have e : applyGItem env b (.one 0x92 (encPalette cs tail)) = bookPalette env b (encPalette cs tail) := rfl
    rw [e]
    unfold bookPalette
    cases hf : env.fi with
    | false => exact ⟨_, rfl, hi.raw⟩
    | true =>
      obtain ⟨p1, dflt, p2, p3, p4⟩ := hi.palette hf first
      have h56 : paletteSize env.bv ≤ 56 := by unfold paletteSize; split_ifs <;> omega
      have hc := C37_palette dflt env.bv p2 b.fmt p1 p4 cs h (by omega) tail ht
      rw [if_pos (by omega)] at hc
      obtain ⟨st', h1, _⟩ := hc
      rw [h1]
      exact ⟨_, rfl, hi.raw⟩
  | style d s h hcp => exact style_ok hi h hcp
  | normal first =>
    have e : applyGItem env b (.one 0x293 [0, 0, 0, 0]) = bookStyle env b [0, 0, 0, 0] := rfl
    rw [e]
    unfold bookStyle
    cases hf : env.fi with
    | false => exact ⟨_, rfl, hi.raw⟩
    | true =>
      have hz := hi.style first
      unfold handleStyle
      have hu : unpackN 4 (sliceTo [0, 0, 0, 0] 4) = .ok [0, 0, 0, 0] := rfl
      simp only [Bool.not_true, Bool.false_eq_true, if_false, hu, bind, Except.bind]
      rw [if_pos ⟨trivial, by rw [hz]; rfl⟩]
      exact ⟨_, rfl, hi.raw⟩
  | sheetsoffset d h =>
    have e : applyGItem env b (.one 0x8e d) = handleSheetsoffset b d := rfl
    rw [e]
    unfold handleSheetsoffset unpacki
    simp only [unpackN, if_pos h, bind, Except.bind, pure, Except.pure]
    exact ⟨_, rfl, hi.raw⟩
  | extern8 d more h8 h =>
    obtain ⟨b', h1, h2, _⟩ := extern_ok hp hup hi (fun _ => h) (fun h => absurd h8 (by omega))
    exact ⟨b', h1, h2⟩
  | extern nc ty rest more h8 h =>
    obtain ⟨b', h1, h2, _⟩ := extern_ok (more := more) hp hup hi (fun h => absurd h8 (by omega)) (fun _ => ⟨nc, ty, rest, rfl, h⟩)
    exact ⟨b', h1, h2⟩
  | sst total ss d more hs hn h =>
    have hut : unpacki (slice d 4 8) = .ok (ss.length : Int) := by
      have e : d = le32 total ++ (le32 ss.length ++ (recordsOf (ss.flatMap SStr.items)).1) := by
        have : sstRecords (le32 total ++ le32 ss.length) ss =
            ((le32 total ++ le32 ss.length) ++ (recordsOf (ss.flatMap SStr.items)).1) :: (recordsOf (ss.flatMap SStr.items)).2 := rfl
        rw [this] at h
        simp only [List.cons.injEq] at h
        rw [← h.1, List.append_assoc]
      have := unpacki_at (data := d) (p := 4) (r := (recordsOf (ss.flatMap SStr.items)).1) hn (by
        rw [e, show 4 = (le32 total).length from rfl, List.drop_left])
      simpa using this
    have ht := C26_shared_strings_partial (le32 total ++ le32 ss.length) (by simp [le32, le16]) ss hs
    simp only [applyGItem, hut, ← h, bind, Except.bind, ht]
    exact ⟨_, rfl, hi.raw⟩
  | unknown c d h =>
    refine ⟨b, ?_, hi.raw⟩
    simp only [knownCodes, List.mem_cons, List.not_mem_nil, or_false, not_or] at h
    obtain ⟨a1, a2, a3, a4, a5, a6, a7, a8, a9, a10, a11, a12, a13, a14, a15, a16⟩ := h
    simp only [applyGItem, globalsRecord]
    rw [if_neg (by rintro (h | h); exact a1 h; exact a2 h), if_neg a3, if_neg a4, if_neg a5, if_neg a6, if_neg a7, if_neg a8, if_neg a9, if_neg a10,
      if_neg a11, if_neg a12, if_neg a13, if_neg a14, if_neg a15, if_neg a16]

theorem occurs_snoc {c : Nat} {pre : List GItem} {it : GItem} : Occurs c (pre ++ [it]) ↔ Occurs c pre ∨ ∃ d, it = .one c d := by
  unfold Occurs
  constructor
  · rintro ⟨d, h⟩
    rcases List.mem_append.mp h with h | h
    · exact Or.inl ⟨d, h⟩
    · exact Or.inr ⟨d, (List.mem_singleton.mp h).symm⟩
  · rintro (⟨d, h⟩ | ⟨d, rfl⟩)
    · exact ⟨d, List.mem_append_left _ h⟩
    · exact ⟨d, by simp⟩

/-- The next state after one record. -/
theorem one_inv {env : BookEnv} {items pre : List GItem} {b b' : Book} {c : Nat} {d : Bytes} (hi : OpenInv env items pre b)
    (ha : applyGItem env b (.one c d) = .ok b') (hraw : RawOk env items b') : OpenInv env items (pre ++ [.one c d]) b' := by
  have henc := item_enc hi.enc ha
  have hf := record_frame ha
  have hx : externsOf (pre ++ [.one c d]) = externsOf pre := by simp [externsOf]
  have hno : ∀ c', ¬ Occurs c' (pre ++ [.one c d]) → c ≠ c' ∧ ¬ Occurs c' pre :=
    fun c' h => ⟨fun e => h (occurs_snoc.mpr (Or.inr ⟨d, by rw [e]⟩)), fun e => h (occurs_snoc.mpr (Or.inl e))⟩
  refine ⟨henc, hraw, ?_, ?_, ?_, ?_, by rw [hx, hf.externCount]; exact hi.count, by rw [hx, hf.externNames]; exact hi.extNames⟩
  · by_cases hc : c = 0x8c
    · subst hc
      right
      refine ⟨d, by simp, ?_⟩
      have e : applyGItem env b (.one 0x8c d) = handleCountry b d := rfl
      rw [e] at ha
      unfold handleCountry at ha
      obtain ⟨x, h1, ha⟩ := bind_ok ha
      obtain ⟨_, _, ha⟩ := bind_ok ha
      cases ha
      unfold unpackN at h1
      by_cases hl : (slice d 0 4).length = 4
      · rw [if_pos hl] at h1
        cases h1
        have := slice_nat d 0 4
        simp only [Nat.cast_zero, Nat.cast_ofNat, List.drop_zero] at this
        rw [this]
      · rw [if_neg hl] at h1; cases h1
    · rw [hf.countries hc]
      rcases hi.country with h | ⟨e, h1, h2⟩
      · exact Or.inl h
      · exact Or.inr ⟨e, List.mem_append_left _ h1, h2⟩
  · intro hfi hn
    obtain ⟨n1, n2⟩ := hno _ hn
    rw [hf.palette n1, hf.colourMap n1]
    exact hi.palette hfi n2
  · intro hn
    obtain ⟨n1, n2⟩ := hno _ hn
    rw [hf.style n1]
    exact hi.style n2
  · intro hn
    by_cases hc : c = 0x1ae
    · subst hc
      have e : applyGItem env b (.one 0x1ae d) = handleSupbook b d := rfl
      rw [e] at ha
      unfold handleSupbook at ha
      obtain ⟨n, _, ha⟩ := bind_ok ha
      obtain ⟨t, _, ha⟩ := bind_ok ha
      cases ha
      simp
    · rw [hf.supTypes hc]
      rcases occurs_snoc.mp hn with h | ⟨e, h⟩
      · exact hi.sup h
      · cases h; exact absurd rfl hc

/-- The next state. -/
theorem gitem_step {env : BookEnv} {items pre : List GItem} {b : Book} {it : GItem}
    (h50 : 50 ≤ env.bv ∨ ∀ d, it ≠ .one 0x41e d ∧ it ≠ .one 0x85 d ∧ it ≠ .one 0x18 d) (hq : pre ++ [it] <+: items)
    (hu : ∀ q, q <+: items → CodecUsable env.bv env.override env.codec (lastCodepage q)) (hi : OpenInv env items pre b)
    (hr : Readable env.bv (textAt env) items pre it) : ∃ b', applyGItem env b it = .ok b' ∧ OpenInv env items (pre ++ [it]) b' := by
  obtain ⟨b', ha, hraw⟩ := item_ok h50 hq hu hi hr
  refine ⟨b', ha, ?_⟩
  have henc := item_enc hi.enc ha
  cases it with
  | sst d more =>
    have hne : ∀ c, ¬ ∃ e, GItem.sst d more = .one c e := by rintro c ⟨e, h⟩; cases h
    have hx : externsOf (pre ++ [.sst d more]) = externsOf pre := by simp [externsOf]
    obtain ⟨t, rfl⟩ := sst_frame ha
    refine ⟨henc, hraw, ?_, ?_, ?_, ?_, by rw [hx]; exact hi.count, by rw [hx]; exact hi.extNames⟩
    · rcases hi.country with h | ⟨e, h1, h2⟩
      · exact Or.inl h
      · exact Or.inr ⟨e, List.mem_append_left _ h1, h2⟩
    · intro hf hn; exact hi.palette hf (fun h => hn (occurs_snoc.mpr (Or.inl h)))
    · intro hn; exact hi.style (fun h => hn (occurs_snoc.mpr (Or.inl h)))
    · intro hn
      rcases occurs_snoc.mp hn with h | h
      · exact hi.sup h
      · exact absurd h (hne _)
  | extern d more =>
    have hne : ∀ c, ¬ ∃ e, GItem.extern d more = .one c e := by rintro c ⟨e, h⟩; cases h
    have hx : externsOf (pre ++ [.extern d more]) = externsOf pre ++ [d] := by simp [externsOf]
    have hp : pre <+: items := (List.prefix_append pre _).trans hq
    have hE : b'.extnshtCount = b.extnshtCount + 1 ∧
        (env.bv < 80 → (∀ k, k ≠ b.extnshtCount + 1 → b'.extnshtNameFromNum k = b.extnshtNameFromNum k) ∧
          ∀ nc rest, d = nc :: 3 :: rest → ∃ s, b'.extnshtNameFromNum (b.extnshtCount + 1) = some s) := by
      have : ∃ b'', applyGItem env b (.extern d more) = .ok b'' ∧ RawOk env items b'' ∧ b''.extnshtCount = b.extnshtCount + 1 ∧
          (env.bv < 80 → (∀ k, k ≠ b.extnshtCount + 1 → b''.extnshtNameFromNum k = b.extnshtNameFromNum k) ∧
            ∀ nc rest, d = nc :: 3 :: rest → ∃ s, b''.extnshtNameFromNum (b.extnshtCount + 1) = some s) := by
        cases hr with
        | extern8 _ _ h8 h => exact extern_ok hp (hu _ hp) hi (fun _ => h) (fun h => absurd h8 (by omega))
        | extern nc ty rest _ h8 h => exact extern_ok (more := more) hp (hu _ hp) hi (fun h => absurd h8 (by omega)) (fun _ => ⟨nc, ty, rest, rfl, h⟩)
      obtain ⟨b'', h1, _, h2⟩ := this
      rw [ha] at h1
      cases h1
      exact h2
    obtain ⟨c1, c2⟩ := hE
    obtain ⟨_, _, _, _, _, _, _, _, hfr⟩ := extern_frame ha
    refine ⟨henc, hraw, ?_, ?_, ?_, ?_, by rw [hx, c1, hi.count]; simp, ?_⟩
    · rw [hfr]
      rcases hi.country with h | ⟨e, h1, h2⟩
      · exact Or.inl h
      · exact Or.inr ⟨e, List.mem_append_left _ h1, h2⟩
    · rw [hfr]; intro hf hn; exact hi.palette hf (fun h => hn (occurs_snoc.mpr (Or.inl h)))
    · rw [hfr]; intro hn; exact hi.style (fun h => hn (occurs_snoc.mpr (Or.inl h)))
    · rw [hfr]
      intro hn
      rcases occurs_snoc.mp hn with h | h
      · exact hi.sup h
      · exact absurd h (hne _)
    · intro h8 k nc rest hk
      rw [hx] at hk
      obtain ⟨c3, c4⟩ := c2 h8
      by_cases hkl : k < (externsOf pre).length
      · rw [List.getElem?_append_left hkl] at hk
        rw [c3 (k + 1) (by rw [hi.count]; omega)]
        exact hi.extNames h8 k nc rest hk
      · rw [List.getElem?_append_right (by omega)] at hk
        have hk0 : k - (externsOf pre).length = 0 := by
          by_contra hne
          rw [List.getElem?_eq_none (by simp; omega)] at hk
          cases hk
        rw [hk0] at hk
        simp only [List.getElem?_cons_zero, Option.some.injEq] at hk
        have := c4 nc rest hk
        rw [hi.count] at this
        rw [show k = (externsOf pre).length by omega]
        exact this
  | one c d => exact one_inv hi ha hraw

/-- All items are read. -/
theorem items_ok {env : BookEnv} {items : List GItem} (h50 : 50 ≤ env.bv)
    (hu : ∀ q, q <+: items → CodecUsable env.bv env.override env.codec (lastCodepage q))
    (hr : ∀ pre it post, items = pre ++ it :: post → Readable env.bv (textAt env) items pre it) : ∀ (post pre : List GItem) (b : Book),
    items = pre ++ post → OpenInv env items pre b → ∃ b', applyGlobals env b post = .ok b' ∧ OpenInv env items items b' := by
  intro post
  induction post with
  | nil => intro pre b he hi; rw [List.append_nil] at he; subst he; exact ⟨b, rfl, hi⟩
  | cons it post ih =>
    intro pre b he hi
    obtain ⟨b1, h1, h2⟩ := gitem_step (.inl h50) ⟨post, by rw [he]; simp⟩ hu hi (hr pre it post he)
    obtain ⟨b2, h3, h4⟩ := ih (pre ++ [it]) b1 (by rw [he]; simp) h2
    exact ⟨b2, by simp only [applyGlobals, h1, bind, Except.bind, h3], h4⟩

/-- The start. -/
theorem open_inv0 {env : BookEnv} (hv : env.bv = 50 ∨ env.bv = 70 ∨ env.bv = 80) (items : List GItem) :
    ∃ f, initialiseColourMap env.bv env.fi newBook.fmt = .ok f ∧ OpenInv env items [] { newBook with fmt := f } := by
  obtain ⟨dflt, hd, hl⟩ : ∃ dflt, defaultPalette env.bv = .ok dflt ∧ dflt.length = paletteSize env.bv := by
    rcases hv with h | h | h <;> rw [h] <;> exact ⟨_, rfl, by decide⟩
  obtain ⟨f, h1, h2⟩ := C37_initial_colour_map env.bv dflt hd env.fi newBook.fmt
  obtain ⟨m, hf⟩ := colour_map_fields h1
  refine ⟨f, h1, ⟨fresh_enc env f, ?_, Or.inl rfl, ?_, ?_, ?_, rfl, ?_⟩⟩
  · intro d hd; cases hd
  · intro hfi _
    refine ⟨by rw [hf], dflt, hd, hl, fun i => ?_⟩
    have := h2 i
    rw [if_pos hfi] at this
    exact this
  · intro _; rw [hf]
  · rintro ⟨d, h⟩; cases h
  · intro _ k nc rest h; simp [externsOf] at h

/-- The scopes of the names can be worked out. -/
theorem scopes_ok {env : BookEnv} {b : Book} (os : List NameObj)
    (h : env.bv < 80 → ∀ o ∈ os, o.extnSheetNum = 0 ∨ ∃ s, b.extnshtNameFromNum o.extnSheetNum = some s) : ∃ os', setScopes env b os = .ok os' := by
  induction os with
  | nil => exact ⟨[], rfl⟩
  | cons o os ih =>
    obtain ⟨os', h1⟩ := ih (fun h8 o' ho => h h8 o' (by simp [ho]))
    have : ∃ s, nameScope env b o = .ok s := by
      unfold nameScope
      by_cases h8 : env.bv ≥ 80
      · rw [if_pos h8]
        by_cases h0 : o.excelSheetIndex = 0
        · rw [if_pos h0]; exact ⟨_, rfl⟩
        · rw [if_neg h0]
          cases b.allSheetsMap[o.excelSheetIndex - 1]? with
          | none => exact ⟨_, rfl⟩
          | some s => exact ⟨_, rfl⟩
      · rw [if_neg h8]
        by_cases h0 : o.extnSheetNum = 0
        · rw [if_pos h0]; exact ⟨_, rfl⟩
        · rw [if_neg h0]
          rcases h (by omega) o (by simp) with h | ⟨s, h⟩
          · exact absurd h h0
          · rw [h]; exact ⟨_, rfl⟩
    obtain ⟨s, h2⟩ := this
    simp only [setScopes, h1, h2, bind, Except.bind]
    exact ⟨_, rfl⟩

end Xlrd
