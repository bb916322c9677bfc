import Verif.Lemmas.OldHead
import Verif.Spec.Biff2

/-!
# EFONT records

The colour of a font does not matter to any other record, so a file with EFONT records is read like the file without them, but for these colours.
-/
set_option linter.unusedSimpArgs false
namespace Xlrd
open Spec

/-- The book with other fonts. -/
def withFonts (l : List Font) (b : Book) : Book := { b with fmt := { b.fmt with fontList := l } }

theorem withFonts_self (b : Book) : withFonts b.fmt.fontList b = b := rfl

theorem paletteLoop_fonts (l : List Font) (cs : List Nat) : ∀ (i : Nat) (st : FmtSt),
    paletteLoop { st with fontList := l } i cs = (paletteLoop st i cs).map fun s => { s with fontList := l } := by
  induction cs with
  | nil => intro i st; rfl
  | cons c cs ih =>
    intro i st
    simp only [paletteLoop]
    cases itemsGet st.colourMap (8 + i) with
    | none => rfl
    | some _ => exact ih (i + 1) { st with paletteRecord := st.paletteRecord ++ [paletteRgb c], colourMap := itemsSet st.colourMap (8 + i) (some (paletteRgb c)) }

theorem ensure_fonts (env : BookEnv) (l : List Font) (b : Book) : ensureEncoding env (withFonts l b) = (ensureEncoding env b).map (withFonts l) := by
  have := ensure_fmt env b { b.fmt with fontList := l } b.xfDone
  rw [show ({ b with fmt := { b.fmt with fontList := l }, xfDone := b.xfDone } : Book) = withFonts l b from rfl] at this
  rw [this]
  cases he : ensureEncoding env b with
  | error e => rfl
  | ok b1 =>
    obtain ⟨e, c, u, r, rfl⟩ := ensure_frame he
    rfl

/-- Records other than FONT records do not mind the fonts. -/
theorem globals_fonts {env : BookEnv} (l : List Font) {c : Nat} {d : Bytes} (b : Book) (hc : c ∈ [0x41e, 0xe0, 0x92, 0x56, 0x22, 0x42, 0x5c, 0x8c]) :
    globalsRecord env (withFonts l b) c d = (globalsRecord env b c d).map (withFonts l) := by
  simp only [List.mem_cons, List.not_mem_nil, or_false] at hc
  rcases hc with rfl | rfl | rfl | rfl | rfl | rfl | rfl | rfl
  · show bookFormat _ _ _ = (bookFormat _ _ _).map _
    unfold bookFormat
    rw [ensure_fonts]
    cases he : ensureEncoding env b with
    | error e => rfl
    | ok b1 =>
      simp only [Except.map, bind, Except.bind]
      rw [dec_congr (b := withFonts l b1) (b' := b1) rfl]
      have hf : handleFormat env.bv (b1.dec env) (withFonts l b1).fmt d false = (handleFormat env.bv (b1.dec env) b1.fmt d false).map fun s => { s with fontList := l } := by
        unfold handleFormat
        simp only [Bool.false_eq_true, if_false]
        show ((formatKeyOf env.bv b1.fmt.actualfmtcount d).bind _) = _
        cases formatKeyOf env.bv b1.fmt.actualfmtcount d with
        | error e => rfl
        | ok k =>
          simp only [bind, Except.bind]
          cases formatStrOf env.bv (b1.dec env) d <;> rfl
      rw [hf]
      cases handleFormat env.bv (b1.dec env) b1.fmt d false <;> rfl
  · show bookXf _ _ _ = (bookXf _ _ _).map _
    unfold bookXf
    have hf : handleXf env.bv env.fi (withFonts l b).fmt d = (handleXf env.bv env.fi b.fmt d).map fun s => { s with fontList := l } := by
      unfold handleXf
      simp only [bind, Except.bind]
      cases decodeXf env.bv d <;> rfl
    rw [hf]
    cases handleXf env.bv env.fi b.fmt d <;> rfl
  · show bookPalette _ _ _ = (bookPalette _ _ _).map _
    unfold bookPalette
    have hf : handlePalette env.fi (withFonts l b).fmt d = (handlePalette env.fi b.fmt d).map fun s => { s with fontList := l } := by
      unfold handlePalette
      cases env.fi with
      | false => rfl
      | true =>
        simp only [Bool.not_true, Bool.false_eq_true, if_false]
        cases unpackH (sliceTo d 2) with
        | error e => rfl
        | ok n =>
          simp only [bind, Except.bind]
          by_cases h : 4 * n + 2 ≤ d.length ∧ d.length ≤ 4 * n + 2 + 4
          · rw [if_neg (not_not_intro h), if_neg (not_not_intro h)]
            show ((pyAssert (decide (b.fmt.paletteRecord = []))).bind _) = _
            cases pyAssert (decide (b.fmt.paletteRecord = [])) with
            | error e => rfl
            | ok u => exact paletteLoop_fonts l _ 0 b.fmt
          · rw [if_pos h, if_pos h]; rfl
    rw [hf]
    cases handlePalette env.fi b.fmt d <;> rfl
  · rfl
  · show handleDatemode _ _ = (handleDatemode _ _).map _
    unfold handleDatemode
    cases unpackH (slice d 0 2) with
    | error e => rfl
    | ok m => simp only [bind, Except.bind]; cases pyAssert (decide (m = 0) || decide (m = 1)) <;> rfl
  · show handleCodepage _ _ _ = (handleCodepage _ _ _).map _
    unfold handleCodepage
    cases hu : unpackH (slice d 0 2) with
    | error e => rfl
    | ok m =>
      simp only [bind, Except.bind]
      have := derive_fmt env { b with codepage := some m } { b.fmt with fontList := l } b.xfDone
      rw [show deriveEncoding env { withFonts l b with codepage := some m } = _ from this]
      cases hd : deriveEncoding env { b with codepage := some m } with
      | error e => rfl
      | ok b1 =>
        obtain ⟨e, c, u, r, rfl⟩ := derive_frame hd
        rfl
  · show handleWriteaccess _ _ _ = (handleWriteaccess _ _ _).map _
    by_cases h8 : env.bv < 80
    · have e : ∀ b2 : Book, handleWriteaccess env b2 d = if b2.encoding.isNone then .ok { b2 with rawUser := some d } else
          (unpackString (b2.dec env) d 0 1).bind fun s => .ok { b2 with userName := env.rstrip s } := by
        intro b2; unfold handleWriteaccess; rw [if_pos h8]; cases b2.encoding <;> rfl
      rw [e, e]
      show (if b.encoding.isNone then _ else _) = _
      by_cases h : b.encoding.isNone
      · rw [if_pos h, if_pos h]; rfl
      · rw [if_neg h, if_neg h, dec_congr (b := withFonts l b) (b' := b) rfl]
        cases unpackString (b.dec env) d 0 1 <;> rfl
    · unfold handleWriteaccess
      rw [if_neg h8, if_neg h8]
      cases writeaccess8 d <;> rfl
  · show handleCountry _ _ = (handleCountry _ _).map _
    unfold handleCountry
    cases unpackN 4 (slice d 0 4) with
    | error e => rfl
    | ok m =>
      simp only [bind, Except.bind]
      show ((pyAssert (decide (b.countries = (0, 0)) || decide (b.countries = (fld m 0 2, fld m 2 2)))).bind _) = _
      cases pyAssert (decide (b.countries = (0, 0)) || decide (b.countries = (fld m 0 2, fld m 2 2))) <;> rfl

/-- Only FONT records make fonts. -/
theorem fonts_kept {env : BookEnv} {c : Nat} {d : Bytes} {b b' : Book} (hc : c ∈ [0x41e, 0xe0, 0x92, 0x56, 0x22, 0x42, 0x5c, 0x8c]) (h : globalsRecord env b c d = .ok b') :
    b'.fmt.fontList = b.fmt.fontList := by
  have h1 := globals_fonts (env := env) b.fmt.fontList (d := d) b hc
  rw [withFonts_self, h] at h1
  simp only [Except.map, Except.ok.injEq] at h1
  rw [h1]
  rfl

theorem fontPad_length {l m : List Font} (h : l.length = m.length) : (fontPad l).length = (fontPad m).length := by
  unfold fontPad
  by_cases h4 : m.length = 4
  · rw [if_pos h4, if_pos (h.trans h4)]; simp [h]
  · rw [if_neg h4, if_neg (by omega)]; exact h

/-- A FONT record adds its font to the fonts. -/
theorem font_fonts {env : BookEnv} (hfi : env.fi = true) {l : List Font} {b : Book} (hl : l.length = b.fmt.fontList.length) (d : Bytes) :
    (∃ e, bookFont env b d = .error e ∧ bookFont env (withFonts l b) d = .error e) ∨
    (∃ b2 f, bookFont env b d = .ok b2 ∧ b2.fmt.fontList = fontPad b.fmt.fontList ++ [f] ∧ bookFont env (withFonts l b) d = .ok (withFonts (fontPad l ++ [f]) b2)) := by
  unfold bookFont
  rw [hfi]
  simp only [Bool.not_true, Bool.false_eq_true, if_false]
  rw [ensure_fonts]
  cases he : ensureEncoding env b with
  | error e => exact .inl ⟨e, rfl, rfl⟩
  | ok b1 =>
    simp only [Except.map, bind, Except.bind]
    rw [dec_congr (b := withFonts l b1) (b' := b1) rfl]
    have hb1 : b1.fmt = b.fmt := by obtain ⟨e, c, u, r, rfl⟩ := ensure_frame he; rfl
    unfold handleFont
    simp only [Bool.not_true, Bool.false_eq_true, if_false]
    rw [show (withFonts l b1).fmt.fontList = l from rfl, fontPad_length hl, hb1]
    simp only [bind, Except.bind]
    cases hd : decodeFont env.bv (b1.dec env) (fontPad b.fmt.fontList).length d with
    | error e => exact .inl ⟨e, rfl, rfl⟩
    | ok f =>
      refine .inr ⟨_, f, rfl, rfl, ?_⟩
      show Except.ok _ = Except.ok _
      rw [show (withFonts l b1).fmt = { b1.fmt with fontList := l } from rfl, hb1]
      rfl

/-! ## The colours -/

/-- A font with the colour of its EFONT record, if any. -/
def painted (f : Font) (c : Option (Option Nat)) : Font := { f with colourIndex := (c.join).getD f.colourIndex }

/-- `l` is the list of fonts `m` with the colours `cs`. -/
structure Painted (cs : List (Option Nat)) (m l : List Font) : Prop where
  len : m.length = if cs.length ≤ 4 then cs.length else cs.length + 1
  same : l.length = m.length
  at_ : ∀ (k : Nat) f, m[fontNumber k]? = some f → l[fontNumber k]? = some (painted f cs[k]?)

theorem Painted.nil : Painted [] [] [] := ⟨rfl, rfl, fun k f h => by simp at h⟩

theorem fontPad_get {l : List Font} {i : Nat} (h : i ≠ 4) : (fontPad l)[i]? = l[i]? := by
  unfold fontPad
  by_cases h4 : l.length = 4
  · rw [if_pos h4]
    by_cases hi : i < 4
    · rw [List.getElem?_append_left (by omega)]
    · rw [List.getElem?_append_right (by omega), List.getElem?_eq_none (by simp; omega), List.getElem?_eq_none (by omega)]
  · rw [if_neg h4]

theorem fontNumber_ne (k : Nat) : fontNumber k ≠ 4 := by
  unfold fontNumber
  by_cases h : k < 4
  · rw [if_pos h]; omega
  · rw [if_neg h]; omega

theorem fontNumber_inj {j k : Nat} (h : fontNumber j = fontNumber k) : j = k := by
  unfold fontNumber at h
  by_cases h1 : j < 4 <;> by_cases h2 : k < 4
  · rw [if_pos h1, if_pos h2] at h; exact h
  · rw [if_pos h1, if_neg h2] at h; omega
  · rw [if_neg h1, if_pos h2] at h; omega
  · rw [if_neg h1, if_neg h2] at h; omega

/-- The font list with the place holder has room for the next font. -/
theorem Painted.pad {cs : List (Option Nat)} {m l : List Font} (h : Painted cs m l) : (fontPad m).length = fontNumber cs.length := by
  have := h.len
  unfold fontPad fontNumber
  by_cases h4 : cs.length ≤ 4
  · rw [if_pos h4] at this
    by_cases he : m.length = 4
    · rw [if_pos he, if_neg (by omega)]; simp; omega
    · rw [if_neg he, if_pos (by omega)]; exact this
  · rw [if_neg h4] at this
    rw [if_neg (by omega), if_neg (by omega)]; exact this

theorem Painted.font {cs : List (Option Nat)} {m l : List Font} (h : Painted cs m l) (f : Font) : Painted (cs ++ [none]) (fontPad m ++ [f]) (fontPad l ++ [f]) := by
  have hp := h.pad
  have hpl : (fontPad l).length = fontNumber cs.length := (fontPad_length h.same).trans hp
  refine ⟨?_, by rw [List.length_append, List.length_append, fontPad_length h.same], fun k g hk => ?_⟩
  · rw [List.length_append, List.length_append, hp]
    simp only [List.length_singleton]
    unfold fontNumber
    by_cases h4 : cs.length < 4
    · rw [if_pos h4, if_pos (by omega)]
    · rw [if_neg h4, if_neg (by omega)]
  · by_cases hlt : fontNumber k < fontNumber cs.length
    · rw [List.getElem?_append_left (by omega), fontPad_get (fontNumber_ne k)] at hk
      rw [List.getElem?_append_left (by omega), fontPad_get (fontNumber_ne k), h.at_ k g hk]
      have hkc : k < cs.length := by
        unfold fontNumber at hlt
        by_cases h1 : k < 4 <;> by_cases h2 : cs.length < 4
        · rw [if_pos h1, if_pos h2] at hlt; exact hlt
        · omega
        · rw [if_neg h1, if_pos h2] at hlt; omega
        · rw [if_neg h1, if_neg h2] at hlt; omega
      rw [List.getElem?_append_left hkc]
    · rw [List.getElem?_append_right (by omega), hp] at hk
      by_cases he : fontNumber k = fontNumber cs.length
      · rw [List.getElem?_append_right (by omega), hpl, he, Nat.sub_self]
        rw [he, Nat.sub_self] at hk
        cases hk
        have := fontNumber_inj he
        subst this
        simp [painted]
      · rw [List.getElem?_eq_none (by simp; omega)] at hk
        cases hk

theorem painted_again (f : Font) (a : Option (Option Nat)) (c : Nat) : { painted f a with colourIndex := c } = painted f (some (some c)) := rfl

/-- An EFONT record. -/
theorem Painted.efont {cs : List (Option Nat)} {m l : List Font} (h : Painted cs m l) (hc : cs ≠ []) (st : FmtSt) {c : Nat} (h16 : c < 65536) :
    ∃ l', handleEfont true { st with fontList := l } (le16 c) = .ok { st with fontList := l' } ∧ Painted (cs.dropLast ++ [some c]) m l' := by
  obtain ⟨a, x, rfl⟩ : ∃ a x, cs = a ++ [x] := by
    rcases List.eq_nil_or_concat cs with h | ⟨a, x, h⟩
    · exact absurd h hc
    · exact ⟨a, x, by rw [h]; simp⟩
  have hlen := h.len
  have hsame := h.same
  have hll : l.length = fontNumber a.length + 1 := by
    rw [hsame, hlen, List.length_append]
    simp only [List.length_singleton]
    unfold fontNumber
    by_cases h4 : a.length < 4
    · rw [if_pos h4, if_pos (by omega)]
    · rw [if_neg h4, if_neg (by omega)]
  obtain ⟨p, g, rfl⟩ : ∃ p g, l = p ++ [g] := by
    rcases List.eq_nil_or_concat l with h | ⟨a, x, h⟩
    · rw [h] at hll; simp at hll
    · exact ⟨a, x, by rw [h]; simp⟩
  have hpl : p.length = fontNumber a.length := by simpa using hll
  refine ⟨p ++ [{ g with colourIndex := c }], ?_, ?_⟩
  · unfold handleEfont
    have hu : unpackH (le16 c) = .ok c := by simp [unpackH, unpackN_ok (le16_length c), bind, Except.bind, pure, Except.pure, fld_le16 c h16]
    simp only [Bool.not_true, Bool.false_eq_true, if_false, hu, bind, Except.bind, List.getLast?_concat, List.dropLast_concat]
    simp [pure, Except.pure]
  · rw [List.dropLast_concat]
    refine ⟨by rw [hlen]; simp, by simpa using hsame, fun k f hk => ?_⟩
    have hat := h.at_ k f hk
    by_cases hlt : fontNumber k < p.length
    · rw [List.getElem?_append_left hlt] at hat ⊢
      rw [hat]
      have hka : k < a.length := by
        rw [hpl] at hlt
        unfold fontNumber at hlt
        by_cases h1 : k < 4 <;> by_cases h2 : a.length < 4
        · rw [if_pos h1, if_pos h2] at hlt; exact hlt
        · omega
        · rw [if_neg h1, if_pos h2] at hlt; omega
        · rw [if_neg h1, if_neg h2] at hlt; omega
      rw [List.getElem?_append_left hka, List.getElem?_append_left hka]
    · have he : fontNumber k = p.length := by
        have : fontNumber k < m.length := (List.getElem?_eq_some_iff.mp hk).1
        simp only [List.length_append, List.length_singleton] at hsame
        omega
      rw [List.getElem?_append_right (by omega), he, Nat.sub_self] at hat ⊢
      cases hat
      have hka : k = a.length := fontNumber_inj (he.trans hpl)
      rw [hka]
      simp [painted]

/-- The state of the book while a file with EFONT records is read, and that without them. -/
def PaintedBook (fi : Bool) (cs : List (Option Nat)) (b b' : Book) : Prop :=
  ∃ l, b' = withFonts l b ∧ (fi = false → l = b.fmt.fontList) ∧ (fi = true → Painted cs b.fmt.fontList l)

theorem PaintedBook.record {env : OpenEnv} {cs : List (Option Nat)} {b b' : Book} (h : PaintedBook env.fi cs b b') {c : Nat} (hc : c ∈ bookCodes 21) (hn : c ≠ 0x293) (d : Bytes) :
    (∃ e, globalsRecord (env.recEnv 21) b (newCode c) d = .error e ∧ globalsRecord (env.recEnv 21) b' (newCode c) d = .error e) ∨
    (∃ b2 b2', globalsRecord (env.recEnv 21) b (newCode c) d = .ok b2 ∧ globalsRecord (env.recEnv 21) b' (newCode c) d = .ok b2' ∧
      PaintedBook env.fi (addColour cs (.book c d)) b2 b2') := by
  obtain ⟨l, rfl, h1, h2⟩ := h
  cases hfi : env.fi with
  | false =>
    rw [h1 hfi, withFonts_self]
    cases hg : globalsRecord (env.recEnv 21) b (newCode c) d with
    | error e => exact .inl ⟨e, rfl, rfl⟩
    | ok b2 => exact .inr ⟨b2, b2, rfl, rfl, b2.fmt.fontList, rfl, fun _ => rfl, fun h => by cases h⟩
  | true =>
    have hp := h2 hfi
    by_cases hcf : c = fontCode 21
    · have e1 : ∀ b3 : Book, globalsRecord (env.recEnv 21) b3 (newCode c) d = bookFont (env.recEnv 21) b3 d := by intro b3; rw [hcf]; rfl
      rw [e1, e1]
      rcases font_fonts (env := env.recEnv 21) hfi hp.same d with ⟨e, k1, k2⟩ | ⟨b2, f, k1, k2, k3⟩
      · exact .inl ⟨e, k1, k2⟩
      · refine .inr ⟨b2, _, k1, k3, _, rfl, (fun h => by cases h), fun _ => ?_⟩
        rw [k2]
        simp only [addColour, if_pos hcf]
        exact hp.font f
    · have hc' : newCode c ∈ [0x41e, 0xe0, 0x92, 0x56, 0x22, 0x42, 0x5c, 0x8c] := by
        simp only [bookCodes, List.mem_cons, List.not_mem_nil, or_false] at hc
        rcases hc with rfl | rfl | rfl | rfl | rfl | rfl | rfl | rfl | rfl | rfl
        all_goals first | exact absurd rfl hcf | exact absurd rfl hn | decide
      rw [globals_fonts (env := env.recEnv 21) l b hc']
      cases hg : globalsRecord (env.recEnv 21) b (newCode c) d with
      | error e => exact .inl ⟨e, rfl, rfl⟩
      | ok b2 =>
        refine .inr ⟨b2, _, rfl, rfl, l, rfl, (fun h => by cases h), fun _ => ?_⟩
        simp only [addColour, if_neg hcf]
        have hb : b2.fmt.fontList = b.fmt.fontList := fonts_kept hc' hg
        rw [hb]
        exact hp

/-- Reading an EFONT record. -/
theorem efont_record (env : OpenEnv) (mem : Bytes) {o : OldSt} (hv : o.bv = 21) (pos : Int) (len : Nat) (d : Bytes) :
    oldRecord env 21 mem o pos 0x45 len d = (do pure (← o.onBook (do let f ← handleEfont env.fi o.book.fmt d; pure { o.book with fmt := f }), pos)) := by
  obtain ⟨bv0, book, sheet, ixfe, attr⟩ := o
  subst hv
  rfl

theorem PaintedBook.efont {env : OpenEnv} {cs : List (Option Nat)} {o : OldSt} {b : Book} (h : PaintedBook env.fi cs b o.book) (mem : Bytes) (hv : o.bv = 21) (pos : Int) (len : Nat)
    {c : Nat} (h16 : c < 65536) (hcs : cs ≠ []) :
    ∃ b', oldRecord env 21 mem o pos 0x45 len (le16 c) = .ok ({ o with book := b' }, pos) ∧ PaintedBook env.fi (addColour cs (.efont c)) b b' := by
  rw [efont_record env mem hv]
  obtain ⟨l, hb, h1, h2⟩ := h
  cases hfi : env.fi with
  | false =>
    refine ⟨o.book, ?_, l, hb, fun _ => h1 hfi, fun h => by cases h⟩
    simp [handleEfont, OldSt.onBook, bind, Except.bind, pure, Except.pure]
  | true =>
    obtain ⟨l', k1, k2⟩ := (h2 hfi).efont hcs b.fmt h16
    refine ⟨withFonts l' b, ?_, l', rfl, (fun h => by cases h), fun _ => k2⟩
    rw [show o.book.fmt = { b.fmt with fontList := l } by rw [hb]; rfl, k1]
    simp [OldSt.onBook, bind, Except.bind, pure, Except.pure, hb, withFonts]

theorem textDec_fonts (env : OpenEnv) (l : List Font) (b : Book) : textDec env 21 (withFonts l b) = textDec env 21 b := by
  have h : (chooseEncoding (env.recEnv 21) (withFonts l b)).encoding = (chooseEncoding (env.recEnv 21) b).encoding := by
    unfold chooseEncoding
    by_cases ho : (env.recEnv 21).override ≠ []
    · rw [if_pos ho, if_pos ho]
    · rw [if_neg ho, if_neg ho]
      show (match b.codepage with | none => _ | some cp => _ : Book).encoding = _
      cases b.codepage with
      | none => simp only; split_ifs <;> rfl
      | some cp => rfl
  funext x
  unfold textDec libDec
  rw [h]
  rfl

theorem addColour_ne {cs : List (Option Nat)} (h : cs ≠ []) (x : B2Head) : addColour cs x ≠ [] := by
  cases x with
  | book c d => simp only [addColour]; by_cases hc : c = fontCode 21; rw [if_pos hc]; simp; rw [if_neg hc]; exact h
  | item y => exact h
  | efont c => simp [addColour]

/-- No EFONT record. -/
theorem no_efonts {head : List B2Head} (h : ∀ c, B2Head.efont c ∉ head) (pre : List B2Head) (c : Nat) (post : List B2Head) (e : head = pre ++ .efont c :: post) :
    c < 65536 ∧ ∃ d, .book (fontCode 21) d ∈ pre := absurd (by rw [e]; simp) (h c)

end Xlrd
