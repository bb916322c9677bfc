import Verif.Lemmas.OldOpenOk
import Verif.Lemmas.Biff2Fields

/-!
# Records of BIFF2 worksheets that can be read
-/
set_option linter.unusedSimpArgs false
namespace Xlrd
open Spec

/-! ## Cells stored while the types of XFs become known -/

/-- The cells come from writes with known types. -/
def Stored (cfg : SheetCfg) (st : Store) : Prop := ∃ ws G, (∀ w ∈ ws, w.ctype ≠ none) ∧ Run cfg ws st G

theorem Stored.init (cfg : SheetCfg) : Stored cfg Store.empty := ⟨[], [], fun _ h => (by cases h), Run.init cfg⟩

theorem cellAt_types {tm tm' : Int → Option Nat} {ws : List Write} (h : ∀ w ∈ ws, w.ctype ≠ none) (i j : Nat) : cellAt tm ws i j = cellAt tm' ws i j := by
  unfold cellAt
  cases hl : lastAt ws i j with
  | none => rfl
  | some w =>
    have hw : w ∈ ws := List.mem_reverse.mp (List.mem_of_find?_eq_some hl)
    simp only [stored]
    cases hc : w.ctype with
    | none => exact absurd hc (h w hw)
    | some t => rfl

theorem Stored.change {cfg cfg' : SheetCfg} (hc : cfg' = { cfg with typeMap := cfg'.typeMap }) {st : Store} (h : Stored cfg st) : Stored cfg' st := by
  obtain ⟨ws, G, h1, h2⟩ := h
  obtain ⟨a, b, c, d, e⟩ := cfg
  obtain ⟨a', b', c', d', e'⟩ := cfg'
  simp only [SheetCfg.mk.injEq, true_and, and_true] at hc
  obtain ⟨rfl, rfl, rfl, rfl⟩ := hc
  refine ⟨ws, G, h1, ⟨⟨⟨h2.inv.rep.types, h2.inv.rep.values, h2.inv.rep.xfs⟩, h2.inv.nrows, h2.inv.ncols, h2.inv.glen, h2.inv.lens, ?_, h2.inv.full⟩, h2.rag, fun w hw => ?_⟩⟩
  · intro i j
    rw [h2.inv.shows i j]
    exact cellAt_types h1 i j
  · obtain ⟨x1, x2, x3, x4⟩ := h2.acc w hw
    exact ⟨x1, x2, fun h => absurd h (h1 w hw), x4⟩

theorem Stored.put {cfg : SheetCfg} {st : Store} (h : Stored cfg st) {w : Write} (ha : Accepts cfg w) :
    ∃ st', putCell cfg st w.row w.col w.ctype w.val w.xf = .ok st' ∧ Stored cfg st' := by
  obtain ⟨ws, G, h1, h2⟩ := h
  obtain ⟨t, ht⟩ := (resolve_ok_iff cfg w.ctype w.xf).mpr ha.2.2.1
  obtain ⟨st', G', h3, h4⟩ := (h2.step cfg ws st G { w with ctype := some t }).1 ⟨ha.1, ha.2.1, fun h => (by cases h), ha.2.2.2⟩
  have he : putCell cfg st w.row w.col w.ctype w.val w.xf = putCell cfg st w.row w.col (some t) w.val w.xf := by
    have ht' : resolveType cfg (some t) w.xf = .ok t := rfl
    unfold putCell putCellUnragged putCellRagged
    simp only [ht, ht']
  refine ⟨st', he.trans h3, _, G', ?_, h4⟩
  intro x hx
  rcases List.mem_append.mp hx with hx | hx
  · exact h1 x hx
  · rw [List.mem_singleton.mp hx]; simp

theorem Stored.tidy {cfg : SheetCfg} {st : Store} (h : Stored cfg st) : ∃ st', tidyDimensions cfg st [] = .ok st' := by
  obtain ⟨ws, G, _, h2⟩ := h
  obtain ⟨st', _, h3, _⟩ := (tidy_spec cfg ws st G h2 [] (fun _ h => (by cases h))).1 (fun h => by simp [maxOf] at h)
  exact ⟨st', h3⟩

/-! ## The encoding -/

/-- The encoding can be determined. -/
def CanEnc (env : OpenEnv) (o : OldSt) : Prop := ∃ b', ensureEncoding (env.recEnv o.bv) o.book = .ok b'

theorem ensure_bv {env : OpenEnv} {v w : Nat} (hv : v < 80) (hw : w < 80) (b : Book) : ensureEncoding (env.recEnv v) b = ensureEncoding (env.recEnv w) b := by
  unfold ensureEncoding
  cases b.encoding with
  | some e => rfl
  | none =>
    unfold deriveEncoding
    rw [choose_bv hv hw]
    rfl

theorem encoding_ok {env : OpenEnv} {o : OldSt} (h8 : o.bv < 80) (h : CanEnc env o) (n : Bool) : ∃ o', o.withEncoding env n = .ok o' ∧ CanEnc env o' := by
  unfold OldSt.withEncoding
  cases n with
  | false => exact ⟨o, rfl, h⟩
  | true =>
    obtain ⟨b', hb⟩ := h
    simp only [if_true, OldSt.onBook, hb, bind, Except.bind]
    exact ⟨_, rfl, b', ensure_again (ensure_some (env := env.recEnv o.bv) h8 hb)⟩

/-! ## XF numbers -/

/-- The XF of attributes can be found: number 63 needs an IXFE record, and without XF records there must be no number. -/
def CanFix (m : Bool) (i : Option Nat) (a : CellAttr) : Prop := (m = true → a.slot = 63 → i ≠ none) ∧ (m = false → a.slot = 0)

theorem fix_ok {env : OpenEnv} {m : Bool} {dec : Bytes → R PyStr} {o : OldSt} (h : B2Inv env m dec o) {a : CellAttr} (hc : CanFix m o.ixfe a) (he : CanEnc env o) :
    ∃ x o', fixXf o (some a.bytes) none = .ok (x, o') ∧ CanEnc env o' := by
  unfold fixXf
  cases m with
  | true =>
    rw [if_pos (h.xfs rfl)]
    have hb : recordedXf (some a.bytes) none = .ok a.slot := by
      show (do let x ← byteAt a.bytes 0; pure (x &&& 0x3F)) = _
      rw [show byteAt a.bytes 0 = .ok a.a0.toNat from rfl]
      show Except.ok (a.a0.toNat &&& 0x3F) = _
      rw [(attr_bits0 ⟨a.a0.toNat, a.a0.toNat_lt⟩).1]; rfl
    rw [hb]
    simp only [bind, Except.bind]
    by_cases h63 : a.slot = 0x3F
    · rw [if_pos h63]
      cases hi : o.ixfe with
      | none => exact absurd hi (hc.1 rfl h63)
      | some i => exact ⟨i, o, rfl, he⟩
    · rw [if_neg h63]
      exact ⟨_, o, rfl, he⟩
  | false =>
    obtain ⟨h1, h2⟩ := h.none rfl
    rw [if_neg (fun hh => hh.2 (h1 hh.1))]
    have h3 : ∃ o1, (if o.bv = 21 then { o with bv := 20 } else o) = o1 ∧ o1 = { o with bv := 20 } := by
      refine ⟨_, rfl, ?_⟩
      by_cases hv : o.bv = 21
      · rw [if_pos hv]
      · rw [if_neg hv]
        have : o.bv = 20 := by have := h.ver; omega
        rw [← this]
    obtain ⟨o1, e1, e2⟩ := h3
    simp only [e1]
    have hg : Good o1 := by rw [e2]; exact ⟨h2.empty, h2.len, h2.lt, h2.inj, h2.stands⟩
    obtain ⟨k, o2, g1, g2, g3, g4, g5, g6, g7⟩ := attr_index hg a (hc.2 rfl)
    refine ⟨k, o2, g1, ?_⟩
    obtain ⟨b', hb⟩ := he
    unfold CanEnc
    have hbook : o2.book = { o.book with fmt := o2.book.fmt, xfDone := o.book.xfDone } := by rw [g6, e2]
    have hbv : o2.bv = 20 := by rw [g6, e2]
    rw [hbook, ensure_fmt, hbv, ensure_bv (w := o.bv) (by decide) (by have := h.ver; omega), hb]
    exact ⟨_, rfl⟩

/-! ## Records -/

/-- The item can be read. -/
structure B2Can (env : OpenEnv) (m : Bool) (dec : Bytes → R PyStr) (o : OldSt) (it : B2Item) : Prop where
  fix : ∀ a ∈ it.attrs env.fi, CanFix m o.ixfe a
  rows : ∀ y ∈ it.rowNumbers env.fi, m = true ∧ (y = 63 → o.ixfe ≠ none)
  cells : ∀ o1, B2Inv env m dec o1 → B2Ext env m o o1 → (∀ a ∈ it.attrs env.fi, B2Known m o1 o.ixfe a) →
    (m = false → ∀ as, Num as o → Num (as ++ it.attrs env.fi) o1) → ∀ w ∈ it.cells env.fi (xfOf m o1 o.ixfe), Accepts (o1.env env).cfg w

/-- The state between records. -/
structure B2Rest (env : OpenEnv) (m : Bool) (dec : Bytes → R PyStr) (o : OldSt) : Prop where
  inv : B2Inv env m dec o
  enc : CanEnc env o
  stored : Stored (o.env env).cfg o.sheet.store

theorem Stored.ext {env : OpenEnv} {m : Bool} {dec : Bytes → R PyStr} {o o' : OldSt} {st : Store} (h : B2Inv env m dec o) (h' : B2Inv env m dec o') (he : B2Ext env m o o')
    (hs : Stored (o.env env).cfg st) : Stored (o'.env env).cfg st := hs.change (env_ext h h' he).1

theorem put_ok {env : OpenEnv} {o : OldSt} (hs : Stored (o.env env).cfg o.sheet.store) {r c : Nat} {ct : Option Nat} {v : Val} {x : Nat}
    (ha : Accepts (o.env env).cfg ⟨r, c, ct, v, x⟩) : ∃ s', o.put env r c ct v x = .ok { o with sheet := s' } ∧ Stored (o.env env).cfg s'.store := by
  obtain ⟨st', h1, h2⟩ := hs.put ha
  unfold OldSt.put OldSt.onSheet SheetSt.put
  simp only at h1
  simp only [h1, bind, Except.bind]
  exact ⟨_, rfl, h2⟩

theorem cell_ok {env : OpenEnv} {m : Bool} {dec : Bytes → R PyStr} {o o1 : OldSt} {it : B2Item} {r c : Nat} {ct : Option Nat} {v : Val} {a : CellAttr}
    (h : B2Rest env m dec o) (hc : B2Can env m dec o it) (hi : B2Inv env m dec o1) (he : B2Ext env m o o1) (hs : o1.sheet = o.sheet) (hk : B2Known m o1 o.ixfe a)
    (hn : m = false → ∀ as, Num as o → Num (as ++ [a]) o1) (hen : CanEnc env o1)
    (h1 : it.cells env.fi (xfOf m o1 o.ixfe) = [⟨r, c, ct, v, xfOf m o1 o.ixfe a⟩]) (h2 : it.attrs env.fi = [a]) :
    ∃ o', o1.put env r c ct v (xfOf m o1 o.ixfe a) = .ok o' ∧ CanEnc env o' ∧ Stored (o'.env env).cfg o'.sheet.store := by
  have hst : Stored (o1.env env).cfg o1.sheet.store := by rw [hs]; exact h.stored.ext h.inv hi he
  have hac := hc.cells o1 hi he (fun b hb => by rw [h2] at hb; rw [List.mem_singleton.mp hb]; exact hk) (fun hm as has => by rw [h2]; exact hn hm as has)
    ⟨r, c, ct, v, xfOf m o1 o.ixfe a⟩ (by rw [h1]; simp)
  obtain ⟨s', e1, e2⟩ := put_ok hst hac
  exact ⟨_, e1, hen, e2⟩

/-- What a record that can be read comes to. -/
def Goes (env : OpenEnv) (r : R OldSt) : Prop := ∃ o', r = .ok o' ∧ CanEnc env o' ∧ Stored (o'.env env).cfg o'.sheet.store

theorem number_ok {env : OpenEnv} {m : Bool} {dec : Bytes → R PyStr} {o : OldSt} (h : B2Rest env m dec o) {r c : Nat} {a : CellAttr} {x : B64}
    (ho : (B2Item.number r c a x).Ok dec) (hc : B2Can env m dec o (.number r c a x)) : Goes env (recNumberB2 env o (at2 r c a ++ x.bytes)) := by
  obtain ⟨k1, k2, k3⟩ := ho
  obtain ⟨e1, e2, e3⟩ := at2_fld k1 k2 a x.bytes
  have e4 : f64OfBits (fld (at2 r c a ++ x.bytes) 7 8) = x.value := by
    rw [show 7 = 7 + 0 from rfl, fld_skip' _ _ _ _ _ (at2_length r c a)]
    have := unpackd_bytes x k3
    simpa [unpackd, unpackN_ok (B64.bytes_length x), bind, Except.bind, pure, Except.pure] using this
  obtain ⟨y, o1, h1, h2⟩ := fix_ok h.inv (hc.fix a (List.mem_singleton.mpr rfl)) h.enc
  obtain ⟨i1, i2, i3, i4, i5, i6, i7⟩ := fix_step h.inv h1
  obtain ⟨o', g1, g2⟩ := cell_ok h hc i1 i2 i3 i6 i7 h2 rfl rfl
  refine ⟨o', ?_, g2⟩
  unfold recNumberB2
  rw [unpackN_ok (show (at2 r c a ++ x.bytes).length = 15 from rfl)]
  simp only [bind, Except.bind, e1, e2, e3, e4, h1, i5]
  exact g1

theorem integer_ok {env : OpenEnv} {m : Bool} {dec : Bytes → R PyStr} {o : OldSt} (h : B2Rest env m dec o) {r c : Nat} {a : CellAttr} {n : Nat}
    (ho : (B2Item.integer r c a n).Ok dec) (hc : B2Can env m dec o (.integer r c a n)) : Goes env (recInteger env o (at2 r c a ++ le16 n)) := by
  obtain ⟨k1, k2, k3⟩ := ho
  obtain ⟨e1, e2, e3⟩ := at2_fld k1 k2 a (le16 n)
  have e4 : fld (at2 r c a ++ le16 n) 7 2 = n := by
    rw [show 7 = 7 + 0 from rfl, fld_skip' _ _ _ _ _ (at2_length r c a)]
    exact fld_le16 n k3
  obtain ⟨y, o1, h1, h2⟩ := fix_ok h.inv (hc.fix a (List.mem_singleton.mpr rfl)) h.enc
  obtain ⟨i1, i2, i3, i4, i5, i6, i7⟩ := fix_step h.inv h1
  obtain ⟨o', g1, g2⟩ := cell_ok h hc i1 i2 i3 i6 i7 h2 rfl rfl
  refine ⟨o', ?_, g2⟩
  unfold recInteger
  rw [unpackN_ok (show (at2 r c a ++ le16 n).length = 9 from rfl)]
  simp only [bind, Except.bind, e1, e2, e3, e4, h1, i5]
  exact g1

theorem label_ok {env : OpenEnv} {m : Bool} {dec : Bytes → R PyStr} {o : OldSt} (h : B2Rest env m dec o) {r c : Nat} {a : CellAttr} {t : PyStr} {b junk : Bytes}
    (ho : (B2Item.label r c a t b junk).Ok dec) (hc : B2Can env m dec o (.label r c a t b junk)) :
    Goes env (recLabelB2 env o (at2 r c a ++ [UInt8.ofNat b.length] ++ b ++ junk)) := by
  obtain ⟨k1, k2, k3, k4⟩ := ho
  obtain ⟨e1, e2, e3⟩ := at2_fld' k1 k2 a
  obtain ⟨o1, h1, he1⟩ := encoding_ok (by have := h.inv.ver; omega) h.enc true
  obtain ⟨i1, i2, i3, i4, i5⟩ := encoding_step h.inv h1
  have hd : libDec env o1.book = dec := i4 rfl
  have hu : unpackString (libDec env o1.book) (at2 r c a ++ ([UInt8.ofNat b.length] ++ (b ++ junk))) 7 1 = .ok t := by
    have := unpackString_at (data := at2 r c a ++ ([UInt8.ofNat b.length] ++ (b ++ junk))) (p := 7) (l := 1) (b := b) (r := junk) (libDec env o1.book) (.inl rfl) (by simpa using k3)
      (by rw [List.drop_left' (at2_length r c a)]; rfl)
    rw [hd] at this ⊢
    rw [← k4]; exact this
  have hx : o1.ixfe = o.ixfe := by rw [i3]
  have hs : o1.sheet = o.sheet := by rw [i3]
  obtain ⟨y, o2, h2, he2⟩ := fix_ok i1 (by rw [hx]; exact hc.fix a (List.mem_singleton.mpr rfl)) he1
  obtain ⟨j1, j2, j3, j4, j5, j6, j7⟩ := fix_step i1 h2
  rw [hx] at j5 j6
  obtain ⟨o', g1, g2⟩ := cell_ok h hc j1 (i2.trans j2) (j3.trans hs) j6 (fun hm as has => j7 hm as (has.congr (by rw [i3]) i5)) he2 rfl rfl
  refine ⟨o', ?_, g2⟩
  unfold recLabelB2
  rw [List.append_assoc, List.append_assoc, slice0_app (k := 7) (n := 7) rfl (at2_length r c a), unpackN_ok (at2_length r c a)]
  simp only [bind, Except.bind, e1, e2, e3, h1, hu, h2, j5]
  exact g1

theorem boolerr_ok {env : OpenEnv} {m : Bool} {dec : Bytes → R PyStr} {o : OldSt} (h : B2Rest env m dec o) {r c : Nat} {a : CellAttr} {isErr : Bool} {v : UInt8}
    (ho : (B2Item.boolerr r c a isErr v).Ok dec) (hc : B2Can env m dec o (.boolerr r c a isErr v)) :
    Goes env (recBoolErrB2 env o (at2 r c a ++ [v, if isErr then 1 else 0])) := by
  obtain ⟨k1, k2⟩ := ho
  obtain ⟨e1, e2, e3⟩ := at2_fld k1 k2 a [v, if isErr then 1 else 0]
  have e4 : fld (at2 r c a ++ [v, if isErr then 1 else 0]) 7 1 = v.toNat := by
    rw [show 7 = 7 + 0 from rfl, fld_skip' _ _ _ _ _ (at2_length r c a)]
    simp [fld, le]
  have e5 : idx [XL_CELL_BOOLEAN, XL_CELL_ERROR] (fld (at2 r c a ++ [v, if isErr then 1 else 0]) 8 1) = .ok (if isErr then XL_CELL_ERROR else XL_CELL_BOOLEAN) := by
    rw [show 8 = 7 + 1 from rfl, fld_skip' _ _ _ _ _ (at2_length r c a)]
    cases isErr <;> rfl
  obtain ⟨y, o1, h1, h2⟩ := fix_ok h.inv (hc.fix a (List.mem_singleton.mpr rfl)) h.enc
  obtain ⟨i1, i2, i3, i4, i5, i6, i7⟩ := fix_step h.inv h1
  obtain ⟨o', g1, g2⟩ := cell_ok h hc i1 i2 i3 i6 i7 h2 rfl rfl
  refine ⟨o', ?_, g2⟩
  unfold recBoolErrB2
  rw [unpackN_ok (show (at2 r c a ++ [v, if isErr then 1 else 0]).length = 9 from rfl)]
  simp only [bind, Except.bind, e1, e2, e3, e4]
  rw [e5]
  simp only [h1, i5]
  exact g1

theorem blank_ok {env : OpenEnv} {m : Bool} {dec : Bytes → R PyStr} {o : OldSt} (h : B2Rest env m dec o) {r c : Nat} {a : CellAttr} {junk : Bytes}
    (ho : (B2Item.blank r c a junk).Ok dec) (hc : B2Can env m dec o (.blank r c a junk)) : Goes env (recBlankB2 env o (at2 r c a ++ junk)) := by
  obtain ⟨k1, k2⟩ := ho
  obtain ⟨e1, e2, e3⟩ := at2_fld' k1 k2 a
  unfold recBlankB2
  by_cases hb : env.fi = true
  · obtain ⟨y, o1, h1, h2⟩ := fix_ok h.inv (hc.fix a (by simp [B2Item.attrs, hb])) h.enc
    obtain ⟨i1, i2, i3, i4, i5, i6, i7⟩ := fix_step h.inv h1
    obtain ⟨o', g1, g2⟩ := cell_ok h hc i1 i2 i3 i6 i7 h2 (by simp only [B2Item.cells, hb, if_true]; rfl) (by simp only [B2Item.attrs, hb, if_true])
    refine ⟨o', ?_, g2⟩
    rw [if_pos hb, sliceTo_app (k := 7) (n := 7) rfl (at2_length r c a), unpackN_ok (at2_length r c a)]
    simp only [bind, Except.bind, e1, e2, e3, h1, i5]
    exact g1
  · rw [if_neg hb]
    exact ⟨o, rfl, h.enc, h.stored⟩

theorem formula_ok {env : OpenEnv} {m : Bool} {dec : Bytes → R PyStr} {o : OldSt} (h : B2Rest env m dec o) {r c : Nat} {a : CellAttr} {res : FResult} {code : Nat}
    {flags : UInt8} {junk mem rest : Bytes} {p : Nat} (hm : mem.drop p = encRecs res.records ++ rest) (hp : p ≤ mem.length)
    (ho : (B2Item.formula r c a res code flags junk).Ok dec) (hc : B2Can env m dec o (.formula r c a res code flags junk)) :
    ∃ o', recFormulaB2 env mem o (p : Int) (at2 r c a ++ res.bytes ++ [flags] ++ junk) = .ok (o', ((p + (encRecs res.records).length : Nat) : Int)) ∧
      CanEnc env o' ∧ Stored (o'.env env).cfg o'.sheet.store := by
  obtain ⟨k1, k2, _, k4⟩ := ho
  have hl : (at2 r c a ++ res.bytes ++ [flags]).length = 16 := by simp [at2_length, FResult.bytes_length]
  obtain ⟨e1, e2, e3⟩ := at2_fld k1 k2 a (res.bytes ++ [flags])
  have e4 : slice (at2 r c a ++ (res.bytes ++ [flags])) 7 15 = res.bytes := slice_mid (m := 7) (n := 8) rfl rfl (at2_length r c a) (FResult.bytes_length res)
  rw [← List.append_assoc] at e1 e2 e3 e4
  obtain ⟨y, o1, h1, he1⟩ := fix_ok h.inv (hc.fix a (List.mem_singleton.mpr rfl)) h.enc
  obtain ⟨i1, i2, i3, i4, i5, i6, i7⟩ := fix_step h.inv h1
  obtain ⟨o2, h2, he2⟩ := encoding_ok (by have := i1.ver; omega) he1 (textResult res.bytes)
  obtain ⟨j1, j2, j3, j4, j5⟩ := encoding_step i1 h2
  have hres : res.Ok (o2.env env).bv (o2.env env).dec := by
    apply FResult_dec (FResult_bv (by decide) (by show o2.bv < 30; have := j1.ver; omega) k4)
    intro ht
    exact j4 ht
  obtain ⟨l1, l2⟩ := i6.ext j2
  have hs : o2.sheet = o.sheet := by rw [j3]; exact i3
  obtain ⟨o', g1, g2⟩ := cell_ok h hc j1 (i2.trans j2) hs l1 (fun hm as has => (i7 hm as has).congr (by rw [j3]) j5) he2 rfl rfl
  refine ⟨o', ?_, g2⟩
  unfold recFormulaB2
  rw [slice0_app (k := 16) (n := 16) rfl hl, unpackN_ok hl]
  simp only [bind, Except.bind, e1, e2, e3, e4, h1, h2]
  rw [formulaResult_ok (o2.env env) hres hm hp]
  simp only [i5, ← l2]
  rw [g1]
  rfl

/-! ## Rows and columns -/

theorem rowXf_ok {env : OpenEnv} {m : Bool} {dec : Bytes → R PyStr} {o : OldSt} (h : B2Rest env m dec o) {xf : RowXf} (k7 : xf.Ok) {data hd : Bytes}
    (hl : hd.length = 11) (hdat : data = hd ++ xf.bytes) {bits : Nat} (y2 : bits &&& 1 = xf.flag) (h1 : ∀ p a j, xf = .attr p a j → CanFix m o.ixfe a)
    (h2 : ∀ p y, xf = .index p y → m = true ∧ (y = 63 → o.ixfe ≠ none)) : ∃ x o', rowXfB2 o data.length data bits = .ok (x, o') ∧ CanEnc env o' := by
  unfold rowXfB2
  rw [y2]
  cases xf with
  | no tail =>
    rw [if_pos (by rfl)]
    exact ⟨_, o, rfl, h.enc⟩
  | attr p a junk =>
    rw [if_neg (by simp [RowXf.flag])]
    have hlen : data.length ≠ 18 := by
      have : junk.length ≠ 2 := k7
      rw [hdat, List.length_append, hl]
      simp only [RowXf.bytes, CellAttr.bytes, List.length_append, List.length_cons, List.length_nil]
      omega
    rw [if_neg hlen]
    have hsl : slice data 13 16 = a.bytes := by
      rw [hdat, show RowXf.bytes (.attr p a junk) = [p.1, p.2] ++ (a.bytes ++ junk) from List.append_assoc _ _ _, ← List.append_assoc]
      exact slice_mid (m := 13) (n := 3) rfl rfl (by simp [hl]) rfl
    rw [hsl]
    obtain ⟨x, o', g1, g2⟩ := fix_ok h.inv (h1 _ _ _ rfl) h.enc
    simp only [g1, bind, Except.bind]
    exact ⟨_, _, rfl, g2⟩
  | index p y =>
    have k7 : y < 65536 := k7
    obtain ⟨hm, h63⟩ := h2 _ _ rfl
    subst hm
    rw [if_neg (by simp [RowXf.flag])]
    have hlen : data.length = 18 := by
      rw [hdat, List.length_append, hl]
      rfl
    rw [if_pos hlen]
    have hsl : unpackH (slice data 16 18) = .ok y := by
      have := unpackH_at (data := data) (p := 16) (r := []) k7 (by
        rw [hdat, List.append_nil, show RowXf.bytes (.index p y) = [p.1, p.2.1, p.2.2.1, p.2.2.2.1, p.2.2.2.2] ++ le16 y from rfl, ← List.append_assoc]
        exact List.drop_left' (by simp [hl]))
      exact this
    have hfix : ∃ x, fixXf o none (some y) = .ok (x, o) := by
      unfold fixXf
      rw [if_pos (h.inv.xfs rfl)]
      simp only [recordedXf, bind, Except.bind]
      by_cases h6 : y = 0x3F
      · rw [if_pos h6]
        cases hi : o.ixfe with
        | none => exact absurd hi (h63 h6)
        | some i => exact ⟨i, rfl⟩
      · rw [if_neg h6]; exact ⟨y, rfl⟩
    obtain ⟨x, hx⟩ := hfix
    simp only [hsl, hx, bind, Except.bind]
    exact ⟨_, _, rfl, h.enc⟩

theorem row_ok {env : OpenEnv} {m : Bool} {dec : Bytes → R PyStr} {o : OldSt} (h : B2Rest env m dec o) {r : Nat} {p : Nat × Nat} {ht : Nat} {d : Bool} {q rest : Nat}
    {xf : RowXf} (ho : (B2Item.row r p ht d q rest xf).Ok dec) (hc : B2Can env m dec o (.row r p ht d q rest xf)) {data : Bytes}
    (hdat : data = le16 r ++ le16 p.1 ++ le16 p.2 ++ le16 (ht + 32768 * Spec.bit d) ++ le16 q ++ [UInt8.ofNat (xf.flag + 2 * rest)] ++ xf.bytes) :
    ∃ o', recRowB2 env o data.length data = .ok o' ∧ CanEnc env o' := by
  obtain ⟨k1, k2, k3, k4, k5, k6, k7⟩ := ho
  obtain ⟨y1, y2⟩ := row_bits2 k6 xf
  unfold recRowB2
  by_cases hb : env.fi = true
  · rw [if_pos hb]
    set hd := le16 r ++ le16 p.1 ++ le16 p.2 ++ le16 (ht + 32768 * Spec.bit d) ++ le16 q ++ [UInt8.ofNat (xf.flag + 2 * rest)] with hhd
    have hl : hd.length = 11 := rfl
    have f1 : fld hd 0 2 = r := by
      rw [hhd]; simp only [List.append_assoc]; exact fld_head r k1 _
    have f3 : fld hd 10 1 = xf.flag + 2 * rest := by
      rw [hhd]; simp only [List.append_assoc]
      rw [fld_tail _ _ _ _ (by omega), fld_tail _ _ _ _ (by omega), fld_tail _ _ _ _ (by omega), fld_tail _ _ _ _ (by omega), fld_tail _ _ _ _ (by omega)]
      show (UInt8.ofNat (xf.flag + 2 * rest)).toNat + 256 * 0 = _
      rw [y1]; omega
    have hs0 : slice data 0 11 = hd := by rw [hdat]; exact slice0_app (k := 11) (n := 11) rfl hl
    rw [hs0, unpackN_ok hl]
    simp only [bind, Except.bind, f1, f3]
    have hmax : (o.env env).cfg.maxRows = 16384 := by
      show (if o.bv ≥ 80 then 65536 else 16384) = 16384
      rw [if_neg (by have := h.inv.ver; omega)]
    rw [hmax]
    by_cases hrow : r < 16384
    · rw [if_pos hrow]
      obtain ⟨x, o1, g1, g2⟩ := rowXf_ok h k7 hl hdat y2 (fun p' a j he => hc.fix a (by subst he; simp [B2Item.attrs, hb, hrow]))
        (fun p' y he => hc.rows y (by subst he; simp [B2Item.rowNumbers, hb, hrow]))
      rw [g1]
      exact ⟨_, rfl, g2⟩
    · rw [if_neg hrow]
      exact ⟨_, rfl, h.enc⟩
  · rw [if_neg hb]
    exact ⟨_, rfl, h.enc⟩

theorem colwidth_ok {env : OpenEnv} {m : Bool} {dec : Bytes → R PyStr} {o : OldSt} (h : B2Rest env m dec o) {first last : UInt8} {w : Nat} {junk : Bytes} :
    ∃ o', recColWidth env o ([first, last] ++ le16 w ++ junk) = .ok o' ∧ CanEnc env o' := by
  unfold recColWidth
  by_cases hb : env.fi = true
  · rw [if_pos hb, sliceTo_app (k := 4) (n := 4) rfl (show ([first, last] ++ le16 w : Bytes).length = 4 from rfl),
      unpackN_ok (show ([first, last] ++ le16 w : Bytes).length = 4 from rfl)]
    simp only [bind, Except.bind]
    by_cases hle : fld ([first, last] ++ le16 w) 0 1 ≤ fld ([first, last] ++ le16 w) 1 1
    · rw [if_pos hle]; exact ⟨_, rfl, h.enc⟩
    · rw [if_neg hle]; exact ⟨_, rfl, h.enc⟩
  · rw [if_neg hb]
    exact ⟨_, rfl, h.enc⟩

theorem defaults_ok {env : OpenEnv} {m : Bool} {dec : Bytes → R PyStr} {data junk : Bytes} : ∀ (as : List CellAttr) (c off : Nat) (o : OldSt), B2Inv env m dec o → CanEnc env o →
    (∀ a ∈ as, CanFix m o.ixfe a) → data.drop off = as.flatMap CellAttr.bytes ++ junk → ∃ o', columnDefaults data as.length c off o = .ok o' ∧ CanEnc env o' := by
  intro as
  induction as with
  | nil =>
    intro c off o _ he _ _
    exact ⟨o, rfl, he⟩
  | cons a as ih =>
    intro c off o hi he hc hd
    rw [List.length_cons, columnDefaults]
    rw [List.flatMap_cons, List.append_assoc] at hd
    have hsl : slice data (off : Int) ((off : Int) + 3) = a.bytes := slice_at (n := 3) hd rfl
    rw [hsl]
    obtain ⟨x, o1, h1, h2⟩ := fix_ok hi (hc a (List.mem_cons_self ..)) he
    obtain ⟨i1, i2, i3, i4, i5, i6, i7⟩ := fix_step hi h1
    simp only [h1, bind, Except.bind]
    exact ih (c + 1) (off + 3) _ (i1.sheet _ o1.ixfe) h2 (fun b hb => by simp only [i4]; exact hc b (List.mem_cons_of_mem _ hb)) (drop_at hd rfl)

theorem coldefault_ok {env : OpenEnv} {m : Bool} {dec : Bytes → R PyStr} {o : OldSt} (h : B2Rest env m dec o) {first : Nat} {as : List CellAttr} {junk : Bytes}
    (ho : (B2Item.coldefault first as junk).Ok dec) (hc : B2Can env m dec o (.coldefault first as junk)) :
    ∃ o', recColumnDefault env o (le16 first ++ le16 (first + as.length) ++ as.flatMap CellAttr.bytes ++ junk) = .ok o' ∧ CanEnc env o' := by
  have hw : first + as.length ≤ 256 := ho
  unfold recColumnDefault
  by_cases hb : env.fi = true
  · rw [if_pos hb]
    have hl : (le16 first ++ le16 (first + as.length)).length = 4 := rfl
    rw [List.append_assoc, sliceTo_app (k := 4) (n := 4) rfl hl, unpackN_ok hl]
    have f1 : fld (le16 first ++ le16 (first + as.length)) 0 2 = first := fld_head _ (by omega) _
    have f2 : fld (le16 first ++ le16 (first + as.length)) 2 2 = first + as.length := by
      rw [fld_tail _ _ _ _ (by omega)]; exact fld_le16 _ (by omega)
    simp only [bind, Except.bind, f1, f2]
    rw [Nat.min_eq_left hw, Nat.add_sub_cancel_left]
    exact defaults_ok as first 4 o h.inv h.enc (fun a ha => hc.fix a (by simpa [B2Item.attrs, hb] using ha)) (by rw [List.drop_left' hl])
  · rw [if_neg hb]
    exact ⟨_, rfl, h.enc⟩

theorem window_ok {env : OpenEnv} {o : OldSt} (he : CanEnc env o) {op : Pad5} {top left : Nat} {auto r g b : UInt8} {junk : Bytes} :
    ∃ o', recWindow2B2 env o ([op.1, op.2.1, op.2.2.1, op.2.2.2.1, op.2.2.2.2] ++ le16 top ++ le16 left ++ [auto, r, g, b] ++ junk) = .ok o' ∧ CanEnc env o' := by
  have e1 : slice ([op.1, op.2.1, op.2.2.1, op.2.2.2.1, op.2.2.2.2] ++ le16 top ++ le16 left ++ [auto, r, g, b] ++ junk : Bytes) 5 10 = le16 top ++ le16 left ++ [auto] := by
    have := slice_mid (a := [op.1, op.2.1, op.2.2.1, op.2.2.2.1, op.2.2.2.2]) (x := le16 top ++ le16 left ++ [auto]) (y := [r, g, b] ++ junk) (i := 5) (j := 10) (m := 5) (n := 5) rfl rfl rfl rfl
    rw [← this]
    congr 1
  have e2 : slice ([op.1, op.2.1, op.2.2.1, op.2.2.2.1, op.2.2.2.2] ++ le16 top ++ le16 left ++ [auto, r, g, b] ++ junk : Bytes) 10 13 = [r, g, b] := by
    have := slice_mid (a := [op.1, op.2.1, op.2.2.1, op.2.2.2.1, op.2.2.2.2] ++ le16 top ++ le16 left ++ [auto]) (x := [r, g, b]) (y := junk) (i := 10) (j := 13) (m := 10) (n := 3) rfl rfl rfl rfl
    rw [← this]
    congr 1
  unfold recWindow2B2
  rw [e1, e2, unpackN_ok (by rfl), unpackN_ok (by rfl)]
  exact ⟨_, rfl, he⟩

/-! ## Items -/

theorem sheet_item_ok {env : OpenEnv} {mem rest d : Bytes} {o o' : OldSt} {p k c : Nat} (hc : c ∈ oldSheetCodes) (hl : d.length < 65536)
    (hm : mem.drop p = encRecs [(c, d)] ++ rest) (h : oldSheetRecord env o c d.length d = .ok o') :
    oldLoop env 21 mem (k + 1) o (p : Int) = oldLoop env 21 mem k o' ((p + (encRecs [(c, d)]).length : Nat) : Int) := by
  have hm' : mem.drop p = encRec c d ++ rest := by simpa [encRecs] using hm
  have hne : c < 65536 ∧ c ≠ 0xa ∧ c ∉ XL_FORMULA_OPCODES ∧ c ∉ bofcodes ∧ c ≠ XL_COUNTRY ∧ c ∉ otherCodes ∧ ¬ (c = XL_DIMENSION ∨ c = XL_DIMENSION2) ∧ c ∉ oldBookCodes :=
    (by decide : ∀ c ∈ oldSheetCodes, c < 65536 ∧ c ≠ 0xa ∧ c ∉ XL_FORMULA_OPCODES ∧ c ∉ bofcodes ∧ c ≠ XL_COUNTRY ∧ c ∉ otherCodes ∧
      ¬ (c = XL_DIMENSION ∨ c = XL_DIMENSION2) ∧ c ∉ oldBookCodes) c hc
  obtain ⟨n1, n2, n3, n4, n5, n6, n7, n8⟩ := hne
  have hr : oldRecord env 21 mem o ((p + 4 + d.length : Nat) : Int) c d.length d = .ok (o', ((p + 4 + d.length : Nat) : Int)) := by
    unfold oldRecord
    rw [if_neg n3, if_neg n4, if_neg n5, if_neg n6, if_neg n7, if_neg (fun hh => n8 hh.2), if_pos ⟨by decide, hc⟩, h]
    rfl
  rw [oldLoop, getRecordParts_at n1 hl hm']
  simp only [bind, Except.bind]
  rw [if_neg (show ¬ c = XL_EOF from n2), hr]
  have hlen : ((p + 4 + d.length : Nat) : Int) = ((p + (encRecs [(c, d)]).length : Nat) : Int) := by
    simp [encRecs, encRec_length]; ring
  rw [← hlen]

/-- A plain setting changes neither the cells nor the merged ranges. -/
theorem plain_goes {E : SheetEnv} {x : SheetItem} (hx : x.isPlain = true) (s : SheetSt) : ∃ s', applyItem E s x = .ok s' ∧ s'.store = s.store ∧ s'.merged = s.merged := by
  cases x <;> first | (cases hx; done) | (simp only [applyItem]; refine ⟨_, rfl, ?_, ?_⟩ <;> first | rfl | (split_ifs <;> rfl))

theorem setting_item_ok {env : OpenEnv} {mem rest : Bytes} {o : OldSt} {x : SheetItem} (hv : o.bv = 21 ∨ o.bv = 20) (hx : x.isPlain = true) {dec : Bytes → R PyStr}
    (ho : x.OldOk 21 dec []) (hs : x.Short 21) {p k : Nat} (hm : mem.drop p = encRecs (x.records 21) ++ rest) {s' : SheetSt}
    (hq : applyItem (readEnv env o.bv o.book) o.sheet x = .ok s') :
    oldLoop env 21 mem (k + 1) o (p : Int) = oldLoop env 21 mem k { o with sheet := s' } ((p + (encRecs (x.records 21)).length : Nat) : Int) := by
  have h8 : o.bv < 80 := by omega
  have hset := plain_setting hx
  obtain ⟨c, d, hr, c1, c2, c3, c4⟩ := setting_record hset ho
  have hl : d.length < 65536 := hs (c, d) (by rw [hr]; simp)
  have hn : ∀ y, x ≠ .extra y := by rintro y rfl; cases hx
  have hrec : x.records 21 = x.records o.bv := plain_records (by decide) h8 hx
  have ho' : x.OldOk o.bv dec [] := plain_ok (by decide) h8 hx ho
  have hs' : x.Short o.bv := by unfold SheetItem.Short; rw [← hrec]; exact hs
  have hfits : FitsItem o.bv oldBad x := by
    cases x <;> first | (cases hx; done) | trivial | (exact fun h => ho.2 _ _ rfl ((by decide : ∀ c ∈ oldBad, c ∈ oldCodes) _ h))
  have h1 := plainItem_step (rounds_follows (readEnv env o.bv o.book) mem oldBad good_old) 0 o.sheet x hn hfits (setting_ok hset ho'.1) hs'
    (show mem.drop p = encRecs (x.records o.bv) ++ rest by rw [← hrec]; exact hm)
  have hm' : mem.drop p = encRec c d ++ rest := by rw [hm, hr]; simp [encRecs]
  have hg := getRecordParts_at c1 hl hm'
  have hnf : c ∉ XL_FORMULA_OPCODES := fun hh => c4 (List.mem_append_right _ hh)
  have ha : At env o.bv o.book o o := ⟨rfl, .inl rfl, rfl, rfl⟩
  rw [rounds, hg, hq] at h1
  simp only [bind, Except.bind] at h1
  rw [if_neg (by tauto)] at h1
  cases hs2 : sheetRecord (readEnv env o.bv o.book) mem o.sheet ((p + 4 + d.length : Nat) : Int) c d.length d with
  | error e => rw [hs2] at h1; cases h1
  | ok r =>
    obtain ⟨s2, q⟩ := r
    rw [hs2] at h1
    simp only [rounds, Except.ok.injEq, Option.some.injEq, Prod.mk.injEq] at h1
    obtain ⟨rfl, rfl⟩ := h1
    obtain ⟨o', h3⟩ := old_step_ok h8 ha (fun h => absurd h c4) c3 (.inr hnf) hs2
    obtain ⟨_, a2⟩ := old_step h8 ha c3 (.inr hnf) h3
    have a3 := old_step_same c3 c4 h3
    rw [hs2] at a2
    simp only [Except.ok.injEq, Prod.mk.injEq] at a2
    rw [oldLoop, hg]
    simp only [bind, Except.bind]
    rw [if_neg (show ¬ c = XL_EOF from c2), record_bv (w := o.bv) (by decide) (by omega) c3 hnf, h3, hrec]
    rw [a3, ← a2.1]
    rfl

/-- A record without cells leaves the cells alone. -/
theorem Stored.done {env : OpenEnv} {m : Bool} {dec : Bytes → R PyStr} {o o' : OldSt} {it : B2Item} (h : B2Rest env m dec o) (d : B2Done env m dec o o' it)
    (hp : ∀ x, it = .setting x → x.isPlain = true) (hn : ∀ f, it.cells env.fi f = []) : Stored (o'.env env).cfg o'.sheet.store := by
  have := (step_parts hp d.step).1
  rw [show it.cells (o'.env env).cfg.fmtInfo (xfOf m o' o.ixfe) = [] from hn _] at this
  simp only [putAll, List.foldlM_nil, pure, Except.pure, Except.ok.injEq] at this
  rw [← this]
  exact h.stored.ext h.inv d.inv d.ext

/-- One item. -/
theorem b2_item_ok {env : OpenEnv} {m : Bool} {dec : Bytes → R PyStr} {mem rest : Bytes} {o : OldSt} {it : B2Item} {p k : Nat} (h : B2Rest env m dec o) (ho : it.Ok dec)
    (hc : B2Can env m dec o it) (hs : ∀ q ∈ it.records, q.2.length < 65536) (hm : mem.drop p = encRecs it.records ++ rest) :
    ∃ o', B2Done env m dec o o' it ∧ B2Rest env m dec o' ∧
      oldLoop env 21 mem (k + 1) o (p : Int) = oldLoop env 21 mem k o' ((p + (encRecs it.records).length : Nat) : Int) := by
  cases it with
  | number r c a x =>
    obtain ⟨o', h1, h2, h3⟩ := number_ok h ho hc
    have d := number_done h.inv ho h1
    exact ⟨o', d, ⟨d.inv, h2, h3⟩, sheet_item_ok (by decide) (hs _ (List.mem_singleton.mpr rfl)) hm h1⟩
  | integer r c a x =>
    obtain ⟨o', h1, h2, h3⟩ := integer_ok h ho hc
    have d := integer_done h.inv ho h1
    exact ⟨o', d, ⟨d.inv, h2, h3⟩, sheet_item_ok (by decide) (hs _ (List.mem_singleton.mpr rfl)) hm h1⟩
  | label r c a t b junk =>
    obtain ⟨o', h1, h2, h3⟩ := label_ok h ho hc
    have d := label_done h.inv ho h1
    exact ⟨o', d, ⟨d.inv, h2, h3⟩, sheet_item_ok (by decide) (hs _ (List.mem_singleton.mpr rfl)) hm h1⟩
  | boolerr r c a isErr v =>
    obtain ⟨o', h1, h2, h3⟩ := boolerr_ok h ho hc
    have d := boolerr_done h.inv ho h1
    exact ⟨o', d, ⟨d.inv, h2, h3⟩, sheet_item_ok (by decide) (hs _ (List.mem_singleton.mpr rfl)) hm h1⟩
  | blank r c a junk =>
    obtain ⟨o', h1, h2, h3⟩ := blank_ok h ho hc
    have d := blank_done h.inv ho h1
    exact ⟨o', d, ⟨d.inv, h2, h3⟩, sheet_item_ok (by decide) (hs _ (List.mem_singleton.mpr rfl)) hm h1⟩
  | ixfe x =>
    have hx : x < 65536 := ho
    have hu : unpackH (le16 x) = .ok x := by
      unfold unpackH
      rw [unpackN_ok (by rfl)]
      simp [bind, Except.bind, pure, Except.pure, fld_le16 x hx]
    have h1 : oldSheetRecord env o 0x44 (le16 x).length (le16 x) = .ok { o with ixfe := some x } := by
      show (do let y ← unpackH (le16 x); pure { o with ixfe := some y } : R OldSt) = _
      rw [hu]; rfl
    have d := ixfe_done (x := x) h.inv
    exact ⟨_, d, ⟨d.inv, h.enc, h.stored⟩, sheet_item_ok (by decide) (hs _ (List.mem_singleton.mpr rfl)) hm h1⟩
  | row r p ht dh q rest' xf =>
    obtain ⟨o', h1, h2⟩ := row_ok h ho hc rfl
    have d := (row_done h.inv ho rfl h1).1
    exact ⟨o', d, ⟨d.inv, h2, Stored.done h d (fun _ hh => (by cases hh)) fun _ => rfl⟩, sheet_item_ok (by decide) (hs _ (List.mem_singleton.mpr rfl)) hm h1⟩
  | colwidth first last w junk =>
    obtain ⟨o', h1, h2⟩ := colwidth_ok (first := first) (last := last) (w := w) (junk := junk) h
    have d := colwidth_done h.inv ho h1
    exact ⟨o', d, ⟨d.inv, h2, Stored.done h d (fun _ hh => (by cases hh)) fun _ => rfl⟩, sheet_item_ok (by decide) (hs _ (List.mem_singleton.mpr rfl)) hm h1⟩
  | coldefault first as junk =>
    obtain ⟨o', h1, h2⟩ := coldefault_ok h ho hc
    have d := coldefault_done h.inv ho h1
    exact ⟨o', d, ⟨d.inv, h2, Stored.done h d (fun _ hh => (by cases hh)) fun _ => rfl⟩, sheet_item_ok (by decide) (hs _ (List.mem_singleton.mpr rfl)) hm h1⟩
  | window op top left auto r g b junk =>
    obtain ⟨o', h1, h2⟩ := window_ok (env := env) (o := o) (op := op) (top := top) (left := left) (auto := auto) (r := r) (g := g) (b := b) (junk := junk) h.enc
    have d := window_done h.inv ho h1
    exact ⟨o', d, ⟨d.inv, h2, Stored.done h d (fun _ hh => (by cases hh)) fun _ => rfl⟩, sheet_item_ok (by decide) (hs _ (List.mem_singleton.mpr rfl)) hm h1⟩
  | setting x =>
    obtain ⟨s', h1, h2, _⟩ := plain_goes (E := readEnv env o.bv o.book) ho.1 o.sheet
    have d : B2Done env m dec o { o with sheet := s' } (.setting x) := by
      refine ⟨h.inv.sheet s' o.ixfe, (B2Ext.refl env m o).sheet s' o.ixfe, rfl, ?_, fun _ hh => (by cases hh), fun _ as has => (List.append_nil as).symm ▸ has.congr rfl rfl⟩
      rw [← h1]
      exact plain_apply rfl ho.1 o.sheet
    exact ⟨_, d, ⟨d.inv, h.enc, Stored.done h d (fun y hh => by cases hh; exact ho.1) fun _ => rfl⟩, setting_item_ok h.inv.ver ho.1 ho.2 hs hm h1⟩
  | formula r c a res code flags junk =>
    obtain ⟨k1, k2, k3, k4⟩ := ho
    have hl := hs _ (List.mem_cons_self ..)
    have hm0 : mem.drop p = encRec code (at2 r c a ++ res.bytes ++ [flags] ++ junk) ++ (encRecs res.records ++ rest) := by
      rw [hm, B2Item.records, encRecs_cons, List.append_assoc]
    have hcode : code < 65536 ∧ code ≠ 0xa ∧ code ∈ XL_FORMULA_OPCODES := by rcases k3 with rfl | rfl | rfl <;> decide
    have hd := drop_at hm0 rfl
    rw [encRec_length] at hd
    rw [show p + (4 + (at2 r c a ++ res.bytes ++ [flags] ++ junk).length) = p + 4 + (at2 r c a ++ res.bytes ++ [flags] ++ junk).length by omega] at hd
    have hp : p + 4 + (at2 r c a ++ res.bytes ++ [flags] ++ junk).length ≤ mem.length := by
      have := congrArg List.length hm0
      rw [List.length_drop, List.length_append, encRec_length] at this
      omega
    obtain ⟨o', h1, h2, h3⟩ := formula_ok (code := code) h hd hp ⟨k1, k2, k3, k4⟩ hc
    obtain ⟨e1, d⟩ := formula_done (code := code) h.inv hd hp ⟨k1, k2, k3, k4⟩ h1
    refine ⟨o', d, ⟨d.inv, h2, h3⟩, ?_⟩
    rw [oldLoop, getRecordParts_at hcode.1 hl hm0]
    simp only [bind, Except.bind]
    rw [if_neg (show ¬ code = XL_EOF from hcode.2.1)]
    have hrec : oldRecord env 21 mem o ((p + 4 + (at2 r c a ++ res.bytes ++ [flags] ++ junk).length : Nat) : Int) code (at2 r c a ++ res.bytes ++ [flags] ++ junk).length
        (at2 r c a ++ res.bytes ++ [flags] ++ junk) = recFormulaB2 env mem o ((p + 4 + (at2 r c a ++ res.bytes ++ [flags] ++ junk).length : Nat) : Int)
        (at2 r c a ++ res.bytes ++ [flags] ++ junk) := by
      unfold oldRecord oldFormula
      rw [if_pos hcode.2.2, if_neg (by decide)]
    rw [hrec, h1]
    have hz : p + (encRecs (B2Item.formula r c a res code flags junk).records).length =
        p + 4 + (at2 r c a ++ res.bytes ++ [flags] ++ junk).length + (encRecs res.records).length := by
      rw [B2Item.records, encRecs_cons, List.length_append, encRec_length]
      show p + (4 + (at2 r c a ++ res.bytes ++ [flags] ++ junk).length + _) = _
      omega
    rw [hz]

/-! ## Numbers of attributes -/

theorem ownXfs_mono (as bs : List CellAttr) : ownXfs as <+: ownXfs (as ++ bs) := by
  induction bs using List.reverseRecOn with
  | nil => rw [List.append_nil]; exact List.prefix_rfl
  | append_singleton bs b ih =>
    rw [← List.append_assoc, ownXfs_snoc]
    by_cases h : b ∈ ownXfs (as ++ bs) ∨ b = plainAttr ∧ ownXfs (as ++ bs) ≠ []
    · rw [if_pos h]; exact ih
    · rw [if_neg h]; exact ih.trans (List.prefix_append _ _)

theorem ownXfs_used {as : List CellAttr} {a : CellAttr} (h : a ∈ as) : a ∈ ownXfs as ∨ a = plainAttr ∧ ownXfs as ≠ [] := by
  induction as using List.reverseRecOn with
  | nil => cases h
  | append_singleton as b ih =>
    rw [ownXfs_snoc]
    by_cases hb : b ∈ ownXfs as ∨ b = plainAttr ∧ ownXfs as ≠ []
    · rw [if_pos hb]
      rcases List.mem_append.mp h with h | h
      · exact ih h
      · rw [List.mem_singleton.mp h]; exact hb
    · rw [if_neg hb]
      rcases List.mem_append.mp h with h | h
      · rcases ih h with h | ⟨h, h2⟩
        · exact .inl (List.mem_append_left _ h)
        · exact .inr ⟨h, by simp⟩
      · exact .inl (List.mem_append_right _ h)

/-- Attributes that have got an XF keep it. -/
theorem attrNumber_append {as bs : List CellAttr} {a : CellAttr} (h : a ∈ as) : attrNumber (as ++ bs) a = attrNumber as a := by
  induction bs using List.reverseRecOn with
  | nil => rw [List.append_nil]
  | append_singleton bs b ih =>
    rw [← ih, ← List.append_assoc]
    unfold attrNumber
    rw [ownXfs_snoc]
    by_cases hb : b ∈ ownXfs (as ++ bs) ∨ b = plainAttr ∧ ownXfs (as ++ bs) ≠ []
    · rw [if_pos hb]
    · rw [if_neg hb]
      have hu := ownXfs_used (show a ∈ as ++ bs from List.mem_append_left _ h)
      by_cases ha : a ∈ ownXfs (as ++ bs)
      · rw [if_pos ha, if_pos (List.mem_append_left _ ha), List.idxOf_append_of_mem ha]
      · have hp : a = plainAttr ∧ ownXfs (as ++ bs) ≠ [] := by tauto
        have hne : a ≠ b := by rintro rfl; exact hb (.inr hp)
        rw [if_neg ha, if_neg (by simp [ha, hne])]

theorem Num.number {as : List CellAttr} {o : OldSt} (h : Num as o) {a : CellAttr} (ha : a ∈ as) (i : Option Nat) : xfOf false o i a = attrNumber as a := by
  unfold xfOf attrNumber
  rw [h.xf a]
  by_cases h1 : a ∈ ownXfs as
  · rw [if_pos h1, if_pos h1]; rfl
  · have h2 : a = plainAttr ∧ ownXfs as ≠ [] := by have := ownXfs_used ha; tauto
    rw [if_neg h1, if_neg h1, if_pos h2]; rfl

/-! ## All records -/

theorem cells_congr {fi : Bool} {f g : CellAttr → Nat} {it : B2Item} (h : ∀ a ∈ it.attrs fi, f a = g a) : it.cells fi f = it.cells fi g := by
  cases it with
  | blank r c a junk =>
    cases fi with
    | false => rfl
    | true => simp only [B2Item.cells, B2Item.attrs, if_true, List.mem_singleton, forall_eq] at h ⊢; rw [h]
  | number r c a x => simp only [B2Item.cells, B2Item.attrs, List.mem_singleton, forall_eq] at h ⊢; rw [h]
  | integer r c a x => simp only [B2Item.cells, B2Item.attrs, List.mem_singleton, forall_eq] at h ⊢; rw [h]
  | label r c a t b junk => simp only [B2Item.cells, B2Item.attrs, List.mem_singleton, forall_eq] at h ⊢; rw [h]
  | boolerr r c a i v => simp only [B2Item.cells, B2Item.attrs, List.mem_singleton, forall_eq] at h ⊢; rw [h]
  | formula r c a res code flags junk => simp only [B2Item.cells, B2Item.attrs, List.mem_singleton, forall_eq] at h ⊢; rw [h]
  | _ => rfl

theorem cells_attr {fi : Bool} {f : CellAttr → Nat} {it : B2Item} {w : Write} (h : w ∈ it.cells fi f) : ∃ a ∈ it.attrs fi, w.xf = f a := by
  cases it with
  | blank r c a junk =>
    cases fi with
    | false => cases h
    | true => rw [List.mem_singleton.mp h]; exact ⟨a, by simp [B2Item.attrs], rfl⟩
  | number r c a x => rw [List.mem_singleton.mp h]; exact ⟨a, by simp [B2Item.attrs], rfl⟩
  | integer r c a x => rw [List.mem_singleton.mp h]; exact ⟨a, by simp [B2Item.attrs], rfl⟩
  | label r c a t b junk => rw [List.mem_singleton.mp h]; exact ⟨a, by simp [B2Item.attrs], rfl⟩
  | boolerr r c a i v => rw [List.mem_singleton.mp h]; exact ⟨a, by simp [B2Item.attrs], rfl⟩
  | formula r c a res code flags junk => rw [List.mem_singleton.mp h]; exact ⟨a, by simp [B2Item.attrs], rfl⟩
  | _ => cases h

/-- Cells of an item can be stored; `n` is the number of XF records, `all` the attributes in use. -/
def FitsB2 (fi : Bool) (f : CellAttr → Nat) (n : Nat) (it : B2Item) : Prop :=
  ∀ w ∈ it.cells fi f, w.row < 16384 ∧ w.col < 256 ∧ (w.ctype = none → w.xf = 0 ∨ 0 ≤ w.xf ∧ w.xf < n) ∧ (fi = true → -32768 ≤ w.xf ∧ w.xf ≤ 32767)

/-- The XF of attributes in the end. -/
def xfIn (m : Bool) (all : List CellAttr) (i : Option Nat) (a : CellAttr) : Nat := if m then ixfeIndex i a.slot else attrNumber all a

theorem can_item {env : OpenEnv} {m : Bool} {dec : Bytes → R PyStr} {o : OldSt} {it : B2Item} {all as bs : List CellAttr} {n : Nat} (hall : all = as ++ it.attrs env.fi ++ bs)
    (hnum : m = false → Num as o) (htm : m = true → ∀ k, k = 0 ∨ k < n → (o.book.fmt.typeMap k).isSome = true)
    (hfix : ∀ a ∈ it.attrs env.fi, CanFix m o.ixfe a) (hrow : ∀ y ∈ it.rowNumbers env.fi, m = true ∧ (y = 63 → o.ixfe ≠ none))
    (hfit : FitsB2 env.fi (xfIn m all o.ixfe) n it) : B2Can env m dec o it := by
  refine ⟨hfix, hrow, fun o1 hi he hk hn w hw => ?_⟩
  have hf : ∀ a ∈ it.attrs env.fi, xfOf m o1 o.ixfe a = xfIn m all o.ixfe a := by
    intro a ha
    cases m with
    | true => rfl
    | false =>
      rw [(hn rfl as (hnum rfl)).number (List.mem_append_right _ ha)]
      show _ = attrNumber all a
      rw [hall, attrNumber_append (List.mem_append_right _ ha)]
  obtain ⟨a, ha, hxa⟩ := cells_attr hw
  rw [cells_congr hf] at hw
  obtain ⟨h1, h2, h3, h4⟩ := hfit w hw
  refine ⟨?_, h2, fun hct => ?_, h4⟩
  · show w.row < if o1.bv ≥ 80 then 65536 else 16384
    rw [if_neg (by have := hi.ver; omega)]
    exact h1
  · show ∃ t, (if (0 : Int) ≤ w.xf then o1.book.fmt.typeMap w.xf.toNat else none) = some t
    rw [hxa, if_pos (Int.natCast_nonneg _), Int.toNat_natCast, ← Option.isSome_iff_exists]
    cases m with
    | true =>
      rw [he.same rfl]
      refine htm rfl _ ?_
      have := h3 hct
      rw [hxa] at this
      omega
    | false =>
      obtain ⟨_, k, hk'⟩ := (hk a ha).2 rfl
      obtain ⟨_, _, ft, _, h5⟩ := (hi.none rfl).2.stands a k hk'
      have : xfOf false o1 o.ixfe a = k := by simp [xfOf, hk']
      rw [this, h5]; rfl

theorem b2_items_ok {env : OpenEnv} {m : Bool} {dec : Bytes → R PyStr} {mem rest : Bytes} {k n : Nat} {all : List CellAttr} : ∀ (items : List B2Item) (p : Nat) (o : OldSt) (as : List CellAttr),
    B2Rest env m dec o → all = as ++ attrsB2 env.fi items → (m = false → Num as o) → (m = true → ∀ k, k = 0 ∨ k < n → (o.book.fmt.typeMap k).isSome = true) →
    (∀ it ∈ items, it.Ok dec) → (∀ q ∈ items.flatMap B2Item.records, q.2.length < 65536) →
    (∀ q ∈ withIxfe o.ixfe items, (∀ a ∈ q.2.attrs env.fi, CanFix m q.1 a) ∧ (∀ y ∈ q.2.rowNumbers env.fi, m = true ∧ (y = 63 → q.1 ≠ none)) ∧ FitsB2 env.fi (xfIn m all q.1) n q.2) →
    mem.drop p = encRecs (items.flatMap B2Item.records) ++ rest →
    ∃ o', B2Rest env m dec o' ∧ o'.sheet.merged = o.sheet.merged ∧
      oldLoop env 21 mem (k + items.length) o (p : Int) = oldLoop env 21 mem k o' ((p + (encRecs (items.flatMap B2Item.records)).length : Nat) : Int) := by
  intro items
  induction items with
  | nil =>
    intro p o as h _ _ _ _ _ _ _
    exact ⟨o, h, rfl, rfl⟩
  | cons it items ih =>
    intro p o as h hall hnum htm ho hs hq hm
    rw [List.flatMap_cons, encRecs_append, List.append_assoc] at hm
    have hall' : all = as ++ it.attrs env.fi ++ attrsB2 env.fi items := by rw [hall, List.append_assoc]; rfl
    rw [withIxfe_cons] at hq
    obtain ⟨q1, q2, q3⟩ := hq _ (List.mem_cons_self ..)
    obtain ⟨o1, d, h1, h2⟩ := b2_item_ok (k := k + items.length) h (ho it (List.mem_cons_self ..)) (can_item hall' hnum htm q1 q2 q3)
      (fun q hq => hs q (by rw [List.flatMap_cons]; exact List.mem_append_left _ hq)) hm
    obtain ⟨o', i1, i2, i3⟩ := ih (p + (encRecs it.records).length) o1 (as ++ it.attrs env.fi) h1 hall' (fun hm => d.num hm as (hnum hm))
      (fun hm j hj => by rw [d.ext.same hm]; exact htm hm j hj) (fun x hx => ho x (List.mem_cons_of_mem _ hx))
      (fun q hq => hs q (by rw [List.flatMap_cons]; exact List.mem_append_right _ hq)) (fun q hq' => hq q (by rw [d.ixfe] at hq'; exact List.mem_cons_of_mem _ hq')) (drop_at hm rfl)
    refine ⟨o', i1, ?_, ?_⟩
    · rw [i2]
      exact (step_parts (fun x hx => by subst hx; exact (ho (.setting x) (List.mem_cons_self ..)).1) d.step).2.2.2
    · rw [List.length_cons, show k + (items.length + 1) = k + items.length + 1 by omega, h2, i3, List.flatMap_cons, encRecs_append, List.length_append, ← Nat.add_assoc]

/-! ## The records before the DIMENSION record -/

theorem free_item_ok {env : OpenEnv} {mem rest : Bytes} {o : OldSt} {it : B2Item} {p k : Nat} (hv : o.bv = 21) (hf : it.isFree = true) {dec : Bytes → R PyStr} (ho : it.Ok dec)
    (hs : ∀ q ∈ it.records, q.2.length < 65536) (hm : mem.drop p = encRecs it.records ++ rest) :
    ∃ s', s'.store = o.sheet.store ∧ s'.merged = o.sheet.merged ∧ oldLoop env 21 mem (k + 1) o (p : Int) =
      oldLoop env 21 mem k { o with sheet := s', ixfe := nextIxfe o.ixfe it } ((p + (encRecs it.records).length : Nat) : Int) := by
  cases it with
  | ixfe x =>
    have hx : x < 65536 := ho
    have hu : unpackH (le16 x) = .ok x := by
      unfold unpackH
      rw [unpackN_ok (by rfl)]
      simp [bind, Except.bind, pure, Except.pure, fld_le16 x hx]
    have h1 : oldSheetRecord env o 0x44 (le16 x).length (le16 x) = .ok { o with ixfe := some x } := by
      show (do let y ← unpackH (le16 x); pure { o with ixfe := some y } : R OldSt) = _
      rw [hu]; rfl
    exact ⟨o.sheet, rfl, rfl, sheet_item_ok (by decide) (hs _ (List.mem_singleton.mpr rfl)) hm h1⟩
  | colwidth first last w junk =>
    have hfr : ∃ s, recColWidth env o ([first, last] ++ le16 w ++ junk) = .ok { o with sheet := s } ∧ s.store = o.sheet.store ∧ s.merged = o.sheet.merged := by
      unfold recColWidth
      cases hb : env.fi with
      | false => exact ⟨_, rfl, rfl, rfl⟩
      | true =>
        simp only [if_true]
        rw [sliceTo_app (k := 4) (n := 4) rfl (show ([first, last] ++ le16 w : Bytes).length = 4 from rfl),
          unpackN_ok (show ([first, last] ++ le16 w : Bytes).length = 4 from rfl)]
        simp only [bind, Except.bind]
        by_cases hle : fld ([first, last] ++ le16 w) 0 1 ≤ fld ([first, last] ++ le16 w) 1 1
        · rw [if_pos hle]; exact ⟨_, rfl, rfl, rfl⟩
        · rw [if_neg hle]; exact ⟨_, rfl, rfl, rfl⟩
    obtain ⟨s, h1, h2, h3⟩ := hfr
    exact ⟨s, h2, h3, sheet_item_ok (by decide) (hs _ (List.mem_singleton.mpr rfl)) hm h1⟩
  | setting x =>
    obtain ⟨s', h1, h2, h3⟩ := plain_goes (E := readEnv env o.bv o.book) ho.1 o.sheet
    exact ⟨s', h2, h3, setting_item_ok (.inl hv) ho.1 ho.2 hs hm h1⟩
  | _ => cases hf

theorem b2_head_ok {env : OpenEnv} {mem rest : Bytes} {dec : Bytes → R PyStr} (k : Nat) : ∀ (head : List B2Head) (p : Nat) (o : OldSt) (b b1 : Book) (cs : List (Option Nat)),
    o.bv = 21 → PaintedBook env.fi cs b o.book → b.xfDone = false → (∀ c d, B2Head.book c d ∈ head → c ∈ bookCodes 21 ∧ c ≠ 0x293 ∧ (c = 0x56 → 2 ≤ d.length)) →
    (∀ pre c post, head = pre ++ .efont c :: post → c < 65536 ∧ (cs ≠ [] ∨ ∃ d, .book (fontCode 21) d ∈ pre)) →
    (∀ x, B2Head.item x ∈ head → x.isFree = true ∧ x.Ok dec) → (∀ q ∈ head.flatMap B2Head.records, q.2.length < 65536) →
    mem.drop p = encRecs (head.flatMap B2Head.records) ++ rest → applyGlobals (env.recEnv 21) b ((b2Book head).map newItem) = .ok b1 →
    ∃ s1 l, s1.store = o.sheet.store ∧ s1.merged = o.sheet.merged ∧ b1.xfDone = false ∧ oldLoop env 21 mem (k + head.length) o (p : Int) =
      oldLoop env 21 mem k { o with sheet := s1, book := withFonts l b1, ixfe := lastIxfe o.ixfe (b2Items head) } ((p + (encRecs (head.flatMap B2Head.records)).length : Nat) : Int) := by
  intro head
  induction head with
  | nil =>
    intro p o b b1 cs h1 hp h2 _ _ _ _ _ h
    cases h
    obtain ⟨l, hl, _⟩ := hp
    exact ⟨o.sheet, l, rfl, rfl, h2, by rw [← hl]; rfl⟩
  | cons it head ih =>
    intro p o b b1 cs h1 hp h2 hc hef hy hs hm h
    rw [List.flatMap_cons, encRecs_append, List.append_assoc] at hm
    have hm2 := drop_at hm rfl
    have hs2 : ∀ q ∈ head.flatMap B2Head.records, q.2.length < 65536 := fun q hq => hs q (by rw [List.flatMap_cons]; exact List.mem_append_right _ hq)
    have hc2 : ∀ c d, B2Head.book c d ∈ head → c ∈ bookCodes 21 ∧ c ≠ 0x293 ∧ (c = 0x56 → 2 ≤ d.length) := fun c d hm => hc c d (List.mem_cons_of_mem _ hm)
    have hy2 : ∀ x, B2Head.item x ∈ head → x.isFree = true ∧ x.Ok dec := fun y hm => hy y (List.mem_cons_of_mem _ hm)
    have hef2 := efonts_tail hef
    have hlen : ∀ n, p + n + (encRecs (head.flatMap B2Head.records)).length = p + (n + (encRecs (head.flatMap B2Head.records)).length) := by intro n; omega
    rw [List.length_cons, show k + (head.length + 1) = k + head.length + 1 by omega, List.flatMap_cons, encRecs_append, List.length_append, ← hlen]
    cases it with
    | item x =>
      obtain ⟨s', e1, e2, e3⟩ := free_item_ok (env := env) (k := k + head.length) h1 (hy x (by simp)).1 (hy x (by simp)).2
        (fun q hq => hs q (by rw [List.flatMap_cons]; exact List.mem_append_left _ hq)) hm
      obtain ⟨s1, l, g1, g2, g3, g4⟩ := ih _ { o with sheet := s', ixfe := nextIxfe o.ixfe x } b b1 cs h1 hp h2 hc2 hef2 hy2 hs2 hm2 h
      exact ⟨s1, l, g1.trans e1, g2.trans e2, g3, e3.trans g4⟩
    | efont c =>
      obtain ⟨h16, hne⟩ := hef [] c head rfl
      have hcs : cs ≠ [] := by
        rcases hne with hne | ⟨d, hd⟩
        · exact hne
        · cases hd
      have hm' : mem.drop p = encRec 0x45 (le16 c) ++ (encRecs (head.flatMap B2Head.records) ++ rest) := by rw [hm]; simp [B2Head.records, encRecs]
      obtain ⟨b', e1, e2⟩ := hp.efont mem h1 ((p + 4 + (le16 c).length : Nat) : Int) (le16 c).length h16 hcs
      rw [oldLoop, getRecordParts_at (by decide) (by rw [le16_length]; omega) hm']
      simp only [bind, Except.bind]
      rw [if_neg (show ¬ (0x45 : Nat) = XL_EOF by decide), e1]
      have hpos : ((p + 4 + (le16 c).length : Nat) : Int) = ((p + (encRecs (B2Head.records (.efont c))).length : Nat) : Int) := by
        simp [B2Head.records, encRecs, encRec_length]; ring
      simp only
      rw [hpos]
      exact ih _ { o with book := b' } b b1 _ h1 e2 h2 hc2 hef2 hy2 hs2 hm2 h
    | book c d =>
      have hv : (21 : Nat) = 21 ∨ (21 : Nat) = 30 ∨ (21 : Nat) = 40 ∨ (21 : Nat) = 45 := .inl rfl
      obtain ⟨hcc, hn, h56⟩ := hc c d (by simp)
      have hl : d.length < 65536 := hs (c, d) (by simp [B2Head.records])
      have hm' : mem.drop p = encRec c d ++ (encRecs (head.flatMap B2Head.records) ++ rest) := by rw [hm]; simp [B2Head.records, encRecs]
      obtain ⟨hlt, hne⟩ := bookCodes_lt hv hcc
      obtain ⟨b2, h6, g⟩ : ∃ b2, globalsRecord (env.recEnv 21) b (newCode c) d = .ok b2 ∧ applyGlobals (env.recEnv 21) b2 ((b2Book head).map newItem) = .ok b1 := by
        have : applyGlobals (env.recEnv 21) b (.one (newCode c) d :: (b2Book head).map newItem) = .ok b1 := h
        exact bind_ok this
      obtain ⟨b', h7, hp2⟩ : ∃ b', globalsRecord (env.recEnv 21) o.book (newCode c) d = .ok b' ∧ PaintedBook env.fi (addColour cs (.book c d)) b2 b' := by
        rcases hp.record hcc hn d with ⟨e, k1, _⟩ | ⟨b3, b3', k1, k2, k3⟩
        · rw [k1] at h6; cases h6
        · rw [k1] at h6; cases h6; exact ⟨b3', k2, k3⟩
      have hx : b2.xfDone = false := by
        rw [record_done ?_ h6]
        · exact h2
        · rcases newCode_cases hv hcc with ⟨_, n2⟩ | ⟨_, n2⟩ | ⟨_, _, n3, n4⟩
          · rw [n2]; decide
          · rw [n2]; decide
          · rw [n3]; exact List.mem_cons_of_mem _ (List.mem_cons_of_mem _ n4)
      rw [oldLoop, getRecordParts_at hlt hl hm']
      simp only [bind, Except.bind]
      rw [if_neg (show ¬ c = XL_EOF from hne), book_step_ok hv h1 hcc h56 (by rw [if_neg (fun h => hn h.1)]; exact h7)]
      have hpos : ((p + 4 + d.length : Nat) : Int) = ((p + (encRecs (B2Head.records (.book c d))).length : Nat) : Int) := by
        simp [B2Head.records, encRecs, encRec_length]; ring
      simp only
      rw [hpos]
      exact ih _ { o with book := b' } b2 b1 _ h1 hp2 hx hc2 hef2 hy2 hs2 hm2 g

theorem b2_dim_ok {env : OpenEnv} {mem rest : Bytes} {o : OldSt} {x : DimRec} (hs : (x.bytes 21).length < 65536) {p k : Nat} (hver : o.bv = 21)
    (hm : mem.drop p = encRecs [(0x0, x.bytes 21)] ++ rest) :
    ∃ a b, oldLoop env 21 mem (k + 1) o (p : Int) = oldLoop env 21 mem k { o with
        sheet := { o.sheet with store := { o.sheet.store with nrows := 0, ncols := 0 }, dimnrows := a, dimncols := b }
        book := if o.book.fmt.xfList ≠ [] ∧ o.book.xfDone = false then runEpilogue env o.book else o.book }
      ((p + (encRecs [(0x0, x.bytes 21)]).length : Nat) : Int) := by
  obtain ⟨⟨a, b, h1⟩, h2⟩ := dim_bytes env hs
  have hm' : mem.drop p = encRec 0x0 (x.bytes 21) ++ rest := by simpa [encRecs] using hm
  refine ⟨a, b, ?_⟩
  rw [oldLoop, getRecordParts_at (by decide) hs hm']
  simp only [bind, Except.bind]
  rw [if_neg (by decide)]
  have hr : oldRecord env 21 mem o ((p + 4 + (x.bytes 21).length : Nat) : Int) 0x0 (x.bytes 21).length (x.bytes 21) =
      (oldDimension env 21 o (x.bytes 21).length (x.bytes 21)).map fun o => (o, ((p + 4 + (x.bytes 21).length : Nat) : Int)) := by
    unfold oldRecord
    rw [if_neg (by decide), if_neg (by decide), if_neg (by decide), if_neg (by decide), if_pos (by decide)]
    cases oldDimension env 21 o (x.bytes 21).length (x.bytes 21) <;> rfl
  rw [hr]
  have hd : oldDimension env 21 o (x.bytes 21).length (x.bytes 21) = .ok { o with
      sheet := { o.sheet with store := { o.sheet.store with nrows := 0, ncols := 0 }, dimnrows := a, dimncols := b }
      book := if o.book.fmt.xfList ≠ [] ∧ o.book.xfDone = false then runEpilogue env o.book else o.book } := by
    have hrd : recDimension (o.env env) o.sheet (x.bytes 21).length (x.bytes 21) =
        .ok { o.sheet with store := { o.sheet.store with nrows := 0, ncols := 0 }, dimnrows := a, dimncols := b } := by
      unfold recDimension
      rw [if_neg h2, show (o.env env).bv = 21 from hver, h1]
      rfl
    unfold oldDimension OldSt.onSheet
    rw [hrd]
    simp only [bind, Except.bind, pure, Except.pure]
    by_cases hc : o.book.fmt.xfList ≠ [] ∧ o.book.xfDone = false
    · rw [if_pos ⟨h2, (by decide), hc⟩, if_pos hc]
    · rw [if_neg (fun h => hc h.2.2), if_neg hc]
  rw [hd]
  have hlen : ((p + 4 + (x.bytes 21).length : Nat) : Int) = ((p + (encRecs [(0x0, x.bytes 21)]).length : Nat) : Int) := by
    simp [encRecs, encRec_length]; ring
  rw [← hlen]
  rfl

/-! ## The whole file -/

theorem b2Book_mem {F : B2File} {c : Nat} {d : Bytes} : B2Head.book c d ∈ F.head ↔ GItem.one c d ∈ F.book := by
  unfold B2File.book
  rw [List.mem_filterMap]
  constructor
  · intro h; exact ⟨_, h, rfl⟩
  · rintro ⟨i, h, hi⟩
    cases i with
    | book c' d' => cases hi; exact h
    | efont c => cases hi
    | item z => cases hi

theorem b2_file_ok {env : OpenEnv} {F : B2File} {b0 : Book} (hb0 : b0.xfDone = false) (hf0 : b0.fmt.fontList = []) {dec : Bytes → R PyStr} (hF : F.Ok dec)
    (h56 : ∀ d, GItem.one 0x56 d ∈ F.book → 2 ≤ d.length) {b1 : Book} (h : applyGlobals (env.recEnv 21) b0 (F.book.map newItem) = .ok b1) (hdec : textDec env 21 b1 = dec)
    (henc : ∃ b', ensureEncoding (env.recEnv 21) b1 = .ok b') {n : Nat} (hk : hasXfs b1 = true → KnownInv n b1.fmt)
    (hq : ∀ q ∈ withIxfe none F.items, (∀ a ∈ q.2.attrs env.fi, CanFix (hasXfs b1) q.1 a) ∧
      (∀ y ∈ q.2.rowNumbers env.fi, hasXfs b1 = true ∧ (y = 63 → q.1 ≠ none)) ∧ FitsB2 env.fi (xfIn (hasXfs b1) (attrsB2 env.fi F.items) q.1) n q.2)
    (pre rest : Bytes) : ∃ o, oldRead env 21 (pre ++ encRecs F.records ++ rest) b0 (pre.length : Int) = .ok o := by
  set mem := pre ++ encRecs F.records ++ rest with hmem
  have h1 : mem.drop pre.length = encRecs (F.head.flatMap B2Head.records) ++ (encRecs [(0x0, F.dim.bytes 21)] ++ (encRecs (F.body.flatMap B2Item.records) ++
      (encRecs [(0xa, F.eof)] ++ rest))) := by
    rw [hmem, List.append_assoc, List.drop_left]
    simp only [B2File.records, encRecs_append, List.append_assoc]
  have h2 := drop_at h1 rfl
  have h3 := drop_at h2 rfl
  have h4 := drop_at h3 rfl
  obtain ⟨c1, c1e, c2, c3, c5⟩ := hF
  have hmemR : ∀ q, (q ∈ F.head.flatMap B2Head.records ∨ q = (0x0, F.dim.bytes 21) ∨ q ∈ F.body.flatMap B2Item.records ∨ q = (0xa, F.eof)) → q.2.length < 65536 := by
    intro q hq
    apply c5
    simp only [B2File.records, List.mem_append, List.mem_singleton]
    tauto
  have hhead : ∀ x, B2Head.item x ∈ F.head → x.isFree = true ∧ x.Ok dec := fun x hx =>
    ⟨c2 x (b2Items_mem.mp hx), c3 x (List.mem_append_left _ (b2Items_mem.mp hx))⟩
  have hbody : ∀ x ∈ F.body, x.Ok dec := fun x hx => c3 x (List.mem_append_right _ hx)
  -- fuel
  have hlen := congrArg List.length h1
  simp only [List.length_drop, List.length_append] at hlen
  have f1 := encRecs_length_ge (F.head.flatMap B2Head.records)
  have f2 := encRecs_length_ge (F.body.flatMap B2Item.records)
  have f3 := encRecs_length_ge [(0x0, F.dim.bytes 21)]
  have g1 : F.head.length ≤ (F.head.flatMap B2Head.records).length := by
    have : ∀ l : List B2Head, (∀ x, B2Head.item x ∈ l → x.Ok dec) → l.length ≤ (l.flatMap B2Head.records).length := by
      intro l
      induction l with
      | nil => intro _; simp
      | cons i l ih =>
        intro hl
        have := ih fun y hy => hl y (List.mem_cons_of_mem _ hy)
        rw [List.flatMap_cons, List.length_append, List.length_cons]
        have : 1 ≤ (i.records).length := by
          cases i with
          | book c d => simp [B2Head.records]
          | efont c => simp [B2Head.records]
          | item y => exact List.length_pos_iff.mpr (b2_records_ne (hl y (by simp)))
        omega
    exact this F.head fun x hx => (hhead x hx).2
  have g2 := b2_fuel F.body fun x hx => b2_records_ne (hbody x hx)
  simp only [List.length_singleton] at f3
  obtain ⟨k, hk'⟩ : ∃ k, mem.length + 1 = (k + 1 + F.body.length + 1) + F.head.length :=
    ⟨mem.length - F.body.length - 1 - F.head.length, by omega⟩
  obtain ⟨s1, l, e1, e2, e3, e4⟩ := b2_head_ok (env := env) (k + 1 + F.body.length + 1) F.head pre.length { bv := 21, book := b0 } b0 b1 [] rfl
    ⟨b0.fmt.fontList, rfl, fun _ => rfl, fun _ => by rw [hf0]; exact Painted.nil⟩ hb0
    (fun c d hm => ⟨(c1 c d hm).1, (c1 c d hm).2, fun e => h56 d (by rw [← e]; exact b2Book_mem.mp hm)⟩) (fun pre c post e => ⟨(c1e pre c post e).1, .inr (c1e pre c post e).2⟩) hhead (fun q hq => hmemR q (.inl hq)) h1 h
  obtain ⟨a, b, d1⟩ := b2_dim_ok (env := env) (k := k + 1 + F.body.length)
    (o := { ({ bv := 21, book := b0 } : OldSt) with sheet := s1, book := withFonts l b1, ixfe := lastIxfe none (b2Items F.head) }) (hmemR _ (.inr (.inl rfl))) rfl h2
  have hbk : (if (withFonts l b1).fmt.xfList ≠ [] ∧ (withFonts l b1).xfDone = false then runEpilogue env (withFonts l b1) else withFonts l b1) =
      withFonts l (if hasXfs b1 then runEpilogue env b1 else b1) := by
    by_cases hx : b1.fmt.xfList = []
    · rw [if_neg (fun h => h.1 hx), hasXfs_false.mpr hx]; rfl
    · rw [if_pos ⟨hx, e3⟩, hasXfs_true.mpr hx]; rfl
  simp only [hbk] at d1
  have hi : B2Inv env (hasXfs b1) dec { ({ bv := 21, book := b0 } : OldSt) with
        sheet := { s1 with store := { s1.store with nrows := 0, ncols := 0 }, dimnrows := a, dimncols := b }
        book := withFonts l (if hasXfs b1 then runEpilogue env b1 else b1), ixfe := lastIxfe none (b2Items F.head) } := by
    refine ⟨?_, .inl rfl, fun hm => ⟨rfl, ?_⟩, fun hm => ⟨fun _ => ?_, ?_⟩⟩
    · show textDec env 21 (withFonts l (if hasXfs b1 then runEpilogue env b1 else b1)) = dec
      rw [textDec_fonts, ← hdec]
      by_cases hx : hasXfs b1 = true
      · rw [if_pos hx, epilogue_textDec]
      · rw [if_neg hx]
    · show (if hasXfs b1 then runEpilogue env b1 else b1).fmt.xfList ≠ []
      rw [if_pos hm]
      have := hasXfs_true.mp hm
      show (xfEpilogue env.fi b1.fmt).xfList ≠ []
      rw [xfEpilogue_list]
      simpa using this
    · show (if hasXfs b1 then runEpilogue env b1 else b1).fmt.xfList = []
      rw [hm]; exact hasXfs_false.mp hm
    · have hx : (if hasXfs b1 then runEpilogue env b1 else b1).fmt.xfList = [] := by rw [hm]; exact hasXfs_false.mp hm
      exact ⟨fun _ => rfl, fun h => absurd hx h, fun _ _ h => (by cases h), fun _ _ _ h => (by cases h), fun _ _ h => (by cases h)⟩
  have hen : CanEnc env { ({ bv := 21, book := b0 } : OldSt) with
        sheet := { s1 with store := { s1.store with nrows := 0, ncols := 0 }, dimnrows := a, dimncols := b }
        book := withFonts l (if hasXfs b1 then runEpilogue env b1 else b1), ixfe := lastIxfe none (b2Items F.head) } := by
    obtain ⟨b', hb'⟩ := henc
    suffices hh : ∃ b', ensureEncoding (env.recEnv 21) (if hasXfs b1 then runEpilogue env b1 else b1) = .ok b' by
      obtain ⟨b'', hh⟩ := hh
      exact ⟨withFonts l b'', by show ensureEncoding (env.recEnv 21) (withFonts l (if hasXfs b1 then runEpilogue env b1 else b1)) = _; rw [ensure_fonts, hh]; rfl⟩
    by_cases hx : hasXfs b1 = true
    · rw [if_pos hx]
      unfold runEpilogue
      rw [ensure_fmt, hb']
      exact ⟨_, rfl⟩
    · rw [if_neg hx]; exact ⟨b', hb'⟩
  have hst : s1.store = Store.empty := e1
  have hnil : attrsB2 env.fi F.headItems = [] := by
    unfold attrsB2
    rw [List.flatMap_eq_nil_iff]
    intro x hx
    have := c2 x hx
    cases x <;> first | (cases this; done) | rfl
  have hall : attrsB2 env.fi F.items = [] ++ attrsB2 env.fi F.body := by
    show List.flatMap _ (F.headItems ++ F.body) = _
    rw [List.flatMap_append, show List.flatMap (fun x : B2Item => x.attrs env.fi) F.headItems = [] from hnil]
    rfl
  obtain ⟨o3, i1, i2, i3⟩ := b2_items_ok (k := k + 1) (n := n) F.body _ _ [] ⟨hi, hen, by
      show Stored _ { s1.store with nrows := 0, ncols := 0 }
      rw [hst]; exact Stored.init _⟩ hall
    (fun hm => ⟨fun a => by simp [ownXfs], by simp [hm, show (withFonts l b1).fmt.xfList = [] from hasXfs_false.mp hm, ownXfs]⟩)
    (fun hm j hj => by
      show ((if hasXfs b1 then runEpilogue env b1 else b1).fmt.typeMap j).isSome = true
      rw [if_pos hm]
      exact (known_epilogue (hk hm) j).mpr hj) hbody (fun q hq => hmemR q (.inr (.inr (.inl hq))))
    (fun q hq' => hq q (by
      rw [show F.items = b2Items F.head ++ F.body from rfl, withIxfe_append]
      exact List.mem_append_right _ hq')) h3
  have hq' : mem.drop (pre.length + (encRecs (F.head.flatMap B2Head.records)).length + (encRecs [(0x0, F.dim.bytes 21)]).length +
      (encRecs (F.body.flatMap B2Item.records)).length) = encRec 0xa F.eof ++ rest := by simpa [encRecs] using h4
  have hmg : o3.sheet.merged = [] := i2.trans e2
  obtain ⟨st, hti⟩ := i1.stored.tidy
  unfold oldRead
  rw [hk', e4, d1, i3, oldLoop, getRecordParts_at (by decide) (hmemR (0xa, F.eof) (.inr (.inr (.inr rfl)))) hq']
  simp only [bind, Except.bind]
  rw [if_pos (by decide)]
  simp only [OldSt.onSheet, sheetFinish, hmg, List.map_nil, hti, bind, Except.bind, pure, Except.pure]
  exact ⟨_, rfl⟩

end Xlrd
