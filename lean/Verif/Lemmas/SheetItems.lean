import Verif.Lemmas.Notes
import Verif.Spec.SheetItems

/-!
# The other records of a worksheet, and the whole record loop
-/
set_option linter.unusedSimpArgs false
namespace Xlrd
open Spec

theorem bit_lt (b : Bool) : bit b < 2 := by cases b <;> decide

theorem fld_pair (a b : Nat) (ha : a < 65536) (hb : b < 65536) (x : Bytes) : fld (le16 a ++ (le16 b ++ x)) 0 4 = a + 65536 * b := by
  unfold fld le16
  simp only [List.cons_append, List.nil_append, List.drop_zero, List.take_succ_cons, List.take_zero, le, u8_toNat_ofNat]
  omega

theorem shr_and1 (n k : Nat) : (n >>> k) &&& 1 = n / 2 ^ k % 2 := by
  rw [Nat.shiftRight_eq_div_pow, Nat.and_one_is_mod]

theorem and_mask (n k : Nat) : n &&& (2 ^ k - 1) = n % 2 ^ k := Nat.and_two_pow_sub_one_eq_mod n k

/-! ## ROW -/

theorem rowinfo_ok (x : RowRec) (h : x.Ok) :
    rowinfoOf (x.height + 32768 * bit x.defaultHeight)
      (x.outline + 8 * bit x.r1 + 16 * bit x.groupEnd + 32 * bit x.hidden + 64 * bit x.mismatch + 128 * bit x.hasXf + 256 * x.r2 +
        65536 * (x.xf + 4096 * bit x.above + 8192 * bit x.below + 16384 * x.r3)) = x.info := by
  obtain ⟨_, _, _, h1, _, _, h2, h3, h4, h5⟩ := h
  have b1 := bit_lt x.defaultHeight
  have b2 := bit_lt x.r1
  have b3 := bit_lt x.groupEnd
  have b4 := bit_lt x.hidden
  have b5 := bit_lt x.mismatch
  have b6 := bit_lt x.hasXf
  have b7 := bit_lt x.above
  have b8 := bit_lt x.below
  have e0 : ∀ n, n &&& 0x7fff = n % 32768 := fun n => and_mask n 15
  have e1 : ∀ n, n &&& 7 = n % 8 := fun n => and_mask n 3
  have e2 : ∀ n, n &&& 0xfff = n % 4096 := fun n => and_mask n 12
  unfold rowinfoOf RowRec.info
  have hx : (x.hasXf = true) ↔ bit x.hasXf ≠ 0 := by cases x.hasXf <;> simp [bit]
  simp only [e0, e1, e2, Nat.shiftRight_eq_div_pow, Nat.and_one_is_mod, hx]
  generalize bit x.defaultHeight = c1 at *
  generalize bit x.r1 = c2 at *
  generalize bit x.groupEnd = c3 at *
  generalize bit x.hidden = c4 at *
  generalize bit x.mismatch = c5 at *
  generalize bit x.hasXf = c6 at *
  generalize bit x.above = c7 at *
  generalize bit x.below = c8 at *
  simp only [Rowinfo.mk.injEq]
  refine ⟨by omega, by omega, by omega, by omega, by omega, by omega, by omega, ?_, by omega, by omega, trivial⟩
  by_cases h6 : c6 = 0
  · rw [if_pos (by omega), if_neg (by omega)]
  · rw [if_neg (by omega), if_pos h6]
    have : (x.outline + 8 * c2 + 16 * c3 + 32 * c4 + 64 * c5 + 128 * c6 + 256 * x.r2 +
        65536 * (x.xf + 4096 * c7 + 8192 * c8 + 16384 * x.r3)) / 2 ^ 16 % 4096 = x.xf := by omega
    rw [this]

theorem recRow_ok (env : SheetEnv) (s : SheetSt) (x : RowRec) (junk : Bytes) (h : x.Ok) :
    recRow env s (x.bytes ++ junk) =
      .ok (if env.cfg.fmtInfo ∧ x.row < env.cfg.maxRows then { s with rowinfo := dictSet s.rowinfo (x.row : Int) x.info } else s) := by
  have hl : x.bytes.length = 16 := rfl
  obtain ⟨h1, h2, h3, h4, h5, h6, h7, h8, h9, h10⟩ := id h
  have b1 := bit_lt x.defaultHeight
  have b2 := bit_lt x.r1
  have b3 := bit_lt x.groupEnd
  have b4 := bit_lt x.hidden
  have b5 := bit_lt x.mismatch
  have b6 := bit_lt x.hasXf
  have b7 := bit_lt x.above
  have b8 := bit_lt x.below
  have e1 : fld x.bytes 0 2 = x.row := by
    unfold RowRec.bytes; simp only [List.append_assoc]; exact fld_head _ h1 _
  have e2 : fld x.bytes 6 2 = x.height + 32768 * bit x.defaultHeight := by
    unfold RowRec.bytes; simp (disch := omega) only [List.append_assoc, fld_tail, Nat.reduceSub, fld_head]
  have e3 : fld x.bytes 12 4 = x.outline + 8 * bit x.r1 + 16 * bit x.groupEnd + 32 * bit x.hidden + 64 * bit x.mismatch +
      128 * bit x.hasXf + 256 * x.r2 + 65536 * (x.xf + 4096 * bit x.above + 8192 * bit x.below + 16384 * x.r3) := by
    unfold RowRec.bytes
    simp (disch := omega) only [List.append_assoc, fld_tail, Nat.reduceSub]
    have := fld_pair (x.outline + 8 * bit x.r1 + 16 * bit x.groupEnd + 32 * bit x.hidden + 64 * bit x.mismatch + 128 * bit x.hasXf + 256 * x.r2)
      (x.xf + 4096 * bit x.above + 8192 * bit x.below + 16384 * x.r3) (by omega) (by omega) []
    rw [List.append_nil] at this
    exact this
  unfold recRow
  by_cases hf : env.cfg.fmtInfo = true
  swap
  · rw [if_neg hf, if_neg (by simp [hf])]; rfl
  rw [if_pos hf, slice0_app (k := 16) (n := 16) rfl hl, unpackN_ok hl]
  simp only [bind, Except.bind, e1, e2, e3, rowinfo_ok x h, hf, true_and, pure, Except.pure]
  by_cases hm : x.row < env.cfg.maxRows
  · rw [if_pos hm, if_pos hm]
  · rw [if_neg hm, if_neg hm]

/-! ## COLINFO -/

theorem setCols_get (ci : Colinfo) (n : Nat) : ∀ (d : Int → Option Colinfo) (c : Nat) (k : Int),
    setCols d ci n c k = if (c : Int) ≤ k ∧ k < c + n ∧ k ≤ 255 then some ci else d k := by
  induction n with
  | zero => intro d c k; rw [setCols, if_neg (by omega)]
  | succ n ih =>
    intro d c k
    rw [setCols]
    by_cases h : c > 255
    · rw [if_pos h, if_neg (by omega)]
    · rw [if_neg h, ih]
      by_cases h1 : ((c + 1 : Nat) : Int) ≤ k ∧ k < ((c + 1 : Nat) : Int) + n ∧ k ≤ 255
      · rw [if_pos h1, if_pos (by omega)]
      · rw [if_neg h1]
        unfold dictSet
        by_cases h2 : k = c
        · rw [if_pos h2, if_pos (by omega)]
        · rw [if_neg h2, if_neg (by omega)]

theorem recColinfo_ok (env : SheetEnv) (s : SheetSt) (x : ColRec) (h : x.Ok) :
    recColinfo env s x.bytes =
      .ok (if env.cfg.fmtInfo then { s with colinfo := fun c => if x.covers c then some x.info else s.colinfo c } else s) := by
  obtain ⟨h1, h2, h3, h4, h5, h6, h7⟩ := id h
  have b1 := bit_lt x.hidden
  have b2 := bit_lt x.bit1
  have b3 := bit_lt x.r2
  have b4 := bit_lt x.collapsed
  obtain ⟨F, hF⟩ : ∃ F, F = bit x.hidden + 2 * bit x.bit1 + 4 * x.r1 + 256 * x.outline + 2048 * bit x.r2 + 4096 * bit x.collapsed + 8192 * x.r3 :=
    ⟨_, rfl⟩
  have hFl : F < 65536 := by omega
  have hx : x.bytes = (le16 x.first ++ (le16 x.last ++ (le16 x.width ++ (le16 x.xf ++ le16 F)))) ++ x.junk := by
    unfold ColRec.bytes; rw [← hF]; simp only [List.append_assoc]
  have hl : (le16 x.first ++ (le16 x.last ++ (le16 x.width ++ (le16 x.xf ++ le16 F)))).length = 10 := rfl
  have hu : ∀ n mask, upk F n (mask * 2 ^ n) = F / 2 ^ n &&& mask := by
    intro n mask
    unfold upk
    rw [Nat.shiftRight_and_distrib, Nat.shiftRight_eq_div_pow, Nat.shiftRight_eq_div_pow, Nat.mul_div_cancel _ (Nat.two_pow_pos n)]
  have hinfo : Colinfo.mk x.width (x.xf : Int) (upk F 0 0x0001) (upk F 1 0x0002) (upk F 8 0x0700) (upk F 12 0x1000) = x.info := by
    have u1 := hu 0 1
    have u2 := hu 1 1
    have u3 := hu 8 7
    have u4 := hu 12 1
    norm_num at u1 u2 u3 u4
    rw [show upk F 0 0x0001 = F % 2 from u1, show upk F 1 0x0002 = F / 2 % 2 from u2,
      show upk F 8 0x0700 = F / 256 % 8 by rw [u3]; exact and_mask _ 3, show upk F 12 0x1000 = F / 4096 % 2 from u4]
    unfold ColRec.info
    simp only [Colinfo.mk.injEq, true_and]
    generalize bit x.hidden = c1 at *
    generalize bit x.bit1 = c2 at *
    generalize bit x.r2 = c3 at *
    generalize bit x.collapsed = c4 at *
    refine ⟨by omega, by omega, by omega, by omega⟩
  unfold recColinfo
  by_cases hf : env.cfg.fmtInfo = true
  swap
  · rw [if_neg hf, if_neg hf]; rfl
  rw [if_pos hf, if_pos hf, hx, sliceTo_app (k := 10) (n := 10) rfl hl, unpackN_ok hl]
  simp (disch := omega) only [bind, Except.bind, fld_tail, Nat.reduceSub, fld_head, fld_only, pure, Except.pure, hinfo]
  by_cases hc : x.first ≤ x.last ∧ x.last ≤ 256
  · rw [if_pos hc]
    congr 2
    funext k
    rw [setCols_get]
    by_cases hk : (x.first : Int) ≤ k ∧ k < x.first + ((x.last + 1 - x.first : Nat) : Int) ∧ k ≤ 255
    · rw [if_pos hk, if_pos (by unfold ColRec.covers; omega)]
    · rw [if_neg hk, if_neg (by unfold ColRec.covers; omega)]
  · rw [if_neg hc]
    congr 1
    have : (fun c => if x.covers c then some x.info else s.colinfo c) = s.colinfo := by
      funext k
      rw [if_neg (by unfold ColRec.covers; omega)]
    rw [this]

/-! ## Ranges -/

theorem encRects_length (rs : List Rect) : (encRects rs).length = 2 + 8 * rs.length := by
  have : (rs.flatMap (encRange 8)).length = 8 * rs.length := by
    induction rs with
    | nil => rfl
    | cons r rs ih => simp only [List.flatMap_cons, List.length_append, ih, List.length_cons]; simp [encRange]; omega
  simp only [encRects, List.length_append, le16_length, this]

theorem rects_at (out : List Range4) (pre post : Bytes) (rs : List Rect) (h : rectsOk rs) :
    unpackCellRangeAddressList out (pre ++ encRects rs ++ post) (pre.length : Int) 8 =
      .ok (out ++ rs.map Rect.half, ((pre.length + (encRects rs).length : Nat) : Int)) := by
  have := C32_range_list out pre post 8 (.inr rfl) rs h.1 (by simpa using h.2)
  rw [show pre ++ encRects rs ++ post = pre ++ le16 rs.length ++ rs.flatMap (encRange 8) ++ post by simp [encRects], this]
  simp only [encRects, List.length_append, Except.ok.injEq, Prod.mk.injEq]
  exact ⟨rfl, by push_cast; ring⟩

theorem recMergedCells_ok (env : SheetEnv) (s : SheetSt) (rs : List Rect) (h : rectsOk rs) :
    recMergedCells env s (encRects rs).length (encRects rs) =
      .ok (if env.cfg.fmtInfo then { s with merged := s.merged ++ rs.map Rect.half } else s) := by
  have := rects_at s.merged [] [] rs h
  simp only [List.nil_append, List.append_nil, List.length_nil, Nat.zero_add, Int.natCast_zero] at this
  unfold recMergedCells
  by_cases hf : env.cfg.fmtInfo = true
  · rw [if_pos hf, if_pos hf, this]
    simp [bind, Except.bind, pure, Except.pure, pyAssert]
  · rw [if_neg hf, if_neg hf]; rfl

theorem recLabelRanges_ok (s : SheetSt) (rs cs : List Rect) (h1 : rectsOk rs) (h2 : rectsOk cs) :
    recLabelRanges s (encRects rs ++ encRects cs).length (encRects rs ++ encRects cs) =
      .ok { s with rowLabelRanges := s.rowLabelRanges ++ rs.map Rect.half, colLabelRanges := s.colLabelRanges ++ cs.map Rect.half } := by
  have e1 := rects_at s.rowLabelRanges [] (encRects cs) rs h1
  have e2 := rects_at s.colLabelRanges (encRects rs) [] cs h2
  simp only [List.nil_append, List.append_nil, List.length_nil, Nat.zero_add, Int.natCast_zero] at e1 e2
  unfold recLabelRanges
  rw [e1]
  simp only [bind, Except.bind]
  rw [e2]
  simp [bind, Except.bind, pure, Except.pure, pyAssert]

/-! ## WINDOW2, SCL, PANE -/

theorem ofBits_lt (bs : List Bool) : ofBits bs < 2 ^ bs.length := by
  induction bs with
  | nil => decide
  | cons b bs ih => have := bit_lt b; rw [ofBits, List.length_cons, Nat.pow_succ]; omega

theorem windowBits_ok (bs : List Bool) : ∀ (n : Nat), windowBits bs.length (ofBits bs + 2 ^ bs.length * n) = bs.map bit := by
  induction bs with
  | nil => intro n; rfl
  | cons b bs ih =>
    intro n
    have hb := bit_lt b
    have e : ofBits (b :: bs) + 2 ^ (b :: bs).length * n = bit b + 2 * (ofBits bs + 2 ^ bs.length * n) := by
      rw [ofBits, List.length_cons, Nat.pow_succ]; ring
    rw [e, List.length_cons, windowBits, Nat.and_one_is_mod, Nat.shiftRight_eq_div_pow, List.map_cons]
    rw [show (bit b + 2 * (ofBits bs + 2 ^ bs.length * n)) % 2 = bit b by omega,
      show (bit b + 2 * (ofBits bs + 2 ^ bs.length * n)) / 2 ^ 1 = ofBits bs + 2 ^ bs.length * n by omega, ih]

/-- What a WINDOW2 record does to the sheet. -/
def applyWindow (env : SheetEnv) (s : SheetSt) (x : WinRec) : R SheetSt :=
  match x.tail with
  | .inl (i, _, pb, nv) => .ok { s with firstVisibleRowx := x.row, firstVisibleColx := x.col, gridlineColourIndex := i, cachedPageBreak := pb,
                                        cachedNormal := nv, window2 := x.options.map bit }
  | .inr (r, g, b) => do
      let k ← env.nearest (r.toNat, g.toNat, b.toNat)
      pure { s with firstVisibleRowx := x.row, firstVisibleColx := x.col, gridlineColourRgb := some (r.toNat, g.toNat, b.toNat),
                    gridlineColourIndex := k, window2 := x.options.map bit }

theorem recWindow2_ok (env : SheetEnv) (h30 : 30 ≤ env.bv) (s : SheetSt) (x : WinRec) (h : x.Ok env.bv) :
    recWindow2 env s x.bytes.length x.bytes = applyWindow env s x := by
  obtain ⟨options, rest, row, col, tail, junk⟩ := x
  obtain ⟨h1, h2, h3, h4, h5⟩ := h
  simp only at h1 h2 h3 h4 h5
  have hb := ofBits_lt options
  have hw := windowBits_ok options rest
  rw [h1] at hb hw
  have hlt : ofBits options + 4096 * rest < 65536 := by omega
  cases tail with
  | inl t =>
    obtain ⟨i, u, pb, nv⟩ := t
    obtain ⟨hbv, k1, k2, k3, k4⟩ := h5
    unfold recWindow2 applyWindow WinRec.bytes
    have hd : le16 (ofBits options + 4096 * rest) ++ le16 row ++ le16 col ++ (le16 i ++ le16 u ++ le16 pb ++ le16 nv) ++ junk =
      (le16 (ofBits options + 4096 * rest) ++ (le16 row ++ (le16 col ++ (le16 i ++ (le16 u ++ (le16 pb ++ le16 nv)))))) ++ junk := by
      simp only [List.append_assoc]
    have hl : (le16 (ofBits options + 4096 * rest) ++ (le16 row ++ (le16 col ++ (le16 i ++ (le16 u ++ (le16 pb ++ le16 nv)))))).length = 14 := rfl
    simp only [hd]
    rw [if_pos ⟨hbv, by rw [List.length_append, hl]; omega⟩, sliceTo_app (k := 14) (n := 14) rfl hl, unpackN_ok hl]
    simp (disch := omega) only [bind, Except.bind, fld_tail, Nat.reduceSub, fld_head, fld_only, pure, Except.pure]
    rw [show (12 : Nat) = options.length from h1.symm]
    have := windowBits_ok options rest
    rw [h1] at this
    rw [h1]
    norm_num at this
    rw [this]
  | inr t =>
    obtain ⟨r, g, b⟩ := t
    unfold recWindow2 applyWindow WinRec.bytes
    have hd : le16 (ofBits options + 4096 * rest) ++ le16 row ++ le16 col ++ [r, g, b] ++ junk =
      (le16 (ofBits options + 4096 * rest) ++ (le16 row ++ le16 col)) ++ ([r, g, b] ++ junk) := by
      simp only [List.append_assoc]
    have hl : (le16 (ofBits options + 4096 * rest) ++ (le16 row ++ le16 col)).length = 6 := rfl
    simp only [hd]
    rw [if_neg (by
      rintro ⟨q1, q2⟩
      rcases h5 with h5 | h5
      · omega
      · simp only [List.length_append, le16_length, List.length_cons, List.length_nil] at q2; omega)]
    have ha : pyAssert (decide (env.bv ≥ 30)) = .ok () := by unfold pyAssert; rw [if_pos (by rw [decide_eq_true_eq]; omega)]
    rw [ha, sliceTo_app (k := 6) (n := 6) rfl hl, unpackN_ok hl, slice_mid (i := 6) (j := 9) (m := 6) (n := 3) rfl rfl hl rfl,
      unpackN_ok (n := 3) (b := [r, g, b]) rfl]
    have f0 : fld [r, g, b] 0 1 = r.toNat := by simp [fld, le]
    have f1 : fld [r, g, b] 1 1 = g.toNat := by simp [fld, le]
    have f2 : fld [r, g, b] 2 1 = b.toNat := by simp [fld, le]
    simp (disch := omega) only [bind, Except.bind, fld_tail, Nat.reduceSub, fld_head, fld_only, pure, Except.pure, f0, f1, f2]
    have := windowBits_ok options rest
    rw [h1] at this
    norm_num at this
    rw [this]

/-- The magnification of an SCL record. -/
def zoomOf (n d : Nat) : Nat := if 10 ≤ n * 100 / d ∧ n * 100 / d ≤ 400 then n * 100 / d else 100

theorem recScl_ok (s : SheetSt) (n d : Nat) (hn : n < 65536) (hd : d < 65536) :
    recScl s (le16 n ++ le16 d) = .ok { s with scl := some (zoomOf n d) } := by
  have hl : (le16 n ++ le16 d).length = 4 := rfl
  unfold recScl zoomOf
  rw [unpackN_ok hl]
  simp (disch := omega) only [bind, Except.bind, fld_tail, Nat.reduceSub, fld_head, fld_only, pure, Except.pure]
  by_cases h0 : d = 0
  · subst h0; simp
  · rw [if_pos h0]

theorem recPane_ok (s : SheetSt) (v h hf vf : Nat) (a : UInt8) (junk : Bytes) (h1 : v < 65536) (h2 : h < 65536) (h3 : hf < 65536)
    (h4 : vf < 65536) :
    recPane s (le16 v ++ le16 h ++ le16 hf ++ le16 vf ++ [a] ++ junk) =
      .ok { s with vertSplitPos := v, horzSplitPos := h, horzSplitFirstVisible := hf, vertSplitFirstVisible := vf,
                   splitActivePane := a.toNat, hasPane := true } := by
  have hd : le16 v ++ le16 h ++ le16 hf ++ le16 vf ++ [a] ++ junk = (le16 v ++ (le16 h ++ (le16 hf ++ (le16 vf ++ [a])))) ++ junk := by
    simp only [List.append_assoc]
  have hl : (le16 v ++ (le16 h ++ (le16 hf ++ (le16 vf ++ [a])))).length = 9 := rfl
  have f : fld [a] 0 1 = a.toNat := by simp [fld, le]
  unfold recPane
  rw [hd, sliceTo_app (k := 9) (n := 9) rfl hl, unpackN_ok hl]
  simp (disch := omega) only [bind, Except.bind, fld_tail, Nat.reduceSub, fld_head, fld_only, pure, Except.pure, f]

/-! ## Page breaks -/

theorem breakLoop_ok (bv last : Nat) (data : Bytes) (bs : List (Nat × Nat × Nat)) :
    ∀ (p : Nat) (rest : Bytes), (∀ b ∈ bs, b.1 < 65536 ∧ (if 80 ≤ bv then b.2.1 < 65536 ∧ b.2.2 < 65536 else b.2 = (0, last))) →
      data.drop p = (bs.flatMap fun b => if 80 ≤ bv then le16 b.1 ++ le16 b.2.1 ++ le16 b.2.2 else le16 b.1) ++ rest →
      breakLoop bv last data bs.length (p : Int) = .ok bs := by
  induction bs with
  | nil => intro p rest _ _; rfl
  | cons b bs ih =>
    intro p rest hb h
    obtain ⟨b1, b2, b3⟩ := b
    obtain ⟨k1, k2⟩ := hb _ (by simp : (b1, b2, b3) ∈ (b1, b2, b3) :: bs)
    simp only at k1 k2
    rw [List.length_cons, breakLoop]
    by_cases hv : 80 ≤ bv
    · rw [if_neg (by omega)]
      rw [if_pos hv] at k2
      simp only [List.flatMap_cons, if_pos hv, List.append_assoc] at h
      have h' : data.drop p = (le16 b1 ++ (le16 b2 ++ le16 b3)) ++ ((bs.flatMap fun b => le16 b.1 ++ (le16 b.2.1 ++ le16 b.2.2)) ++ rest) := by
        rw [h]; simp only [List.append_assoc]
      have hl : (le16 b1 ++ (le16 b2 ++ le16 b3)).length = 6 := rfl
      have hs := slice_at h' hl
      have hr := ih (p + 6) rest (fun x hx => hb x (by simp [hx])) (by
        rw [drop_at h' hl]; simp only [if_pos hv, List.append_assoc])
      rw [show (6 : Int) = ((6 : Nat) : Int) from rfl, hs, unpackN_ok hl, ← Int.natCast_add, hr]
      simp (disch := omega) only [bind, Except.bind, fld_tail, Nat.reduceSub, fld_head, fld_only, pure, Except.pure]
    · rw [if_pos (by omega)]
      rw [if_neg hv] at k2
      simp only [List.flatMap_cons, if_neg hv, List.append_assoc] at h
      have hr := ih (p + 2) rest (fun x hx => hb x (by simp [hx])) (by
        rw [drop_at h (le16_length _)]; simp only [if_neg hv])
      have e1 := unpackH_at k1 h
      rw [e1]
      simp only [bind, Except.bind]
      rw [show (p : Int) + 2 = ((p + 2 : Nat) : Int) by push_cast; rfl, hr]
      simp only [pure, Except.pure, k2]

theorem pageBreaks_ok (bv last : Nat) (bs : List (Nat × Nat × Nat)) (h : breaksOk bv last bs) :
    pageBreaks bv last (encBreaks bv bs).length (encBreaks bv bs) = .ok bs := by
  have hl : (encBreaks bv bs).length = bs.length * (2 + 4 * (if bv ≥ 80 then 1 else 0)) + 2 := by
    unfold encBreaks
    rw [List.length_append, le16_length]
    have : ∀ (l : List (Nat × Nat × Nat)), (l.flatMap fun b => if 80 ≤ bv then le16 b.1 ++ le16 b.2.1 ++ le16 b.2.2 else le16 b.1).length =
        l.length * (2 + 4 * (if bv ≥ 80 then 1 else 0)) := by
      intro l
      induction l with
      | nil => simp
      | cons b l ih =>
        rw [List.flatMap_cons, List.length_append, ih, List.length_cons, Nat.add_mul]
        by_cases hv : 80 ≤ bv
        · simp [hv]; omega
        · simp [hv]; omega
    rw [this]; omega
  have h0 : (encBreaks bv bs).drop 0 = le16 bs.length ++ (bs.flatMap fun b => if 80 ≤ bv then le16 b.1 ++ le16 b.2.1 ++ le16 b.2.2 else le16 b.1) := rfl
  have e1 : unpackH (sliceTo (encBreaks bv bs) 2) = .ok bs.length := by
    unfold encBreaks
    rw [sliceTo_app (k := 2) (n := 2) rfl (le16_length _)]
    simp [unpackH, unpackN_ok (le16_length _), bind, Except.bind, pure, Except.pure, fld_le16 _ h.1]
  have e2 := breakLoop_ok bv last (encBreaks bv bs) bs 2 [] h.2 (by rw [List.append_nil]; exact drop_at h0 (le16_length _))
  unfold pageBreaks
  rw [e1, hl]
  simp only [bind, Except.bind, pyAssert, decide_true, if_true]
  exact e2

/-! ## Widths and heights -/

theorem unpackH_head (w : Nat) (junk : Bytes) (h : w < 65536) : unpackH (sliceTo (le16 w ++ junk) 2) = .ok w := by
  rw [sliceTo_app (k := 2) (n := 2) rfl (le16_length _)]
  simp [unpackH, unpackN_ok (le16_length _), bind, Except.bind, pure, Except.pure, fld_le16 _ h]

theorem recDefColWidth_ok (s : SheetSt) (w : Nat) (junk : Bytes) (h : w < 65536) :
    recDefColWidth s (le16 w ++ junk) = .ok { s with defcolwidth := some w } := by
  unfold recDefColWidth; rw [unpackH_head w junk h]; rfl

theorem recStandardWidth_ok (s : SheetSt) (w : Nat) (junk : Bytes) (h : w < 65536) :
    recStandardWidth s (le16 w ++ junk) = .ok { s with standardwidth := some w } := by
  unfold recStandardWidth; rw [unpackH_head w junk h]; rfl

theorem recDefaultRowHeight_ok (s : SheetSt) (m h a b : Bool) (rest ht : Nat) (h1 : rest < 4096) (h2 : ht < 65536) :
    recDefaultRowHeight s 4 (le16 (bit m + 2 * bit h + 4 * bit a + 8 * bit b + 16 * rest) ++ le16 ht) =
      .ok { s with defaultRowHeight := some ht, defaultRowHeightMismatch := bit m, defaultRowHidden := bit h,
                   defaultSpaceAbove := bit a, defaultSpaceBelow := bit b } := by
  have b1 := bit_lt m
  have b2 := bit_lt h
  have b3 := bit_lt a
  have b4 := bit_lt b
  have hl : (le16 (bit m + 2 * bit h + 4 * bit a + 8 * bit b + 16 * rest) ++ le16 ht).length = 4 := rfl
  unfold recDefaultRowHeight rowHeightBits
  rw [if_pos rfl]
  have := sliceTo_app (x := le16 (bit m + 2 * bit h + 4 * bit a + 8 * bit b + 16 * rest) ++ le16 ht) (y := []) (k := 4) (n := 4) rfl hl
  rw [List.append_nil] at this
  rw [this, unpackN_ok hl]
  simp (disch := omega) only [bind, Except.bind, fld_tail, Nat.reduceSub, fld_head, fld_only, pure, Except.pure]
  simp only [Nat.and_one_is_mod, Nat.shiftRight_eq_div_pow]
  generalize bit m = c1 at *
  generalize bit h = c2 at *
  generalize bit a = c3 at *
  generalize bit b = c4 at *
  rw [show (c1 + 2 * c2 + 4 * c3 + 8 * c4 + 16 * rest) % 2 = c1 by omega, show (c1 + 2 * c2 + 4 * c3 + 8 * c4 + 16 * rest) / 2 ^ 1 % 2 = c2 by omega,
    show (c1 + 2 * c2 + 4 * c3 + 8 * c4 + 16 * rest) / 2 ^ 2 % 2 = c3 by omega, show (c1 + 2 * c2 + 4 * c3 + 8 * c4 + 16 * rest) / 2 ^ 3 % 2 = c4 by omega]

/-! ## GCW -/

theorem ofBits_append (a b : List Bool) : ofBits (a ++ b) = ofBits a + 2 ^ a.length * ofBits b := by
  induction a with
  | nil => simp [ofBits]
  | cons x xs ih => rw [List.cons_append, ofBits, ih, ofBits, List.length_cons, Nat.pow_succ]; ring

theorem bits_read (f : List Bool) : (List.range f.length).map (fun j => (ofBits f >>> j) &&& 1) = f.map bit := by
  induction f with
  | nil => rfl
  | cons b bs ih =>
    have hb := bit_lt b
    rw [List.length_cons, List.range_succ_eq_map, List.map_cons, List.map_map, List.map_cons, ← ih]
    congr 1
    · rw [Nat.shiftRight_zero, Nat.and_one_is_mod, ofBits]; omega
    · apply List.map_congr_left
      intro j _
      simp only [Function.comp, Nat.succ_eq_add_one, ofBits]
      rw [Nat.add_comm j 1, Nat.shiftRight_add]
      congr 2
      rw [Nat.shiftRight_eq_div_pow]; omega

theorem packBits_eight (f r : List Bool) (h : f.length = 8) : packBits (f ++ r) = UInt8.ofNat (ofBits f) :: packBits r := by
  match f, h with
  | [a, b, c, d, e, f, g, k], _ => rfl

theorem packBits_word (f r : List Bool) (h : f.length = 32) :
    ∃ a b c d : UInt8, packBits (f ++ r) = a :: b :: c :: d :: packBits r ∧ le [a, b, c, d] = ofBits f := by
  have h0 := List.take_append_drop 8 f
  have h1 := List.take_append_drop 8 (f.drop 8)
  have h2 := List.take_append_drop 8 ((f.drop 8).drop 8)
  have l0 : (f.take 8).length = 8 := by rw [List.length_take]; omega
  have l1 : ((f.drop 8).take 8).length = 8 := by rw [List.length_take, List.length_drop]; omega
  have l2 : (((f.drop 8).drop 8).take 8).length = 8 := by rw [List.length_take, List.length_drop, List.length_drop]; omega
  have l3 : (((f.drop 8).drop 8).drop 8).length = 8 := by rw [List.length_drop, List.length_drop, List.length_drop]; omega
  generalize f.take 8 = f0 at *
  generalize (f.drop 8).take 8 = f1 at *
  generalize ((f.drop 8).drop 8).take 8 = f2 at *
  generalize ((f.drop 8).drop 8).drop 8 = f3 at *
  rw [← h2] at h1
  rw [← h1] at h0
  refine ⟨UInt8.ofNat (ofBits f0), UInt8.ofNat (ofBits f1), UInt8.ofNat (ofBits f2), UInt8.ofNat (ofBits f3), ?_, ?_⟩
  · rw [← h0]
    simp only [List.append_assoc]
    rw [packBits_eight _ _ l0, packBits_eight _ _ l1, packBits_eight _ _ l2, packBits_eight _ _ l3]
  · have k0 := ofBits_lt f0
    have k1 := ofBits_lt f1
    have k2 := ofBits_lt f2
    have k3 := ofBits_lt f3
    rw [l0] at k0
    rw [l1] at k1
    rw [l2] at k2
    rw [l3] at k3
    rw [← h0, ofBits_append, ofBits_append, ofBits_append, l0, l1, l2]
    simp only [le, u8_toNat_ofNat]
    omega

theorem gcw_words (n : Nat) : ∀ (f : List Bool), f.length = 32 * n →
    ((List.range n).flatMap fun k => (List.range 32).map fun j => (fld (packBits f) (4 * k) 4 >>> j) &&& 1) = f.map bit := by
  induction n with
  | zero => intro f h; have : f = [] := List.length_eq_zero_iff.mp (by omega); subst this; rfl
  | succ n ih =>
    intro f h
    have hs := List.take_append_drop 32 f
    have l0 : (f.take 32).length = 32 := by rw [List.length_take]; omega
    have l1 : (f.drop 32).length = 32 * n := by rw [List.length_drop]; omega
    generalize f.take 32 = f0 at *
    generalize f.drop 32 = f1 at *
    obtain ⟨a, b, c, d, hp, hle⟩ := packBits_word f0 f1 l0
    rw [← hs, hp, List.range_succ_eq_map (n := n), List.flatMap_cons, List.flatMap_map, List.map_append, ← ih f1 l1]
    congr 1
    · have : fld (a :: b :: c :: d :: packBits f1) (4 * 0) 4 = ofBits f0 := by
        rw [← hle]; simp [fld]
      rw [this, ← bits_read f0, l0]

theorem packBits_length (n : Nat) : ∀ (f : List Bool), f.length = 32 * n → (packBits f).length = 4 * n := by
  induction n with
  | zero => intro f h; have : f = [] := List.length_eq_zero_iff.mp (by omega); subst this; rfl
  | succ n ih =>
    intro f h
    have hs := List.take_append_drop 32 f
    have l0 : (f.take 32).length = 32 := by rw [List.length_take]; omega
    have l1 : (f.drop 32).length = 32 * n := by rw [List.length_drop]; omega
    generalize f.take 32 = f0 at *
    generalize f.drop 32 = f1 at *
    obtain ⟨a, b, c, d, hp, _⟩ := packBits_word f0 f1 l0
    have := ih f1 l1
    rw [← hs, hp]
    simp only [List.length_cons, this]; omega

theorem recGcw_ok (env : SheetEnv) (s : SheetSt) (fs : List Bool) (h : fs.length = 256) :
    recGcw env s ([0x20, 0x00] ++ packBits fs).length ([0x20, 0x00] ++ packBits fs) =
      .ok (if env.cfg.fmtInfo then { s with gcw := fs.map bit } else s) := by
  have hl : (packBits fs).length = 32 := packBits_length 8 fs (by omega)
  unfold recGcw
  by_cases hf : env.cfg.fmtInfo = true
  swap
  · rw [if_neg hf, if_neg hf]; rfl
  rw [if_pos hf, if_pos hf]
  have h1 : slice ([0x20, 0x00] ++ packBits fs) 0 2 = [0x20, 0x00] := slice0_app (k := 2) (n := 2) rfl rfl
  have h2 : slice ([0x20, 0x00] ++ packBits fs) 2 34 = packBits fs := by
    have := slice_mid (a := [0x20, 0x00]) (x := packBits fs) (y := []) (i := 2) (j := 34) (m := 2) (n := 32) rfl rfl rfl hl
    rwa [List.append_nil] at this
  have h3 : ([0x20, 0x00] ++ packBits fs).length = 34 := by rw [List.length_append, hl]; rfl
  rw [h3, h1, h2, unpackN_ok hl]
  have := gcw_words 8 fs (by omega)
  simp only [bind, Except.bind, pure, Except.pure, pyAssert, decide_true, if_true, this]

/-! ## One item -/

/-- The runs of formatted text a cell record brings. -/
def richAfter (env : SheetEnv) (s : SheetSt) : CellRec → SheetSt
  | .labelsst r c _ i => sstRich env s r c i
  | .rstring r c _ _ _ runs => { s with rich := dictSet s.rich (r, c) runs }
  | _ => s

/-- What an item does to the sheet. -/
def applyItem (env : SheetEnv) (s : SheetSt) : SheetItem → R SheetSt
  | .cell x => (s.puts env (x.cells fl env.cfg.fmtInfo env.sst)).map fun s => richAfter env s x
  | .row x _ => .ok (if env.cfg.fmtInfo ∧ x.row < env.cfg.maxRows then { s with rowinfo := dictSet s.rowinfo (x.row : Int) x.info } else s)
  | .col x => .ok (if env.cfg.fmtInfo then { s with colinfo := fun c => if x.covers c then some x.info else s.colinfo c } else s)
  | .merged rs => .ok (if env.cfg.fmtInfo then { s with merged := s.merged ++ rs.map Rect.half } else s)
  | .window x => applyWindow env s x
  | .zoom n d => .ok { s with scl := some (zoomOf n d) }
  | .pane v h hf vf a _ => .ok { s with vertSplitPos := v, horzSplitPos := h, horzSplitFirstVisible := hf, vertSplitFirstVisible := vf,
                                        splitActivePane := a.toNat, hasPane := true }
  | .hbreaks bs => .ok (if env.cfg.fmtInfo then { s with hbreaks := s.hbreaks ++ bs } else s)
  | .vbreaks bs => .ok (if env.cfg.fmtInfo then { s with vbreaks := s.vbreaks ++ bs } else s)
  | .gcw fs => .ok (if env.cfg.fmtInfo then { s with gcw := fs.map bit } else s)
  | .defcolwidth w _ => .ok { s with defcolwidth := some w }
  | .stdwidth w _ => .ok { s with standardwidth := some w }
  | .defrowheight m h a b _ ht => .ok { s with defaultRowHeight := some ht, defaultRowHeightMismatch := bit m, defaultRowHidden := bit h,
                                               defaultSpaceAbove := bit a, defaultSpaceBelow := bit b }
  | .labels rs cs => .ok { s with rowLabelRanges := s.rowLabelRanges ++ rs.map Rect.half, colLabelRanges := s.colLabelRanges ++ cs.map Rect.half }
  | .unknown _ _ => .ok s
  | .extra x => .ok { s with ext := applyExtra s.ext x }
  | .embedded _ _ _ _ => .ok s

theorem skipEmbedded_ok (mem : Bytes) (body : List (Nat × Bytes)) (eof : Bytes) (he : eof.length < 65536) :
    ∀ (fuel p : Nat) (rest : Bytes), body.length < fuel → (∀ q ∈ body, q.1 < 65536 ∧ q.1 ≠ 0xa ∧ q.2.length < 65536) →
      mem.drop p = encRecs (body ++ [(0xa, eof)]) ++ rest →
      skipEmbedded mem fuel (p : Int) = .ok ((p + (encRecs (body ++ [(0xa, eof)])).length : Nat) : Int) := by
  induction body with
  | nil =>
    intro fuel p rest hf _ h
    obtain ⟨fuel, rfl⟩ : ∃ k, fuel = k + 1 := ⟨fuel - 1, by simp at hf; omega⟩
    have h' : mem.drop p = encRec 0xa eof ++ rest := by simpa [encRecs] using h
    rw [skipEmbedded, getRecordParts_at (by decide) he h']
    simp only [bind, Except.bind, if_true, pure, Except.pure, Except.ok.injEq]
    simp [encRecs, encRec_length]; ring
  | cons q body ih =>
    intro fuel p rest hf hq h
    obtain ⟨fuel, rfl⟩ : ∃ k, fuel = k + 1 := ⟨fuel - 1, by simp at hf; omega⟩
    obtain ⟨q1, q2, q3⟩ := hq q (by simp)
    have h' : mem.drop p = encRec q.1 q.2 ++ (encRecs (body ++ [(0xa, eof)]) ++ rest) := by
      rw [h]; simp [encRecs]
    have hd := drop_at h' (encRec_length _ _)
    have := ih fuel (p + (4 + q.2.length)) rest (by simp at hf; omega) (fun x hx => hq x (by simp [hx])) hd
    rw [skipEmbedded, getRecordParts_at q1 q3 h']
    simp only [bind, Except.bind]
    rw [if_neg q2, show ((p + 4 + q.2.length : Nat) : Int) = ((p + (4 + q.2.length) : Nat) : Int) by push_cast; ring, this]
    simp only [Except.ok.injEq, List.cons_append]
    simp [encRecs, encRec_length]; ring

/-- The codes of the records the items of a worksheet begin with, apart from formulas and records unknown to the library. -/
def itemCodes : List Nat := specialCodes.filter fun c => c ∉ [0x200, 0x0, 0xa, 0x8c, 0x6, 0x206, 0x406]

/-- `loop` does what the record loop of a worksheet does on records with codes other than EOF and those of `bad`. -/
structure StepsLike {β : Type} (env : SheetEnv) (mem : Bytes) (bad : List Nat) (loop : Nat → SheetSt → Int → R β) : Prop where
  step : ∀ (fuel : Nat) (s : SheetSt) (pos p' : Int) (rc len : Nat) (data : Bytes), getRecordParts mem pos = .ok ((rc, len, data), p') →
    rc ≠ 0xa → rc ∉ bad → loop (fuel + 1) s pos = (sheetRecord env mem s p' rc len data).bind fun r => loop fuel r.1 r.2
  good : ∀ c ∈ itemCodes, c ∉ bad

/-- The first record is none of those excluded; formulas and WINDOW2 records are those of BIFF3 and later. -/
def FitsItem (bv : Nat) (bad : List Nat) : SheetItem → Prop
  | .unknown c _ => c ∉ bad
  | .cell (.formula _ _ _ _ code _ _) => 30 ≤ bv ∧ code ∉ bad
  | .window _ => 30 ≤ bv
  | _ => True

theorem fits_new {bv : Nat} (h : 30 ≤ bv) (x : SheetItem) : FitsItem bv [] x := by
  cases x with
  | cell y => cases y <;> simp [FitsItem, h]
  | _ => simp [FitsItem, h]

theorem sheetLoop_follows (env : SheetEnv) (mem : Bytes) : StepsLike env mem [] (sheetLoop env mem) := by
  refine ⟨?_, fun _ _ => by simp⟩
  intro fuel s pos p' rc len data h1 h2 _
  rw [sheetLoop, h1]
  simp only [bind, Except.bind]
  rw [if_neg h2]

theorem plain_step {β : Type} {env : SheetEnv} {mem : Bytes} {bad : List Nat} {loop : Nat → SheetSt → Int → R β} (hL : StepsLike env mem bad loop)
    {rest : Bytes} {p c : Nat} {d : Bytes} (fuel : Nat) (s : SheetSt) (hc : c < 65536)
    (h1 : c ≠ 0xa) (h2 : c ∉ XL_FORMULA_OPCODES) (h3 : c ∉ bofcodes) (h4 : c ∉ otherCodes) (hb : c ∉ bad) (hd : d.length < 65536)
    (h : mem.drop p = encRecs [(c, d)] ++ rest) :
    loop (fuel + 1) s (p : Int) =
      (plainRecord env s c d.length d).bind fun s => loop fuel s ((p + (encRecs [(c, d)]).length : Nat) : Int) := by
  have h' : mem.drop p = encRec c d ++ rest := by simpa [encRecs] using h
  rw [hL.step _ _ _ _ _ _ _ (getRecordParts_at hc hd h') h1 hb]
  unfold sheetRecord
  rw [if_neg h2, if_neg h3, if_neg h4]
  have hlen : ((p + 4 + d.length : Nat) : Int) = ((p + (encRecs [(c, d)]).length : Nat) : Int) := by
    simp [encRecs, encRec_length]; ring
  rw [hlen]
  simp only [bind]
  cases plainRecord env s c d.length d <;> rfl

theorem formula_step {β : Type} {env : SheetEnv} {mem : Bytes} {bad : List Nat} {loop : Nat → SheetSt → Int → R β} (hL : StepsLike env mem bad loop) (h30 : 30 ≤ env.bv)
    {rest : Bytes} {p : Nat} (fuel : Nat) (s : SheetSt)
    {r c xf flags code : Nat} {res : FResult} {junk : Bytes} (ho : (CellRec.formula r c xf res code flags junk).Ok env.bv env.dec env.sst)
    (hb : code ∉ bad) (hs : ∀ q ∈ (CellRec.formula r c xf res code flags junk).records env.bv, q.2.length < 65536)
    (h : mem.drop p = encRecs ((CellRec.formula r c xf res code flags junk).records env.bv) ++ rest) :
    loop (fuel + 1) s (p : Int) =
      (s.puts env [⟨r, c, res.value.1, res.value.2, xf⟩]).bind fun s => loop fuel s
        ((p + (encRecs ((CellRec.formula r c xf res code flags junk).records env.bv)).length : Nat) : Int) := by
  obtain ⟨k1, k2, k3, k4, k5, k6⟩ := ho
  simp only [CellRec.records] at h hs ⊢
  set D := head3 r c xf ++ res.bytes ++ le16 flags ++ junk with hD
  have hc : code < 65536 := by rcases k5 with rfl | rfl | rfl <;> decide
  have hl : D.length < 65536 := hs (code, D) (by simp)
  have h' : mem.drop p = encRec code D ++ (encRecs res.records ++ rest) := by rw [h]; simp [encRecs]
  have h2 := drop_at h' (encRec_length _ _)
  have hp : p + (4 + D.length) ≤ mem.length := by
    have := congrArg List.length h'
    rw [List.length_drop, List.length_append, encRec_length] at this; omega
  have hf := recFormula_ok env s (flags := flags) junk k1 k2 k3 k6 h2 hp
  rw [hL.step _ _ _ _ _ _ _ (getRecordParts_at hc hl h') (by rcases k5 with rfl | rfl | rfl <;> decide) hb]
  unfold sheetRecord
  rw [if_pos (by rcases k5 with rfl | rfl | rfl <;> decide), show ((p + 4 + D.length : Nat) : Int) = ((p + (4 + D.length) : Nat) : Int) by push_cast; ring,
    hD, hf]
  have e : ((p + (4 + D.length) + (encRecs res.records).length : Nat) : Int) = ((p + (encRecs ((code, D) :: res.records)).length : Nat) : Int) := by
    simp only [encRecs, List.flatMap_cons, List.length_append, encRec_length]; push_cast; ring
  rw [← hD, e]
  cases s.puts env [⟨r, c, res.value.1, res.value.2, xf⟩] <;> rfl

theorem embedded_step {β : Type} {env : SheetEnv} {mem : Bytes} {bad : List Nat} {loop : Nat → SheetSt → Int → R β} (hL : StepsLike env mem bad loop)
    {rest : Bytes} {p : Nat} (fuel : Nat) (s : SheetSt) {c : Nat} {d : Bytes}
    {body : List (Nat × Bytes)} {eof : Bytes} (hc : c ∈ [0x9, 0x209, 0x409, 0x809]) (hd4 : 4 ≤ d.length)
    (hb : ∀ q ∈ body, q.1 < 65536 ∧ q.1 ≠ 0xa) (hs : ∀ q ∈ (c, d) :: body ++ [(0xa, eof)], q.2.length < 65536)
    (h : mem.drop p = encRecs ((c, d) :: body ++ [(0xa, eof)]) ++ rest) :
    loop (fuel + 1) s (p : Int) =
      loop fuel s ((p + (encRecs ((c, d) :: body ++ [(0xa, eof)])).length : Nat) : Int) := by
  have hc16 : c < 65536 := by
    simp only [List.mem_cons, List.not_mem_nil, or_false] at hc
    rcases hc with rfl | rfl | rfl | rfl <;> decide
  have hne : c ≠ XL_EOF ∧ c ∉ XL_FORMULA_OPCODES ∧ c ∈ bofcodes ∧ c ∈ itemCodes := by
    simp only [List.mem_cons, List.not_mem_nil, or_false] at hc
    rcases hc with rfl | rfl | rfl | rfl <;> decide
  have hd : d.length < 65536 := hs (c, d) (by simp)
  have h' : mem.drop p = encRec c d ++ (encRecs (body ++ [(0xa, eof)]) ++ rest) := by rw [h]; simp [encRecs]
  have h2 := drop_at h' (encRec_length _ _)
  have hfuel : body.length < mem.length + 1 := by
    have hl := congrArg List.length h'
    have : ∀ l : List (Nat × Bytes), l.length ≤ (encRecs l).length := by
      intro l
      induction l with
      | nil => simp [encRecs]
      | cons q l ih => simp only [encRecs, List.flatMap_cons, List.length_append, encRec_length, List.length_cons] at ih ⊢; omega
    have h3 := this (body ++ [(0xa, eof)])
    simp only [List.length_drop, List.length_append, encRec_length, List.length_cons, List.length_nil] at hl h3; omega
  have hk := skipEmbedded_ok mem body eof (hs (0xa, eof) (by simp)) (mem.length + 1) (p + (4 + d.length)) rest hfuel
    (fun q hq => ⟨(hb q hq).1, (hb q hq).2, hs q (by simp [hq])⟩) h2
  have hu : unpackN 4 (slice d 0 4) = .ok (d.take 4) := by
    have : slice d 0 4 = d.take 4 := by
      have := slice_nat d 0 4
      simpa using this
    rw [this]; exact unpackN_ok (by rw [List.length_take]; omega)
  rw [hL.step _ _ _ _ _ _ _ (getRecordParts_at hc16 hd h') hne.1 (hL.good _ hne.2.2.2)]
  unfold sheetRecord recEmbedded
  rw [if_neg hne.2.1, if_pos hne.2.2.1, hu]
  simp only [bind, Except.bind]
  rw [show ((p + 4 + d.length : Nat) : Int) = ((p + (4 + d.length) : Nat) : Int) by push_cast; ring, hk]
  simp only [pure, Except.pure]
  congr 1
  simp only [encRecs, List.cons_append, List.flatMap_cons, List.length_append, encRec_length]; push_cast; ring

theorem other_step {β : Type} {env : SheetEnv} {mem : Bytes} {bad : List Nat} {loop : Nat → SheetSt → Int → R β} (hL : StepsLike env mem bad loop)
    {rest : Bytes} {p c : Nat} {d : Bytes} (fuel : Nat) (s : SheetSt) (hc : c ∈ otherCodes) (hb : c ∉ bad) (hd : d.length < 65536)
    (h : mem.drop p = encRec c d ++ rest) :
    loop (fuel + 1) s (p : Int) =
      (extraRecord env mem s.ext ((p + (4 + d.length) : Nat) : Int) c d).bind fun r => loop fuel { s with ext := r.1 } r.2 := by
  have hne : c < 65536 ∧ c ≠ 0xa ∧ c ∉ XL_FORMULA_OPCODES ∧ c ∉ bofcodes := by
    simp only [List.mem_cons, List.not_mem_nil, or_false] at hc
    rcases hc with rfl | rfl | rfl | rfl | rfl | rfl | rfl | rfl <;> decide
  rw [hL.step _ _ _ _ _ _ _ (getRecordParts_at hne.1 hd h) hne.2.1 hb]
  unfold sheetRecord
  rw [if_neg hne.2.2.1, if_neg hne.2.2.2, if_pos hc, show ((p + 4 + d.length : Nat) : Int) = ((p + (4 + d.length) : Nat) : Int) by push_cast; ring]
  simp only [bind, Except.bind]
  cases extraRecord env mem s.ext ((p + (4 + d.length) : Nat) : Int) c d <;> rfl

/-- How many rounds of the record loop an item takes. -/
def extraLoops : ExtraRec → Nat
  | .link _ (some _) => 2
  | .box b => 2 + b.drawings.length
  | _ => 1

def itemLoops : SheetItem → Nat
  | .extra x => extraLoops x
  | _ => 1

theorem drawings_step {β : Type} {env : SheetEnv} {mem : Bytes} {bad : List Nat} {loop : Nat → SheetSt → Int → R β} (hL : StepsLike env mem bad loop) (ds : List Bytes) : ∀ (fuel p : Nat) (s : SheetSt) (rest : Bytes), (∀ d ∈ ds, d.length < 65536) →
    mem.drop p = encRecs (ds.map fun d => (0xec, d)) ++ rest →
    loop (fuel + ds.length) s (p : Int) = loop fuel s ((p + (encRecs (ds.map fun d => (0xec, d))).length : Nat) : Int) := by
  induction ds with
  | nil => intro fuel p s rest _ _; rfl
  | cons d ds ih =>
    intro fuel p s rest hd h
    have h' : mem.drop p = encRec 0xec d ++ (encRecs (ds.map fun d => (0xec, d)) ++ rest) := by rw [h]; simp [encRecs]
    have h2 := drop_at h' (encRec_length _ _)
    rw [List.length_cons, show fuel + (ds.length + 1) = fuel + ds.length + 1 by omega,
      other_step hL (fuel + ds.length) s (by decide) (hL.good _ (by decide)) (hd d (by simp)) h']
    rw [show ∀ e pos, extraRecord env mem e pos 0xec d = .ok (e, pos) from fun _ _ => rfl]
    simp only [Except.bind]
    rw [ih fuel _ _ rest (fun x hx => hd x (by simp [hx])) h2]
    congr 2
    simp [encRecs, encRec_length]; ring

theorem box_step {β : Type} {env : SheetEnv} {mem : Bytes} {bad : List Nat} {loop : Nat → SheetSt → Int → R β} (hL : StepsLike env mem bad loop)
    {rest : Bytes} {p : Nat} (fuel : Nat) (s : SheetSt) (x : BoxRec) (h80 : 80 ≤ env.bv) (hx : x.Ok)
    (hs : ∀ q ∈ x.records, q.2.length < 65536) (h : mem.drop p = encRecs x.records ++ rest) :
    loop (fuel + (2 + x.drawings.length)) s (p : Int) =
      loop fuel { s with ext := applyExtra s.ext (.box x) } ((p + (encRecs x.records).length : Nat) : Int) := by
  have hr : encRecs x.records = encRec 0x5d x.obj.bytes ++ (encRecs (x.drawings.map fun d => (0xec, d)) ++ (encRec 0x1b6 x.txo ++ encRecs (BoxRec.tail x))) := by
    simp only [BoxRec.records, BoxRec.tail, encRecs, List.flatMap_cons, List.flatMap_append, List.cons_append, List.append_assoc, List.flatMap_nil,
      List.append_nil, List.nil_append]
  have h' := h
  rw [hr] at h'
  simp only [List.append_assoc] at h'
  have h2 := drop_at h' (encRec_length _ _)
  have h3 := drop_at h2 rfl
  have h4 := drop_at h3 (encRec_length _ _)
  rw [show fuel + (2 + x.drawings.length) = fuel + 1 + x.drawings.length + 1 by omega,
    other_step hL _ s (by decide) (hL.good _ (by decide)) (hs (0x5d, x.obj.bytes) (by simp [BoxRec.records])) h']
  have e1 : ∀ pos, extraRecord env mem s.ext pos 0x5d x.obj.bytes = .ok ({ s.ext with saved := some (some x.obj.id) }, pos) := by
    intro pos
    rw [show ∀ d, extraRecord env mem s.ext pos 0x5d d = (handleObj env.bv d).bind fun id => .ok ({ s.ext with saved := some id }, pos) from fun _ => rfl,
      handleObj_ok h80 _ hx.obj]; rfl
  rw [e1]
  simp only [Except.bind]
  rw [drawings_step hL x.drawings _ _ _ _ (fun d hd => hs (0xec, d) (by simp [BoxRec.records, hd])) h2,
    other_step hL _ _ (by decide) (hL.good _ (by decide)) (hs (0x1b6, x.txo) (by simp [BoxRec.records])) h3,
    show ∀ e pos d, extraRecord env mem e pos 0x1b6 d = recTxo env.bv mem e d pos from fun _ _ _ => rfl,
    recTxo_ok h80 x hx hx.id rfl (fun q hq => hs q (by
      simp only [BoxRec.tail, List.mem_append] at hq
      simp only [BoxRec.records, List.mem_append, List.cons_append, List.mem_cons]; tauto)) h4]
  simp only [Except.bind, applyExtra]
  congr 2
  rw [hr]
  simp only [List.length_append, encRec_length]; ring

theorem extra_step {β : Type} {env : SheetEnv} {mem : Bytes} {bad : List Nat} {loop : Nat → SheetSt → Int → R β} (hL : StepsLike env mem bad loop)
    {rest : Bytes} {p : Nat} (fuel : Nat) (s : SheetSt) (x : ExtraRec) (hx : x.Ok env.bv env.dec)
    (hs : ∀ q ∈ x.records, q.2.length < 65536) (h : mem.drop p = encRecs x.records ++ rest) :
    loop (fuel + extraLoops x) s (p : Int) =
      loop fuel { s with ext := applyExtra s.ext x } ((p + (encRecs x.records).length : Nat) : Int) := by
  have one : ∀ c d, x.records = [(c, d)] → c ∈ otherCodes → c ∉ bad → extraLoops x = 1 →
      (∀ pos, extraRecord env mem s.ext pos c d = .ok (applyExtra s.ext x, pos)) →
      loop (fuel + extraLoops x) s (p : Int) =
        loop fuel { s with ext := applyExtra s.ext x } ((p + (encRecs x.records).length : Nat) : Int) := by
    intro c d he hc hb hl hr
    rw [hl, other_step hL fuel s hc hb (hs (c, d) (by rw [he]; simp)) (by rw [h, he]; simp [encRecs]; rfl), hr, he]
    simp only [Except.bind]
    congr 2
    simp [encRecs, encRec_length]
  have plain : ∀ c d, x.records = [(c, d)] → c < 65536 → c ≠ 0xa → c ∉ XL_FORMULA_OPCODES → c ∉ bofcodes → c ∉ otherCodes → c ∉ bad → extraLoops x = 1 →
      plainRecord env s c d.length d = .ok s → applyExtra s.ext x = s.ext →
      loop (fuel + extraLoops x) s (p : Int) =
        loop fuel { s with ext := applyExtra s.ext x } ((p + (encRecs x.records).length : Nat) : Int) := by
    intro c d he h1 h2 h3 h4 h5 hb hl hr ha
    rw [hl, plain_step hL fuel s h1 h2 h3 h4 h5 hb (hs (c, d) (by rw [he]; simp)) (by rw [h, he]), hr, ha, he]
    rfl
  cases x with
  | link y tip =>
    have hd := hs (0x1b8, y.bytes) (by simp [ExtraRec.records])
    have hk : ∀ e pos, extraRecord env mem e pos 0x1b8 y.bytes =
        .ok ({ e with links := e.links ++ [y.value none], linkMap := mapLink e.linkMap (y.value none) e.links.length }, pos) := by
      intro e pos
      rw [show ∀ d, extraRecord env mem e pos 0x1b8 d = (handleHlink e d).bind fun e => .ok (e, pos) from fun _ => rfl, handleHlink_ok e y hx hd]; rfl
    cases tip with
    | none => exact one _ _ rfl (by decide) (hL.good _ (by decide)) rfl (fun pos => hk _ _)
    | some t =>
      have h' : mem.drop p = encRec 0x1b8 y.bytes ++ (encRec 0x800 (tipBytes y.range t) ++ rest) := by
        rw [h]; simp [ExtraRec.records, encRecs]
      have h2 := drop_at h' (encRec_length _ _)
      have hq : ∀ e ls pos, e.links = ls ++ [y.value none] →
          extraRecord env mem e pos 0x800 (tipBytes y.range t) = .ok ({ e with links := ls ++ [y.value (some t)] }, pos) := by
        intro e ls pos he
        rw [show ∀ d, extraRecord env mem e pos 0x800 d = (handleQuicktip e d).bind fun e => .ok (e, pos) from fun _ => rfl,
          handleQuicktip_ok e y hx t ls he]; rfl
      rw [show fuel + extraLoops (.link y (some t)) = fuel + 1 + 1 from rfl, other_step hL _ s (by decide) (hL.good _ (by decide)) hd h', hk]
      simp only [Except.bind]
      rw [other_step hL _ _ (by decide) (hL.good _ (by decide)) (hs (0x800, tipBytes y.range t) (by simp [ExtraRec.records])) h2, hq _ s.ext.links _ rfl]
      simp only [Except.bind, applyExtra]
      congr 2
      simp [ExtraRec.records, encRecs, encRec_length]; ring
  | shape y =>
    refine one _ _ rfl (by decide) (hL.good _ (by decide)) rfl (fun pos => ?_)
    rw [show ∀ d, extraRecord env mem s.ext pos 0x5d d = (handleObj env.bv d).bind fun id => .ok ({ s.ext with saved := some id }, pos) from fun _ => rfl,
      handleObj_ok hx.1 _ hx.2]; rfl
  | oldShape d =>
    refine one _ _ rfl (by decide) (hL.good _ (by decide)) rfl (fun pos => ?_)
    rw [show ∀ d, extraRecord env mem s.ext pos 0x5d d = (handleObj env.bv d).bind fun id => .ok ({ s.ext with saved := some id }, pos) from fun _ => rfl]
    unfold handleObj
    rw [if_pos (show env.bv < 80 from hx)]; rfl
  | drawing d => exact one _ _ rfl (by decide) (hL.good _ (by decide)) rfl (fun pos => rfl)
  | box y => exact box_step hL fuel s y hx.1 hx.2 hs h
  | note y =>
    cases y with
    | boxed row col flags obj author pad =>
      refine one _ _ rfl (by decide) (hL.good _ (by decide)) rfl (fun pos => ?_)
      rw [show ∀ d, extraRecord env mem s.ext pos 0x1c d = handleNote env.bv env.dec mem s.ext d pos from fun _ => rfl,
        handleNote_boxed hx.1 hx]
      rfl
    | plain row col text first more =>
      simp only [ExtraRec.records, NoteRec.records] at h hs ⊢
      have h' := h
      rw [encRecs, List.flatMap_cons, List.append_assoc] at h'
      have h2 := drop_at h' (encRec_length _ _)
      rw [show fuel + extraLoops (.note (.plain row col text first more)) = fuel + 1 from rfl,
        other_step hL fuel s (c := 0x1c) (by decide) (hL.good _ (by decide)) (hs (0x1c, _) (by simp)) h',
        show ∀ d pos, extraRecord env mem s.ext pos 0x1c d = handleNote env.bv env.dec mem s.ext d pos from fun _ _ => rfl,
        handleNote_plain hx (fun q hq => by
          have := hs (0x1c, le16 0xFFFF ++ le16 q.1 ++ le16 q.2.length ++ q.2) (by simp only [List.mem_cons, List.mem_map]; exact .inr ⟨q, hq, rfl⟩)
          simp at this; omega) h2]
      simp only [Except.bind, applyExtra]
      congr 2
      simp [encRecs, encRec_length]; ring
  | feat11 d => exact one _ _ rfl (by decide) (hL.good _ (by decide)) rfl (fun pos => rfl)
  | array d =>
    refine plain _ _ rfl (by decide) (by decide) (by decide) (by decide) (by decide) (hL.good _ (by decide)) rfl ?_ rfl
    have hl : (d.take 14).length = 14 := by have : 14 ≤ d.length := hx; rw [List.length_take]; omega
    have : sliceTo d 14 = d.take 14 := by
      have := sliceTo_app (k := 14) (n := 14) (y := d.drop 14) rfl hl
      rwa [List.take_append_drop] at this
    rw [show ∀ n d, plainRecord env s 0x221 n d = (unpackN 14 (sliceTo d 14)).bind fun _ => .ok s from fun _ _ => rfl, this, unpackN_ok hl]; rfl
  | shared d =>
    refine plain _ _ rfl (by decide) (by decide) (by decide) (by decide) (by decide) (hL.good _ (by decide)) rfl ?_ rfl
    have hl : (d.take 10).length = 10 := by have : 10 ≤ d.length := hx; rw [List.length_take]; omega
    have : sliceTo d 10 = d.take 10 := by
      have := sliceTo_app (k := 10) (n := 10) (y := d.drop 10) rfl hl
      rwa [List.take_append_drop] at this
    rw [show ∀ n d, plainRecord env s 0x4bc n d = (unpackN 10 (sliceTo d 10)).bind fun _ => .ok s from fun _ _ => rfl, this, unpackN_ok hl]; rfl
  | condfmt head rs junk =>
    obtain ⟨k1, k2, k3, k4⟩ := hx
    refine plain _ _ rfl (by decide) (by decide) (by decide) (by decide) (by decide) (hL.good _ (by decide)) rfl ?_ rfl
    rw [show ∀ n d, plainRecord env s 0x1b0 n d = recCondFmt env s d from fun _ _ => rfl, recCondFmt_ok env s head junk rs k1 k2 k3 k4]
  | cf y =>
    refine plain _ _ rfl (by decide) (by decide) (by decide) (by decide) (by decide) (hL.good _ (by decide)) rfl ?_ rfl
    rw [show ∀ n d, plainRecord env s 0x1b1 n d = recCf env s n d from fun _ _ => rfl, recCf_ok env s y hx]

theorem plainItem_step {β : Type} {env : SheetEnv} {mem : Bytes} {bad : List Nat} {loop : Nat → SheetSt → Int → R β} (hL : StepsLike env mem bad loop)
    {rest : Bytes} {p : Nat} (fuel : Nat) (s : SheetSt) (x : SheetItem) (hn : ∀ y, x ≠ .extra y)
    (hb : FitsItem env.bv bad x)
    (hx : x.Ok env.bv env.dec env.sst) (hs : x.Short env.bv) (h : mem.drop p = encRecs (x.records env.bv) ++ rest) :
    loop (fuel + 1) s (p : Int) =
      (applyItem env s x).bind fun s => loop fuel s ((p + (encRecs (x.records env.bv)).length : Nat) : Int) := by
  have P : ∀ c d, x.records env.bv = [(c, d)] → c < 65536 → c ≠ 0xa → c ∉ XL_FORMULA_OPCODES → c ∉ bofcodes → c ∉ otherCodes → c ∉ bad →
      plainRecord env s c d.length d = applyItem env s x →
      loop (fuel + 1) s (p : Int) =
      (applyItem env s x).bind fun s => loop fuel s ((p + (encRecs (x.records env.bv)).length : Nat) : Int) := by
    intro c d he h1 h2 h3 h4 h5 hb h6
    rw [← h6, he]
    exact plain_step hL fuel s h1 h2 h3 h4 h5 hb (hs (c, d) (by rw [he]; simp)) (by rw [← he]; exact h)
  cases x with
  | cell y =>
    cases y with
    | number r c xf v junk =>
      obtain ⟨k1, k2, k3, k4⟩ := hx
      refine P _ _ rfl (by decide) (by decide) (by decide) (by decide) (by decide) (hL.good _ (by decide)) ?_
      unfold plainRecord; rw [if_pos rfl, recNumber_ok env s junk k1 k2 k3 k4]
      simp only [applyItem, CellRec.cells, richAfter]
      cases s.puts env _ <;> rfl
    | rk r c xf v junk =>
      obtain ⟨k1, k2, k3, k4⟩ := hx
      refine P _ _ rfl (by decide) (by decide) (by decide) (by decide) (by decide) (hL.good _ (by decide)) ?_
      have : plainRecord env s 0x27e (head3 r c xf ++ v.bytes ++ junk).length (head3 r c xf ++ v.bytes ++ junk) = recRk env s (head3 r c xf ++ v.bytes ++ junk) := rfl
      rw [this, recRk_ok env s junk k1 k2 k3 k4]
      simp only [applyItem, CellRec.cells, richAfter]
      cases s.puts env _ <;> rfl
    | mulrk r c cells =>
      obtain ⟨k1, k2, k3, k4⟩ := hx
      refine P _ _ rfl (by decide) (by decide) (by decide) (by decide) (by decide) (hL.good _ (by decide)) ?_
      rw [show ∀ n d, plainRecord env s 0xbd n d = recMulRk env s d from fun _ _ => rfl, recMulRk_ok env s k1 k2 k3 k4]
      simp only [applyItem, CellRec.cells, richAfter]
      cases s.puts env _ <;> rfl
    | labelsst r c xf i =>
      obtain ⟨k1, k2, k3, k4, k5⟩ := hx
      refine P _ _ rfl (by decide) (by decide) (by decide) (by decide) (by decide) (hL.good _ (by decide)) ?_
      rw [show ∀ n d, plainRecord env s 0xfd n d = recLabelSst env s d from fun _ _ => rfl, recLabelSst_ok env s k1 k2 k3 k4 k5]
      rfl
    | label r c xf t body junk =>
      obtain ⟨k1, k2, k3, k4⟩ := hx
      refine P _ _ rfl (by decide) (by decide) (by decide) (by decide) (by decide) (hL.good _ (by decide)) ?_
      rw [show ∀ n d, plainRecord env s 0x204 n d = recLabel env s d from fun _ _ => rfl, recLabel_ok env s junk k1 k2 k3 k4]
      simp only [applyItem, CellRec.cells, richAfter]
      cases s.puts env _ <;> rfl
    | rstring r c xf t body runs =>
      obtain ⟨k1, k2, k3, k4, k5⟩ := hx
      refine P _ _ rfl (by decide) (by decide) (by decide) (by decide) (by decide) (hL.good _ (by decide)) ?_
      rw [show ∀ n d, plainRecord env s 0xd6 n d = recRString env s d from fun _ _ => rfl, recRString_ok env s k1 k2 k3 k4 k5]
      rfl
    | boolerr r c xf e v junk =>
      obtain ⟨k1, k2, k3⟩ := hx
      refine P _ _ rfl (by decide) (by decide) (by decide) (by decide) (by decide) (hL.good _ (by decide)) ?_
      rw [show ∀ n d, plainRecord env s 0x205 n d = recBoolErr env s d from fun _ _ => rfl, recBoolErr_ok env s e v junk k1 k2 k3]
      simp only [applyItem, CellRec.cells, richAfter]
      cases s.puts env _ <;> rfl
    | blank r c xf junk =>
      obtain ⟨k1, k2, k3⟩ := hx
      refine P _ _ rfl (by decide) (by decide) (by decide) (by decide) (by decide) (hL.good _ (by decide)) ?_
      rw [show ∀ n d, plainRecord env s 0x201 n d = recBlank env s d from fun _ _ => rfl, recBlank_ok env s junk k1 k2 k3]
      simp only [applyItem, CellRec.cells, richAfter]
      cases s.puts env _ <;> rfl
    | mulblank r c xfs =>
      obtain ⟨k1, k2, k3, k4⟩ := hx
      refine P _ _ rfl (by decide) (by decide) (by decide) (by decide) (by decide) (hL.good _ (by decide)) ?_
      rw [show ∀ n d, plainRecord env s 0xbe n d = recMulBlank env s n d from fun _ _ => rfl, recMulBlank_ok env s k1 k2 k3 k4 _ rfl]
      simp only [applyItem, CellRec.cells, richAfter]
      cases s.puts env _ <;> rfl
    | formula r c xf res code flags junk =>
      rw [formula_step hL hb.1 fuel s hx hb.2 hs h]
      simp only [applyItem, CellRec.cells, richAfter, SheetItem.records]
      cases s.puts env _ <;> rfl
  | row y junk =>
    refine P _ _ rfl (by decide) (by decide) (by decide) (by decide) (by decide) (hL.good _ (by decide)) ?_
    rw [show ∀ n d, plainRecord env s 0x208 n d = recRow env s d from fun _ _ => rfl, recRow_ok env s y junk hx]; rfl
  | col y =>
    refine P _ _ rfl (by decide) (by decide) (by decide) (by decide) (by decide) (hL.good _ (by decide)) ?_
    rw [show ∀ n d, plainRecord env s 0x7d n d = recColinfo env s d from fun _ _ => rfl, recColinfo_ok env s y hx]; rfl
  | merged rs =>
    refine P _ _ rfl (by decide) (by decide) (by decide) (by decide) (by decide) (hL.good _ (by decide)) ?_
    rw [show ∀ n d, plainRecord env s 0xe5 n d = recMergedCells env s n d from fun _ _ => rfl, recMergedCells_ok env s rs hx]; rfl
  | window y =>
    refine P _ _ rfl (by decide) (by decide) (by decide) (by decide) (by decide) (hL.good _ (by decide)) ?_
    rw [show ∀ n d, plainRecord env s 0x23e n d = recWindow2 env s n d from fun _ _ => rfl, recWindow2_ok env hb s y hx]; rfl
  | zoom n d =>
    refine P _ _ rfl (by decide) (by decide) (by decide) (by decide) (by decide) (hL.good _ (by decide)) ?_
    rw [show ∀ n d, plainRecord env s 0xa0 n d = recScl s d from fun _ _ => rfl, recScl_ok s n d hx.1 hx.2]; rfl
  | pane v hh hf vf a junk =>
    obtain ⟨k1, k2, k3, k4⟩ := hx
    refine P _ _ rfl (by decide) (by decide) (by decide) (by decide) (by decide) (hL.good _ (by decide)) ?_
    rw [show ∀ n d, plainRecord env s 0x41 n d = recPane s d from fun _ _ => rfl, recPane_ok s v hh hf vf a junk k1 k2 k3 k4]; rfl
  | hbreaks bs =>
    refine P _ _ rfl (by decide) (by decide) (by decide) (by decide) (by decide) (hL.good _ (by decide)) ?_
    rw [show ∀ n d, plainRecord env s 0x1b n d = recHBreaks env s n d from fun _ _ => rfl]
    unfold recHBreaks
    simp only [applyItem]
    by_cases hf : env.cfg.fmtInfo = true
    · rw [if_pos hf, if_pos hf, pageBreaks_ok env.bv 255 bs hx]; rfl
    · rw [if_neg hf, if_neg hf]; rfl
  | vbreaks bs =>
    refine P _ _ rfl (by decide) (by decide) (by decide) (by decide) (by decide) (hL.good _ (by decide)) ?_
    rw [show ∀ n d, plainRecord env s 0x1a n d = recVBreaks env s n d from fun _ _ => rfl]
    unfold recVBreaks
    simp only [applyItem]
    by_cases hf : env.cfg.fmtInfo = true
    · rw [if_pos hf, if_pos hf, pageBreaks_ok env.bv 65535 bs hx]; rfl
    · rw [if_neg hf, if_neg hf]; rfl
  | gcw fs =>
    refine P _ _ rfl (by decide) (by decide) (by decide) (by decide) (by decide) (hL.good _ (by decide)) ?_
    rw [show ∀ n d, plainRecord env s 0xab n d = recGcw env s n d from fun _ _ => rfl, recGcw_ok env s fs hx]; rfl
  | defcolwidth w junk =>
    refine P _ _ rfl (by decide) (by decide) (by decide) (by decide) (by decide) (hL.good _ (by decide)) ?_
    rw [show ∀ n d, plainRecord env s 0x55 n d = recDefColWidth s d from fun _ _ => rfl, recDefColWidth_ok s w junk hx]; rfl
  | stdwidth w junk =>
    refine P _ _ rfl (by decide) (by decide) (by decide) (by decide) (by decide) (hL.good _ (by decide)) ?_
    rw [show ∀ n d, plainRecord env s 0x99 n d = recStandardWidth s d from fun _ _ => rfl, recStandardWidth_ok s w junk hx]; rfl
  | defrowheight m hh a b rest' ht =>
    refine P _ _ rfl (by decide) (by decide) (by decide) (by decide) (by decide) (hL.good _ (by decide)) ?_
    rw [show ∀ n d, plainRecord env s 0x225 n d = recDefaultRowHeight s n d from fun _ _ => rfl]
    exact recDefaultRowHeight_ok s m hh a b rest' ht hx.1 hx.2
  | labels rs cs =>
    refine P _ _ rfl (by decide) (by decide) (by decide) (by decide) (by decide) (hL.good _ (by decide)) ?_
    rw [show ∀ n d, plainRecord env s 0x15f n d = recLabelRanges s n d from fun _ _ => rfl, recLabelRanges_ok s rs cs hx.1 hx.2]; rfl
  | unknown c d =>
    obtain ⟨k1, k2⟩ := hx
    have sub : ∀ l : List Nat, (∀ q ∈ l, q ∈ specialCodes) → c ∉ l := fun l hl hm => k2 (hl c hm)
    refine P c d rfl k1 (by rintro rfl; exact k2 (by decide)) (sub _ (by decide)) (sub _ (by decide)) (sub _ (by decide)) hb ?_
    unfold plainRecord
    simp only [applyItem]
    repeat rw [if_neg (by first | (rintro rfl; exact k2 (by decide)) | (rintro (rfl | rfl) <;> exact k2 (by decide)))]
    rfl
  | extra y => exact absurd rfl (hn y)
  | embedded c d body eof =>
    obtain ⟨k1, k2, k3⟩ := hx
    rw [embedded_step hL fuel s k1 k2 k3 hs h]
    rfl

theorem item_step {β : Type} {env : SheetEnv} {mem : Bytes} {bad : List Nat} {loop : Nat → SheetSt → Int → R β} (hL : StepsLike env mem bad loop)
    {rest : Bytes} {p : Nat} (fuel : Nat) (s : SheetSt) (x : SheetItem)
    (hb : FitsItem env.bv bad x) (hx : x.Ok env.bv env.dec env.sst) (hs : x.Short env.bv) (h : mem.drop p = encRecs (x.records env.bv) ++ rest) :
    loop (fuel + itemLoops x) s (p : Int) =
      (applyItem env s x).bind fun s => loop fuel s ((p + (encRecs (x.records env.bv)).length : Nat) : Int) := by
  cases x with
  | extra y => exact extra_step hL fuel s y hx hs h
  | _ => exact plainItem_step hL fuel s _ (fun y => by simp) hb hx hs h

end Xlrd
