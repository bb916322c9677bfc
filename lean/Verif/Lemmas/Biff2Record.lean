import Verif.Lemmas.Biff2Step

/-!
# The records of a BIFF2 worksheet
-/
set_option linter.unusedSimpArgs false
namespace Xlrd
open Spec

theorem at2_length (r c : Nat) (a : CellAttr) : (at2 r c a).length = 7 := rfl

theorem at2_fld {r c : Nat} (hr : r < 65536) (hc : c < 65536) (a : CellAttr) (y : Bytes) :
    fld (at2 r c a ++ y) 0 2 = r ∧ fld (at2 r c a ++ y) 2 2 = c ∧ slice (at2 r c a ++ y) 4 7 = a.bytes := by
  unfold at2
  refine ⟨?_, ?_, ?_⟩
  · rw [List.append_assoc, List.append_assoc]; exact fld_head r hr _
  · rw [List.append_assoc, List.append_assoc, fld_tail _ _ _ _ (by omega)]
    exact fld_head c hc _
  · rw [List.append_assoc]
    exact slice_mid (m := 4) (n := 3) rfl rfl rfl rfl

theorem at2_fld' {r c : Nat} (hr : r < 65536) (hc : c < 65536) (a : CellAttr) :
    fld (at2 r c a) 0 2 = r ∧ fld (at2 r c a) 2 2 = c ∧ slice (at2 r c a) 4 7 = a.bytes := by
  have := at2_fld hr hc a []; rwa [List.append_nil] at this

theorem step_puts {E : SheetEnv} {f : CellAttr → Nat} {g : Nat → Nat} {s : SheetSt} {it : B2Item} (h1 : ∀ fi, it.rows fi f g = []) (h2 : ∀ fi, it.widths fi = [])
    (h3 : ∀ fi, it.defaults fi f = []) (h4 : ∀ s, otherB2 E s it = .ok s) : stepB2 E f g s it = s.puts E (it.cells E.cfg.fmtInfo f) := by
  unfold stepB2
  rw [h1, h2, h3]
  cases s.puts E (it.cells E.cfg.fmtInfo f) with
  | error e => rfl
  | ok s => exact h4 _

/-- Items that are about cells. -/
def Spec.B2Item.isCell : B2Item → Bool
  | .number .. | .integer .. | .label .. | .boolerr .. | .formula .. | .blank .. => true
  | _ => false

theorem step_cell {E : SheetEnv} {f : CellAttr → Nat} {g : Nat → Nat} {s : SheetSt} {it : B2Item} (h : it.isCell = true) :
    stepB2 E f g s it = s.puts E (it.cells E.cfg.fmtInfo f) := by
  cases it <;> first | (cases h; done) | exact step_puts (fun _ => rfl) (fun _ => rfl) (fun _ => rfl) (fun _ => rfl)

theorem next_cell {i : Option Nat} {it : B2Item} (h : it.isCell = true) : nextIxfe i it = i := by
  cases it <;> first | (cases h; done) | rfl

/-- A cell is put into the sheet. -/
theorem cell_done {env : OpenEnv} {m : Bool} {dec : Bytes → R PyStr} {o o1 o' : OldSt} {it : B2Item} {a : CellAttr} {r c : Nat} {ct : Option Nat} {v : Val}
    (hc : it.isCell = true) (hi : B2Inv env m dec o1) (he : B2Ext env m o o1) (hs : o1.sheet = o.sheet) (hx : o1.ixfe = o.ixfe) (hk : B2Known m o1 o.ixfe a)
    (hn : m = false → ∀ as, Num as o → Num (as ++ [a]) o1) (hp : o1.put env r c ct v (xfOf m o1 o.ixfe a) = .ok o')
    (h1 : it.cells env.fi (xfOf m o1 o.ixfe) = [⟨r, c, ct, v, xfOf m o1 o.ixfe a⟩]) (h2 : it.attrs env.fi = [a]) : B2Done env m dec o o' it := by
  unfold OldSt.put OldSt.onSheet at hp
  obtain ⟨s', hs', hp⟩ := bind_ok hp
  cases hp
  rw [put_eq, hs] at hs'
  refine ⟨hi.sheet s' o1.ixfe, he.sheet s' o1.ixfe, by rw [next_cell hc]; exact hx, ?_, fun b hb => ?_, fun hm as has => by rw [h2]; exact (hn hm as has).congr rfl rfl⟩
  · rw [step_cell hc]
    show o.sheet.puts (o1.env env) (it.cells env.fi (xfOf m o1 o.ixfe)) = _
    rw [h1]; exact hs'
  · rw [h2] at hb
    rw [List.mem_singleton.mp hb]
    exact hk

theorem number_done {env : OpenEnv} {m : Bool} {dec : Bytes → R PyStr} {o o' : OldSt} (h : B2Inv env m dec o) {r c : Nat} {a : CellAttr} {x : B64}
    (ho : (B2Item.number r c a x).Ok dec) (hr : recNumberB2 env o (at2 r c a ++ x.bytes) = .ok o') : B2Done env m dec o o' (.number r c a x) := by
  obtain ⟨k1, k2, k3⟩ := ho
  obtain ⟨e1, e2, e3⟩ := at2_fld k1 k2 a x.bytes
  have e4 : f64OfBits (fld (at2 r c a ++ x.bytes) 7 8) = x.value := by
    rw [show 7 = 7 + 0 from rfl, fld_skip' _ _ _ _ _ (at2_length r c a)]
    have := unpackd_bytes x k3
    simpa [unpackd, unpackN_ok (B64.bytes_length x), bind, Except.bind, pure, Except.pure] using this
  unfold recNumberB2 at hr
  rw [unpackN_ok (show (at2 r c a ++ x.bytes).length = 15 from rfl)] at hr
  simp only [bind, Except.bind, e1, e2, e3, e4] at hr
  obtain ⟨⟨y, o1⟩, h1, hr⟩ := bind_ok hr
  obtain ⟨i1, i2, i3, i4, i5, i6, i7⟩ := fix_step h h1
  simp only [i5] at hr
  exact cell_done rfl i1 i2 i3 i4 i6 i7 hr rfl rfl

theorem integer_done {env : OpenEnv} {m : Bool} {dec : Bytes → R PyStr} {o o' : OldSt} (h : B2Inv env m dec o) {r c : Nat} {a : CellAttr} {n : Nat}
    (ho : (B2Item.integer r c a n).Ok dec) (hr : recInteger env o (at2 r c a ++ le16 n) = .ok o') : B2Done env m dec o o' (.integer r c a n) := by
  obtain ⟨k1, k2, k3⟩ := ho
  obtain ⟨e1, e2, e3⟩ := at2_fld k1 k2 a (le16 n)
  have e4 : fld (at2 r c a ++ le16 n) 7 2 = n := by
    rw [show 7 = 7 + 0 from rfl, fld_skip' _ _ _ _ _ (at2_length r c a)]
    exact fld_le16 n k3
  unfold recInteger at hr
  rw [unpackN_ok (show (at2 r c a ++ le16 n).length = 9 from rfl)] at hr
  simp only [bind, Except.bind, e1, e2, e3, e4] at hr
  obtain ⟨⟨y, o1⟩, h1, hr⟩ := bind_ok hr
  obtain ⟨i1, i2, i3, i4, i5, i6, i7⟩ := fix_step h h1
  simp only [i5] at hr
  exact cell_done rfl i1 i2 i3 i4 i6 i7 hr rfl rfl

theorem label_done {env : OpenEnv} {m : Bool} {dec : Bytes → R PyStr} {o o' : OldSt} (h : B2Inv env m dec o) {r c : Nat} {a : CellAttr} {t : PyStr} {b junk : Bytes}
    (ho : (B2Item.label r c a t b junk).Ok dec) (hr : recLabelB2 env o (at2 r c a ++ [UInt8.ofNat b.length] ++ b ++ junk) = .ok o') :
    B2Done env m dec o o' (.label r c a t b junk) := by
  obtain ⟨k1, k2, k3, k4⟩ := ho
  obtain ⟨e1, e2, e3⟩ := at2_fld' k1 k2 a
  unfold recLabelB2 at hr
  rw [List.append_assoc, List.append_assoc, slice0_app (k := 7) (n := 7) rfl (at2_length r c a), unpackN_ok (at2_length r c a)] at hr
  simp only [bind, Except.bind, e1, e2, e3] at hr
  obtain ⟨o1, h1, hr⟩ := bind_ok hr
  obtain ⟨i1, i2, i3, i4, i5⟩ := encoding_step h h1
  have hd : libDec env o1.book = dec := i4 rfl
  have hu : unpackString (libDec env o1.book) (at2 r c a ++ ([UInt8.ofNat b.length] ++ (b ++ junk))) 7 1 = .ok t := by
    have := unpackString_at (data := at2 r c a ++ ([UInt8.ofNat b.length] ++ (b ++ junk))) (p := 7) (l := 1) (b := b) (r := junk) (libDec env o1.book) (.inl rfl) (by simpa using k3)
      (by rw [List.drop_left' (at2_length r c a)]; rfl)
    rw [hd] at this ⊢
    rw [← k4]; exact this
  rw [hu] at hr
  simp only [bind, Except.bind] at hr
  obtain ⟨⟨y, o2⟩, h2, hr⟩ := bind_ok hr
  obtain ⟨j1, j2, j3, j4, j5, j6, j7⟩ := fix_step i1 h2
  have hx : o1.ixfe = o.ixfe := by rw [i3]
  have hs : o1.sheet = o.sheet := by rw [i3]
  simp only [j5] at hr
  rw [hx] at j6 hr
  exact cell_done rfl j1 (i2.trans j2) (j3.trans hs) (j4.trans hx) j6 (fun hm as has => j7 hm as (has.congr (by rw [i3]) i5)) hr rfl rfl

theorem boolerr_done {env : OpenEnv} {m : Bool} {dec : Bytes → R PyStr} {o o' : OldSt} (h : B2Inv env m dec o) {r c : Nat} {a : CellAttr} {isErr : Bool} {v : UInt8}
    (ho : (B2Item.boolerr r c a isErr v).Ok dec) (hr : recBoolErrB2 env o (at2 r c a ++ [v, if isErr then 1 else 0]) = .ok o') :
    B2Done env m dec o o' (.boolerr r c a isErr v) := by
  obtain ⟨k1, k2⟩ := ho
  obtain ⟨e1, e2, e3⟩ := at2_fld k1 k2 a [v, if isErr then 1 else 0]
  have e4 : fld (at2 r c a ++ [v, if isErr then 1 else 0]) 7 1 = v.toNat := by
    rw [show 7 = 7 + 0 from rfl, fld_skip' _ _ _ _ _ (at2_length r c a)]
    simp [fld, le]
  have e5 : idx [XL_CELL_BOOLEAN, XL_CELL_ERROR] (fld (at2 r c a ++ [v, if isErr then 1 else 0]) 8 1) = .ok (if isErr then XL_CELL_ERROR else XL_CELL_BOOLEAN) := by
    rw [show 8 = 7 + 1 from rfl, fld_skip' _ _ _ _ _ (at2_length r c a)]
    cases isErr <;> rfl
  unfold recBoolErrB2 at hr
  rw [unpackN_ok (show (at2 r c a ++ [v, if isErr then 1 else 0]).length = 9 from rfl)] at hr
  simp only [bind, Except.bind, e1, e2, e3, e4] at hr
  rw [e5] at hr
  simp only at hr
  obtain ⟨⟨y, o1⟩, h1, hr⟩ := bind_ok hr
  obtain ⟨i1, i2, i3, i4, i5, i6, i7⟩ := fix_step h h1
  simp only [i5] at hr
  exact cell_done rfl i1 i2 i3 i4 i6 i7 hr rfl rfl

theorem blank_done {env : OpenEnv} {m : Bool} {dec : Bytes → R PyStr} {o o' : OldSt} (h : B2Inv env m dec o) {r c : Nat} {a : CellAttr} {junk : Bytes}
    (ho : (B2Item.blank r c a junk).Ok dec) (hr : recBlankB2 env o (at2 r c a ++ junk) = .ok o') : B2Done env m dec o o' (.blank r c a junk) := by
  obtain ⟨k1, k2⟩ := ho
  obtain ⟨e1, e2, e3⟩ := at2_fld' k1 k2 a
  unfold recBlankB2 at hr
  cases hb : env.fi with
  | false =>
    rw [hb] at hr
    simp only [Bool.false_eq_true, if_false, pure, Except.pure, Except.ok.injEq] at hr
    subst hr
    refine ⟨h, B2Ext.refl _ _ _, rfl, ?_, fun b hh => ?_, fun _ as has => by simpa [B2Item.attrs, hb] using has⟩
    · rw [step_cell rfl, show (o.env env).cfg.fmtInfo = false from hb]
      rfl
    · rw [hb] at hh; cases hh
  | true =>
    rw [hb] at hr
    simp only [if_true] at hr
    rw [sliceTo_app (k := 7) (n := 7) rfl (at2_length r c a), unpackN_ok (at2_length r c a)] at hr
    simp only [bind, Except.bind, e1, e2, e3] at hr
    obtain ⟨⟨y, o1⟩, h1, hr⟩ := bind_ok hr
    obtain ⟨i1, i2, i3, i4, i5, i6, i7⟩ := fix_step h h1
    simp only [i5] at hr
    exact cell_done rfl i1 i2 i3 i4 i6 i7 hr (by simp only [B2Item.cells, hb, if_true]; rfl) (by simp only [B2Item.attrs, hb, if_true])

theorem ixfe_done {env : OpenEnv} {m : Bool} {dec : Bytes → R PyStr} {o : OldSt} (h : B2Inv env m dec o) {x : Nat} : B2Done env m dec o { o with ixfe := some x } (.ixfe x) :=
  ⟨h.sheet o.sheet (some x), (B2Ext.refl env m o).sheet o.sheet (some x), rfl, rfl, fun _ hb => (by cases hb), fun _ as has => (List.append_nil as).symm ▸ has.congr rfl rfl⟩

theorem StringRec_bv {v w : Nat} (hv : v < 30) (hw : w < 30) (dec : Bytes → R PyStr) (t : PyStr) (first : Bytes) (more : List Bytes) :
    StringRec v dec t first more ↔ StringRec w dec t first more := by
  unfold StringRec
  have a1 : ¬ 80 ≤ v := by omega
  have a2 : ¬ 80 ≤ w := by omega
  have a3 : ¬ 30 ≤ v := by omega
  have a4 : ¬ 30 ≤ w := by omega
  rw [if_neg a1, if_neg a2]
  simp only [if_neg a3, if_neg a4]

theorem FResult_bv {v w : Nat} (hv : v < 30) (hw : w < 30) {dec : Bytes → R PyStr} {res : FResult} (h : res.Ok v dec) : res.Ok w dec := by
  cases res with
  | str p t skip code first more =>
    obtain ⟨h1, h2, h3, h4⟩ := h
    exact ⟨h1, h2, h3, (StringRec_bv hv hw _ _ _ _).mp h4⟩
  | _ => exact h

theorem FResult_dec {v : Nat} {dec dec' : Bytes → R PyStr} {res : FResult} (h : res.Ok v dec) (hd : textResult res.bytes = true → dec' = dec) : res.Ok v dec' := by
  cases res with
  | str p t skip code first more => rw [hd (by rfl)]; exact h
  | _ => exact h

theorem formula_done {env : OpenEnv} {m : Bool} {dec : Bytes → R PyStr} {o o' : OldSt} (h : B2Inv env m dec o) {r c : Nat} {a : CellAttr} {res : FResult} {code : Nat}
    {flags : UInt8} {junk mem rest : Bytes} {p : Nat} {q : Int} (hm : mem.drop p = encRecs res.records ++ rest) (hp : p ≤ mem.length)
    (ho : (B2Item.formula r c a res code flags junk).Ok dec)
    (hr : recFormulaB2 env mem o (p : Int) (at2 r c a ++ res.bytes ++ [flags] ++ junk) = .ok (o', q)) :
    q = ((p + (encRecs res.records).length : Nat) : Int) ∧ B2Done env m dec o o' (.formula r c a res code flags junk) := by
  obtain ⟨k1, k2, _, k4⟩ := ho
  have hl : (at2 r c a ++ res.bytes ++ [flags]).length = 16 := by simp [at2_length, FResult.bytes_length]
  obtain ⟨e1, e2, e3⟩ := at2_fld k1 k2 a (res.bytes ++ [flags])
  have e4 : slice (at2 r c a ++ (res.bytes ++ [flags])) 7 15 = res.bytes := slice_mid (m := 7) (n := 8) rfl rfl (at2_length r c a) (FResult.bytes_length res)
  rw [← List.append_assoc] at e1 e2 e3 e4
  unfold recFormulaB2 at hr
  rw [slice0_app (k := 16) (n := 16) rfl hl, unpackN_ok hl] at hr
  simp only [bind, Except.bind, e1, e2, e3, e4] at hr
  obtain ⟨⟨y, o1⟩, h1, hr⟩ := bind_ok hr
  simp only at hr
  obtain ⟨i1, i2, i3, i4, i5, i6, i7⟩ := fix_step h h1
  obtain ⟨o2, h2, hr⟩ := bind_ok hr
  obtain ⟨j1, j2, j3, j4, j5⟩ := encoding_step i1 h2
  have hres : res.Ok (o2.env env).bv (o2.env env).dec := by
    apply FResult_dec (FResult_bv (by decide) (by show o2.bv < 30; have := j1.ver; omega) k4)
    intro ht
    exact j4 ht
  rw [formulaResult_ok (o2.env env) hres hm hp] at hr
  simp only [bind, Except.bind] at hr
  obtain ⟨o3, h3, hr⟩ := bind_ok hr
  cases hr
  obtain ⟨l1, l2⟩ := i6.ext j2
  have hx : o2.ixfe = o.ixfe := by rw [j3]; exact i4
  have hs : o2.sheet = o.sheet := by rw [j3]; exact i3
  refine ⟨rfl, ?_⟩
  rw [i5, ← l2] at h3
  exact cell_done rfl j1 (i2.trans j2) hs hx l1 (fun hm as has => (i7 hm as has).congr (by rw [j3]) j5) h3 rfl rfl

/-! ## Rows and columns -/

theorem step_row {E : SheetEnv} {f : CellAttr → Nat} {g : Nat → Nat} {s : SheetSt} {r : Nat} {p : Nat × Nat} {h : Nat} {d : Bool} {q rest : Nat} {xf : RowXf} :
    stepB2 E f g s (.row r p h d q rest xf) = .ok { s with rowinfo := rowsInto s.rowinfo ((B2Item.row r p h d q rest xf).rows E.cfg.fmtInfo f g) } := rfl

theorem row_bits1 {h : Nat} (hh : h < 32768) (d : Bool) : (h + 32768 * Spec.bit d) &&& 0x7fff = h ∧ ((h + 32768 * Spec.bit d) >>> 15) &&& 1 = Spec.bit d ∧ h + 32768 * Spec.bit d < 65536 := by
  have e1 : ∀ n : Nat, n &&& 0x7fff = n % 32768 := fun n => Nat.and_two_pow_sub_one_eq_mod n 15
  have e2 : ∀ n : Nat, n &&& 1 = n % 2 := fun n => Nat.and_two_pow_sub_one_eq_mod n 1
  rw [e1, e2, Nat.shiftRight_eq_div_pow]
  cases d <;> simp only [Spec.bit, Bool.false_eq_true, if_false, if_true] <;> omega

theorem row_bits2 {rest : Nat} (hr : rest < 128) (xf : RowXf) : (UInt8.ofNat (xf.flag + 2 * rest)).toNat = xf.flag + 2 * rest ∧ (xf.flag + 2 * rest) &&& 1 = xf.flag := by
  have e2 : ∀ n : Nat, n &&& 1 = n % 2 := fun n => Nat.and_two_pow_sub_one_eq_mod n 1
  have hf : xf.flag < 2 := by cases xf <;> simp [RowXf.flag]
  rw [u8_toNat_ofNat, e2]
  omega

theorem row_info {ht b flag b2 dh : Nat} (x1 : b &&& 0x7fff = ht) (x2 : (b >>> 15) &&& 1 = dh) (y2 : b2 &&& 1 = flag) (x : Int) :
    rowinfoB2 b b2 x = { height := ht, hasDefaultHeight := dh, hasDefaultXfIndex := flag, xfIndex := x, outlineLevel := 0, outlineGroupStartsEnds := 0, hidden := 0,
                         heightMismatch := 0, additionalSpaceAbove := 0, additionalSpaceBelow := 0, unset := true } := by
  unfold rowinfoB2
  rw [x1, x2, y2]

theorem rowXf_done {env : OpenEnv} {m : Bool} {dec : Bytes → R PyStr} {o o1 : OldSt} (h : B2Inv env m dec o) {xf : RowXf} (k7 : xf.Ok) {data hd : Bytes}
    (hl : hd.length = 11) (hdat : data = hd ++ xf.bytes) {bits : Nat} (y2 : bits &&& 1 = xf.flag) {x : Int} (h1 : rowXfB2 o data.length data bits = .ok (x, o1)) :
    B2Inv env m dec o1 ∧ B2Ext env m o o1 ∧ o1.sheet = o.sheet ∧ o1.ixfe = o.ixfe ∧ x = xf.xfIndex (xfOf m o1 o.ixfe) (ixfeIndex o.ixfe) ∧
      (∀ p a j, xf = .attr p a j → B2Known m o1 o.ixfe a) ∧
      (m = false → ∀ as, Num as o → Num (as ++ match xf with | .attr _ a _ => [a] | _ => []) o1) ∧
      (∀ p y, xf = .index p y → m = true ∧ (y = 63 → o.ixfe ≠ none)) := by
  unfold rowXfB2 at h1
  rw [y2] at h1
  cases xf with
  | no tail =>
    rw [if_pos (by rfl)] at h1
    cases h1
    exact ⟨h, B2Ext.refl _ _ _, rfl, rfl, rfl, fun _ _ _ hh => (by cases hh), fun _ as has => (by simpa using has), fun _ _ hh => (by cases hh)⟩
  | attr p a junk =>
    rw [if_neg (by simp [RowXf.flag])] at h1
    have hlen : data.length ≠ 18 := by
      have : junk.length ≠ 2 := k7
      rw [hdat, List.length_append, hl]
      simp only [RowXf.bytes, CellAttr.bytes, List.length_append, List.length_cons, List.length_nil]
      omega
    rw [if_neg hlen] at h1
    have hsl : slice data 13 16 = a.bytes := by
      rw [hdat, show RowXf.bytes (.attr p a junk) = [p.1, p.2] ++ (a.bytes ++ junk) from List.append_assoc _ _ _, ← List.append_assoc]
      exact slice_mid (m := 13) (n := 3) rfl rfl (by simp [hl]) rfl
    rw [hsl] at h1
    obtain ⟨⟨z, o2⟩, g1, g2⟩ := bind_ok h1
    cases g2
    obtain ⟨i1, i2, i3, i4, i5, i6, i7⟩ := fix_step h g1
    refine ⟨i1, i2, i3, i4, by rw [i5]; rfl, fun _ _ _ hh => ?_, i7, fun _ _ hh => (by cases hh)⟩
    cases hh; exact i6
  | index p y =>
    have k7 : y < 65536 := k7
    rw [if_neg (by simp [RowXf.flag])] at h1
    have hlen : data.length = 18 := by
      rw [hdat, List.length_append, hl]
      rfl
    rw [if_pos hlen] at h1
    have hsl : unpackH (slice data 16 18) = .ok y := by
      have := unpackH_at (data := data) (p := 16) (r := []) k7 (by
        rw [hdat, List.append_nil, show RowXf.bytes (.index p y) = [p.1, p.2.1, p.2.2.1, p.2.2.2.1, p.2.2.2.2] ++ le16 y from rfl, ← List.append_assoc]
        exact List.drop_left' (by simp [hl]))
      exact this
    rw [hsl] at h1
    simp only [bind, Except.bind] at h1
    obtain ⟨⟨z, o2⟩, g1, g2⟩ := bind_ok h1
    cases g2
    cases m with
    | false =>
      unfold fixXf at g1
      rw [if_neg (fun hh => hh.2 ((h.none rfl).1 hh.1))] at g1
      cases g1
    | true =>
      unfold fixXf at g1
      rw [if_pos (h.xfs rfl)] at g1
      simp only [recordedXf, bind, Except.bind] at g1
      by_cases h63 : y = 0x3F
      · rw [if_pos h63] at g1
        cases hi : o.ixfe with
        | none => rw [hi] at g1; cases g1
        | some i =>
          rw [hi] at g1
          cases g1
          exact ⟨h, B2Ext.refl _ _ _, rfl, hi, by simp [RowXf.xfIndex, ixfeIndex, h63, hi], fun _ _ _ hh => (by cases hh), fun hh => (by cases hh), fun _ _ _ => ⟨rfl, fun _ => by simp [hi]⟩⟩
      · rw [if_neg h63] at g1
        cases g1
        exact ⟨h, B2Ext.refl _ _ _, rfl, rfl, by simp [RowXf.xfIndex, ixfeIndex, h63], fun _ _ _ hh => (by cases hh), fun hh => (by cases hh), fun _ _ hh => ⟨rfl, fun h6 => by cases hh; exact absurd h6 h63⟩⟩

theorem row_done {env : OpenEnv} {m : Bool} {dec : Bytes → R PyStr} {o o' : OldSt} (h : B2Inv env m dec o) {r : Nat} {p : Nat × Nat} {ht : Nat} {d : Bool} {q rest : Nat}
    {xf : RowXf} (ho : (B2Item.row r p ht d q rest xf).Ok dec) {data : Bytes}
    (hdat : data = le16 r ++ le16 p.1 ++ le16 p.2 ++ le16 (ht + 32768 * Spec.bit d) ++ le16 q ++ [UInt8.ofNat (xf.flag + 2 * rest)] ++ xf.bytes)
    (hr : recRowB2 env o data.length data = .ok o') : B2Done env m dec o o' (.row r p ht d q rest xf) ∧
      ∀ y ∈ (B2Item.row r p ht d q rest xf).rowNumbers env.fi, m = true ∧ (y = 63 → o.ixfe ≠ none) := by
  obtain ⟨k1, k2, k3, k4, k5, k6, k7⟩ := ho
  obtain ⟨x1, x2, x3⟩ := row_bits1 k4 d
  obtain ⟨y1, y2⟩ := row_bits2 k6 xf
  unfold recRowB2 at hr
  cases hb : env.fi with
  | false =>
    rw [hb] at hr
    simp only [Bool.false_eq_true, if_false, pure, Except.pure, Except.ok.injEq] at hr
    subst hr
    have hfi : (o.env env).cfg.fmtInfo = false := hb
    refine ⟨⟨h, B2Ext.refl _ _ _, rfl, ?_, fun b hh => ?_, fun _ as has => by cases xf <;> simpa [B2Item.attrs, hb] using has⟩, fun y hy => ?_⟩
    · rw [step_row, hfi]
      simp [B2Item.rows, rowsInto]
    · rw [hb] at hh
      cases xf <;> simp [B2Item.attrs] at hh
    · cases xf <;> simp [B2Item.rowNumbers] at hy
  | true =>
    rw [hb] at hr
    simp only [if_true] at hr
    set hd := le16 r ++ le16 p.1 ++ le16 p.2 ++ le16 (ht + 32768 * Spec.bit d) ++ le16 q ++ [UInt8.ofNat (xf.flag + 2 * rest)] with hhd
    have hl : hd.length = 11 := rfl
    have f1 : fld hd 0 2 = r := by
      rw [hhd]; simp only [List.append_assoc]; exact fld_head r k1 _
    have f2 : fld hd 6 2 = ht + 32768 * Spec.bit d := by
      rw [hhd]; simp only [List.append_assoc]
      rw [fld_tail _ _ _ _ (by omega), fld_tail _ _ _ _ (by omega), fld_tail _ _ _ _ (by omega)]
      exact fld_head _ x3 _
    have f3 : fld hd 10 1 = xf.flag + 2 * rest := by
      rw [hhd]; simp only [List.append_assoc]
      rw [fld_tail _ _ _ _ (by omega), fld_tail _ _ _ _ (by omega), fld_tail _ _ _ _ (by omega), fld_tail _ _ _ _ (by omega), fld_tail _ _ _ _ (by omega)]
      show (UInt8.ofNat (xf.flag + 2 * rest)).toNat + 256 * 0 = _
      rw [y1]; omega
    have hs0 : slice data 0 11 = hd := by rw [hdat]; exact slice0_app (k := 11) (n := 11) rfl hl
    rw [hs0, unpackN_ok hl] at hr
    simp only [bind, Except.bind, f1, f2, f3] at hr
    have hmax : (o.env env).cfg.maxRows = 16384 := by
      show (if o.bv ≥ 80 then 65536 else 16384) = 16384
      rw [if_neg (by have := h.ver; omega)]
    rw [hmax] at hr
    by_cases hrow : r < 16384
    · rw [if_pos hrow] at hr
      have hinfo := row_info (x1 := x1) (x2 := x2) (y2 := y2)
      obtain ⟨⟨x, o1⟩, h1, hr⟩ := bind_ok hr
      simp only [pure, Except.pure, Except.ok.injEq] at hr
      obtain ⟨i1, i2, i3, i4, i5, i6, i7, i8⟩ := rowXf_done h k7 hl hdat y2 h1
      rw [hinfo] at hr
      subst hr
      refine ⟨⟨i1.sheet _ o1.ixfe, i2.sheet _ o1.ixfe, i4, ?_, fun b hh => ?_, fun hm as has => ?_⟩, fun y hy => ?_⟩
      · rw [step_row]
        have hfi : ∀ o : OldSt, (o.env env).cfg.fmtInfo = true := fun _ => hb
        rw [hfi]
        simp only [B2Item.rows, if_pos (show True ∧ r < 16384 from ⟨trivial, hrow⟩), rowsInto, List.foldl_cons, List.foldl_nil]
        rw [i3, i5]
        rfl
      · rw [hb] at hh
        cases xf with
        | attr p a junk =>
          simp only [B2Item.attrs] at hh
          rw [if_pos ⟨trivial, hrow⟩] at hh
          rw [List.mem_singleton.mp hh]
          exact i6 _ _ _ rfl
        | _ => cases hh
      · refine Num.congr (o := o1) ?_ rfl rfl
        have := i7 hm as has
        cases xf with
        | attr p a junk => simp only [B2Item.attrs, hb]; rw [if_pos ⟨trivial, hrow⟩]; exact this
        | _ => exact this
      · cases xf with
        | index p' y' =>
          simp only [B2Item.rowNumbers, hb] at hy
          rw [if_pos ⟨trivial, hrow⟩] at hy
          rw [List.mem_singleton.mp hy]
          exact i8 _ _ rfl
        | _ => cases hy
    · rw [if_neg hrow] at hr
      cases hr
      have hfi : ∀ o : OldSt, (o.env env).cfg.fmtInfo = true := fun _ => hb
      refine ⟨⟨h, B2Ext.refl _ _ _, rfl, ?_, fun b hh => ?_, fun _ as has => by cases xf <;> simpa [B2Item.attrs, hrow] using has⟩, fun y hy => ?_⟩
      · rw [step_row, hfi]
        simp [B2Item.rows, rowsInto, hrow]
      · cases xf <;> simp [B2Item.attrs, hrow] at hh
      · cases xf <;> simp [B2Item.rowNumbers, hrow] at hy

theorem setWidths_into (w : Nat) : ∀ (n c : Nat) (d : Int → Option Colinfo), setWidths w d n c = widthsInto d ((List.range n).map fun k => (c + k, w)) := by
  intro n
  induction n with
  | zero => intro c d; rfl
  | succ n ih =>
    intro c d
    rw [setWidths, ih, List.range_succ_eq_map, List.map_cons, List.map_map]
    show _ = widthsInto (dictSet d ((c + 0 : Nat) : Int) _) _
    have : ((fun k => (c + k, w)) ∘ Nat.succ) = fun k => (c + 1 + k, w) := by
      funext k
      show (c + (k + 1), w) = _
      rw [Nat.add_assoc, Nat.add_comm k 1]
    rw [this]
    rfl

theorem colwidth_done {env : OpenEnv} {m : Bool} {dec : Bytes → R PyStr} {o o' : OldSt} (h : B2Inv env m dec o) {first last : UInt8} {w : Nat} {junk : Bytes}
    (ho : (B2Item.colwidth first last w junk).Ok dec) (hr : recColWidth env o ([first, last] ++ le16 w ++ junk) = .ok o') :
    B2Done env m dec o o' (.colwidth first last w junk) := by
  have hw : w < 65536 := ho
  unfold recColWidth at hr
  cases hb : env.fi with
  | false =>
    rw [hb] at hr
    simp only [Bool.false_eq_true, if_false, pure, Except.pure, Except.ok.injEq] at hr
    subst hr
    have hfi : (o.env env).cfg.fmtInfo = false := hb
    refine ⟨h, B2Ext.refl _ _ _, rfl, ?_, fun b hh => (by cases hh), fun _ as has => by simpa [B2Item.attrs] using has⟩
    unfold stepB2
    rw [hfi]; rfl
  | true =>
    have hfi : ∀ o : OldSt, (o.env env).cfg.fmtInfo = true := fun _ => hb
    rw [hb] at hr
    simp only [if_true] at hr
    rw [sliceTo_app (k := 4) (n := 4) rfl (show ([first, last] ++ le16 w : Bytes).length = 4 from rfl), unpackN_ok (show ([first, last] ++ le16 w : Bytes).length = 4 from rfl)] at hr
    have f1 : fld ([first, last] ++ le16 w : Bytes) 0 1 = first.toNat := by simp [fld, le]
    have f2 : fld ([first, last] ++ le16 w : Bytes) 1 1 = last.toNat := by simp [fld, le]
    have f3 : fld ([first, last] ++ le16 w : Bytes) 2 2 = w := by
      rw [show 2 = 2 + 0 from rfl, fld_skip' _ _ _ _ _ (by rfl)]; exact fld_le16 w hw
    simp only [bind, Except.bind, f1, f2, f3] at hr
    by_cases hle : first.toNat ≤ last.toNat
    · rw [if_pos hle] at hr
      cases hr
      refine ⟨h.sheet _ o.ixfe, (B2Ext.refl env m o).sheet _ o.ixfe, rfl, ?_, fun b hh => (by cases hh), fun _ as has => (List.append_nil as).symm ▸ has.congr rfl rfl⟩
      unfold stepB2
      rw [hfi, setWidths_into]
      simp only [B2Item.cells, puts_nil, B2Item.widths, if_true]
      rfl
    · rw [if_neg hle] at hr
      cases hr
      refine ⟨h, B2Ext.refl _ _ _, rfl, ?_, fun b hh => (by cases hh), fun _ as has => by simpa [B2Item.attrs] using has⟩
      unfold stepB2
      rw [hfi]
      simp only [B2Item.cells, puts_nil, B2Item.widths, if_true, show last.toNat + 1 - first.toNat = 0 by omega]
      rfl

theorem defaults_fold {env : OpenEnv} {m : Bool} {dec : Bytes → R PyStr} {data junk : Bytes} : ∀ (as : List CellAttr) (c off : Nat) (o o' : OldSt), B2Inv env m dec o →
    data.drop off = as.flatMap CellAttr.bytes ++ junk → columnDefaults data as.length c off o = .ok o' →
    B2Inv env m dec o' ∧ B2Ext env m o o' ∧ o'.ixfe = o.ixfe ∧ (∀ a ∈ as, B2Known m o' o.ixfe a) ∧
      o'.sheet = { o.sheet with colinfo := defaultsInto o.sheet.colinfo (as.mapIdx fun k a => (c + k, xfOf m o' o.ixfe a)) } ∧
      (m = false → ∀ bs, Num bs o → Num (bs ++ as) o') := by
  intro as
  induction as with
  | nil =>
    intro c off o o' hi _ hr
    simp only [List.length_nil, columnDefaults, Except.ok.injEq] at hr
    subst hr
    exact ⟨hi, B2Ext.refl _ _ _, rfl, fun _ h => (by cases h), rfl, fun _ bs hbs => by simpa using hbs⟩
  | cons a as ih =>
    intro c off o o' hi hd hr
    rw [List.length_cons, columnDefaults] at hr
    rw [List.flatMap_cons, List.append_assoc] at hd
    have hsl : slice data (off : Int) ((off : Int) + 3) = a.bytes := slice_at (n := 3) hd rfl
    rw [hsl] at hr
    obtain ⟨⟨x, o1⟩, h1, hr⟩ := bind_ok hr
    obtain ⟨i1, i2, i3, i4, i5, i6, i7⟩ := fix_step hi h1
    simp only at hr
    obtain ⟨j1, j2, j3, j4, j5, j6⟩ := ih (c + 1) (off + 3) _ o' (i1.sheet _ o1.ixfe) (drop_at hd rfl) hr
    have j2' : B2Ext env m o1 o' := ⟨j2.fmt, j2.same, j2.attr, j2.book, j2.user, j2.enc⟩
    simp only at j3 j4 j5
    rw [i4] at j3 j4 j5
    obtain ⟨k1, k2⟩ := i6.ext j2'
    refine ⟨j1, i2.trans j2', j3, ?_, ?_, fun hm bs hbs => ?_⟩
    · intro b hb
      rcases List.mem_cons.mp hb with rfl | hb
      · exact k1
      · exact j4 b hb
    · rw [j5, List.mapIdx_cons, i3, i5, ← k2]
      have : (fun i b => (c + (i + 1), xfOf m o' o.ixfe b)) = fun i b => (c + 1 + i, xfOf m o' o.ixfe b) := by
        funext i b
        rw [Nat.add_assoc, Nat.add_comm i 1]
      rw [this]
      rfl
    · have := j6 hm (bs ++ [a]) ((i7 hm bs hbs).congr rfl rfl)
      rwa [List.append_assoc] at this

theorem coldefault_done {env : OpenEnv} {m : Bool} {dec : Bytes → R PyStr} {o o' : OldSt} (h : B2Inv env m dec o) {first : Nat} {as : List CellAttr} {junk : Bytes}
    (ho : (B2Item.coldefault first as junk).Ok dec)
    (hr : recColumnDefault env o (le16 first ++ le16 (first + as.length) ++ as.flatMap CellAttr.bytes ++ junk) = .ok o') :
    B2Done env m dec o o' (.coldefault first as junk) := by
  have hw : first + as.length ≤ 256 := ho
  unfold recColumnDefault at hr
  cases hb : env.fi with
  | false =>
    rw [hb] at hr
    simp only [Bool.false_eq_true, if_false, pure, Except.pure, Except.ok.injEq] at hr
    subst hr
    have hfi : (o.env env).cfg.fmtInfo = false := hb
    refine ⟨h, B2Ext.refl _ _ _, rfl, ?_, fun b hh => (by rw [hb] at hh; cases hh), fun _ as has => by simpa [B2Item.attrs, hb] using has⟩
    unfold stepB2
    rw [hfi]; rfl
  | true =>
    have hfi : ∀ o : OldSt, (o.env env).cfg.fmtInfo = true := fun _ => hb
    rw [hb] at hr
    simp only [if_true] at hr
    have hl : (le16 first ++ le16 (first + as.length)).length = 4 := rfl
    rw [List.append_assoc, sliceTo_app (k := 4) (n := 4) rfl hl, unpackN_ok hl] at hr
    have f1 : fld (le16 first ++ le16 (first + as.length)) 0 2 = first := fld_head _ (by omega) _
    have f2 : fld (le16 first ++ le16 (first + as.length)) 2 2 = first + as.length := by
      rw [fld_tail _ _ _ _ (by omega)]; exact fld_le16 _ (by omega)
    simp only [bind, Except.bind, f1, f2] at hr
    rw [Nat.min_eq_left hw, Nat.add_sub_cancel_left] at hr
    obtain ⟨j1, j2, j3, j4, j5, j6⟩ := defaults_fold as first 4 o o' h (by rw [List.drop_left' hl]) hr
    refine ⟨j1, j2, j3, ?_, fun b hh => ?_, fun hm bs hbs => by simp only [B2Item.attrs, hb, if_true]; exact j6 hm bs hbs⟩
    · unfold stepB2
      rw [hfi]
      simp only [B2Item.cells, puts_nil, B2Item.widths, B2Item.defaults, if_true]
      rw [j5]
      rfl
    · rw [hb] at hh
      exact j4 b hh

theorem window_done {env : OpenEnv} {m : Bool} {dec : Bytes → R PyStr} {o o' : OldSt} (h : B2Inv env m dec o) {op : Pad5} {top left : Nat} {auto r g b : UInt8} {junk : Bytes}
    (ho : (B2Item.window op top left auto r g b junk).Ok dec)
    (hr : recWindow2B2 env o ([op.1, op.2.1, op.2.2.1, op.2.2.2.1, op.2.2.2.2] ++ le16 top ++ le16 left ++ [auto, r, g, b] ++ junk) = .ok o') :
    B2Done env m dec o o' (.window op top left auto r g b junk) := by
  obtain ⟨k1, k2⟩ : top < 65536 ∧ left < 65536 := ho
  have e0 : (slice ([op.1, op.2.1, op.2.2.1, op.2.2.2.1, op.2.2.2.2] ++ le16 top ++ le16 left ++ [auto, r, g, b] ++ junk : Bytes) 0 5).length = 5 := by
    simp only [List.append_assoc]
    rw [slice0_app (k := 5) (n := 5) rfl (by rfl)]; rfl
  have e1 : slice ([op.1, op.2.1, op.2.2.1, op.2.2.2.1, op.2.2.2.2] ++ le16 top ++ le16 left ++ [auto, r, g, b] ++ junk : Bytes) 5 10 = le16 top ++ le16 left ++ [auto] := by
    have := slice_mid (a := [op.1, op.2.1, op.2.2.1, op.2.2.2.1, op.2.2.2.2]) (x := le16 top ++ le16 left ++ [auto]) (y := [r, g, b] ++ junk) (i := 5) (j := 10) (m := 5) (n := 5) rfl rfl rfl rfl
    rw [← this]
    congr 1
  have e2 : slice ([op.1, op.2.1, op.2.2.1, op.2.2.2.1, op.2.2.2.2] ++ le16 top ++ le16 left ++ [auto, r, g, b] ++ junk : Bytes) 10 13 = [r, g, b] := by
    have := slice_mid (a := [op.1, op.2.1, op.2.2.1, op.2.2.2.1, op.2.2.2.2] ++ le16 top ++ le16 left ++ [auto]) (x := [r, g, b]) (y := junk) (i := 10) (j := 13) (m := 10) (n := 3) rfl rfl rfl rfl
    rw [← this]
    congr 1
  have f1 : fld (le16 top ++ le16 left ++ [auto]) 0 2 = top := by rw [List.append_assoc]; exact fld_head _ k1 _
  have f2 : fld (le16 top ++ le16 left ++ [auto]) 2 2 = left := by
    rw [List.append_assoc, fld_tail _ _ _ _ (by omega)]; exact fld_head _ k2 _
  have f3 : fld (le16 top ++ le16 left ++ [auto]) 4 1 = auto.toNat := by
    rw [List.append_assoc, fld_tail _ _ _ _ (by omega), fld_tail _ _ _ _ (by omega)]; simp [fld, le]
  have g1 : fld [r, g, b] 0 1 = r.toNat := by simp [fld, le]
  have g2 : fld [r, g, b] 1 1 = g.toNat := by simp [fld, le]
  have g3 : fld [r, g, b] 2 1 = b.toNat := by simp [fld, le]
  unfold recWindow2B2 at hr
  rw [e0, e1, e2, unpackN_ok (by rfl), unpackN_ok (by rfl)] at hr
  simp only [bind, Except.bind, f1, f2, f3, g1, g2, g3] at hr
  have hk : (o.env env).nearest (r.toNat, g.toNat, b.toNat) = .ok (nearestColourIndex o.book.fmt.colourMap (r.toNat, g.toNat, b.toNat)) := rfl
  rw [hk] at hr
  cases hr
  refine ⟨h.sheet _ o.ixfe, (B2Ext.refl env m o).sheet _ o.ixfe, rfl, ?_, fun b hh => (by cases hh), fun _ as has => (List.append_nil as).symm ▸ has.congr rfl rfl⟩
  show windowB2 (o.env env) o.sheet top left auto r g b = _
  unfold windowB2
  rw [hk]
  rfl

/-! ## Settings -/

theorem record_bv {env : OpenEnv} {v w : Nat} (hv : v ≤ 45) (hw : w ≤ 45) {mem : Bytes} {o : OldSt} {pos : Int} {rc len : Nat} {data : Bytes} (hb : rc ∉ oldBad)
    (hf : rc ∉ XL_FORMULA_OPCODES) : oldRecord env v mem o pos rc len data = oldRecord env w mem o pos rc len data := by
  have hb1 : rc ∉ oldBookCodes := fun h => hb (by simp only [oldBad, List.mem_append]; tauto)
  have hb2 : rc ∉ oldSheetCodes := fun h => hb (by simp only [oldBad, List.mem_append]; tauto)
  have hb4 : ¬ (rc = XL_DIMENSION ∨ rc = XL_DIMENSION2) := by rintro (rfl | rfl) <;> exact hb (by decide)
  have h1 : v < 80 := by omega
  have h2 : w < 80 := by omega
  unfold oldRecord
  simp only [if_neg hf, if_neg hb4, hb1, hb2, and_false, if_false, h1, h2, and_true]

theorem plain_records {v w : Nat} (hv : v < 80) (hw : w < 80) {x : SheetItem} (h : x.isPlain = true) : x.records v = x.records w := by
  have h1 : ¬ 80 ≤ v := by omega
  have h2 : ¬ 80 ≤ w := by omega
  cases x <;> first | (cases h; done) | rfl | (simp [SheetItem.records, encBreaks, hv, hw, h1, h2])

theorem plain_ok {v w : Nat} (hv : v < 80) (hw : w < 80) {dec : Bytes → R PyStr} {sst : List PyStr} {x : SheetItem} (h : x.isPlain = true) (ho : x.OldOk v dec sst) : x.OldOk w dec sst := by
  have h1 : ¬ 80 ≤ v := by omega
  have h2 : ¬ 80 ≤ w := by omega
  refine ⟨?_, ho.2⟩
  have ho := ho.1
  cases x <;> first | (cases h; done) | exact ho | (simp only [SheetItem.Ok, breaksOk, hv, hw, h1, h2] at ho ⊢; exact ho)

end Xlrd
