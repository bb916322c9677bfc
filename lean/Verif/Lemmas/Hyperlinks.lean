import Verif.Lemmas.SheetRead
import Verif.Spec.Drawing

/-!
# Reading HLINK and QUICKTIP records
-/
set_option linter.unusedSimpArgs false
namespace Xlrd
open Spec

theorem wide_length (t : PyStr) : (wide t).length = 2 * (utf16 t).length := flatMap_le16_length _

theorem wide_append (a b : PyStr) : wide (a ++ b) = wide a ++ wide b := by simp [wide, utf16]

theorem wide_nul (t : PyStr) : wide t ++ [0, 0] = wide (t ++ ['\x00']) := by rw [wide_append]; rfl

theorem wide_decode (t : PyStr) : utf16leDecode (wide t) = .ok t := utf16_decode' t

theorem nulText_eq (t : PyStr) : nulText t = le32 ((utf16 t).length + 1) ++ wide (t ++ ['\x00']) := by
  rw [nulText, List.append_assoc, wide_nul]

theorem utf16_nul (t : PyStr) : (utf16 (t ++ ['\x00'])).length = (utf16 t).length + 1 := by simp [utf16, unitsOf]

theorem nulText_length (t : PyStr) : (nulText t).length = 4 + 2 * ((utf16 t).length + 1) := by
  rw [nulText_eq, List.length_append, wide_length, utf16_nul]; rfl

theorem unpackI_at {data r : Bytes} {p n : Nat} (hn : n < 2 ^ 32) (h : data.drop p = le32 n ++ r) :
    unpackI (slice data (p : Int) ((p : Int) + 4)) = .ok n := by
  rw [show ((4 : Int)) = ((4 : Nat) : Int) from rfl, slice_at h (le32_length n)]
  simp only [unpackI, unpackN_ok (le32_length n), bind, Except.bind, pure, Except.pure, fld_le32 n hn]

theorem nulTerminated_at {data r : Bytes} {p : Nat} (t : PyStr) (hn : (utf16 t).length + 1 < 2 ^ 32) (h : data.drop p = nulText t ++ r) :
    nulTerminated data (p : Int) = .ok (t, ((p + (nulText t).length : Nat) : Int)) := by
  rw [nulText_eq, List.append_assoc] at h
  have h2 := drop_at h (le32_length _)
  have hl : (wide (t ++ ['\x00'])).length = ((utf16 t).length + 1) * 2 := by rw [wide_length, utf16_nul]; ring
  have hs := slice_at h2 hl
  unfold nulTerminated
  rw [unpackI_at hn h]
  simp only [bind, Except.bind]
  have e : slice data ((p : Int) + 4) ((p : Int) + 4 + (((utf16 t).length + 1 : Nat) : Int) * 2) = wide (t ++ ['\x00']) := by
    rw [← hs]; push_cast; rfl
  rw [e, wide_decode]
  simp only [List.dropLast_concat, pure, Except.pure, Except.ok.injEq, Prod.mk.injEq, true_and]
  rw [nulText_length]; push_cast; ring

theorem optNul_at {data r : Bytes} {p : Nat} (flag : Bool) (o : Option PyStr) (hf : flag = o.isSome) (hn : data.length < 65536)
    (h : data.drop p = optText o ++ r) :
    optNul flag data (p : Int) = .ok (o, ((p + (optText o).length : Nat) : Int)) := by
  subst hf
  cases o with
  | none => simp [optNul, optText, pure, Except.pure]
  | some t =>
    have hl := congrArg List.length h
    simp only [optText, List.length_append, nulText_length, List.length_drop] at hl
    rw [optText] at h
    simp only [optNul, Option.isSome_some, ↓reduceIte, nulTerminated_at t (by omega) h, bind, Except.bind, pure, Except.pure, optText]

theorem bmp_length (t : PyStr) (h : Bmp t) : (utf16 t).length = t.length := by
  induction t with
  | nil => rfl
  | cons c t ih =>
    have h1 := h c (by simp)
    have h2 := ih (fun x hx => h x (by simp [hx]))
    simp only [utf16, List.flatMap_cons, List.length_append, List.length_cons] at h2 ⊢
    rw [h2]; simp [unitsOf, h1]; omega

theorem findNul_app (t u : PyStr) (h : '\x00' ∉ t) : findNul (t ++ '\x00' :: u) = (t.length : Int) := by
  have : (t ++ '\x00' :: u).findIdx (· = '\x00') = t.length := by
    induction t with
    | nil => rw [List.nil_append, List.findIdx_cons]; simp
    | cons c t ih =>
      simp only [List.mem_cons, not_or] at h
      rw [List.cons_append, List.findIdx_cons, ih h.2]
      simp [Ne.symm h.1]
  unfold findNul
  simp [this]

theorem hlinkUrl_at {data r : Bytes} {p : Nat} (t more : PyStr) (hd : data.length < 65536) (hb : Bmp t) (h0 : '\x00' ∉ t)
    (hm : more = [] ∨ (utf16 more).length = 12)
    (h : data.drop p = le32 (2 * ((utf16 t).length + 1 + (utf16 more).length)) ++ (wide t ++ ([0, 0] ++ (wide more ++ r)))) :
    hlinkUrl data (p : Int) = .ok (t, ((p + 4 + 2 * ((utf16 t).length + 1 + (utf16 more).length) : Nat) : Int)) := by
  have hl := congrArg List.length h
  simp only [List.length_append, wide_length, List.length_drop] at hl
  set n := 2 * ((utf16 t).length + 1 + (utf16 more).length) with hn
  have h2 := drop_at h (le32_length _)
  have e : wide t ++ ([0, 0] ++ (wide more ++ r)) = wide (t ++ '\x00' :: more) ++ r := by
    rw [← List.append_assoc, wide_nul, ← List.append_assoc, ← wide_append, List.append_assoc]; rfl
  rw [e] at h2
  have hlw : (wide (t ++ '\x00' :: more)).length = n := by
    rw [wide_length, hn, show t ++ '\x00' :: more = t ++ ['\x00'] ++ more by simp]
    congr 1
    have := utf16_nul t
    simp only [utf16, List.flatMap_append, List.length_append] at this ⊢
    omega
  have hs := slice_at h2 hlw
  unfold hlinkUrl
  rw [unpackI_at (by omega) h]
  simp only [bind, Except.bind]
  have e2 : slice data ((p : Int) + 4) ((p : Int) + 4 + (n : Int)) = wide (t ++ '\x00' :: more) := by rw [← hs]; push_cast; rfl
  rw [e2, wide_decode]
  simp only [findNul_app t more h0]
  have ht := bmp_length t hb
  have hex : (n : Int) - 2 * ((t.length : Int) + 1) = 2 * ((utf16 more).length : Int) := by rw [hn, ht]; push_cast; ring
  have ha : pyAssert (decide ((n : Int) - 2 * ((t.length : Int) + 1) = 24 ∨ (n : Int) - 2 * ((t.length : Int) + 1) = 0)) = .ok () := by
    rw [hex]
    rcases hm with hm | hm
    · subst hm; rfl
    · rw [hm]; rfl
  rw [ha]
  have hsl : slice (t ++ '\x00' :: more) 0 (t.length : Int) = t := by
    have := slice_nat (t ++ '\x00' :: more) 0 t.length
    simpa using this
  simp only [hsl, pure, Except.pure, Except.ok.injEq, Prod.mk.injEq, true_and]
  push_cast; ring

theorem upPath_eq (n : Nat) : upPath n = (List.replicate n [0x2E, 0x2E, 0x5C]).flatten := by
  induction n with
  | zero => rfl
  | succ n ih => rw [upPath, ih, List.replicate_succ, List.flatten_cons]

/-- What follows the 24 reserved bytes of a file moniker. -/
def fullBytes : Option (PyStr × Nat × Nat) → Bytes
  | none => le32 0
  | some (t, sz, key) => le32 sz ++ le32 (2 * (utf16 t).length) ++ le16 key ++ wide t

theorem hlinkFile_at {data r : Bytes} {p : Nat} (up : Nat) (short reserved : Bytes) (full : Option (PyStr × Nat × Nat)) (hd : data.length < 65536)
    (hu : up < 65536) (hr : reserved.length = 24) (hf : ∀ q, full = some q → q.2.1 < 2147483648 ∧ q.2.1 ≠ 0 ∧ q.2.2 < 65536)
    (h : data.drop p = le16 up ++ (le32 (short.length + 1) ++ (short ++ ([0] ++ (reserved ++ (fullBytes full ++ r)))))) :
    hlinkFile data (p : Int) = .ok
      ((match full with | none => LinkPath.raw (upPath up ++ short) | some q => .text q.1),
       ((p + 6 + (short.length + 1) + 24 + (fullBytes full).length : Nat) : Int)) := by
  have hl := congrArg List.length h
  simp only [List.length_append, List.length_drop] at hl
  have h6 : data.drop p = (le16 up ++ le32 (short.length + 1)) ++ (short ++ ([0] ++ (reserved ++ (fullBytes full ++ r)))) := by
    rw [h, List.append_assoc]
  have s6 := slice_at h6 (n := 6) (by simp)
  have hd6 := drop_at h6 (n := 6) (by simp)
  have ss := slice_at hd6 (n := short.length) rfl
  have h7 : data.drop (p + 6) = (short ++ [0]) ++ (reserved ++ (fullBytes full ++ r)) := by rw [hd6]; simp
  have hd7 := drop_at h7 (n := short.length + 1) (by simp)
  have hd8 := drop_at hd7 hr
  have f1 : fld (le16 up ++ le32 (short.length + 1)) 0 2 = up := fld_head up hu _
  have f2 : fld (le16 up ++ le32 (short.length + 1)) 2 4 = short.length + 1 := by
    rw [fld_tail _ _ _ _ (by decide)]; exact fld_le32 _ (by omega)
  have f3 : sgn 32 (short.length + 1) = ((short.length + 1 : Nat) : Int) := by unfold sgn; rw [if_pos (by norm_num; omega)]
  unfold hlinkFile
  have e6 : slice data (p : Int) ((p : Int) + 6) = le16 up ++ le32 (short.length + 1) := by rw [← s6]; rfl
  rw [e6, unpackN_ok (by simp)]
  simp only [bind, Except.bind, f1, f2, f3]
  have es : slice data ((p : Int) + 6) ((p : Int) + 6 + ((short.length + 1 : Nat) : Int) - 1) = short := by
    conv_rhs => rw [← ss]
    congr 1; push_cast; ring
  rw [es]
  set o := p + 6 + (short.length + 1) + 24 with ho
  have eo : (p : Int) + 6 + ((short.length + 1 : Nat) : Int) + 24 = (o : Int) := by rw [ho]; push_cast; ring
  rw [eo]
  cases full with
  | none =>
    simp only [fullBytes] at hd8
    rw [unpacki_at (by decide) hd8]
    simp only [Nat.cast_zero, ne_eq, not_true_eq_false, ↓reduceIte, pure, Except.pure, upPath_eq, fullBytes, le32_length]
    push_cast; rfl
  | some q =>
    obtain ⟨t, sz, key⟩ := q
    obtain ⟨k1, k2, k3⟩ := hf _ rfl
    simp only at k1 k2 k3
    simp only [fullBytes, List.append_assoc] at hd8
    have hl8 := congrArg List.length hd8
    simp only [List.length_append, wide_length, List.length_drop] at hl8
    have hd9 := drop_at hd8 (le32_length _)
    have hd10 := drop_at hd9 (le32_length _)
    have hd11 := drop_at hd10 (le16_length _)
    have st := slice_at hd11 (wide_length t)
    rw [unpacki_at (by omega) hd8]
    have hz : (sz : Int) ≠ 0 := by omega
    simp only [if_pos hz]
    rw [show ((o : Int) + 4) = ((o + 4 : Nat) : Int) by push_cast; rfl, unpacki_at (by omega) hd9]
    simp only []
    have et : slice data (((o + 4 : Nat) : Int) + 4 + 2) (((o + 4 : Nat) : Int) + 4 + 2 + ((2 * (utf16 t).length : Nat) : Int)) = wide t := by
      rw [← st]; push_cast; rfl
    rw [et, wide_decode]
    simp only [pure, Except.pure, Except.ok.injEq, Prod.mk.injEq, true_and, fullBytes, List.length_append, le32_length, le16_length, wide_length, ho]
    push_cast; ring

/-! ## Flags -/

theorem and_low9 (b rest m : Nat) (hb : b < 512) (hm : m < 512) : (b + 512 * rest) &&& m = b &&& m := by
  have h1 : (b + 512 * rest) &&& m < 2 ^ 9 := lt_of_le_of_lt Nat.and_le_right hm
  have h2 : ((b + 512 * rest) &&& m) % 2 ^ 9 = (b + 512 * rest) % 2 ^ 9 &&& m % 2 ^ 9 := Nat.and_mod_two_pow
  rw [Nat.mod_eq_of_lt h1] at h2
  rw [h2, Nat.mod_eq_of_lt (show m < 2 ^ 9 from hm)]
  congr 1
  omega

theorem bits9_lt (b0 b1 b2 b3 b4 b5 b6 b7 b8 : Bool) : ofBits [b0, b1, b2, b3, b4, b5, b6, b7, b8] < 512 := by
  simp only [ofBits, bit]; split_ifs <;> omega

theorem flag_desc : ∀ b0 b1 b2 b3 b4 b5 b6 b7 b8 : Bool, decide (ofBits [b0, b1, b2, b3, b4, b5, b6, b7, b8] &&& 0x14 ≠ 0) = (b2 || b4) := by decide
theorem flag_target : ∀ b0 b1 b2 b3 b4 b5 b6 b7 b8 : Bool, decide (ofBits [b0, b1, b2, b3, b4, b5, b6, b7, b8] &&& 0x80 ≠ 0) = b7 := by decide
theorem flag_mark : ∀ b0 b1 b2 b3 b4 b5 b6 b7 b8 : Bool, decide (ofBits [b0, b1, b2, b3, b4, b5, b6, b7, b8] &&& 0x8 ≠ 0) = b3 := by decide
theorem flag_moniker : ∀ b0 b1 b2 b3 b4 b5 b6 b7 b8 : Bool,
    decide (ofBits [b0, b1, b2, b3, b4, b5, b6, b7, b8] &&& 1 ≠ 0 ∧ ofBits [b0, b1, b2, b3, b4, b5, b6, b7, b8] &&& 0x100 = 0) = (b0 && !b8) := by decide
theorem flag_unc : ∀ b0 b1 b2 b3 b4 b5 b6 b7 b8 : Bool,
    decide (ofBits [b0, b1, b2, b3, b4, b5, b6, b7, b8] &&& 0x163 = 0x103) = (b0 && b1 && !b5 && !b6 && b8) := by decide
theorem flag_place : ∀ b0 b1 b2 b3 b4 b5 b6 b7 b8 : Bool,
    decide (ofBits [b0, b1, b2, b3, b4, b5, b6, b7, b8] &&& 0x16B = 8) = (!b0 && !b1 && b3 && !b5 && !b6 && !b8) := by decide

theorem hlinkPath_url {data r : Bytes} {p W : Nat} (t more : PyStr) (hd : data.length < 65536) (k1 : Bmp t) (k2 : '\x00' ∉ t)
    (k3 : more = [] ∨ (utf16 more).length = 12) (hm : W &&& 1 ≠ 0 ∧ W &&& 0x100 = 0) (h : data.drop p = (LinkDest.url t more).bytes ++ r) :
    hlinkPath W data (p : Int) = .ok (some "url".toList, some (.text t), ((p + (LinkDest.url t more).bytes.length : Nat) : Int)) := by
  unfold hlinkPath
  rw [if_pos hm]
  simp only [LinkDest.bytes, List.append_assoc] at h
  have hc : classUrl.length = 16 := rfl
  have s := slice_at h hc
  have h2 := drop_at h hc
  have e : slice data (p : Int) ((p : Int) + 16) = classUrl := by rw [← s]; rfl
  have hq : classUrl = urlMoniker := rfl
  rw [e, unpackN_ok hc]
  simp only [bind, Except.bind]
  rw [if_pos hq, show (p : Int) + 16 = ((p + 16 : Nat) : Int) by push_cast; rfl, hlinkUrl_at t more hd k1 k2 k3 h2]
  have hl : (LinkDest.url t more).bytes.length = 16 + 4 + 2 * ((utf16 t).length + 1 + (utf16 more).length) := by
    simp only [LinkDest.bytes, List.length_append, wide_length, le32_length, hc, List.length_cons, List.length_nil]; ring
  rw [hl]
  simp only [pure, Except.pure, Except.ok.injEq, Prod.mk.injEq, true_and]
  push_cast; ring

theorem hlinkPath_file {data r : Bytes} {p W : Nat} (up : Nat) (short reserved : Bytes) (full : Option (PyStr × Nat × Nat)) (hd : data.length < 65536)
    (k1 : up < 65536) (k2 : reserved.length = 24) (k3 : ∀ q, full = some q → q.2.1 < 2147483648 ∧ q.2.1 ≠ 0 ∧ q.2.2 < 65536)
    (hm : W &&& 1 ≠ 0 ∧ W &&& 0x100 = 0) (h : data.drop p = (LinkDest.file up short reserved full).bytes ++ r) :
    hlinkPath W data (p : Int) = .ok (some "local file".toList, (LinkDest.file up short reserved full).path,
      ((p + (LinkDest.file up short reserved full).bytes.length : Nat) : Int)) := by
  unfold hlinkPath
  rw [if_pos hm]
  have hb : (LinkDest.file up short reserved full).bytes =
      classFile ++ (le16 up ++ (le32 (short.length + 1) ++ (short ++ ([0] ++ (reserved ++ fullBytes full))))) := by
    simp only [LinkDest.bytes, List.append_assoc, fullBytes]
    cases full <;> rfl
  rw [hb] at h
  simp only [List.append_assoc] at h
  have hc : classFile.length = 16 := rfl
  have s := slice_at h hc
  have h2 := drop_at h hc
  have e : slice data (p : Int) ((p : Int) + 16) = classFile := by rw [← s]; rfl
  have hq : ¬ classFile = urlMoniker := by decide
  have hq2 : classFile = fileMoniker := rfl
  rw [e, unpackN_ok hc]
  simp only [bind, Except.bind]
  rw [if_neg hq, if_pos hq2, show (p : Int) + 16 = ((p + 16 : Nat) : Int) by push_cast; rfl, hlinkFile_at up short reserved full hd k1 k2 k3 h2]
  have hl : (LinkDest.file up short reserved full).bytes.length = 16 + 6 + (short.length + 1) + 24 + (fullBytes full).length := by
    rw [hb]; simp only [List.length_append, le16_length, le32_length, hc, k2, List.length_cons, List.length_nil]; ring
  rw [hl]
  simp only [pure, Except.pure, Except.ok.injEq, Prod.mk.injEq, true_and]
  refine ⟨?_, by push_cast; ring⟩
  cases full with
  | none => rfl
  | some q => obtain ⟨t, sz, key⟩ := q; rfl

theorem hlinkPath_at {data r : Bytes} {p : Nat} (x : LinkRec) (hx : x.Ok) (hd : data.length < 65536) (h : data.drop p = x.dest.bytes ++ r) :
    hlinkPath x.options data (p : Int) = .ok (some x.dest.kind, x.dest.path, ((p + x.dest.bytes.length : Nat) : Int)) := by
  have hm := flag_moniker x.dest.moniker x.absolute ((x.desc.map fun d => d.2.1).getD false) x.textmark.isSome ((x.desc.map fun d => d.2.2).getD false)
    x.guid x.time x.target.isSome x.dest.asString
  have hu := flag_unc x.dest.moniker x.absolute ((x.desc.map fun d => d.2.1).getD false) x.textmark.isSome ((x.desc.map fun d => d.2.2).getD false)
    x.guid x.time x.target.isSome x.dest.asString
  have hp := flag_place x.dest.moniker x.absolute ((x.desc.map fun d => d.2.1).getD false) x.textmark.isSome ((x.desc.map fun d => d.2.2).getD false)
    x.guid x.time x.target.isSome x.dest.asString
  have lt := bits9_lt x.dest.moniker x.absolute ((x.desc.map fun d => d.2.1).getD false) x.textmark.isSome ((x.desc.map fun d => d.2.2).getD false)
    x.guid x.time x.target.isSome x.dest.asString
  unfold LinkRec.options
  generalize ofBits _ = W at hm hu hp lt ⊢
  rw [← and_low9 W x.rest 1 lt (by decide), ← and_low9 W x.rest 0x100 lt (by decide)] at hm
  rw [← and_low9 W x.rest 0x163 lt (by decide)] at hu
  rw [← and_low9 W x.rest 0x16B lt (by decide)] at hp
  generalize W + 512 * x.rest = V at hm hu hp ⊢
  have hok := hx.dest
  have hun := hx.unc
  have hpl := hx.place
  generalize x.dest = d at *
  cases d with
  | url t more => exact hlinkPath_url t more hd hok.1 hok.2.1 hok.2.2 (of_decide_eq_true hm) h
  | file up short reserved full => exact hlinkPath_file up short reserved full hd hok.1 hok.2.1 hok.2.2 (of_decide_eq_true hm) h
  | unc t =>
    obtain ⟨u1, u2, u3⟩ := hun t rfl
    have hm' : ¬ (V &&& 1 ≠ 0 ∧ V &&& 0x100 = 0) := of_decide_eq_false hm
    rw [u1, u2, u3] at hu
    have hu' : V &&& 0x163 = 0x103 := of_decide_eq_true hu
    have hl := congrArg List.length h
    simp only [LinkDest.bytes, List.length_append, nulText_length, List.length_drop] at hl
    simp only [LinkDest.bytes] at h
    unfold hlinkPath
    rw [if_neg hm', if_pos hu', nulTerminated_at t (by omega) h]
    rfl
  | place =>
    obtain ⟨u1, u2, u3, u4⟩ := hpl rfl
    have hm' : ¬ (V &&& 1 ≠ 0 ∧ V &&& 0x100 = 0) := of_decide_eq_false hm
    have hu' : ¬ V &&& 0x163 = 0x103 := of_decide_eq_false hu
    rw [u1, u2, u3, u4] at hp
    have hp' : V &&& 0x16B = 8 := of_decide_eq_true hp
    unfold hlinkPath
    rw [if_neg hm', if_neg hu', if_pos hp']
    rfl

theorem hlinkOf_ok (x : LinkRec) (hx : x.Ok) (hd : x.bytes.length < 65536) : hlinkOf x.bytes = .ok (x.value none) := by
  obtain ⟨r1, r2, r3, r4⟩ := hx.range
  have lt := bits9_lt x.dest.moniker x.absolute ((x.desc.map fun d => d.2.1).getD false) x.textmark.isSome ((x.desc.map fun d => d.2.2).getD false)
    x.guid x.time x.target.isSome x.dest.asString
  have hopt : x.options < 2 ^ 32 := by have := hx.rest; unfold LinkRec.options; omega
  set H := le16 x.range.1 ++ (le16 x.range.2.1 ++ (le16 x.range.2.2.1 ++ (le16 x.range.2.2.2 ++ (classLink ++ (le32 2 ++ le32 x.options))))) with hH
  have hl32 : H.length = 32 := rfl
  have hb : x.bytes = H ++ (optText (x.desc.map Prod.fst) ++ (optText x.target ++ (x.dest.bytes ++ (optText x.textmark ++ x.junk)))) := by
    simp only [LinkRec.bytes, hH, List.append_assoc]
  set D := x.bytes with hD
  have h0 : D.drop 0 = H ++ (optText (x.desc.map Prod.fst) ++ (optText x.target ++ (x.dest.bytes ++ (optText x.textmark ++ x.junk)))) := by simpa using hb
  have h1 := drop_at h0 hl32
  have h2 := drop_at h1 rfl
  have h3 := drop_at h2 rfl
  have h4 := drop_at h3 rfl
  have fo : fld H 28 4 = x.options := by
    have : H = (le16 x.range.1 ++ (le16 x.range.2.1 ++ (le16 x.range.2.2.1 ++ (le16 x.range.2.2.2 ++ (classLink ++ le32 2))))) ++ le32 x.options := by
      rw [hH]; simp only [List.append_assoc]
    rw [this, fld_skip _ _ 28 _ rfl]
    have := le_le32 x.options hopt []
    simpa using this
  have f0 : fld H 0 2 = x.range.1 := fld_head _ r1 _
  have f2 : fld H 2 2 = x.range.2.1 := by rw [hH, fld_tail _ _ _ _ (by decide)]; exact fld_head _ r2 _
  have f4 : fld H 4 2 = x.range.2.2.1 := by rw [hH, fld_tail _ _ _ _ (by decide), fld_tail _ _ _ _ (by decide)]; exact fld_head _ r3 _
  have f6 : fld H 6 2 = x.range.2.2.2 := by
    rw [hH, fld_tail _ _ _ _ (by decide), fld_tail _ _ _ _ (by decide), fld_tail _ _ _ _ (by decide)]; exact fld_head _ r4 _
  have sg : slice H 8 24 = hlinkGuid := by
    rw [show slice H 8 24 = (H.take 24).drop 8 from slice_nat H 8 24, hH]; rfl
  have sd : slice H 24 28 = [0x02, 0x00, 0x00, 0x00] := by
    rw [show slice H 24 28 = (H.take 28).drop 24 from slice_nat H 24 28, hH]; rfl
  have e32 : sliceTo D 32 = H := by rw [hb]; exact sliceTo_app (n := 32) rfl hl32
  unfold hlinkOf
  rw [e32, unpackN_ok hl32]
  simp only [bind, Except.bind, sg, sd, decide_true, pyAssert, ↓reduceIte, fo]
  have g1 : decide (x.options &&& 0x14 ≠ 0) = (x.desc.map Prod.fst).isSome := by
    unfold LinkRec.options
    rw [and_low9 _ _ _ lt (by decide), flag_desc]
    cases hq : x.desc with
    | none => rfl
    | some q =>
      have := hx.desc q hq
      obtain ⟨t, a, b⟩ := q
      cases a <;> cases b <;> simp at this ⊢
  have g2 : decide (x.options &&& 0x80 ≠ 0) = x.target.isSome := by
    unfold LinkRec.options; rw [and_low9 _ _ _ lt (by decide), flag_target]
  have g3 : decide (x.options &&& 0x8 ≠ 0) = x.textmark.isSome := by
    unfold LinkRec.options; rw [and_low9 _ _ _ lt (by decide), flag_mark]
  rw [show (32 : Int) = ((0 + 32 : Nat) : Int) from rfl, optNul_at _ _ g1 hd h1]
  simp only []
  rw [optNul_at _ _ g2 hd h2]
  simp only []
  rw [hlinkPath_at x hx hd h3]
  simp only []
  rw [optNul_at _ _ g3 hd h4]
  simp only []
  have hle : D.length = 0 + 32 + (optText (x.desc.map Prod.fst)).length + (optText x.target).length + x.dest.bytes.length + (optText x.textmark).length + x.junk.length := by
    rw [hb]; simp only [List.length_append, hl32]; ring
  rw [if_neg (by rw [hle]; push_cast; omega)]
  simp only [pure, Except.pure, LinkRec.value, f0, f2, f4, f6]

theorem handleHlink_ok (e : Extras) (x : LinkRec) (hx : x.Ok) (hd : x.bytes.length < 65536) :
    handleHlink e x.bytes = .ok { e with links := e.links ++ [x.value none], linkMap := mapLink e.linkMap (x.value none) e.links.length } := by
  unfold handleHlink; rw [hlinkOf_ok x hx hd]; rfl

theorem handleQuicktip_ok (e : Extras) (x : LinkRec) (hx : x.Ok) (t : PyStr) (ls : List Hyperlink) (he : e.links = ls ++ [x.value none]) :
    handleQuicktip e (tipBytes x.range t) = .ok { e with links := ls ++ [x.value (some t)] } := by
  obtain ⟨r1, r2, r3, r4⟩ := hx.range
  set H := le16 0x800 ++ (le16 x.range.1 ++ (le16 x.range.2.1 ++ (le16 x.range.2.2.1 ++ le16 x.range.2.2.2))) with hH
  have hb : tipBytes x.range t = H ++ (wide t ++ le16 0) := by simp only [tipBytes, hH, List.append_assoc]; rfl
  have e10 : sliceTo (tipBytes x.range t) 10 = H := by rw [hb]; exact sliceTo_app (n := 10) rfl rfl
  have f0 : fld H 0 2 = 0x800 := fld_head _ (by decide) _
  have f2 : fld H 2 2 = x.range.1 := by rw [hH, fld_tail _ _ _ _ (by decide)]; exact fld_head _ r1 _
  have f4 : fld H 4 2 = x.range.2.1 := by rw [hH, fld_tail _ _ _ _ (by decide), fld_tail _ _ _ _ (by decide)]; exact fld_head _ r2 _
  have f6 : fld H 6 2 = x.range.2.2.1 := by
    rw [hH, fld_tail _ _ _ _ (by decide), fld_tail _ _ _ _ (by decide), fld_tail _ _ _ _ (by decide)]; exact fld_head _ r3 _
  have f8 : fld H 8 2 = x.range.2.2.2 := by
    rw [hH, fld_tail _ _ _ _ (by decide), fld_tail _ _ _ _ (by decide), fld_tail _ _ _ _ (by decide), fld_tail _ _ _ _ (by decide)]; exact fld_only _ r4
  have hs2 : sliceFrom (tipBytes x.range t) (-2) = [0, 0] := by
    rw [hb, ← List.append_assoc]; exact sliceFrom_last2 _ 0
  have hm : slice (tipBytes x.range t) 10 (-2) = wide t := by
    rw [hb]
    unfold slice clampIdx
    have hlen : (H ++ (wide t ++ le16 0)).length = 10 + (wide t).length + 2 := by
      simp only [List.length_append, le16_length]; rw [show H.length = 10 from rfl]; omega
    rw [if_neg (show ¬ (10 : Int) < 0 by decide), if_pos (show (-2 : Int) < 0 by decide), hlen]
    have k1 : (-2 + ((10 + (wide t).length + 2 : Nat) : Int)).toNat = 10 + (wide t).length := by push_cast; omega
    have k2 : min ((10 : Int).toNat) (10 + (wide t).length + 2) = 10 := by
      rw [show (10 : Int).toNat = 10 from rfl]; omega
    rw [k1, k2, ← List.append_assoc, List.take_append_of_le_length (by simp [show H.length = 10 from rfl]),
      List.take_of_length_le (by simp [show H.length = 10 from rfl])]
    rw [show (10 : Nat) = H.length from rfl, List.drop_left]
  unfold handleQuicktip
  rw [e10, unpackN_ok (n := 10) rfl]
  simp only [bind, Except.bind, f0, decide_true, pyAssert, ↓reduceIte, he, List.getLast?_concat]
  rw [f2, f4, f6, f8]
  simp only [LinkRec.value, decide_true, ↓reduceIte, hs2, hm, wide_decode, List.dropLast_concat, pure, Except.pure]

end Xlrd
