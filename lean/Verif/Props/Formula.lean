import Verif.Spec.Formula
import Verif.Props.Names
import Verif.Props.Globals
import Verif.Props.DefinedNames

/-!
# Addresses, references and boxes in formulas
-/
namespace Xlrd
open Spec
set_option linter.unusedSimpArgs false
set_option linter.unusedVariables false

/-! ## C47 -/

theorem and_low (n k : Nat) : n &&& (2 ^ k - 1) = n % 2 ^ k := Nat.and_two_pow_sub_one_eq_mod n k

theorem coord_field_lt {full : Nat} (h0 : 0 < full) {c : Coord} (h : c.Fits full) : c.field full < full := by
  cases c with
  | abs n => exact h
  | rel k =>
    simp only [Coord.field]
    have h1 := Int.emod_nonneg k (show (full : Int) ≠ 0 by omega)
    have h2 := Int.emod_lt_of_pos k (show (0 : Int) < full by omega)
    omega

theorem flag_le (b : Bool) : flag b ≤ 1 := by cases b <;> simp [flag]

/-- The flag bits of a field. -/
theorem flag_bits (x : Nat) (b c : Bool) (hx : x < 16384) :
    (x + 16384 * flag b + 32768 * flag c).testBit 14 = b ∧ (x + 16384 * flag b + 32768 * flag c).testBit 15 = c := by
  simp only [Nat.testBit_eq_decide_div_mod_eq]
  cases b <;> cases c <;> simp [flag] <;> omega

/-- Sign extension of an offset. -/
theorem coord_num (half full : Nat) (hf : full = 2 * half) (h0 : 0 < half) {c : Coord} (h : c.Fits full) :
    (if c.isRel = true ∧ ((c.field full : Nat) : Int) ≥ (half : Int) then ((c.field full : Nat) : Int) - (full : Int)
      else ((c.field full : Nat) : Int)) = c.num := by
  cases c with
  | abs n => simp [Coord.isRel, Coord.field, Coord.num]
  | rel k =>
    obtain ⟨h1, h2⟩ := h
    have h3 : full / 2 = half := by omega
    rw [h3] at h1 h2
    simp only [Coord.isRel, Coord.field, Coord.num, true_and]
    rcases lt_or_ge k 0 with hk | hk
    · have e : k % (full : Int) = k + full := by
        rw [← Int.add_emod_right]
        exact Int.emod_eq_of_lt (by omega) (by omega)
      rw [e, if_pos (by omega)]
      omega
    · have e : k % (full : Int) = k := Int.emod_eq_of_lt (by omega) (by omega)
      rw [e, if_neg (by omega)]
      omega

theorem adjust8_raw (r c : Nat) (rrel crel reldelta : Bool) (br bc : Option Int) (hc : c < 256) :
    adjustCellAddr8 r (c + 16384 * flag crel + 32768 * flag rrel) reldelta br bc = adjustAddr 32768 65536 r c rrel crel reldelta br bc := by
  obtain ⟨h2, h3⟩ := flag_bits c crel rrel (by omega)
  unfold adjustCellAddr8
  rw [h2, h3]
  have e : (c + 16384 * flag crel + 32768 * flag rrel) &&& 0xff = c := by
    rw [show (0xff : Nat) = 2 ^ 8 - 1 from rfl, and_low]
    have := flag_le crel
    have := flag_le rrel
    omega
  rw [e]

theorem adjustLe7_raw (r c : Nat) (rrel crel reldelta : Bool) (br bc : Option Int) (hr : r < 16384) :
    adjustCellAddrLe7 (r + 16384 * flag crel + 32768 * flag rrel) c reldelta br bc = adjustAddr 8192 16384 r c rrel crel reldelta br bc := by
  obtain ⟨h2, h3⟩ := flag_bits r crel rrel (by omega)
  unfold adjustCellAddrLe7
  rw [h2, h3]
  have e : (r + 16384 * flag crel + 32768 * flag rrel) &&& 0x3fff = r := by
    rw [show (0x3fff : Nat) = 2 ^ 14 - 1 from rfl, and_low]
    have := flag_le crel
    have := flag_le rrel
    omega
  rw [e]

/-- The decoding of a pair of fields, for both generations. -/
def adjustFields (bv : Nat) (r c : Nat) (rrel crel reldelta : Bool) (br bc : Option Int) : R Addr :=
  adjustAddr (rowCount bv / 2 : Nat) (rowCount bv) r c rrel crel reldelta br bc

theorem rowRaw_lt (bv r : Nat) (rrel crel : Bool) (hr : r < rowCount bv) : rowRaw bv r rrel crel < 65536 := by
  unfold rowRaw
  unfold rowCount at hr
  have := flag_le crel
  have := flag_le rrel
  by_cases h : bv ≥ 80
  · rw [if_pos h] at *; omega
  · rw [if_neg h] at *; omega

theorem colRaw_lt (bv c : Nat) (rrel crel : Bool) (hc : c < 256) : colRaw bv c rrel crel < 65536 ∧ (bv < 80 → colRaw bv c rrel crel < 256) := by
  unfold colRaw
  have := flag_le crel
  have := flag_le rrel
  by_cases h : bv ≥ 80
  · rw [if_pos h] at *; omega
  · rw [if_neg h] at *; omega

theorem fld_byte (n : Nat) (h : n < 256) (x : Bytes) : fld (UInt8.ofNat n :: x) 0 1 = n := by
  simp [fld, le, u8_toNat_ofNat, h]

theorem getCellAddr_raw (bv r c : Nat) (rrel crel reldelta : Bool) (br bc : Option Int) (hr : r < rowCount bv) (hc : c < 256)
    {data rest : Bytes} {p : Nat} (h : data.drop p = encAddrRaw bv r c rrel crel ++ rest) :
    getCellAddr data (p : Int) bv reldelta br bc = adjustFields bv r c rrel crel reldelta br bc := by
  have h1 := rowRaw_lt bv r rrel crel hr
  obtain ⟨h2, h3⟩ := colRaw_lt bv c rrel crel hc
  unfold getCellAddr adjustFields
  by_cases hb : bv ≥ 80
  · rw [if_pos hb]
    have hl : (encAddrRaw bv r c rrel crel).length = 4 := by simp [encAddrRaw, encCol, hb, le16_length]
    rw [show ((4 : Int)) = ((4 : Nat) : Int) from rfl, slice_at h hl, unpackN_ok hl]
    simp only [bind, Except.bind]
    unfold encAddrRaw encCol
    rw [if_pos hb, fld_head _ h1, fld_tail _ _ _ _ (by omega), fld_only _ h2]
    unfold rowRaw colRaw rowCount
    simp only [if_pos hb]
    rw [adjust8_raw _ _ _ _ _ _ _ hc]
    norm_num
  · rw [if_neg hb]
    have hl : (encAddrRaw bv r c rrel crel).length = 3 := by simp [encAddrRaw, encCol, hb, le16_length]
    rw [show ((3 : Int)) = ((3 : Nat) : Int) from rfl, slice_at h hl, unpackN_ok hl]
    simp only [bind, Except.bind]
    unfold encAddrRaw encCol
    rw [if_neg hb, fld_head _ h1, fld_tail _ _ _ _ (by omega), fld_byte _ (h3 (by omega))]
    unfold rowCount at hr
    rw [if_neg hb] at hr
    unfold rowRaw colRaw rowCount
    simp only [if_neg hb]
    rw [adjustLe7_raw _ _ _ _ _ _ _ hr]
    norm_num

/-- Offsets are sign-extended. -/
theorem adjust_offsets (bv : Nat) (row col : Coord) (h : AddrFits bv row col) (br bc : Option Int) :
    adjustFields bv (row.field (rowCount bv)) (col.field 256) row.isRel col.isRel true br bc = .ok (addrOf row col) := by
  obtain ⟨hr, hc⟩ := h
  unfold adjustFields adjustAddr
  rw [if_pos rfl]
  refine congrArg Except.ok ?_
  unfold addrOf
  have e1 := coord_num (rowCount bv / 2) (rowCount bv) (by unfold rowCount; split <;> rfl) (by unfold rowCount; split <;> norm_num) hr
  have e2 := coord_num 128 256 rfl (by omega) hc
  simp only [Nat.cast_ofNat] at e2
  rw [e1, e2]

theorem rowCount_pos (bv : Nat) : 0 < rowCount bv := by unfold rowCount; split <;> norm_num

/-- **C47** (offsets).  In name formulas and shared formulas the relative coordinates of an address are offsets: the address stored for any
row and column coordinates, in any version, decodes to exactly those coordinates, with the sign of the offsets and the two flags. -/
theorem C47_cell_address (bv : Nat) (row col : Coord) (h : AddrFits bv row col) (br bc : Option Int) (pre rest : Bytes) :
    getCellAddr (pre ++ encAddr bv row col ++ rest) (pre.length : Int) bv true br bc = .ok (addrOf row col) := by
  rw [getCellAddr_raw bv (row.field (rowCount bv)) (col.field 256) row.isRel col.isRel true br bc
    (coord_field_lt (rowCount_pos bv) h.1) (coord_field_lt (by omega) h.2) (rest := rest)
    (by rw [List.append_assoc, List.drop_left]; rfl)]
  exact adjust_offsets bv row col h br bc

theorem getCellRangeAddr_raw (bv r1 c1 r2 c2 : Nat) (rr1 cr1 rr2 cr2 reldelta : Bool) (br bc : Option Int) (hr1 : r1 < rowCount bv)
    (hc1 : c1 < 256) (hr2 : r2 < rowCount bv) (hc2 : c2 < 256) {data rest : Bytes} {p : Nat}
    (h : data.drop p = encAreaRaw bv r1 c1 rr1 cr1 r2 c2 rr2 cr2 ++ rest) :
    getCellRangeAddr data (p : Int) bv reldelta br bc = (do
      let a ← adjustFields bv r1 c1 rr1 cr1 reldelta br bc
      let z ← adjustFields bv r2 c2 rr2 cr2 reldelta br bc
      pure (a, z)) := by
  have h1 := rowRaw_lt bv r1 rr1 cr1 hr1
  have h2 := rowRaw_lt bv r2 rr2 cr2 hr2
  obtain ⟨h3, h4⟩ := colRaw_lt bv c1 rr1 cr1 hc1
  obtain ⟨h5, h6⟩ := colRaw_lt bv c2 rr2 cr2 hc2
  unfold getCellRangeAddr adjustFields
  by_cases hb : bv ≥ 80
  · rw [if_pos hb]
    have hl : (encAreaRaw bv r1 c1 rr1 cr1 r2 c2 rr2 cr2).length = 8 := by simp [encAreaRaw, encCol, hb, le16_length]
    rw [show ((8 : Int)) = ((8 : Nat) : Int) from rfl, slice_at h hl, unpackN_ok hl]
    simp only [bind, Except.bind]
    have e : encAreaRaw bv r1 c1 rr1 cr1 r2 c2 rr2 cr2 = le16 (rowRaw bv r1 rr1 cr1) ++ (le16 (rowRaw bv r2 rr2 cr2) ++
        (le16 (colRaw bv c1 rr1 cr1) ++ le16 (colRaw bv c2 rr2 cr2))) := by
      simp [encAreaRaw, encCol, hb]
    rw [e, fld_head _ h1, fld_tail _ _ 4 _ (by omega), fld_tail _ _ _ _ (by omega), fld_head _ h3,
      fld_tail _ _ 2 _ (by omega), fld_head _ h2, fld_tail _ _ 6 _ (by omega), fld_tail _ _ _ _ (by omega), fld_tail _ _ _ _ (by omega),
      fld_only _ h5]
    unfold rowRaw colRaw rowCount
    simp only [if_pos hb]
    rw [adjust8_raw _ _ _ _ _ _ _ hc1, adjust8_raw _ _ _ _ _ _ _ hc2]
    norm_num
  · rw [if_neg hb]
    have hl : (encAreaRaw bv r1 c1 rr1 cr1 r2 c2 rr2 cr2).length = 6 := by simp [encAreaRaw, encCol, hb, le16_length]
    rw [show ((6 : Int)) = ((6 : Nat) : Int) from rfl, slice_at h hl, unpackN_ok hl]
    simp only [bind, Except.bind]
    have e : encAreaRaw bv r1 c1 rr1 cr1 r2 c2 rr2 cr2 = le16 (rowRaw bv r1 rr1 cr1) ++ (le16 (rowRaw bv r2 rr2 cr2) ++
        ([UInt8.ofNat (colRaw bv c1 rr1 cr1), UInt8.ofNat (colRaw bv c2 rr2 cr2)])) := by
      simp [encAreaRaw, encCol, hb]
    have e5 : fld [UInt8.ofNat (colRaw bv c1 rr1 cr1), UInt8.ofNat (colRaw bv c2 rr2 cr2)] 1 1 = colRaw bv c2 rr2 cr2 :=
      fld_byte _ (h6 (by omega)) []
    rw [e, fld_head _ h1, fld_tail _ _ 4 _ (by omega), fld_tail _ _ _ _ (by omega), fld_byte _ (h4 (by omega)),
      fld_tail _ _ 2 _ (by omega), fld_head _ h2, fld_tail _ _ 5 _ (by omega), fld_tail _ _ _ _ (by omega), e5]
    unfold rowCount at hr1 hr2
    rw [if_neg hb] at hr1 hr2
    unfold rowRaw colRaw rowCount
    simp only [if_neg hb]
    rw [adjustLe7_raw _ _ _ _ _ _ _ hr1, adjustLe7_raw _ _ _ _ _ _ _ hr2]
    norm_num

/-- **C47** (offsets, areas).  The same for the two corners of an area. -/
theorem C47_area_address (bv : Nat) (row1 row2 col1 col2 : Coord) (h1 : AddrFits bv row1 col1) (h2 : AddrFits bv row2 col2)
    (br bc : Option Int) (pre rest : Bytes) :
    getCellRangeAddr (pre ++ encArea bv row1 row2 col1 col2 ++ rest) (pre.length : Int) bv true br bc =
      .ok (addrOf row1 col1, addrOf row2 col2) := by
  rw [getCellRangeAddr_raw bv (row1.field (rowCount bv)) (col1.field 256) (row2.field (rowCount bv)) (col2.field 256)
    row1.isRel col1.isRel row2.isRel col2.isRel true br bc
    (coord_field_lt (rowCount_pos bv) h1.1) (coord_field_lt (by omega) h1.2)
    (coord_field_lt (rowCount_pos bv) h2.1) (coord_field_lt (by omega) h2.2) (rest := rest)
    (by rw [List.append_assoc, List.drop_left]; rfl)]
  rw [adjust_offsets bv row1 col1 h1, adjust_offsets bv row2 col2 h2]
  rfl

theorem adjust_base (bv r c : Nat) (rrel crel : Bool) (br bc : Int) :
    adjustFields bv r c rrel crel false (some br) (some bc) =
      .ok { rowx := if rrel then (r : Int) - br else r, colx := if crel then (c : Int) - bc else c, rowRel := rrel, colRel := crel } := by
  unfold adjustFields adjustAddr
  cases rrel <;> cases crel <;> rfl

/-- **C47** (base cell).  In the formula of a cell the address is that of the cell referred to, whether relative or not: decoding it for the
formula in row `br`, column `bc` gives the absolute coordinates as they are and the relative ones as the distance from that cell. -/
theorem C47_base_cell (bv r c : Nat) (rrel crel : Bool) (hr : r < rowCount bv) (hc : c < 256) (br bc : Int) (pre rest : Bytes) :
    ∃ a, getCellAddr (pre ++ encAddrRaw bv r c rrel crel ++ rest) (pre.length : Int) bv false (some br) (some bc) = .ok a ∧
      a.rowRel = rrel ∧ a.colRel = crel ∧ a.rowx + (if rrel then br else 0) = r ∧ a.colx + (if crel then bc else 0) = c := by
  rw [getCellAddr_raw bv r c rrel crel false _ _ hr hc (rest := rest) (by rw [List.append_assoc, List.drop_left]), adjust_base]
  refine ⟨_, rfl, rfl, rfl, ?_, ?_⟩
  · cases rrel <;> simp
  · cases crel <;> simp

/-- **C47** (base cell, areas). -/
theorem C47_base_area (bv r1 c1 r2 c2 : Nat) (rr1 cr1 rr2 cr2 : Bool) (hr1 : r1 < rowCount bv) (hc1 : c1 < 256) (hr2 : r2 < rowCount bv)
    (hc2 : c2 < 256) (br bc : Int) (pre rest : Bytes) :
    ∃ a z, getCellRangeAddr (pre ++ encAreaRaw bv r1 c1 rr1 cr1 r2 c2 rr2 cr2 ++ rest) (pre.length : Int) bv false (some br) (some bc) =
        .ok (a, z) ∧
      (a.rowRel = rr1 ∧ a.colRel = cr1 ∧ a.rowx + (if rr1 then br else 0) = r1 ∧ a.colx + (if cr1 then bc else 0) = c1) ∧
      (z.rowRel = rr2 ∧ z.colRel = cr2 ∧ z.rowx + (if rr2 then br else 0) = r2 ∧ z.colx + (if cr2 then bc else 0) = c2) := by
  rw [getCellRangeAddr_raw bv r1 c1 r2 c2 rr1 cr1 rr2 cr2 false _ _ hr1 hc1 hr2 hc2 (rest := rest)
    (by rw [List.append_assoc, List.drop_left]), adjust_base, adjust_base]
  refine ⟨_, _, rfl, ⟨rfl, rfl, ?_, ?_⟩, rfl, rfl, ?_, ?_⟩
  · cases rr1 <;> simp
  · cases cr1 <;> simp
  · cases rr2 <;> simp
  · cases cr2 <;> simp

/-- **C47** (texts in cells).  The text for a reference in the formula of a cell names the cell that the token has stored, with a dollar sign
for each absolute coordinate. -/
theorem C47_cell_text (env : DEnv) (r c : Nat) (rrel crel : Bool) (hr : r < rowCount env.bv) (hc : c < 256) (br bc : Nat)
    (hbr : env.browx = some (br : Int)) (hbc : env.bcolx = some (bc : Int)) (hd : env.reldelta = false) (h1 : env.r1c1 = false)
    (pre rest : Bytes) :
    ∃ o, dRef env (pre ++ 0x44 :: encAddrRaw env.bv r c rrel crel ++ rest) (pre.length : Int) = .ok o ∧
      readMixed o.text = some (r, !rrel, c, !crel) := by
  have hg := getCellAddr_raw env.bv r c rrel crel false (some (br : Int)) (some (bc : Int)) hr hc (rest := rest)
    (data := pre ++ 0x44 :: encAddrRaw env.bv r c rrel crel ++ rest) (p := pre.length + 1) (by
      rw [List.append_assoc, List.cons_append, ← List.drop_drop, List.drop_left]; rfl)
  rw [adjust_base] at hg
  have hrc : r < 65536 := by
    unfold rowCount at hr
    split at hr <;> omega
  unfold dRef
  rw [hbr, hbc, hd, h1]
  push_cast at hg
  rw [hg]
  obtain ⟨s, hs, hread⟩ := C56_cellnamerel_a1_reads_back (if rrel then (r : Int) - br else r) (if crel then (c : Int) - bc else c) br bc rrel crel
    (by intro h; rw [h]; simp) (by intro h; rw [h]; simp; omega)
  simp only [bind, Except.bind]
  rw [hs]
  refine ⟨_, rfl, ?_⟩
  simp only
  rw [hread]
  congr 2
  · cases rrel
    · simp
    · simp only [if_true]
      rw [show (br : Int) + ((r : Int) - br) = r by ring, Int.emod_eq_of_lt (by omega) (by omega)]
      simp
  · cases crel
    · simp
    · simp only [if_true]
      rw [show (bc : Int) + ((c : Int) - bc) = c by ring, Int.emod_eq_of_lt (by omega) (by omega)]
      simp

/-- **C47** (texts of shared formulas).  Where relative coordinates are stored as offsets the text for the cell in row `br`, column `bc` names the
cell at that distance; rows wrap around at 65536 and columns at 256. -/
theorem C47_shared_text (env : DEnv) (row col : Coord) (h : AddrFits env.bv row col) (br bc : Nat)
    (hbr : env.browx = some (br : Int)) (hbc : env.bcolx = some (bc : Int)) (hd : env.reldelta = true) (h1 : env.r1c1 = false)
    (pre rest : Bytes) :
    ∃ o, dRef env (pre ++ 0x4C :: encAddr env.bv row col ++ rest) (pre.length : Int) = .ok o ∧
      readMixed o.text = some (row.at 65536 br, !row.isRel, col.at 256 bc, !col.isRel) := by
  have hg := getCellAddr_raw env.bv (row.field (rowCount env.bv)) (col.field 256) row.isRel col.isRel true (some (br : Int)) (some (bc : Int))
    (coord_field_lt (rowCount_pos env.bv) h.1) (coord_field_lt (by omega) h.2) (rest := rest)
    (data := pre ++ 0x4C :: encAddr env.bv row col ++ rest) (p := pre.length + 1) (by
      rw [List.append_assoc, List.cons_append, ← List.drop_drop, List.drop_left]; rfl)
  rw [adjust_offsets _ _ _ h] at hg
  unfold dRef
  rw [hbr, hbc, hd, h1]
  push_cast at hg
  rw [hg]
  obtain ⟨s, hs, hread⟩ := C56_cellnamerel_a1_reads_back row.num col.num br bc row.isRel col.isRel
    (by intro h'; cases row with
      | abs n => simp [Coord.num]
      | rel k => cases h')
    (by intro h'; cases col with
      | abs n => have := h.2; simp only [Coord.Fits] at this; simp [Coord.num]; omega
      | rel k => cases h')
  simp only [bind, Except.bind, addrOf]
  rw [hs]
  refine ⟨_, rfl, ?_⟩
  simp only
  rw [hread]
  congr 2
  · cases row <;> simp [Coord.isRel, Coord.num, Coord.at]
  · cases col <;> simp [Coord.isRel, Coord.num, Coord.at]

/-- Sheets of BIFF5 and BIFF7 files have 16384 rows, but offsets in them wrap around at 65536: one row above row 1 is shown as row 65536. -/
theorem C47_old_rows_wrap_witness :
    cellnamerel (-1) 0 true false (some 0) (some 0) false = .ok "$A65536".toList ∧ (Coord.rel (-1)).at (rowCount 70) 0 = 16383 := by decide

/-- **C47** (`expand_cell_address`). -/
theorem C47_expand (row col : Coord) (h : AddrFits 80 row col) :
    expandCellAddress (rowField 80 row col) (colField 80 row col) = (row.num, col.num, row.isRel, col.isRel) := by
  obtain ⟨hr, hc⟩ := h
  have h1 := coord_field_lt (by omega) hc
  obtain ⟨h2, h3⟩ := flag_bits (col.field 256) col.isRel row.isRel (by omega)
  have e : (col.field 256 + 16384 * flag col.isRel + 32768 * flag row.isRel) &&& 0xff = col.field 256 := by
    rw [show (0xff : Nat) = 2 ^ 8 - 1 from rfl, and_low]
    have := flag_le col.isRel
    have := flag_le row.isRel
    omega
  have er : rowField 80 row col = row.field 65536 := rfl
  have ec : colField 80 row col = col.field 256 + 16384 * flag col.isRel + 32768 * flag row.isRel := rfl
  rw [er, ec]
  unfold expandCellAddress
  simp only [h2, h3, e]
  have e1 := coord_num 32768 65536 rfl (by omega) hr
  have e2 := coord_num 128 256 rfl (by omega) hc
  have key : ∀ (b : Bool) (x half full : Nat), (if b = true then (if x ≥ half then (x : Int) - full else x) else (x : Int)) =
      if b = true ∧ (x : Int) ≥ half then (x : Int) - full else x := by
    intro b x half full
    cases b
    · simp
    · simp [Nat.cast_le]
  have k1 := key row.isRel (row.field 65536) 32768 65536
  have k2 := key col.isRel (col.field 256) 128 256
  rw [e1] at k1
  rw [e2] at k2
  push_cast at k1 k2
  rw [k1, k2]

/-- The address `R[-3]C5` in a BIFF8 token, and in a BIFF5 token. -/
example : getCellAddr [0xfd, 0xff, 0x04, 0x80] 0 80 true none none = .ok (addrOf (.rel (-3)) (.abs 4)) ∧
    encAddr 80 (.rel (-3)) (.abs 4) = [0xfd, 0xff, 0x04, 0x80] ∧ AddrFits 80 (.rel (-3)) (.abs 4) := by
  refine ⟨by decide, by decide, ⟨by decide, by decide⟩, by show 4 < 256; omega⟩
example : encAddr 70 (.rel (-3)) (.abs 4) = [0xfd, 0xbf, 0x04] ∧ AddrFits 70 (.rel (-3)) (.abs 4) := by
  refine ⟨by decide, ⟨by decide, by decide⟩, by show 4 < 256; omega⟩
example : encAddrRaw 80 9 2 true false = [9, 0, 2, 0x80] ∧ (9 : Nat) < rowCount 80 := by decide

/-! ## C48 -/

/-- **C48** (intersection).  A cell lies in the intersection exactly if it lies in both operands. -/
theorem C48_intersection (a b : Ref3D) (p : Int × Int × Int) : InBox p (boxIsect a b) ↔ InBox p a ∧ InBox p b := by
  simp only [InBox, boxIsect, max_le_iff, lt_min_iff]
  tauto

/-- **C48** (empty intersection).  The box reported for operands without common cells contains no cell, and with common cells its coordinates
are in order. -/
theorem C48_empty (a b : Ref3D) :
    (¬ ∃ p, InBox p a ∧ InBox p b) ↔
      ((boxIsect a b).shtxhi ≤ (boxIsect a b).shtxlo ∨ (boxIsect a b).rowxhi ≤ (boxIsect a b).rowxlo ∨
       (boxIsect a b).colxhi ≤ (boxIsect a b).colxlo) := by
  have h : (∃ p, InBox p a ∧ InBox p b) ↔ ∃ p, InBox p (boxIsect a b) := by
    constructor <;> rintro ⟨p, hp⟩ <;> exact ⟨p, by rwa [C48_intersection] at *⟩
  rw [h]
  generalize boxIsect a b = c
  constructor
  · intro hn
    by_contra hc
    push Not at hc
    exact hn ⟨(c.shtxlo, c.rowxlo, c.colxlo), ⟨le_refl _, hc.1⟩, ⟨le_refl _, hc.2.1⟩, le_refl _, hc.2.2⟩
  · rintro hc ⟨p, h1, h2, h3⟩
    omega

/-- **C48** (range).  The range of two references contains both operands, and is contained in every box that contains both. -/
theorem C48_range (a b : Ref3D) (ha : BoxNonempty a) (hb : BoxNonempty b) :
    BoxLe a (boxRange a b) ∧ BoxLe b (boxRange a b) ∧ ∀ c, BoxLe a c → BoxLe b c → BoxLe (boxRange a b) c := by
  refine ⟨?_, ?_, ?_⟩
  · rintro p ⟨h1, h2, h3⟩
    simp only [InBox, boxRange, min_le_iff, lt_max_iff]
    omega
  · rintro p ⟨h1, h2, h3⟩
    simp only [InBox, boxRange, min_le_iff, lt_max_iff]
    omega
  · intro c hac hbc p hp
    have key : ∀ d : Ref3D, BoxNonempty d → BoxLe d c → c.shtxlo ≤ d.shtxlo ∧ d.shtxhi ≤ c.shtxhi ∧ c.rowxlo ≤ d.rowxlo ∧ d.rowxhi ≤ c.rowxhi ∧
        c.colxlo ≤ d.colxlo ∧ d.colxhi ≤ c.colxhi := by
      rintro d ⟨q, h1, h2, h3⟩ hd
      have lo := hd (d.shtxlo, d.rowxlo, d.colxlo) ⟨⟨le_refl _, by simp only; omega⟩, ⟨le_refl _, by simp only; omega⟩, le_refl _, by simp only; omega⟩
      have hi := hd (d.shtxhi - 1, d.rowxhi - 1, d.colxhi - 1) ⟨⟨by simp only; omega, by simp only; omega⟩, ⟨by simp only; omega, by simp only; omega⟩,
        by simp only; omega, by simp only; omega⟩
      simp only [InBox] at lo hi
      omega
    have h1 := key a ha hac
    have h2 := key b hb hbc
    simp only [InBox, boxRange, min_le_iff, lt_max_iff] at hp ⊢
    omega

end Xlrd
