import Verif.Props.Extern

/-!
# C46: references of BIFF5 and BIFF7 formulas that are not to worksheets
-/
set_option linter.unusedSimpArgs false
namespace Xlrd

open Spec

/-- What a tRef3d or tArea3d token of BIFF5 and BIFF7 says about the sheets, with the three fields as signed numbers. -/
theorem sheets3d_old (b : Book) {bv : Nat} (hbv : bv < 80) (k first last : Nat) (hk : k < 65536) (hf : first < 65536) (hl : last < 65536)
    (unused tok rest : Bytes) (hu : unused.length = 8) (t : UInt8) :
    sheets3d bv b (tok ++ t :: (le16 k ++ unused ++ le16 first ++ le16 last) ++ rest) (tok.length : Int) =
      externRange57 b (sgn 16 k) (sgn 16 first) (sgn 16 last) := by
  unfold sheets3d
  rw [if_neg (by omega)]
  have hlen : (le16 k ++ unused ++ le16 first ++ le16 last).length = 14 := by simp [le16_length, hu]
  have hd : (tok ++ t :: (le16 k ++ unused ++ le16 first ++ le16 last) ++ rest).drop (tok.length + 1) =
      (le16 k ++ unused ++ le16 first ++ le16 last) ++ rest := by
    rw [List.append_assoc, List.cons_append, ← List.drop_drop, List.drop_left]
    rfl
  have hsl := slice_at hd hlen
  push_cast at hsl
  rw [show (tok.length : Int) + 15 = (tok.length : Int) + 1 + 14 by ring, hsl, unpackN_ok hlen]
  simp only [bind, Except.bind]
  have e : le16 k ++ unused ++ le16 first ++ le16 last = le16 k ++ (unused ++ (le16 first ++ le16 last)) := by simp
  have fskip : ∀ (x y : Bytes) (i : Nat), x.length ≤ i → fld (x ++ y) i 2 = fld y (i - x.length) 2 := by
    intro x y i hi
    unfold fld
    rw [List.drop_append, List.drop_eq_nil_of_le hi, List.nil_append]
  have f1 : fld (le16 k ++ unused ++ le16 first ++ le16 last) 0 2 = k := by rw [e, fld_head _ hk]
  have f2 : fld (le16 k ++ unused ++ le16 first ++ le16 last) 10 2 = first := by
    rw [e, fskip _ _ 10 (by rw [le16_length]; omega), le16_length, fskip _ _ _ (by omega), hu]
    exact fld_head _ (by omega) _
  have f3 : fld (le16 k ++ unused ++ le16 first ++ le16 last) 12 2 = last := by
    rw [e, fskip _ _ 12 (by rw [le16_length]; omega), le16_length, fskip _ _ _ (by omega), hu, fskip _ _ _ (by rw [le16_length]), le16_length]
    exact fld_only _ (by omega)
  rw [f1, f2, f3]

theorem sgn_neg {n : Nat} (h : 32768 ≤ n) : sgn 16 n = (n : Int) - 65536 := by unfold sgn; rw [if_neg (by omega)]; norm_num
theorem sgn_pos {n : Nat} (h : n < 32768) : sgn 16 n = (n : Int) := by unfold sgn; rw [if_pos (by omega)]

/-- **C46** (codes, BIFF5 and BIFF7).  A reference whose first field is positive is external; one of this workbook whose sheets are both -1 is to deleted sheets; one that names
sheets that do not exist, or of which only one is deleted, is an error; one of which the first or the last sheet is not a worksheet is to macro sheets.  Each is reported with
its own code. -/
theorem C46_codes_old (env : BookEnv) (h50 : 50 ≤ env.bv) (pre post eof : Bytes) (he : eof.length < 65536)
    (items : List GItem) (hok : GlobalsOk env.bv items) (sheets : List SheetRec) (hsh : Sheets env.bv (textAt env) items sheets)
    (b : Book) (p : Int) (h : parseGlobals env (pre ++ encGlobals items eof ++ post) newBook (pre.length : Int) = .ok (b, p))
    (bv : Nat) (hbv : bv < 80) (k first last : Nat) (hk : k < 65536) (hf : first < 65536) (hl : last < 65536) (unused tok rest : Bytes) (hu : unused.length = 8) (t : UInt8) :
    let result := sheets3d bv b (tok ++ t :: (le16 k ++ unused ++ le16 first ++ le16 last) ++ rest) (tok.length : Int)
    (0 < k → k < 32768 → result = .ok (-4, -4)) ∧
    (k = 0 ∨ 32768 ≤ k →
      (first = 0xFFFF → last = 0xFFFF → result = .ok (-2, -2)) ∧
      (¬ (first = 0xFFFF ∧ last = 0xFFFF) → (32768 ≤ first ∨ 32768 ≤ last ∨ last < first ∨ sheets.length ≤ last) → result = .ok (-103, -103)) ∧
      (∀ s1 s2, last < 32768 → first ≤ last → sheets[first]? = some s1 → sheets[last]? = some s2 →
        ¬ (s1.isWorksheet = true ∧ s2.isWorksheet = true) → result = .ok (-3, -3))) := by
  have hsl : SheetLists env.base sheets b := by
    obtain ⟨f, b1, _, h4, h3, _⟩ := parse_ok he hok h
    have hl1 := sheets_items h50 hsh h4
    obtain ⟨os, _, _, _, _, _, rfl⟩ := eof_frame h3
    exact hl1.congr rfl rfl rfl rfl rfl
  intro result
  have hres : result = externRange57 b (sgn 16 k) (sgn 16 first) (sgn 16 last) := sheets3d_old b hbv k first last hk hf hl unused tok rest hu t
  rw [hres]
  refine ⟨fun h1 h2 => ?_, fun hloc => ?_⟩
  · unfold externRange57
    rw [sgn_pos h2, if_pos (by omega)]
  have hk0 : ¬ sgn 16 k > 0 := by
    rcases hloc with rfl | hk'
    · rw [sgn_pos (by omega)]; omega
    · rw [sgn_neg hk']; omega
  unfold externRange57
  rw [if_neg hk0]
  have hm1 : ∀ n : Nat, n < 65536 → (sgn 16 n = -1 ↔ n = 0xFFFF) := by
    intro n hn
    by_cases c : n < 32768
    · rw [sgn_pos c]; omega
    · rw [sgn_neg (by omega)]; omega
  refine ⟨fun h1 h2 => ?_, fun h1 h2 => ?_, fun s1 s2 h1 h2 h3 h4 h5 => ?_⟩
  · rw [if_pos ⟨(hm1 _ hf).mpr h1, (hm1 _ hl).mpr h2⟩]
  · rw [if_neg (by rw [hm1 _ hf, hm1 _ hl]; exact h1)]
    unfold localRange
    rw [if_pos]
    rw [hsl.length]
    by_cases c1 : first < 32768
    · by_cases c2 : last < 32768
      · rw [sgn_pos c1, sgn_pos c2]; omega
      · rw [sgn_neg (n := last) (by omega)]; rw [sgn_pos c1]; omega
    · rw [sgn_neg (n := first) (by omega)]; omega
  · rw [sgn_pos h1, sgn_pos (lt_of_le_of_lt h2 h1), if_neg (by omega), localRange_ok hsl _ h3 h4 h2, if_neg h5]

/-- The tokens of a reference that is external, one to deleted sheets and one of which only the last sheet is deleted. -/
example : (sheets3d 70 { allSheetsMap := [0, -1] } (0x3A :: (le16 1 ++ List.replicate 8 0 ++ le16 0 ++ le16 0)) 0).toOption = some (-4, -4) ∧
    (sheets3d 70 { allSheetsMap := [0, -1] } (0x3A :: (le16 65535 ++ List.replicate 8 0 ++ le16 65535 ++ le16 65535)) 0).toOption = some (-2, -2) ∧
    (sheets3d 70 { allSheetsMap := [0, -1] } (0x3A :: (le16 65535 ++ List.replicate 8 0 ++ le16 0 ++ le16 65535)) 0).toOption = some (-103, -103) ∧
    (sheets3d 70 { allSheetsMap := [0, -1] } (0x3A :: (le16 65535 ++ List.replicate 8 0 ++ le16 0 ++ le16 1)) 0).toOption = some (-3, -3) := by decide +kernel

end Xlrd
