import Verif.Props.FormulaSheetsExamples

/-!
# C50: areas in shared formulas, names with sheets before BIFF8, add-in functions
-/
set_option linter.unusedSimpArgs false
namespace Xlrd
open Spec

/-- **C50** (shared formulas).  The two words for an area in a shared formula, read back, are the corners of the area that the formula in row `br`, column `bc` refers to. -/
theorem C50_leaf_shared_area (env : DEnv) (tab : List Int) (ht : szdict env.bv = .ok tab) (cls : Cls) (code : Nat) (hcode : code = 0x05 ∨ code = 0x0D)
    (row1 row2 col1 col2 : Coord) (ha : AddrFits env.bv row1 col1) (hz : AddrFits env.bv row2 col2) (br bc : Nat) (hbr : env.browx = some (br : Int))
    (hbc : env.bcolx = some (bc : Int)) (hd : env.reldelta = true) (h1 : env.r1c1 = false) :
    ∃ w w', AreaOk env tab (UInt8.ofNat (cls.code + code) :: encArea env.bv row1 row2 col1 col2) w w' ∧
      readMixed w = some (row1.at 65536 br, !row1.isRel, col1.at 256 bc, !col1.isRel) ∧
      readMixed w' = some (row2.at 65536 br, !row2.isRel, col2.at 256 bc, !col2.isRel) := by
  have name : ∀ row col : Coord, AddrFits env.bv row col → ∃ s, cellnamerel row.num col.num row.isRel col.isRel (some (br : Int)) (some (bc : Int)) false = .ok s ∧
      readMixed s = some (row.at 65536 br, !row.isRel, col.at 256 bc, !col.isRel) := by
    intro row col h
    obtain ⟨s, hs, hread⟩ := C56_cellnamerel_a1_reads_back row.num col.num br bc row.isRel col.isRel
      (by cases row <;> simp [Coord.isRel, Coord.num])
      (by
        have := h.2
        cases col <;> simp [Coord.isRel, Coord.num, Coord.Fits] at this ⊢; omega)
    refine ⟨s, hs, ?_⟩
    rw [hread]
    cases row <;> cases col <;> simp [Coord.isRel, Coord.num, Coord.at]
  obtain ⟨s, hs, hread⟩ := name row1 col1 ha
  obtain ⟨s', hs', hread'⟩ := name row2 col2 hz
  obtain ⟨hne, hch⟩ := readMixed_chars hread
  obtain ⟨hne', hch'⟩ := readMixed_chars hread'
  refine ⟨s, s', ⟨isWord_of_chars hne hch, isWord_of_chars hne' hch', by simp, ?_⟩, hread, hread'⟩
  intro data post p n stk h
  rw [List.cons_append] at h
  have hg := getCellRangeAddr_raw env.bv (row1.field (rowCount env.bv)) (col1.field 256) (row2.field (rowCount env.bv)) (col2.field 256) row1.isRel col1.isRel
    row2.isRel col2.isRel true (some (br : Int)) (some (bc : Int)) (coord_field_lt (rowCount_pos env.bv) ha.1) (coord_field_lt (by omega) ha.2)
    (coord_field_lt (rowCount_pos env.bv) hz.1) (coord_field_lt (by omega) hz.2) (rest := post) (data := data) (p := p + 1) (drop_one h)
  rw [adjust_offsets env.bv row1 col1 ha, adjust_offsets env.bv row2 col2 hz] at hg
  have hlen : (encArea env.bv row1 row2 col1 col2).length = if env.bv ≥ 80 then 8 else 6 := encAreaRaw_length env.bv (row1.field (rowCount env.bv)) (col1.field 256)
    row1.isRel col1.isRel (row2.field (rowCount env.bv)) (col2.field 256) row2.isRel col2.isRel
  have hlt : code < 32 := by rcases hcode with rfl | rfl <;> decide
  obtain ⟨c1, c2⟩ := cls_byte cls code hlt
  have hsz : tab.getD (code + 32) (-2) = ((1 + (encArea env.bv row1 row2 col1 col2).length : Nat) : Int) := by
    rw [hlen]
    rcases hcode with rfl | rfl
    · rw [show 5 + 32 = 37 from rfl, (token_sizes2 ht).2.2.2.2.2.2]
      by_cases hv : env.bv ≥ 80 <;> simp [hv]
    · have : tab.getD (0x0D + 32) (-2) = (if env.bv ≥ 80 then 9 else 7) := by
        unfold szdict at ht
        by_cases d0 : env.bv = 20 ∨ env.bv = 21
        · rw [if_pos d0] at ht; cases ht; rw [if_neg (by omega)]; rfl
        rw [if_neg d0] at ht
        by_cases d1 : env.bv = 30
        · rw [if_pos d1] at ht; cases ht; rw [if_neg (by omega)]; rfl
        rw [if_neg d1] at ht
        by_cases d2 : env.bv = 40 ∨ env.bv = 45
        · rw [if_pos d2] at ht; cases ht; rw [if_neg (by omega)]; rfl
        rw [if_neg d2] at ht
        by_cases d3 : env.bv = 50 ∨ env.bv = 70
        · rw [if_pos d3] at ht; cases ht; rw [if_neg (by omega)]; rfl
        rw [if_neg d3] at ht
        by_cases d4 : env.bv = 80
        · rw [if_pos d4] at ht; cases ht; rw [if_pos (by omega)]; rfl
        rw [if_neg d4] at ht; cases ht
      rw [this]
      by_cases hv : env.bv ≥ 80 <;> simp [hv]
  refine ⟨if row1.isRel || row2.isRel || col1.isRel || col2.isRel then .relref else .ref,
    by cases row1.isRel <;> cases row2.isRel <;> cases col1.isRel <;> cases col2.isRel <;> decide, ?_⟩
  rw [step_class h c1 c2 (by rw [hsz]; omega)
    (s' := some { kind := if row1.isRel || row2.isRel || col1.isRel || col2.isRel then .relref else .ref, rank := 90, text := s ++ ':' :: s' } :: stk) ?_]
  · rw [hsz]
    refine congrArg Except.ok (Prod.ext rfl ?_)
    simp only [List.length_cons]
    push_cast; ring
  · have hcl : dClass env data (p : Int) code stk = (do let o ← dArea env data (p : Int); pure (some o :: stk)) := by
      rcases hcode with rfl | rfl <;> rfl
    rw [hcl]
    unfold dArea
    push_cast at hg
    rw [hbr, hbc, hd, h1, hg]
    simp only [bind, Except.bind, pure, Except.pure, addrOf]
    have e : ∀ x : Int, x + 1 - 1 = x := by intro x; ring
    simp only [rangename2drel, e, Option.isNone_some, Bool.and_false, Bool.or_false, bind, Except.bind]
    rw [hs]
    simp only
    rw [hs']
    rfl

/-- What a token of an external name does in a file of BIFF5 or BIFF7. -/
theorem namex_step_old {env : DEnv} {tab : List Int} (ht : szdict env.bv = .ok tab) (h5 : 50 ≤ env.bv) (h8 : env.bv < 80) (cls : Cls) {ref k : Nat}
    (hx : ref < 65536) (hk : k + 1 < 65536) (u1 u2 : Bytes) (hu1 : u1.length = 8) (hu2 : u2.length = 12) {data post : Bytes} {p n : Nat} {stk : List (Option DOpnd)}
    {o : DOpnd}
    (h : data.drop p = UInt8.ofNat (cls.code + 0x19) :: (le16 ref ++ u1 ++ le16 (k + 1) ++ u2) ++ post)
    (ho : (nameXFields env.bv data (p : Int) = .ok (sgn 16 ref, if sgn 16 ref > 0 then sgn 16 ref - 1 else if sgn 16 ref < 0 then -(sgn 16 ref) - 1 else sgn 16 ref, (k : Int),
      decide (sgn 16 ref = 0))) → dNameX env data (p : Int) = .ok o) :
    dStep env tab data n (p : Int) stk = .ok (some o :: stk, (p : Int) + 25) := by
  rw [List.cons_append] at h
  obtain ⟨c1, c2⟩ := cls_byte cls 0x19 (by decide)
  have hsz : tab.getD (0x19 + 32) (-2) = ((1 + (le16 ref ++ u1 ++ le16 (k + 1) ++ u2).length : Nat) : Int) := by
    rw [((token_sizes3 ht).2 h5).1, if_neg (by omega)]
    simp [le16_length, hu1, hu2]
  rw [step_class h c1 c2 (by rw [hsz]; omega) (s' := some o :: stk) ?_]
  · rw [hsz]
    refine congrArg Except.ok (Prod.ext rfl ?_)
    simp [le16_length, hu1, hu2]
  · show (do let o ← dNameX env data (p : Int); pure (some o :: stk)) = _
    rw [ho]
    · rfl
    · unfold nameXFields
      rw [if_neg (by omega)]
      have hsl := slice_fwd (x := le16 ref ++ u1 ++ le16 (k + 1)) (k := 1) (n := 12) (r := u2 ++ post) (p : Int) rfl
        (by rw [drop_one h]; simp) (by simp [le16_length, hu1])
      simp only [Nat.cast_one, Nat.reduceAdd, Nat.cast_ofNat] at hsl
      rw [hsl, unpackN_ok (by simp [le16_length, hu1])]
      simp only [bind, Except.bind]
      have f1 : fld (le16 ref ++ u1 ++ le16 (k + 1)) 0 2 = ref := by
        rw [List.append_assoc]; exact fld_head _ hx _
      have f2 : fld (le16 ref ++ u1 ++ le16 (k + 1)) 10 2 = k + 1 := by
        have : (le16 ref ++ u1 ++ le16 (k + 1)).drop 10 = le16 (k + 1) := by
          rw [List.drop_left' (by simp [le16_length, hu1])]
        unfold fld
        rw [this]
        have := fld_head (k + 1) hk []
        unfold fld at this
        simpa using this
      rw [f1, f2]
      show Except.ok _ = _
      rw [show ((k + 1 : Nat) : Int) - 1 = (k : Int) by push_cast; ring]

/-- **C50** (names of this file, BIFF5 and BIFF7).  If the number of the reference is negative and the EXTERNSHEET record that it counts stands for the
file itself, the token is shown as that name. -/
theorem C50_leaf_own_name_old (env : DEnv) (tab : List Int) (ht : szdict env.bv = .ok tab) (h5 : 50 ≤ env.bv) (h8 : env.bv < 80) (cls : Cls) (j k : Nat) (hj : j < 32768)
    (hk : k + 1 < 65536) (u1 u2 : Bytes) (hu1 : u1.length = 8) (hu2 : u2.length = 12) (hown : env.bk.externsheetTypeB57[j]? = some 4) (w : PyStr)
    (hw : NameShows env.bk k w) (hword : IsWord w) :
    LeafRef env tab (UInt8.ofNat (cls.code + 0x19) :: (le16 (65535 - j) ++ u1 ++ le16 (k + 1) ++ u2)) w := by
  obtain ⟨o, ho1, ho2⟩ := nameShown_of hw
  have hs : sgn 16 (65535 - j) = -((j : Int) + 1) := by
    unfold sgn
    rw [if_neg (by norm_num; omega)]
    push_cast [show j ≤ 65535 by omega]
    norm_num
    ring
  refine leafRef_of hword (by simp) ?_
  intro data post p n stk h
  refine ⟨.unk, by decide, ?_⟩
  have := namex_step_old ht h5 h8 cls (ref := 65535 - j) (by omega) hk u1 u2 hu1 hu2 (n := n) (stk := stk) (o := { kind := .unk, rank := 90, text := w }) h ?_
  · rw [this]
    refine congrArg Except.ok (Prod.ext rfl ?_)
    simp [le16_length, hu1, hu2]
  · intro hf
    unfold dNameX
    rw [hf, hs]
    simp only [bind, Except.bind]
    rw [if_neg (by simp; omega)]
    rw [if_neg (show ¬ (-((j : Int) + 1) > 0) by omega), if_pos (show -((j : Int) + 1) < 0 by omega)]
    have hr : nameXRange env.bv env.bk (-((j : Int) + 1)) (- -((j : Int) + 1) - 1) = .ok (-1, -1) := by
      unfold nameXRange
      rw [if_neg (by omega), if_neg (by omega), show (- -((j : Int) + 1) - 1) = (j : Int) by ring, idx_at hown]
      rfl
    rw [hr]
    simp only
    rw [if_neg (by decide), if_neg (by decide), ho1]
    simp only
    rw [ho2]
    rfl

/-- **C50** (names of other files, BIFF5 and BIFF7).  If the number of the reference is positive, the token is shown by the two numbers, with marks that no formula has. -/
theorem C50_other_file_name_old (env : DEnv) (tab : List Int) (ht : szdict env.bv = .ok tab) (h5 : 50 ≤ env.bv) (h8 : env.bv < 80) (cls : Cls) (ref k : Nat) (h0 : 0 < ref)
    (hx : ref < 32768) (hk : k + 1 < 65536) (u1 u2 : Bytes) (hu1 : u1.length = 8) (hu2 : u2.length = 12) (data post : Bytes) (p n : Nat) (stk : List (Option DOpnd))
    (h : data.drop p = UInt8.ofNat (cls.code + 0x19) :: (le16 ref ++ u1 ++ le16 (k + 1) ++ u2) ++ post) :
    dStep env tab data n (p : Int) stk =
      .ok (some { rank := 90, text := "<<Name #".toList ++ natDec k ++ " in external(?) file #".toList ++ natDec ref ++ ">>".toList } :: stk, (p : Int) + 25) := by
  have ht' : externNameText (k : Int) (ref : Int) =
      "<<Name #".toList ++ natDec k ++ " in external(?) file #".toList ++ natDec ref ++ ">>".toList := by
    unfold externNameText
    rw [intDec_nat, intDec_nat]
  rw [← ht']
  have hs : sgn 16 ref = (ref : Int) := by
    unfold sgn
    rw [if_pos (by norm_num; omega)]
  refine namex_step_old ht h5 h8 cls (by omega) hk u1 u2 hu1 hu2 h ?_
  intro hf
  unfold dNameX
  rw [hf, hs]
  simp only [bind, Except.bind]
  rw [if_neg (by simp; omega)]
  have hr : nameXRange env.bv env.bk (ref : Int) (if (ref : Int) > 0 then (ref : Int) - 1 else if (ref : Int) < 0 then -(ref : Int) - 1 else ref) = .ok (-4, -4) := by
    unfold nameXRange
    rw [if_neg (by omega), if_pos (by omega)]
  rw [hr]
  simp only
  rw [if_neg (by decide), if_pos (by decide)]
  rfl

/-- **C50** (names of no sheet, BIFF5 and BIFF7).  A reference with the number 0 makes the reader fail.  Missing: if an earlier token of the same formula
named sheets, the code goes on with the number of that sheet; see the comment at `dNameX`. -/
theorem C50_name_of_no_sheet_partial (env : DEnv) (h8 : env.bv < 80) (cls : Cls) (k : Nat) (u1 u2 : Bytes) (hu1 : u1.length = 8)
    (data post : Bytes) (p : Nat) (h : data.drop p = UInt8.ofNat (cls.code + 0x19) :: (le16 0 ++ u1 ++ le16 (k + 1) ++ u2) ++ post) :
    dNameX env data (p : Int) = .error .name := by
  rw [List.cons_append] at h
  unfold dNameX nameXFields
  rw [if_neg (by omega)]
  have hsl := slice_fwd (x := le16 0 ++ u1 ++ le16 (k + 1)) (k := 1) (n := 12) (r := u2 ++ post) (p : Int) rfl
    (by rw [drop_one h]; simp) (by simp [le16_length, hu1])
  simp only [Nat.cast_one, Nat.reduceAdd, Nat.cast_ofNat] at hsl
  rw [hsl, unpackN_ok (by simp [le16_length, hu1])]
  simp only [bind, Except.bind]
  have f1 : fld (le16 0 ++ u1 ++ le16 (k + 1)) 0 2 = 0 := by
    rw [List.append_assoc]; exact fld_head _ (by omega) _
  rw [f1]
  rfl

/-- **C50** (add-in functions).  The name of an add-in function is shown as a text constant (BIFF8). -/
theorem C50_leaf_addin (env : DEnv) (tab : List Int) (ht : szdict env.bv = .ok tab) (h8 : 80 ≤ env.bv) (cls : Cls) (refx k : Nat) (hx : refx < 65536)
    (hk : k + 1 < 65536) (unused : Bytes) (hu : unused.length = 2) (a : Nat) (hr : env.bk.externsheetInfo[refx]? = some (a, 0xFFFE, 0xFFFE))
    (ha : env.bk.supbookAddinsInx = some a) (f : PyStr)
    (hf : env.bk.addinFuncNames[k]? = some f) :
    LeafRef env tab (UInt8.ofNat (cls.code + 0x19) :: (le16 refx ++ le16 (k + 1) ++ unused)) (strgText f) := by
  refine leafRef_of (isWord_strgText f) (by simp) ?_
  intro data post p n stk h
  refine ⟨.strg, by decide, ?_⟩
  refine namex_step ht h8 cls hx hk unused hu (o := { kind := .strg, rank := 90, text := strgText f }) ?_ h
  have hr' : externRange env.bk refx = .ok (-5, -5) := by
    unfold externRange
    rw [hr]
    show externInfoRange env.bk (a, 0xFFFE, 0xFFFE) = _
    unfold externInfoRange
    rw [if_pos ha.symm]
    rfl
  rw [hr']
  simp only [bind, Except.bind]
  rw [if_pos trivial, idx_at hf]
  rfl

/-! ## Examples -/
namespace SheetFormulas

/-- In the shared formula of F6, from the cell two rows up in column A to the cell to the right. -/
example : ∃ w w', AreaOk { env with reldelta := true } sztab4 (0x4D :: encArea 80 (.rel (-2)) (.rel 0) (.abs 0) (.rel 1)) w w' ∧
    readMixed w = some (3, false, 0, true) ∧ readMixed w' = some (5, false, 6, false) :=
  C50_leaf_shared_area { env with reldelta := true } sztab4 rfl .val 0x0D (.inr rfl) (.rel (-2)) (.rel 0) (.abs 0) (.rel 1)
    ⟨⟨by decide, by decide⟩, (by decide : 0 < 256)⟩ ⟨⟨by decide, by decide⟩, ⟨by decide, by decide⟩⟩ 5 5 rfl rfl rfl rfl

/-- The same file in BIFF7; the third EXTERNSHEET record stands for the file itself. -/
def oldEnv : DEnv := { env with bv := 70, bk := { book with externsheetTypeB57 := [1, 3, 4] } }

example : LeafRef oldEnv sztab3 (0x59 :: (le16 65533 ++ [0, 0, 0, 0, 0, 0, 0, 0] ++ le16 2 ++ [0, 0, 0, 0, 0, 0, 0, 0, 0, 0, 0, 0])) "Data!tax".toList :=
  C50_leaf_own_name_old oldEnv sztab3 rfl (by decide) (by decide) .val 2 1 (by decide) (by decide) _ _ rfl rfl rfl _ ⟨_, rfl, .inr ⟨0, _, rfl, rfl, rfl⟩⟩
    ⟨by decide, by decide, by decide⟩

example : decompile oldEnv (0x59 :: (le16 65533 ++ [0, 0, 0, 0, 0, 0, 0, 0] ++ le16 2 ++ [0, 0, 0, 0, 0, 0, 0, 0, 0, 0, 0, 0])) 25 =
    .ok (some "Data!tax".toList) := by decide +kernel

example : decompile oldEnv (0x59 :: (le16 9 ++ [0, 0, 0, 0, 0, 0, 0, 0] ++ le16 2 ++ [0, 0, 0, 0, 0, 0, 0, 0, 0, 0, 0, 0])) 25 =
    .ok (some "<<Name #1 in external(?) file #9>>".toList) := by decide +kernel

/-- A file with the add-in functions `EDATE` and `WEEKNUM`. -/
def addinEnv : DEnv := { env with bk := { book with supbookAddinsInx := some 1, externsheetInfo := [(0, 1, 1), (1, 0xFFFE, 0xFFFE)], addinFuncNames := ["EDATE".toList, "WEEKNUM".toList] } }

example : LeafRef addinEnv sztab4 (0x39 :: (le16 1 ++ le16 2 ++ [0, 0])) (strgText "WEEKNUM".toList) :=
  C50_leaf_addin addinEnv sztab4 rfl (by decide) .ref 1 1 (by decide) (by decide) [0, 0] rfl 1 rfl rfl _ rfl

end SheetFormulas

end Xlrd
