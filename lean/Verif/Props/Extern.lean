import Verif.Spec.Extern
import Verif.Props.Formula

/-!
# Resolving references to sheets (C46)
-/
set_option linter.unusedSimpArgs false

namespace Xlrd
open Spec

/-- The codes for references that are not to worksheets of this workbook. -/
def noSheetCodes : List Int := [-1, -2, -3, -4, -5, -101, -102, -103]

/-- The map from sheets to worksheets is in order. -/
structure MapOk (b : Book) : Prop where
  entries : b.allSheetsMap.filter (0 ≤ ·) = (List.range b.sheetNames.length).map (fun (n : Nat) => (n : Int))

theorem MapOk.lt {b : Book} (h : MapOk b) {i : Nat} {x : Int} (hi : b.allSheetsMap[i]? = some x) (hx : 0 ≤ x) : x < b.sheetNames.length := by
  have : x ∈ b.allSheetsMap.filter (0 ≤ ·) := List.mem_filter.mpr ⟨List.mem_of_getElem? hi, by simpa using hx⟩
  rw [h.entries] at this
  obtain ⟨n, hn, rfl⟩ := List.mem_map.mp this
  have := List.mem_range.mp hn
  omega

theorem localRange_outcome {b : Book} (hb : MapOk b) (bad first last : Int) (hbad : bad ∈ noSheetCodes) :
    ∃ x y, localRange b bad first last = .ok (x, y) ∧
      ((0 ≤ x ∧ x ≤ y ∧ y < b.sheetNames.length) ∨ (x = y ∧ x ∈ noSheetCodes)) := by
  unfold localRange
  by_cases h : 0 ≤ first ∧ first ≤ last ∧ last < b.allSheetsMap.length
  · rw [if_neg (by simpa using h)]
    obtain ⟨h1, h2, h3⟩ := h
    obtain ⟨m, rfl⟩ := Int.eq_ofNat_of_zero_le h1
    obtain ⟨n, rfl⟩ := Int.eq_ofNat_of_zero_le (by omega : 0 ≤ last)
    have e1 : b.allSheetsMap[m]? = some (b.allSheetsMap[m]'(by omega)) := List.getElem?_eq_getElem _
    have e2 : b.allSheetsMap[n]? = some (b.allSheetsMap[n]'(by omega)) := List.getElem?_eq_getElem _
    rw [(idx_ok_nat _ _ _).mpr e1, (idx_ok_nat _ _ _).mpr e2]
    simp only [bind, Except.bind]
    by_cases h4 : 0 ≤ b.allSheetsMap[m]'(by omega) ∧ b.allSheetsMap[m]'(by omega) ≤ b.allSheetsMap[n]'(by omega)
    · rw [if_neg (by simpa using h4)]
      exact ⟨_, _, rfl, Or.inl ⟨h4.1, h4.2, hb.lt e2 (by omega)⟩⟩
    · rw [if_pos h4]
      exact ⟨_, _, rfl, Or.inr ⟨rfl, by decide⟩⟩
  · rw [if_pos h]
    exact ⟨_, _, rfl, Or.inr ⟨rfl, hbad⟩⟩

theorem externRange_outcome {b : Book} (hb : MapOk b) (refx : Nat) :
    externRange b refx = .error .assertion ∨ ∃ x y, externRange b refx = .ok (x, y) ∧
      ((0 ≤ x ∧ x ≤ y ∧ y < b.sheetNames.length) ∨ (x = y ∧ x ∈ noSheetCodes)) := by
  unfold externRange
  cases h : b.externsheetInfo[refx]? with
  | none => exact Or.inr ⟨_, _, rfl, Or.inr ⟨rfl, by decide⟩⟩
  | some info =>
    simp only
    unfold externInfoRange
    by_cases c1 : some info.1 = b.supbookAddinsInx
    · rw [if_pos c1]
      by_cases c2 : info.2.1 = 0xFFFE ∧ 0xFFFE = info.2.2
      · rw [if_pos c2]; exact Or.inr ⟨_, _, rfl, Or.inr ⟨rfl, by decide⟩⟩
      · rw [if_neg c2]; exact Or.inl rfl
    · rw [if_neg c1]
      by_cases c3 : some info.1 ≠ b.supbookLocalsInx
      · rw [if_pos c3]; exact Or.inr ⟨_, _, rfl, Or.inr ⟨rfl, by decide⟩⟩
      · rw [if_neg c3]
        by_cases c4 : info.2.1 = 0xFFFE ∧ 0xFFFE = info.2.2
        · rw [if_pos c4]; exact Or.inr ⟨_, _, rfl, Or.inr ⟨rfl, by decide⟩⟩
        · rw [if_neg c4]
          by_cases c5 : info.2.1 = 0xFFFF ∧ 0xFFFF = info.2.2
          · rw [if_pos c5]; exact Or.inr ⟨_, _, rfl, Or.inr ⟨rfl, by decide⟩⟩
          · rw [if_neg c5]
            exact Or.inr (localRange_outcome hb _ _ _ (by decide))

/-- **C46** (outcome).  Whatever bytes the globals are and whatever the token string holds, looking up the sheets of a reference gives
the numbers of a first and a last existing worksheet, in order, or one of the codes; or it fails, with AssertionError for an inconsistent
add-in reference and with `struct.error` for a token string that is too short. -/
theorem C46_outcome (env : OpenEnv) (v : Nat) (base : Int) (mem : Bytes) (pos : Int) (b : Book) (p : Int)
    (h : parseGlobals (env.bookEnv v base) mem newBook pos = .ok (b, p)) (bv : Nat) (data : Bytes) (q : Int) :
    sheets3d bv b data q = .error .assertion ∨ sheets3d bv b data q = .error .struct ∨
      ∃ x y, sheets3d bv b data q = .ok (x, y) ∧ ((0 ≤ x ∧ x ≤ y ∧ y < b.sheetNames.length) ∨ (x = y ∧ x ∈ noSheetCodes)) := by
  have hb : MapOk b := ⟨(C43_parallel env v base mem pos b p h).2.2.2.1⟩
  have hu : ∀ n (x : Bytes), unpackN n x = .error .struct ∨ unpackN n x = .ok x := by
    intro n x
    unfold unpackN
    by_cases hx : x.length = n
    · rw [if_pos hx]; exact Or.inr rfl
    · rw [if_neg hx]; exact Or.inl rfl
  unfold sheets3d
  by_cases h8 : bv ≥ 80
  · rw [if_pos h8]
    unfold unpackH
    rcases hu 2 (slice data (q + 1) (q + 3)) with e | e
    · rw [e]; exact Or.inr (Or.inl rfl)
    · rw [e]
      rcases externRange_outcome hb (fld (slice data (q + 1) (q + 3)) 0 2) with e1 | e1
      · exact Or.inl e1
      · exact Or.inr (Or.inr e1)
  · rw [if_neg h8]
    rcases hu 14 (slice data (q + 1) (q + 15)) with e | e
    · rw [e]; exact Or.inr (Or.inl rfl)
    · rw [e]
      simp only [bind, Except.bind]
      unfold externRange57
      right; right
      split_ifs
      · exact ⟨_, _, rfl, Or.inr ⟨rfl, by decide⟩⟩
      · exact ⟨_, _, rfl, Or.inr ⟨rfl, by decide⟩⟩
      · exact localRange_outcome hb _ _ _ (by decide)

/-! ## The tables -/

theorem externRefs_enc (l : List ExtRef) : (∀ r ∈ l, r.Fits) → ∀ (data rest : Bytes) (p : Nat), data.drop p = l.flatMap ExtRef.enc ++ rest →
    externRefs data l.length (p : Int) = .ok (l.map fun r => (r.book, r.first, r.last)) := by
  induction l with
  | nil => intros; rfl
  | cons r l ih =>
    intro hf data rest p hd
    obtain ⟨h1, h2, h3⟩ := hf r (by simp)
    rw [List.flatMap_cons, List.append_assoc] at hd
    have hl : r.enc.length = 6 := by simp [ExtRef.enc, le16_length]
    simp only [List.length_cons, externRefs]
    rw [show ((p : Int) + 6) = ((p : Int) + (6 : Nat)) by norm_num, slice_at hd hl, unpackN_ok hl]
    simp only [bind, Except.bind]
    have := ih (fun r hr => hf r (by simp [hr])) data rest (p + 6) (by rw [← hl]; exact drop_at hd rfl)
    push_cast at this
    rw [show ((p : Int) + (6 : Nat)) = (p : Int) + 6 by norm_num, this]
    have e : r.enc = le16 r.book ++ (le16 r.first ++ le16 r.last) := by simp [ExtRef.enc]
    rw [e, fld_head _ h1, fld_tail _ _ 2 _ (by omega), fld_head _ h2, fld_tail _ _ 4 _ (by omega), fld_tail _ _ _ _ (by omega), fld_only _ h3]
    rfl

theorem externs_items {env : BookEnv} (h8 : 80 ≤ env.bv) {items : List GItem} {refs : List ExtRef} (hc : Externs items refs) :
    ∀ {f : FmtSt} {b : Book}, applyGlobals env { fmt := f } items = .ok b → b.externsheetInfo = refs.map fun r => (r.book, r.first, r.last) := by
  induction hc with
  | nil => intro f b h; cases h; rfl
  | @take pre xs l d more hc0 ht ih =>
    intro f b h
    obtain ⟨b1, h1, h2⟩ := gItems_snoc h
    simp only [applyGItem, externBegin] at h2
    obtain ⟨b3, h3, h2⟩ := bind_ok h2
    obtain ⟨b4, h4, h3⟩ := bind_ok h3
    cases h3
    obtain ⟨e, c, u, r, rfl⟩ := derive_frame h4
    rw [if_pos h8] at h2
    unfold externApply8 at h2
    obtain ⟨tail, hl, hf, hd⟩ := ht
    have hu : unpackH (slice (d ++ more.flatten) 0 2) = .ok l.length :=
      unpackH_at (p := 0) hl (by rw [List.drop_zero, hd])
    rw [hu] at h2
    simp only [bind, Except.bind] at h2
    have hr := externRefs_enc l hf (d ++ more.flatten) tail 2 (by rw [hd]; rfl)
    rw [show ((2 : Nat) : Int) = 2 from rfl] at hr
    rw [hr] at h2
    cases h2
    simp only [ih h1, List.map_append]
  | @skip pre xs it hc0 hns ih =>
    intro f b h
    obtain ⟨b1, h1, h2⟩ := gItems_snoc h
    cases it with
    | sst d more => obtain ⟨t, rfl⟩ := sst_frame h2; exact (show b1.externsheetInfo = _ from ih h1)
    | extern d more => exact absurd rfl (hns d more)
    | one c d => rw [(record_frame h2).externInfo]; exact ih h1

/-- What is known about the SUPBOOK records. -/
structure SupInv (sups : List SupKind) (b : Book) : Prop where
  count : b.supbookCount = sups.length
  locals : ∀ k, b.supbookLocalsInx = some k ↔ LastOf sups .ours k
  addins : ∀ k, b.supbookAddinsInx = some k ↔ LastOf sups .addins k

theorem lastOf_snoc (sups : List SupKind) (s kind : SupKind) (k : Nat) :
    LastOf (sups ++ [s]) kind k ↔ if s = kind then k = sups.length else LastOf sups kind k := by
  by_cases h : s = kind
  · rw [if_pos h]
    subst h
    constructor
    · rintro ⟨h1, h2⟩
      have := (List.getElem?_eq_some_iff.mp h1).1
      simp at this
      by_contra hk
      exact h2 sups.length (by omega) (by simp)
    · rintro rfl
      refine ⟨by simp, ?_⟩
      intro j hj
      rw [List.getElem?_eq_none (by simp; omega)]
      simp
  · rw [if_neg h]
    constructor
    · rintro ⟨h1, h2⟩
      have hk : k < sups.length := by
        by_contra hk
        have hlt := (List.getElem?_eq_some_iff.mp h1).1
        simp at hlt
        have : k = sups.length := by omega
        subst this
        simp at h1
        exact h h1
      refine ⟨by rwa [List.getElem?_append_left hk] at h1, ?_⟩
      intro j hj hjj
      have hlt := (List.getElem?_eq_some_iff.mp hjj).1
      exact h2 j hj (by rwa [List.getElem?_append_left hlt])
    · rintro ⟨h1, h2⟩
      have hlt := (List.getElem?_eq_some_iff.mp h1).1
      refine ⟨by rwa [List.getElem?_append_left hlt], ?_⟩
      intro j hj hjj
      have hl2 := (List.getElem?_eq_some_iff.mp hjj).1
      by_cases hs : j < sups.length
      · rw [List.getElem?_append_left hs] at hjj; exact h2 j hj hjj
      · have : j = sups.length := by simp at hl2; omega
        subst this
        simp at hjj
        exact h hjj

theorem supKind_type {d : Bytes} {n t : Nat} (h : supbookType d n = .ok t) :
    (t = SUPBOOK_INTERNAL ↔ supKind d = .ours) ∧ (t = SUPBOOK_ADDIN ↔ supKind d = .addins) := by
  have hs : ∀ (a c : Nat), slice d a c = (d.take c).drop a := by
    intro a c
    have := slice_nat d a c
    rw [this]
  unfold supbookType at h
  have e1 := hs 2 4
  have e2 := hs 0 4
  rw [show ((2 : Nat) : Int) = 2 from rfl, show ((4 : Nat) : Int) = 4 from rfl] at e1
  rw [show ((0 : Nat) : Int) = 0 from rfl, show ((4 : Nat) : Int) = 4 from rfl] at e2
  rw [e1, e2] at h
  by_cases c1 : (d.take 4).drop 2 = [0x01, 0x04]
  · rw [if_pos c1] at h
    cases h
    have : supKind d = .ours := by
      match d, c1 with
      | a :: b :: c :: e :: r, c1 =>
        simp at c1
        obtain ⟨rfl, rfl⟩ := c1
        simp [supKind]
      | [], c1 => simp at c1
      | [_], c1 => simp at c1
      | [_, _], c1 => simp at c1
      | [_, _, _], c1 => simp at c1
    simp [this]
  · rw [if_neg c1] at h
    have n1 : supKind d ≠ .ours := by
      intro hk
      apply c1
      unfold supKind at hk
      split at hk <;> first | rfl | cases hk
    by_cases c2 : (d.take 4).drop 0 = [0x01, 0x00, 0x01, 0x3A]
    · rw [if_pos c2] at h
      cases h
      have : supKind d = .addins := by
        match d, c2 with
        | a :: b :: c :: e :: r, c2 =>
          simp at c2
          obtain ⟨rfl, rfl, rfl, rfl⟩ := c2
          simp [supKind]
        | [], c2 => simp at c2
        | [_], c2 => simp at c2
        | [_, _], c2 => simp at c2
        | [_, _, _], c2 => simp at c2
      simp [this]
    · rw [if_neg c2] at h
      have n2 : supKind d ≠ .addins := by
        intro hk
        apply c2
        unfold supKind at hk
        split at hk <;> first | rfl | cases hk
      obtain ⟨q, _, h⟩ := bind_ok h
      simp only at h
      by_cases c3 : n = 0
      · rw [if_pos c3] at h
        cases h
        exact ⟨⟨fun h => (by cases h), fun h => absurd h n1⟩, fun h => (by cases h), fun h => absurd h n2⟩
      · rw [if_neg c3] at h
        obtain ⟨_, _, h⟩ := bind_ok h
        cases h
        exact ⟨⟨fun h => (by cases h), fun h => absurd h n1⟩, fun h => (by cases h), fun h => absurd h n2⟩

theorem sups_items {env : BookEnv} (items : List GItem) :
    ∀ {f : FmtSt} {b : Book}, applyGlobals env { fmt := f } items = .ok b → SupInv (supbooks items) b := by
  induction items using List.reverseRecOn with
  | nil =>
    intro f b h
    cases h
    constructor
    · rfl
    · intro k; simp [supbooks, LastOf]
    · intro k; simp [supbooks, LastOf]
  | append_singleton pre it ih =>
    intro f b h
    obtain ⟨b1, h1, h2⟩ := gItems_snoc h
    obtain ⟨i1, i2, i3⟩ := ih h1
    have app : supbooks (pre ++ [it]) = supbooks pre ++ supbooks [it] := by simp [supbooks]
    rw [app]
    cases it with
    | sst d more =>
      obtain ⟨t, rfl⟩ := sst_frame h2
      rw [show supbooks [GItem.sst d more] = [] from rfl, List.append_nil]
      exact ⟨i1, i2, i3⟩
    | extern d more =>
      obtain ⟨_, _, _, _, _, _, _, _, rfl⟩ := extern_frame h2
      rw [show supbooks [GItem.extern d more] = [] from rfl, List.append_nil]
      exact ⟨i1, i2, i3⟩
    | one c d =>
      by_cases hc : c = 0x1ae
      · subst hc
        have e : applyGItem env b1 (.one 0x1ae d) = handleSupbook b1 d := rfl
        rw [e] at h2
        unfold handleSupbook at h2
        obtain ⟨n, _, h2⟩ := bind_ok h2
        obtain ⟨t, ht, h2⟩ := bind_ok h2
        cases h2
        obtain ⟨k1, k2⟩ := supKind_type ht
        have es : supbooks [GItem.one 0x1ae d] = [supKind d] := rfl
        rw [es]
        refine ⟨by simp [i1], ?_, ?_⟩
        · intro k
          rw [lastOf_snoc]
          by_cases hk : t = SUPBOOK_INTERNAL
          · simp only [if_pos hk, if_pos (k1.mp hk), i1, Option.some.injEq]
            exact eq_comm
          · simp only [if_neg hk, if_neg (fun h => hk (k1.mpr h)), i2]
        · intro k
          rw [lastOf_snoc]
          by_cases hk : t = SUPBOOK_ADDIN
          · simp only [if_pos hk, if_pos (k2.mp hk), i1, Option.some.injEq]
            exact eq_comm
          · simp only [if_neg hk, if_neg (fun h => hk (k2.mpr h)), i3]
      · have hf := record_frame h2
        have es : supbooks [GItem.one c d] = [] := by
          unfold supbooks
          rw [List.filterMap_cons]
          have : supbookOf (.one c d) = none := by
            unfold supbookOf
            split
            · rename_i h; cases h; exact absurd rfl hc
            · rfl
          rw [this]
          rfl
        rw [es, List.append_nil]
        exact ⟨(hf.supCount hc).trans i1, by rw [hf.supLocals hc]; exact i2, by rw [hf.supAddins hc]; exact i3⟩

/-- The worksheets in a part of the sheet list are the worksheets with the numbers in between. -/
theorem worksheets_between (sheets : List SheetRec) {first last : Nat} {s : SheetRec} (hle : first ≤ last) (h2 : sheets[last]? = some s)
    (hw : s.isWorksheet = true) :
    let x := ((sheets.take first).filter SheetRec.isWorksheet).length
    let y := ((sheets.take last).filter SheetRec.isWorksheet).length
    x ≤ y ∧ ((sheets.filter SheetRec.isWorksheet).drop x).take (y + 1 - x) = worksheetsFrom sheets first last := by
  intro x y
  have hlt := (List.getElem?_eq_some_iff.mp h2).1
  have hs := (List.getElem?_eq_some_iff.mp h2).2
  have split1 : sheets = sheets.take first ++ (((sheets.drop first).take (last + 1 - first)) ++ sheets.drop (last + 1)) := by
    conv_lhs => rw [← List.take_append_drop first sheets, ← List.take_append_drop (last + 1 - first) (sheets.drop first)]
    rw [List.drop_drop, show first + (last + 1 - first) = last + 1 by omega]
  have split2 : sheets.take (last + 1) = sheets.take first ++ ((sheets.drop first).take (last + 1 - first)) := by
    conv_lhs => rw [← List.take_append_drop first (sheets.take (last + 1)), List.take_take, List.drop_take]
    rw [min_eq_left (by omega)]
  have ly : ((sheets.take (last + 1)).filter SheetRec.isWorksheet).length = y + 1 := by
    rw [List.take_add_one, List.filter_append, h2]
    simp [hw, y]
  have lx : y + 1 = x + (worksheetsFrom sheets first last).length := by
    rw [← ly, split2, List.filter_append, List.length_append]
    rfl
  have hxy : x ≤ y := by
    have : sheets.take last = sheets.take first ++ (sheets.drop first).take (last - first) := by
      conv_lhs => rw [← List.take_append_drop first (sheets.take last), List.take_take, List.drop_take]
      rw [min_eq_left (by omega)]
    show _ ≤ ((sheets.take last).filter SheetRec.isWorksheet).length
    rw [this, List.filter_append, List.length_append]
    omega
  refine ⟨hxy, ?_⟩
  have e : sheets.filter SheetRec.isWorksheet = (sheets.take first).filter SheetRec.isWorksheet ++
      (worksheetsFrom sheets first last ++ (sheets.drop (last + 1)).filter SheetRec.isWorksheet) := by
    conv_lhs => rw [split1, List.filter_append, List.filter_append]
    rfl
  rw [e, List.drop_left, List.take_append_of_le_length (by omega), List.take_of_length_le (by omega)]

theorem localRange_ok {b : Book} {base : Int} {sheets : List SheetRec} (hl : SheetLists base sheets b) (bad : Int) {first last : Nat} {s1 s2 : SheetRec}
    (h1 : sheets[first]? = some s1) (h2 : sheets[last]? = some s2) (hle : first ≤ last) :
    localRange b bad first last = .ok (if s1.isWorksheet ∧ s2.isWorksheet then
      ((((sheets.take first).filter SheetRec.isWorksheet).length : Int), (((sheets.take last).filter SheetRec.isWorksheet).length : Int)) else (-3, -3)) := by
  have hlt := (List.getElem?_eq_some_iff.mp h2).1
  unfold localRange
  rw [if_neg (by rw [hl.length]; omega), (idx_ok_nat _ _ _).mpr (hl.map first s1 h1), (idx_ok_nat _ _ _).mpr (hl.map last s2 h2)]
  simp only [bind, Except.bind]
  by_cases w1 : s1.isWorksheet = true
  · by_cases w2 : s2.isWorksheet = true
    · have := (worksheets_between sheets hle h2 w2).1
      simp only [w1, w2, if_true]
      rw [if_neg (by push Not; omega)]
      rfl
    · simp only [w1, w2, if_true]
      rw [if_pos (by simp; omega)]
      rfl
  · simp only [w1]
    rw [if_pos (by simp)]
    rfl

/-- What a successful load of BIFF8 globals knows. -/
theorem tables_loaded (env : BookEnv) (h8 : 80 ≤ env.bv) (pre post eof : Bytes) (he : eof.length < 65536) (items : List GItem)
    (hok : GlobalsOk env.bv items) (sheets : List SheetRec) (hsh : Sheets env.bv (textAt env) items sheets) (refs : List ExtRef)
    (hr : Externs items refs) (b : Book) (p : Int)
    (h : parseGlobals env (pre ++ encGlobals items eof ++ post) newBook (pre.length : Int) = .ok (b, p)) :
    SheetLists env.base sheets b ∧ SupInv (supbooks items) b ∧ b.externsheetInfo = refs.map fun r => (r.book, r.first, r.last) := by
  obtain ⟨f, b1, h1, h2, h3, _⟩ := parse_ok he hok h
  have hl := sheets_items (by omega) hsh h2
  have hsup := sups_items items h2
  have hx := externs_items h8 hr h2
  obtain ⟨os, _, _, _, _, _, rfl⟩ := eof_frame h3
  exact ⟨hl.congr rfl rfl rfl rfl rfl, ⟨hsup.count, hsup.locals, hsup.addins⟩, hx⟩

/-- **C46** (valid references).  In a BIFF8 workbook a reference to the sheets from `first` to `last` of this workbook, of which the ends are
worksheets, resolves to the numbers `x` and `y` of these two, and the worksheets numbered `x` to `y` are exactly the worksheets from `first`
to `last` in the file. -/
theorem C46_local_sheets (env : BookEnv) (h8 : 80 ≤ env.bv) (pre post eof : Bytes) (he : eof.length < 65536) (items : List GItem)
    (hok : GlobalsOk env.bv items) (sheets : List SheetRec) (hsh : Sheets env.bv (textAt env) items sheets) (refs : List ExtRef)
    (hr : Externs items refs) (b : Book) (p : Int)
    (h : parseGlobals env (pre ++ encGlobals items eof ++ post) newBook (pre.length : Int) = .ok (b, p))
    (refx : Nat) (r : ExtRef) (href : refs[refx]? = some r) (hlast : LastOf (supbooks items) .ours r.book) (s1 s2 : SheetRec)
    (h1 : sheets[r.first]? = some s1) (h2 : sheets[r.last]? = some s2) (hle : r.first ≤ r.last) (hsmall : r.first < 0xFFFE)
    (w1 : s1.isWorksheet = true) (w2 : s2.isWorksheet = true) :
    ∃ x y : Nat, externRange b refx = .ok ((x : Int), (y : Int)) ∧ x ≤ y ∧ b.sheetNames[x]? = some s1.name ∧ b.sheetNames[y]? = some s2.name ∧
      (b.sheetNames.drop x).take (y + 1 - x) = (worksheetsFrom sheets r.first r.last).map SheetRec.name := by
  obtain ⟨hl, hsup, hx⟩ := tables_loaded env h8 pre post eof he items hok sheets hsh refs hr b p h
  have hna : some r.book ≠ b.supbookAddinsInx := by
    intro hc
    have h3 := ((hsup.addins r.book).mp hc.symm).1
    rw [hlast.1] at h3
    cases h3
  have hlo : b.supbookLocalsInx = some r.book := (hsup.locals r.book).mpr hlast
  obtain ⟨hxy, hbet⟩ := worksheets_between sheets hle h2 w2
  have nth : ∀ (i : Nat) (s : SheetRec), sheets[i]? = some s → s.isWorksheet = true →
      b.sheetNames[((sheets.take i).filter SheetRec.isWorksheet).length]? = some s.name := by
    intro i s hi hw
    have hlt := (List.getElem?_eq_some_iff.mp hi).1
    have e : sheets = sheets.take i ++ s :: sheets.drop (i + 1) := by
      conv_lhs => rw [← List.take_append_drop i sheets]
      rw [List.drop_eq_getElem_cons hlt, (List.getElem?_eq_some_iff.mp hi).2]
    rw [hl.names]
    conv_lhs => rw [e, List.filter_append, List.filter_cons, if_pos hw, ← e]
    rw [List.map_append, List.getElem?_append_right (by simp)]
    simp
  refine ⟨_, _, ?_, hxy, nth _ _ h1 w1, nth _ _ h2 w2, ?_⟩
  · unfold externRange
    rw [hx, List.getElem?_map, href]
    simp only [Option.map_some]
    unfold externInfoRange
    simp only
    rw [if_neg hna, if_neg (by rw [hlo]; simp), if_neg (by omega), if_neg (by omega), localRange_ok hl _ h1 h2 hle, if_pos ⟨w1, w2⟩]
  · rw [hl.names, ← List.map_drop, ← List.map_take, hbet]

/-- **C46** (codes).  The references that do not resolve, each with its code. -/
theorem C46_codes (env : BookEnv) (h8 : 80 ≤ env.bv) (pre post eof : Bytes) (he : eof.length < 65536) (items : List GItem)
    (hok : GlobalsOk env.bv items) (sheets : List SheetRec) (hsh : Sheets env.bv (textAt env) items sheets) (refs : List ExtRef)
    (hr : Externs items refs) (b : Book) (p : Int)
    (h : parseGlobals env (pre ++ encGlobals items eof ++ post) newBook (pre.length : Int) = .ok (b, p)) (refx : Nat) :
    (refs.length ≤ refx → externRange b refx = .ok (-101, -101)) ∧
    ∀ r, refs[refx]? = some r →
      (LastOf (supbooks items) .addins r.book → externRange b refx = if r.first = 0xFFFE ∧ r.last = 0xFFFE then .ok (-5, -5) else .error .assertion) ∧
      ((supbooks items)[r.book]? ≠ some .ours → (supbooks items)[r.book]? ≠ some .addins → externRange b refx = .ok (-4, -4)) ∧
      (LastOf (supbooks items) .ours r.book →
        (r.first = 0xFFFE → r.last = 0xFFFE → externRange b refx = .ok (-1, -1)) ∧
        (r.first = 0xFFFF → r.last = 0xFFFF → externRange b refx = .ok (-2, -2)) ∧
        (¬ (r.first = r.last ∧ 0xFFFE ≤ r.first) → (r.last < r.first ∨ sheets.length ≤ r.last) → externRange b refx = .ok (-102, -102)) ∧
        (∀ s1 s2, r.first < 0xFFFE → r.first ≤ r.last → sheets[r.first]? = some s1 → sheets[r.last]? = some s2 →
          ¬ (s1.isWorksheet = true ∧ s2.isWorksheet = true) → externRange b refx = .ok (-3, -3))) := by
  obtain ⟨hl, hsup, hx⟩ := tables_loaded env h8 pre post eof he items hok sheets hsh refs hr b p h
  constructor
  · intro hn
    unfold externRange
    rw [hx, List.getElem?_eq_none (by simpa using hn)]
  · intro r href
    have e : externRange b refx = externInfoRange b (r.book, r.first, r.last) := by
      unfold externRange
      rw [hx, List.getElem?_map, href]
      rfl
    rw [e]
    unfold externInfoRange
    simp only
    refine ⟨?_, ?_, ?_⟩
    · intro ha
      rw [if_pos ((hsup.addins r.book).mpr ha).symm]
      simp only [eq_comm (a := 0xFFFE)]
    · intro h1 h2
      rw [if_neg (fun hc => h2 ((hsup.addins r.book).mp hc.symm).1), if_pos (fun hc => h1 ((hsup.locals r.book).mp hc.symm).1)]
    · intro hlast
      have hna : some r.book ≠ b.supbookAddinsInx := by
        intro hc
        have h3 := ((hsup.addins r.book).mp hc.symm).1
        rw [hlast.1] at h3
        cases h3
      have hlo : b.supbookLocalsInx = some r.book := (hsup.locals r.book).mpr hlast
      rw [if_neg hna, if_neg (by rw [hlo]; simp)]
      refine ⟨?_, ?_, ?_, ?_⟩
      · intro h1 h2; rw [if_pos ⟨h1, h2.symm⟩]
      · intro h1 h2; rw [if_neg (by omega), if_pos ⟨h1, h2.symm⟩]
      · intro h1 h2
        rw [if_neg (by omega), if_neg (by omega)]
        unfold localRange
        rw [if_pos (by rw [hl.length]; omega)]
      · intro s1 s2 h0 hle h1 h2 hw
        rw [if_neg (by omega), if_neg (by omega), localRange_ok hl _ h1 h2 hle, if_neg hw]

/-- **C46** (BIFF5 and BIFF7).  There the token itself holds the sheets; a negative index says that they are in this workbook. -/
theorem C46_local_sheets_old (env : BookEnv) (h50 : 50 ≤ env.bv) (pre post eof : Bytes) (he : eof.length < 65536)
    (items : List GItem) (hok : GlobalsOk env.bv items) (sheets : List SheetRec) (hsh : Sheets env.bv (textAt env) items sheets)
    (b : Book) (p : Int) (h : parseGlobals env (pre ++ encGlobals items eof ++ post) newBook (pre.length : Int) = .ok (b, p))
    (bv : Nat) (hbv : bv < 80) (k first last : Nat) (hk : 32768 ≤ k) (hk2 : k < 65536) (unused tok rest : Bytes) (hu : unused.length = 8) (s1 s2 : SheetRec)
    (h1 : sheets[first]? = some s1) (h2 : sheets[last]? = some s2) (hle : first ≤ last) (hsmall : last < 32768)
    (w1 : s1.isWorksheet = true) (w2 : s2.isWorksheet = true) :
    ∃ x y : Nat, sheets3d bv b (tok ++ 0x3A :: (le16 k ++ unused ++ le16 first ++ le16 last) ++ rest) (tok.length : Int) = .ok ((x : Int), (y : Int)) ∧
      x ≤ y ∧ (b.sheetNames.drop x).take (y + 1 - x) = (worksheetsFrom sheets first last).map SheetRec.name := by
  have hl : SheetLists env.base sheets b := by
    obtain ⟨f, b1, _, h4, h3, _⟩ := parse_ok he hok h
    have hl1 := sheets_items h50 hsh h4
    obtain ⟨os, _, _, _, _, _, rfl⟩ := eof_frame h3
    exact hl1.congr rfl rfl rfl rfl rfl
  obtain ⟨hxy, hbet⟩ := worksheets_between sheets hle h2 w2
  refine ⟨_, _, ?_, hxy, ?_⟩
  · unfold sheets3d
    rw [if_neg (by omega)]
    have hlen : (le16 k ++ unused ++ le16 first ++ le16 last).length = 14 := by simp [le16_length, hu]
    have hd : (tok ++ 0x3A :: (le16 k ++ unused ++ le16 first ++ le16 last) ++ rest).drop (tok.length + 1) =
        (le16 k ++ unused ++ le16 first ++ le16 last) ++ rest := by
      rw [List.append_assoc, List.cons_append, ← List.drop_drop, List.drop_left]
      rfl
    have hsl := slice_at hd hlen
    push_cast at hsl
    rw [show (tok.length : Int) + 15 = (tok.length : Int) + 1 + 14 by ring, hsl, unpackN_ok hlen]
    simp only [bind, Except.bind]
    have e : le16 k ++ unused ++ le16 first ++ le16 last = le16 k ++ (unused ++ (le16 first ++ le16 last)) := by simp
    have fskip : ∀ (x y : Bytes) (i : Nat), x.length ≤ i → fld (x ++ y) i 2 = fld y (i - x.length) 2 := by
      intro x y i hi
      unfold fld
      rw [List.drop_append, List.drop_eq_nil_of_le hi, List.nil_append]
    have f1 : fld (le16 k ++ unused ++ le16 first ++ le16 last) 0 2 = k := by rw [e, fld_head _ hk2]
    have f2 : fld (le16 k ++ unused ++ le16 first ++ le16 last) 10 2 = first := by
      rw [e, fskip _ _ 10 (by rw [le16_length]; omega), le16_length, fskip _ _ _ (by omega), hu]
      exact fld_head _ (by omega) _
    have f3 : fld (le16 k ++ unused ++ le16 first ++ le16 last) 12 2 = last := by
      rw [e, fskip _ _ 12 (by rw [le16_length]; omega), le16_length, fskip _ _ _ (by omega), hu, fskip _ _ _ (by rw [le16_length]), le16_length]
      exact fld_only _ (by omega)
    rw [f1, f2, f3]
    have g1 : sgn 16 k = (k : Int) - 65536 := by unfold sgn; rw [if_neg (by omega)]; norm_num
    have g2 : sgn 16 first = (first : Int) := by unfold sgn; rw [if_pos (by omega)]
    have g3 : sgn 16 last = (last : Int) := by unfold sgn; rw [if_pos (by omega)]
    rw [g1, g2, g3]
    unfold externRange57
    rw [if_neg (by omega), if_neg (by omega), localRange_ok hl _ h1 h2 hle, if_pos ⟨w1, w2⟩]
  · rw [hl.names, ← List.map_drop, ← List.map_take, hbet]

/-- Only the last SUPBOOK record of this workbook counts: with two of them a reference by way of the first is taken to be external. -/
theorem C46_two_local_supbooks :
    LastOf [SupKind.ours, .ours] .ours 1 ∧ externInfoRange { supbookLocalsInx := some 1, allSheetsMap := [0] } (0, 0, 0) = .ok (-4, -4) := by
  refine ⟨⟨rfl, ?_⟩, rfl⟩
  intro j hj
  rw [List.getElem?_eq_none (by simp; omega)]
  simp

end Xlrd
