import Verif.Spec.Open
import Verif.Props.Settings

/-!
# BOF records, file formats, the life of a book (C41, C42, C45, C51, C52)
-/
set_option linter.unusedSimpArgs false
namespace Xlrd
open Spec

/-! ## C52 -/

theorem get2_at {mem r : Bytes} {p n : Nat} (hn : n < 65536) (h : mem.drop p = le16 n ++ r) :
    get2bytes mem (p : Int) = (n, ((p + 2 : Nat) : Int)) := by
  unfold get2bytes
  rw [show ((2 : Int)) = ((2 : Nat) : Int) from rfl, slice_at h (le16_length n)]
  simp [fld_le16 n hn]

/-- The rest of `getbof` after the record has been read. -/
def bofRest (rqd opcode : Nat) (data : Bytes) (pos : Int) : R (Nat × Int) := do
  let v ← bofVersionRaw opcode data
  let b ← unpackN 4 (slice data 0 4)
  let v ← bofCheck rqd (if v = 40 ∧ fld b 2 2 = XL_WORKBOOK_GLOBALS_4W then 45 else v) (fld b 2 2)
  pure (v, pos)

theorem getbof_at {mem r data : Bytes} {p op : Nat} (rqd : Nat) (hop : op ∈ bofcodes) (hlen : 4 ≤ data.length ∧ data.length ≤ 20)
    (h : mem.drop p = encRec op data ++ r) :
    getbof mem (p : Int) rqd = bofRest rqd op (data ++ List.replicate (boflen op - data.length) 0) ((p + 4 + data.length : Nat) : Int) := by
  have hop' : op < 65536 := by
    simp only [bofcodes, List.mem_cons, List.mem_nil_iff, or_false] at hop
    rcases hop with h | h | h | h <;> subst h <;> decide
  have h1 : mem.drop p = le16 op ++ (le16 data.length ++ (data ++ r)) := by rw [h]; simp [encRec]
  have h2 : mem.drop (p + 2) = le16 data.length ++ (data ++ r) := drop_at h1 (le16_length _)
  have h3 : mem.drop (p + 2 + 2) = data ++ r := drop_at h2 (le16_length _)
  unfold getbof
  simp only [get2_at hop' h1, get2_at (show data.length < 65536 by omega) h2]
  rw [if_neg (by unfold MY_EOF; omega), if_neg (not_not.mpr hop), if_neg (by unfold MY_EOF; omega), if_neg (not_not.mpr hlen)]
  have e : slice mem ((p + 2 + 2 : Nat) : Int) (((p + 2 + 2 : Nat) : Int) + (data.length : Int)) = data := slice_at h3 rfl
  rw [e, if_neg (by omega)]
  unfold bofRest
  congr 1

theorem bof_head {a st : Nat} {rest : Bytes} (hst : st < 65536) :
    unpackN 4 (slice (le16 a ++ le16 st ++ rest) 0 4) = .ok (le16 a ++ le16 st) ∧ fld (le16 a ++ le16 st) 2 2 = st := by
  have e : slice (le16 a ++ le16 st ++ rest) 0 ((4 : Nat) : Int) = le16 a ++ le16 st := slice_front 4 _ _ (by simp)
  refine ⟨?_, ?_⟩
  · rw [show ((4 : Int)) = ((4 : Nat) : Int) from rfl, e, unpackN_ok (by simp)]
  · have := fld_le16 st hst
    simpa [fld, le16] using this

theorem bofRest_eq {a st v0 op : Nat} {rest : Bytes} (rqd : Nat) (pos : Int) (hst : st < 65536)
    (hraw : bofVersionRaw op (le16 a ++ le16 st ++ rest) = .ok v0) :
    bofRest rqd op (le16 a ++ le16 st ++ rest) pos =
      (bofCheck rqd (if v0 = 40 ∧ st = XL_WORKBOOK_GLOBALS_4W then 45 else v0) st).map fun v => (v, pos) := by
  obtain ⟨h1, h2⟩ := bof_head (a := a) (rest := rest) hst
  unfold bofRest
  rw [hraw]
  simp only [bind, Except.bind]
  rw [h1]
  simp only [h2]
  cases bofCheck rqd (if v0 = 40 ∧ st = XL_WORKBOOK_GLOBALS_4W then 45 else v0) st <;> rfl

theorem bofRaw_new {a st : Nat} {y rest : Bytes} (ha : a < 65536) (hst : st < 65536) (hy : y.length = 4) :
    bofVersionRaw 0x0809 (le16 a ++ le16 st ++ (y ++ rest)) = .ok (bofVersion8 a (fld y 0 2) (fld y 2 2)) := by
  obtain ⟨h1, _⟩ := bof_head (a := a) (rest := y ++ rest) hst
  have h2 : unpackN 4 (slice (le16 a ++ le16 st ++ (y ++ rest)) 4 8) = .ok y := by
    have : slice (le16 a ++ le16 st ++ (y ++ rest)) ((4 : Nat) : Int) (((4 : Nat) : Int) + ((4 : Nat) : Int)) = y :=
      slice_at (r := rest) (by simp [le16]) hy
    rw [show ((4 : Int)) = ((4 : Nat) : Int) from rfl, show ((8 : Int)) = ((4 : Nat) : Int) + ((4 : Nat) : Int) from rfl, this, unpackN_ok hy]
  have h3 : fld (le16 a ++ le16 st) 0 2 = a := by
    have := le_le16 a ha (le16 st)
    simpa [fld] using this
  unfold bofVersionRaw
  rw [h1]
  simp only [bind, Except.bind]
  rw [if_pos (by decide), h2]
  simp only [h3]
  rfl

theorem bofRaw_old {a st op v : Nat} {rest : Bytes} (hst : st < 65536) (hop : (op, v) ∈ [(0x0409, 40), (0x0209, 30), (0x0009, 21)]) :
    bofVersionRaw op (le16 a ++ le16 st ++ rest) = .ok v := by
  obtain ⟨h1, _⟩ := bof_head (a := a) (rest := rest) hst
  unfold bofVersionRaw
  rw [h1]
  simp only [List.mem_cons, Prod.mk.injEq, List.mem_nil_iff, or_false] at hop
  rcases hop with ⟨rfl, rfl⟩ | ⟨rfl, rfl⟩ | ⟨rfl, rfl⟩ <;> rfl

theorem mixed_tail (u st : Nat) (tail : Bytes) :
    ∃ y rest : Bytes, y.length = 4 ∧ tail ++ List.replicate (boflen 0x0809 - (le16 u ++ le16 st ++ tail).length) (0 : UInt8) = y ++ rest := by
  refine ⟨(tail ++ List.replicate (boflen 0x0809 - (le16 u ++ le16 st ++ tail).length) (0 : UInt8)).take 4, _, ?_, (List.take_append_drop 4 _).symm⟩
  simp [boflen]
  omega

/-- The version and stream type of a well-formed record. -/
theorem bofRest_read {v st op : Nat} {data : Bytes} (h : BofRecord v st op data) (rqd : Nat) (pos : Int) :
    bofRest rqd op (data ++ List.replicate (boflen op - data.length) 0) pos = (bofCheck rqd v st).map fun v => (v, pos) := by
  have pad : ∀ (b tail : Bytes) (n : Nat), ∃ rest, b ++ tail ++ List.replicate n (0 : UInt8) = b ++ rest := fun b tail n => ⟨_, List.append_assoc ..⟩
  cases h with
  | biff8 _ tail hst ht =>
    obtain ⟨y, rest, hy, e⟩ : ∃ y rest : Bytes, y.length = 4 ∧ tail ++ List.replicate (boflen 0x0809 - (le16 0x0600 ++ le16 st ++ tail).length) (0 : UInt8) = y ++ rest := by
      refine ⟨(tail ++ List.replicate (boflen 0x0809 - (le16 0x0600 ++ le16 st ++ tail).length) (0 : UInt8)).take 4, _, ?_, (List.take_append_drop 4 _).symm⟩
      simp [boflen]
      omega
    rw [List.append_assoc, e, bofRest_eq rqd pos hst (bofRaw_new (by decide) hst hy)]
    rfl
  | biff7 _ build year tail hst hb hy ht new =>
    obtain ⟨rest, e⟩ := pad (le16 0x0500 ++ le16 st ++ (le16 build ++ le16 year)) tail
      (boflen 0x0809 - (le16 0x0500 ++ le16 st ++ le16 build ++ le16 year ++ tail).length)
    have e' : le16 0x0500 ++ le16 st ++ le16 build ++ le16 year ++ tail ++
        List.replicate (boflen 0x0809 - (le16 0x0500 ++ le16 st ++ le16 build ++ le16 year ++ tail).length) (0 : UInt8) =
        le16 0x0500 ++ le16 st ++ ((le16 build ++ le16 year) ++ rest) := by
      rw [← List.append_assoc, ← e]; simp only [List.append_assoc]
    rw [e', bofRest_eq rqd pos hst (bofRaw_new (by decide) hst (by simp))]
    have h1 : fld (le16 build ++ le16 year) 0 2 = build := by
      have := le_le16 build hb (le16 year)
      simpa [fld] using this
    have h2 := (bof_head (a := build) (rest := []) hy).2
    rw [h1, h2]
    have : bofVersion8 0x0500 build year = 70 := by
      unfold bofVersion8
      rw [if_neg (by decide), if_pos rfl, if_neg]
      simp only [List.mem_cons, List.mem_nil_iff, or_false]
      omega
    rw [this]
    rfl
  | biff5 _ build year tail hst hb hy ht old =>
    obtain ⟨rest, e⟩ := pad (le16 0x0500 ++ le16 st ++ (le16 build ++ le16 year)) tail
      (boflen 0x0809 - (le16 0x0500 ++ le16 st ++ le16 build ++ le16 year ++ tail).length)
    have e' : le16 0x0500 ++ le16 st ++ le16 build ++ le16 year ++ tail ++
        List.replicate (boflen 0x0809 - (le16 0x0500 ++ le16 st ++ le16 build ++ le16 year ++ tail).length) (0 : UInt8) =
        le16 0x0500 ++ le16 st ++ ((le16 build ++ le16 year) ++ rest) := by
      rw [← List.append_assoc, ← e]; simp only [List.append_assoc]
    rw [e', bofRest_eq rqd pos hst (bofRaw_new (by decide) hst (by simp))]
    have h1 : fld (le16 build ++ le16 year) 0 2 = build := by
      have := le_le16 build hb (le16 year)
      simpa [fld] using this
    have h2 := (bof_head (a := build) (rest := []) hy).2
    rw [h1, h2]
    have : bofVersion8 0x0500 build year = 50 := by
      unfold bofVersion8
      rw [if_neg (by decide), if_pos rfl, if_pos]
      simp only [List.mem_cons, List.mem_nil_iff, or_false]
      omega
    rw [this]
    rfl
  | biff4 _ u tail hst ht sheet =>
    rw [List.append_assoc, bofRest_eq rqd pos hst (bofRaw_old (v := 40) hst (by decide)), if_neg (fun a => sheet a.2)]
  | biff4w u tail ht =>
    rw [List.append_assoc, bofRest_eq rqd pos (by decide) (bofRaw_old (v := 40) (by decide) (by decide)), if_pos ⟨rfl, rfl⟩]
  | biff3 _ u tail hst ht =>
    rw [List.append_assoc, bofRest_eq rqd pos hst (bofRaw_old (v := 30) hst (by decide)), if_neg (by simp)]
  | biff2 _ u tail hst ht =>
    rw [List.append_assoc, bofRest_eq rqd pos hst (bofRaw_old (v := 21) hst (by decide)), if_neg (by simp)]

  | mixed _ _ u tail hst ht hu sheet =>
    obtain ⟨y, rest, hy, e⟩ := mixed_tail u st tail
    have hb : bofVersion8 u (fld y 0 2) (fld y 2 2) = v ∧ u < 65536 := by
      simp only [List.mem_cons, Prod.mk.injEq, List.mem_nil_iff, or_false] at hu
      rcases hu with ⟨rfl, rfl⟩ | ⟨rfl, rfl⟩ | ⟨rfl, rfl⟩ | ⟨rfl, rfl⟩ | ⟨rfl, rfl⟩ <;> exact ⟨rfl, by decide⟩
    rw [List.append_assoc, e, bofRest_eq rqd pos hst (bofRaw_new hb.2 hst hy), hb.1, if_neg (fun a => sheet a.1 a.2)]
  | mixed4w tail ht =>
    obtain ⟨y, rest, hy, e⟩ := mixed_tail 0x400 0x100 tail
    rw [List.append_assoc, e, bofRest_eq rqd pos (by decide) (bofRaw_new (by decide) (by decide) hy)]
    rfl

theorem bof_shape {v st op : Nat} {data : Bytes} (h : BofRecord v st op data) :
    op ∈ bofcodes ∧ (4 ≤ data.length ∧ data.length ≤ 20) ∧ v ∈ [80, 70, 50, 45, 40, 30, 21] ∧ (v = 45 → st = 0x100) ∧ (st = 0x100 → v ≠ 40) := by
  cases h with
  | mixed _ _ u tail hst ht hu sheet =>
    simp only [List.mem_cons, Prod.mk.injEq, List.mem_nil_iff, or_false] at hu
    refine ⟨by decide, ⟨?_, ?_⟩, ?_, ?_, fun hs hv => sheet hv hs⟩
    · simp; omega
    · simp; omega
    · rcases hu with ⟨_, rfl⟩ | ⟨_, rfl⟩ | ⟨_, rfl⟩ | ⟨_, rfl⟩ | ⟨_, rfl⟩ <;> decide
    · omega
  | _ => all_goals (refine ⟨by decide, ?_, by decide, ?_, ?_⟩ <;> simp <;> omega)

/-- C52: a well-formed BOF record of any version, found where a file starts, gives that version if the stream is one a file may start
with, and is otherwise refused with an XLRDError. -/
theorem C52_first_bof {v st op : Nat} {data : Bytes} (h : BofRecord v st op data) (pre post : Bytes) :
    firstBof (pre ++ encRec op data ++ post) (pre.length : Int) =
      if StartsFile v st then .ok (v, ((pre ++ encRec op data).length : Int)) else .error .xlrd := by
  obtain ⟨h1, h2, h3, h4, h5⟩ := bof_shape h
  have hd : (pre ++ encRec op data ++ post).drop pre.length = encRec op data ++ post := by simp
  unfold firstBof
  rw [getbof_at _ h1 h2 hd, bofRest_read h]
  have hl : ((pre ++ encRec op data).length : Int) = ((pre.length + 4 + data.length : Nat) : Int) := by simp [encRec]; omega
  rw [hl]
  unfold bofCheck
  by_cases hc : st = 5 ∨ v = 45
  · have hc' : (XL_WORKBOOK_GLOBALS = XL_WORKBOOK_GLOBALS ∧ (st = XL_WORKBOOK_GLOBALS ∨ (v = 45 ∧ st = XL_WORKBOOK_GLOBALS_4W))) ∨ st = XL_WORKBOOK_GLOBALS := by
      rcases hc with hc | hc
      · exact Or.inr hc
      · exact Or.inl ⟨rfl, Or.inr ⟨hc, h4 hc⟩⟩
    rw [if_pos hc', if_pos (show StartsFile v st from hc.elim Or.inl (fun a => Or.inr (Or.inl a)))]
    simp only [Except.map, bind, Except.bind]
    rw [if_neg (by rintro rfl; revert h3; decide), if_neg]
    · rfl
    · intro hn; apply hn; revert h3; simp; omega
  · have hc' : ¬ ((XL_WORKBOOK_GLOBALS = XL_WORKBOOK_GLOBALS ∧ (st = XL_WORKBOOK_GLOBALS ∨ (v = 45 ∧ st = XL_WORKBOOK_GLOBALS_4W))) ∨ st = XL_WORKBOOK_GLOBALS) := by
      rintro (⟨_, a | a⟩ | a)
      · exact hc (Or.inl a)
      · exact hc (Or.inr a.1)
      · exact hc (Or.inl a)
    rw [if_neg hc']
    by_cases hw : v < 50 ∧ st = XL_WORKSHEET
    · rw [if_pos hw, if_pos (show StartsFile v st from Or.inr (Or.inr hw))]
      simp only [Except.map, bind, Except.bind]
      rw [if_neg (by rintro rfl; revert h3; decide), if_neg]
      · rfl
      · intro hn; apply hn; revert h3; simp; omega
    · rw [if_neg hw, if_neg]
      · rfl
      · rintro (a | a | a)
        · exact hc (Or.inl a)
        · exact hc (Or.inr a)
        · exact hw a

/-- C52: at the place of a sheet, a well-formed BOF record of a worksheet is accepted and anything else refused. -/
theorem C52_sheet_bof {v st op : Nat} {data : Bytes} (h : BofRecord v st op data) (pre post : Bytes) :
    getbof (pre ++ encRec op data ++ post) (pre.length : Int) XL_WORKSHEET =
      if st = 0x10 then .ok (v, ((pre ++ encRec op data).length : Int)) else .error .xlrd := by
  obtain ⟨h1, h2, h3, h4, h5⟩ := bof_shape h
  have hd : (pre ++ encRec op data ++ post).drop pre.length = encRec op data ++ post := by simp
  rw [getbof_at _ h1 h2 hd, bofRest_read h]
  have hl : ((pre ++ encRec op data).length : Int) = ((pre.length + 4 + data.length : Nat) : Int) := by simp [encRec]; omega
  rw [hl]
  unfold bofCheck
  by_cases hs : st = 0x10
  · rw [if_pos (Or.inr hs), if_pos hs]; rfl
  · rw [if_neg, if_neg (fun a => hs a.2), if_neg hs]
    · rfl
    · rintro (a | a)
      · exact absurd a.1 (by decide)
      · exact hs a

/-- C52: a BOF record with the code of BIFF5 and any other version number is refused where a file starts. -/
theorem C52_unknown_version (u st : Nat) (hu : u < 65536) (hst : st < 65536) (hun : u ∉ [0, 7, 0x200, 0x300, 0x400, 0x500, 0x600]) (tail : Bytes)
    (ht : tail.length ≤ 16) (pre post : Bytes) :
    firstBof (pre ++ encRec 0x0809 (le16 u ++ le16 st ++ tail) ++ post) (pre.length : Int) = .error .xlrd := by
  have hd : (pre ++ encRec 0x0809 (le16 u ++ le16 st ++ tail) ++ post).drop pre.length = encRec 0x0809 (le16 u ++ le16 st ++ tail) ++ post := by simp
  obtain ⟨y, rest, hy, e⟩ := mixed_tail u st tail
  have hb : bofVersion8 u (fld y 0 2) (fld y 2 2) = 0 := by
    simp only [List.mem_cons, List.mem_nil_iff, or_false, not_or] at hun
    unfold bofVersion8
    rw [if_neg (by omega), if_neg (by omega), if_neg (by omega), if_neg (by omega), if_neg (by omega)]
  unfold firstBof
  rw [getbof_at _ (by decide) (by simp; omega) hd, List.append_assoc, e, bofRest_eq _ _ hst (bofRaw_new hu hst hy), hb, if_neg (by simp)]
  unfold bofCheck
  by_cases h1 : (XL_WORKBOOK_GLOBALS = XL_WORKBOOK_GLOBALS ∧ (st = XL_WORKBOOK_GLOBALS ∨ (0 = 45 ∧ st = XL_WORKBOOK_GLOBALS_4W))) ∨ st = XL_WORKBOOK_GLOBALS
  · rw [if_pos h1]; rfl
  · rw [if_neg h1]
    by_cases h2 : 0 < 50 ∧ st = XL_WORKSHEET
    · rw [if_pos h2]; rfl
    · rw [if_neg h2]; rfl

/-- A file written by another program: code of BIFF5, version number of BIFF3; and one that is refused. -/
example : BofRecord 30 0x10 0x0809 [0, 3, 0x10, 0] ∧ firstBof ([9, 8, 4, 0, 0, 3, 0x10, 0] ++ [1, 2]) 0 = .ok (30, 8) ∧
    firstBof [9, 8, 4, 0, 1, 3, 0x10, 0] 0 = .error .xlrd :=
  ⟨.mixed 30 0x10 0x300 [] (by decide) (by decide) (by decide) (by decide), by decide, by decide⟩

theorem bofRaw_total {op : Nat} {data : Bytes} (hop : op ∈ bofcodes) (hlen : boflen op ≤ data.length) (h4 : 4 ≤ data.length) :
    ∃ v, bofVersionRaw op data = .ok v ∧ v ∈ [80, 70, 50, 40, 30, 21, 0] := by
  have e : ∀ (i : Nat), i + 4 ≤ data.length → (slice data ((i : Nat) : Int) (((i + 4 : Nat)) : Int)).length = 4 := by
    intro i hi
    rw [slice_nat]; simp; omega
  have e0 := unpackN_ok (e 0 (by omega))
  unfold bofVersionRaw
  rw [show ((0 : Int)) = ((0 : Nat) : Int) from rfl, show ((4 : Int)) = ((0 + 4 : Nat) : Int) from rfl, e0]
  simp only [bind, Except.bind]
  simp only [bofcodes, List.mem_cons, List.mem_nil_iff, or_false] at hop
  rcases hop with rfl | rfl | rfl | rfl
  · have e1 := unpackN_ok (e 4 (by simpa [boflen] using hlen))
    rw [if_pos (by decide), show ((8 : Int)) = ((4 + 4 : Nat) : Int) from rfl, e1]
    refine ⟨_, rfl, ?_⟩
    unfold bofVersion8
    split_ifs <;> decide
  · exact ⟨40, rfl, by decide⟩
  · exact ⟨30, rfl, by decide⟩
  · exact ⟨21, rfl, by decide⟩

theorem getbof_total (mem : Bytes) (pos : Int) (rqd : Nat) :
    (∃ v p, getbof mem pos rqd = .ok (v, p) ∧ v ∈ [80, 70, 50, 45, 40, 30, 21, 0]) ∨ getbof mem pos rqd = .error .xlrd := by
  unfold getbof
  simp only
  generalize get2bytes mem pos = x
  by_cases c1 : x.1 = MY_EOF
  · rw [if_pos c1]; exact Or.inr rfl
  rw [if_neg c1]
  by_cases c2 : x.1 ∈ bofcodes
  swap
  · rw [if_pos c2]; exact Or.inr rfl
  rw [if_neg (not_not.mpr c2)]
  by_cases c3 : (get2bytes mem x.2).1 = MY_EOF
  · rw [if_pos c3]; exact Or.inr rfl
  rw [if_neg c3]
  by_cases c4 : 4 ≤ (get2bytes mem x.2).1 ∧ (get2bytes mem x.2).1 ≤ 20
  swap
  · rw [if_pos c4]; exact Or.inr rfl
  rw [if_neg (not_not.mpr c4)]
  generalize hd : slice mem (get2bytes mem x.2).2 ((get2bytes mem x.2).2 + ((get2bytes mem x.2).1 : Int)) = data
  by_cases c5 : data.length < (get2bytes mem x.2).1
  · rw [if_pos c5]; exact Or.inr rfl
  · rw [if_neg c5]
    have hop := c2
    have hlen : boflen x.1 ≤ (data ++ List.replicate (boflen x.1 - (get2bytes mem x.2).1) (0 : UInt8)).length := by simp; omega
    have h4 : 4 ≤ (data ++ List.replicate (boflen x.1 - (get2bytes mem x.2).1) (0 : UInt8)).length := by simp; omega
    obtain ⟨v, hv, hm⟩ := bofRaw_total hop hlen h4
    have h4' : (slice (data ++ List.replicate (boflen x.1 - (get2bytes mem x.2).1) (0 : UInt8)) 0 4).length = 4 := by
      rw [show ((0 : Int)) = ((0 : Nat) : Int) from rfl, show ((4 : Int)) = ((4 : Nat) : Int) from rfl, slice_nat]
      rw [List.drop_zero, List.length_take]; omega
    rw [hv]
    simp only [bind, Except.bind]
    rw [unpackN_ok h4']
    simp only
    generalize hst : fld (slice (data ++ List.replicate (boflen x.1 - (get2bytes mem x.2).1) (0 : UInt8)) 0 4) 2 2 = st
    have hm' : (if v = 40 ∧ st = XL_WORKBOOK_GLOBALS_4W then 45 else v) ∈ [80, 70, 50, 45, 40, 30, 21, 0] := by
      split_ifs
      · decide
      · revert hm; simp; omega
    unfold bofCheck
    generalize (if v = 40 ∧ st = XL_WORKBOOK_GLOBALS_4W then 45 else v) = w at hm'
    split_ifs
    · exact Or.inl ⟨_, _, rfl, hm'⟩
    · exact Or.inl ⟨_, _, rfl, hm'⟩
    · exact Or.inr rfl

/-- C52: whatever the bytes, looking for the first BOF record gives a supported version or an XLRDError. -/
theorem C52_any_bytes (mem : Bytes) (base : Int) :
    (∃ v p, firstBof mem base = .ok (v, p) ∧ v ∈ [80, 70, 50, 45, 40, 30, 21]) ∨ firstBof mem base = .error .xlrd := by
  unfold firstBof
  rcases getbof_total mem base XL_WORKBOOK_GLOBALS with ⟨v, p, h, hm⟩ | h
  · rw [h]
    simp only [bind, Except.bind]
    by_cases h0 : v = 0
    · rw [if_pos h0]; exact Or.inr rfl
    · rw [if_neg h0]
      have : v ∈ [80, 70, 50, 45, 40, 30, 21] := by revert hm; simp; omega
      rw [if_neg]
      · exact Or.inl ⟨v, p, rfl, this⟩
      · intro hn; apply hn; revert this; simp; omega
  · rw [h]; exact Or.inr rfl

end Xlrd
