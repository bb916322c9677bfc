import Verif.Lemmas.Sst

/-!
# Formula string results, CONTINUE records of the shared string table, RK numbers
-/
set_option linter.unusedSimpArgs false
namespace Xlrd
open Spec

theorem sliceFrom_nat {α} (l : List α) (n : Nat) (h : n ≤ l.length) : sliceFrom l (n : Int) = l.drop n := by
  unfold sliceFrom clampIdx
  have h1 : ¬ ((n : Int) < 0) := by omega
  simp only [h1, ↓reduceIte, Int.toNat_natCast, Nat.min_eq_left h]

/-- The CONTINUE records holding the given payloads. -/
def continues (ds : List Bytes) : Bytes := encRecs (ds.map fun d => (XL_CONTINUE, d))

theorem continues_cons (d : Bytes) (ds : List Bytes) : continues (d :: ds) = encRec XL_CONTINUE d ++ continues ds := by
  simp [continues, encRecs]

theorem stringRecLoop_ok (bv : Nat) (dec : Bytes → R PyStr) (mem : Bytes) (expected : Nat) (ds : List Bytes) (ts : List PyStr)
    (hlen : ds.length = ts.length) (hd : ∀ (i : Nat) d t, ds[i]? = some d → ts[i]? = some t → stringChunk bv dec d 0 = .ok t)
    (hne : ∀ t ∈ ts, t ≠ []) (hb : ∀ d ∈ ds, d.length < 65536) :
    ∀ (fuel : Nat) (data : Bytes) (off : Int) (t0 acc : PyStr) (p : Nat) (rest : Bytes), ds.length < fuel →
      stringChunk bv dec data off = .ok t0 → (acc ++ t0 ++ ts.flatten).length = expected →
      mem.drop p = continues ds ++ rest →
      stringRecLoop bv dec mem expected fuel data off (p : Int) acc =
        .ok (acc ++ t0 ++ ts.flatten, ((p + (continues ds).length : Nat) : Int)) := by
  induction ds generalizing ts with
  | nil =>
    intro fuel data off t0 acc p rest hf hc he hm
    have : ts = [] := by cases ts with
      | nil => rfl
      | cons _ _ => simp at hlen
    subst this
    cases fuel with
    | zero => omega
    | succ fuel =>
      simp only [List.flatten_nil, List.append_nil] at he ⊢
      simp [stringRecLoop, hc, bind, Except.bind, pure, Except.pure, he, continues, encRecs]
  | cons d ds ih =>
    intro fuel data off t0 acc p rest hf hc he hm
    cases ts with
    | nil => simp at hlen
    | cons t ts =>
    cases fuel with
    | zero => simp at hf
    | succ fuel =>
      have ht := hne t (by simp)
      have htl : 0 < t.length := List.length_pos_iff.mpr ht
      rw [continues_cons, List.append_assoc] at hm
      have hdl := hb d (by simp)
      have hg := getRecordParts_at (by decide : XL_CONTINUE < 65536) hdl hm
      have hm' := drop_at hm (encRec_length XL_CONTINUE d)
      have hrec := ih ts (by simpa using hlen) (fun i d' t' h1 h2 => hd (i + 1) d' t' (by simpa using h1) (by simpa using h2))
        (fun x hx => hne x (by simp [hx])) (fun x hx => hb x (by simp [hx])) fuel d 0 t (acc ++ t0) (p + (4 + d.length)) rest
        (by simpa using hf) (hd 0 d t (by simp) (by simp)) (by rw [← he]; simp) hm'
      conv_lhs => rw [stringRecLoop]
      have hlt : (acc ++ t0).length < expected := by rw [← he]; simp; omega
      have h1 : ¬ ((acc ++ t0).length = expected) := by omega
      have h2 : ¬ ((acc ++ t0).length > expected) := by omega
      simp only [hc, bind, Except.bind, h1, h2, ↓reduceIte, hg]
      rw [if_neg (by simp)]
      rw [show p + 4 + d.length = p + (4 + d.length) by omega, hrec, continues_cons, List.length_append, encRec_length]
      simp only [List.flatten_cons, List.append_assoc]
      congr 3; omega

/-- CONTINUE records are collected up to the next record of another kind. -/
theorem sstContinues_ok (mem : Bytes) (ds : List Bytes) (hb : ∀ d ∈ ds, d.length < 65536) (c : Nat) (b : Bytes) (hc : c < 65536)
    (hc2 : c ≠ XL_CONTINUE) (hbl : b.length < 65536) :
    ∀ (fuel p : Nat) (rest : Bytes), ds.length < fuel → mem.drop p = continues ds ++ (encRec c b ++ rest) →
      sstContinues mem fuel (p : Int) = .ok (ds, ((p + (continues ds).length : Nat) : Int)) := by
  induction ds with
  | nil =>
    intro fuel p rest hf hm
    cases fuel with
    | zero => omega
    | succ fuel =>
      have hm' : mem.drop p = encRec c b ++ rest := by simpa [continues, encRecs] using hm
      rw [sstContinues, conditional_at hc hbl hm', if_neg hc2]
      simp [bind, Except.bind, pure, Except.pure, continues, encRecs]
  | cons d ds ih =>
    intro fuel p rest hf hm
    cases fuel with
    | zero => omega
    | succ fuel =>
      have hdl := hb d (by simp)
      rw [continues_cons, List.append_assoc] at hm
      have hm' := drop_at hm (encRec_length XL_CONTINUE d)
      have := ih (fun x hx => hb x (by simp [hx])) fuel (p + (4 + d.length)) rest (by simpa using hf) hm'
      rw [sstContinues, conditional_at (by decide : XL_CONTINUE < 65536) hdl hm, if_pos rfl]
      simp only [bind, Except.bind, pure, Except.pure]
      rw [show p + 4 + d.length = p + (4 + d.length) by omega, this, continues_cons, List.length_append, encRec_length]
      simp only [Except.ok.injEq, Prod.mk.injEq, true_and]
      omega

theorem recordsOf_count (is : Items) : (recordsOf is).2.length = (is.filter (·.isNone)).length := by
  induction is with
  | nil => rfl
  | cons x is ih => cases x <;> simp [recordsOf, ih]

theorem segItems_count (segs : List Seg) : ((segItems segs).filter (·.isNone)).length = segs.length := by
  induction segs with
  | nil => rfl
  | cons s ss ih => simp [segItems] at ih ⊢; exact ih

theorem segs_le_items (s : SStr) : s.segs.length ≤ (s.items.filter (·.isNone)).length := by
  simp only [SStr.items, List.filter_append, List.length_append, segItems_count]; omega

theorem segs_le_records (hdr : Bytes) (ss : List SStr) (s : SStr) (h : s ∈ ss) : s.segs.length ≤ (sstRecords hdr ss).length := by
  have h1 := segs_le_items s
  have h2 : (s.items.filter (·.isNone)).length ≤ ((ss.flatMap SStr.items).filter (·.isNone)).length := by
    induction ss with
    | nil => simp at h
    | cons x ss ih =>
      simp only [List.flatMap_cons, List.filter_append, List.length_append]
      rcases List.mem_cons.mp h with rfl | h'
      · omega
      · have := ih h'; omega
  have h3 := recordsOf_count (ss.flatMap SStr.items)
  unfold sstRecords
  simp only [recordsOf_some, List.length_cons]
  omega

end Xlrd
