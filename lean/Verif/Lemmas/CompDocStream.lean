import Verif.Lemmas.CompDocLoc
import Mathlib.Tactic.NormNum

/-!
# `_get_stream` and `_locate_stream` as functions of the chain
-/
set_option linter.unusedSimpArgs false
namespace Xlrd
open Spec

theorem getStream_sound (fuel : Nat) (seen : List Nat) (mem : Option Bytes) (base : Nat) (sat : List Int) (sec : Nat)
    (start : Int) (size : Option Int) (id : Option Nat) (hid : id ≠ some 0) (b : Bytes) (seen' : List Nat)
    (h : getStream fuel seen mem base sat sec start size id = some (.ok (b, seen'))) :
    ∃ secs, Chain sat start secs ∧ b = (piecesOf (mem.getD []) base sec secs size).flatten ∧
      MarkedOpt seen secs id seen' ∧ (mem = none → secs = []) := by
  unfold getStream at h
  split at h
  · cases h
  · cases h
  · rename_i ps s' hg
    obtain ⟨secs, h1, _, h2, h3⟩ := getLoop_sound fuel seen _ base sat sec start size id hid ps s' hg
    split_ifs at h with h4
    · cases h
    · simp only [Option.some.injEq, Except.ok.injEq, Prod.mk.injEq] at h
      obtain ⟨rfl, rfl⟩ := h
      refine ⟨secs, h1, by rw [h2], h3, ?_⟩
      intro hm
      by_contra hne
      apply h4
      refine ⟨hm, ?_⟩
      subst h2
      cases secs with
      | nil => exact absurd rfl hne
      | cons a as => simp [piecesOf]

theorem getStream_complete (seen : List Nat) (mem : Bytes) (base : Nat) (sat : List Int) (sec : Nat)
    (start : Int) (size : Option Int) (id : Option Nat) (hid : id ≠ some 0) (secs : List Nat) (hc : Chain sat start secs)
    (seen' : List Nat) (hm : MarkedOpt seen secs id seen') (fuel : Nat) (hf : secs.length ≤ fuel) :
    getStream fuel seen (some mem) base sat sec start size id =
      some (.ok ((piecesOf mem base sec secs size).flatten, seen')) := by
  unfold getStream
  simp only [Option.getD_some]
  rw [getLoop_complete seen mem base sat sec start size id hid secs hc seen' hm fuel hf]
  simp

theorem getStream_mono (fuel fuel' : Nat) (hf : fuel ≤ fuel') (seen : List Nat) (mem : Option Bytes) (base : Int)
    (sat : List Int) (sec : Nat) (s : Int) (todo : Option Int) (id : Option Nat) (r)
    (h : getStream fuel seen mem base sat sec s todo id = some r) :
    getStream fuel' seen mem base sat sec s todo id = some r := by
  unfold getStream at h ⊢
  cases hg : getLoop fuel seen (mem.getD []) base sat sec s todo id with
  | none => simp [hg] at h
  | some v => rw [getLoop_mono fuel fuel' hf _ _ _ _ _ _ _ _ _ hg]; rw [hg] at h; exact h

theorem getStream_ends (seen : List Nat) (mem : Option Bytes) (base : Int) (sat : List Int) (sec : Nat) (s : Int)
    (todo : Option Int) (i : Nat) (hid : i ≠ 0) :
    ∃ r, ∀ fuel, seen.length < fuel → getStream fuel seen mem base sat sec s todo (some i) = some r := by
  have hcl : seen.count 0 ≤ seen.length := List.count_le_length
  obtain ⟨v, hv⟩ := getLoop_ends seen (mem.getD []) base sat sec s todo i hid (seen.length + 1) (by omega)
  have : ∃ r, getStream (seen.length + 1) seen mem base sat sec s todo (some i) = some r := by
    unfold getStream
    rw [hv]
    cases v with
    | error e => exact ⟨_, rfl⟩
    | ok p => simp only; split_ifs <;> exact ⟨_, rfl⟩
  obtain ⟨r, hr⟩ := this
  exact ⟨r, fun fuel hf => getStream_mono _ _ (by omega) _ _ _ _ _ _ _ _ _ hr⟩

theorem take_slice (mem : Bytes) (a b n : Nat) (hab : n ≤ b - a) :
    (slice mem (a : Int) (b : Int)).take n = slice mem (a : Int) ((a : Int) + n) := by
  have e : ((a : Int) + n) = ((a + n : Nat) : Int) := by push_cast; rfl
  rw [e, slice_nat, slice_nat, List.drop_take, List.drop_take, List.take_take]
  congr 1
  omega

/-- number of sectors needed -/
theorem limit_bounds (size : Int) (sec n : Nat) (hs : 0 < sec) (h : ((n + 1 : Nat) : Int) = (size + sec - 1) / sec) :
    0 < size ∧ size ≤ ((n + 1 : Nat) : Int) * sec ∧ ((n : Nat) : Int) * sec < size := by
  have hs' : (0 : Int) < sec := by exact_mod_cast hs
  have h1 := Int.mul_ediv_add_emod (size + sec - 1) sec
  have h2 := Int.emod_nonneg (size + sec - 1) (show (sec : Int) ≠ 0 by omega)
  have h3 := Int.emod_lt_of_pos (size + sec - 1) hs'
  rw [← h] at h1
  have e : (sec : Int) * ((n + 1 : Nat) : Int) = (n : Int) * sec + sec := by push_cast; ring
  have e2 : ((n + 1 : Nat) : Int) * sec = (n : Int) * sec + sec := by push_cast; ring
  rw [e] at h1
  have hn : (0 : Int) ≤ (n : Int) * sec := by positivity
  rw [e2]
  refine ⟨?_, ?_, ?_⟩ <;> omega

theorem locateStream_sound (fuel : Nat) (seen : List Nat) (ignore : Bool) (mem : Bytes) (base : Nat) (sat : List Int)
    (sec : Nat) (hs : 0 < sec) (start : Int) (size : Int) (id : Nat) (hid : id ≠ 0) (m : Bytes) (o l : Int) (seen' : List Nat)
    (h : locateStream fuel seen ignore mem base sat sec start size id = some (.ok ((m, o, l), seen'))) :
    ∃ secs, Chain sat start secs ∧ secs ≠ [] ∧ l = size ∧ 0 < size ∧ 0 ≤ o ∧
      size ≤ (secs.length : Int) * sec ∧ ((secs.length : Int) - 1) * sec < size ∧
      slice m o (o + l) = (sectors mem base sec secs).take size.toNat ∧
      seen'.length = seen.length ∧ (∀ k ∈ secs, k < seen.length) ∧
      (ignore = false → Marked seen secs id seen') := by
  unfold locateStream at h
  split_ifs at h with h0
  · cases h
  · obtain ⟨k, rfl⟩ := Int.eq_ofNat_of_zero_le (show 0 ≤ start by omega)
    simp only [Int.ofNat_eq_natCast] at h ⊢
    split at h
    · cases h
    · cases h
    · rename_i st s' hl
      -- first step
      obtain ⟨fuel', rfl⟩ : ∃ f, fuel = f + 1 := by
        cases fuel with
        | zero => unfold locLoop at hl; simp at hl
        | succ f => exact ⟨f, rfl⟩
      unfold locLoop at hl
      rw [if_pos (by omega)] at hl
      cases hm : mark seen (k : Int) id (!ignore) with
      | error e => simp [hm] at hl
      | ok s1 =>
        simp only [hm] at hl
        split_ifs at hl with h3
        · cases hl
        · cases h4 : idx sat (k : Int) with
          | error e => simp [h4] at hl
          | ok n =>
            simp only [h4] at hl
            obtain ⟨secs, d, j, c1, c2, c3, c4, c5, c6, c7⟩ :=
              locLoop_sound mem fuel' s1 ignore base sat sec _ n id hid _ [] k (LocInv.first mem base sec k) st s' hl
            simp only [List.nil_append] at c2
            have hs1 : s1.length = seen.length ∧ k < seen.length := by
              cases ignore with
              | true =>
                obtain ⟨a, _, rfl⟩ := (markLoose _ _ _ _).mp hm
                exact ⟨by simp, a⟩
              | false =>
                obtain ⟨a, _, rfl⟩ := (mark_ok _ _ _ _).mp hm
                refine ⟨by simp, ?_⟩
                by_contra hn; rw [List.getElem?_eq_none (by omega)] at a; cases a
            have hlen : d.length + 1 = (k :: secs).length := by rw [c2]; simp
            obtain ⟨b1, b2, b3⟩ := limit_bounds size sec d.length hs c4
            have hcommon : Chain sat k (k :: secs) ∧ k :: secs ≠ [] ∧ 0 < size ∧
                size ≤ ((k :: secs).length : Int) * sec ∧ (((k :: secs).length : Int) - 1) * sec < size ∧
                s'.length = seen.length ∧ (∀ x ∈ k :: secs, x < seen.length) ∧
                (ignore = false → Marked seen (k :: secs) id s') := by
              refine ⟨Chain.next k n secs ((idx_ok_nat _ _ _).mp h4) c1, by simp, b1, ?_, ?_, by rw [c5, hs1.1], ?_, ?_⟩
              · rw [← hlen]; exact b2
              · rw [← hlen]; push_cast; simpa using b3
              · intro x hx
                rcases List.mem_cons.mp hx with rfl | hx
                · exact hs1.2
                · rw [← hs1.1]; exact c6 x hx
              · intro hig
                subst hig
                obtain ⟨a, _, rfl⟩ := (mark_ok _ _ _ _).mp hm
                exact (Marked.cons_iff hid a).mp (c7 rfl)
            obtain ⟨q1, q2, q3, q4, q5, q6, q7, q8⟩ := hcommon
            obtain ⟨a, ha, r1, r2, r3⟩ := c3.run
            have hnat : size = (size.toNat : Int) := by omega
            split_ifs at h with h5
            · simp only [Option.some.injEq, Except.ok.injEq, Prod.mk.injEq] at h
              obtain ⟨⟨rfl, rfl, rfl⟩, rfl⟩ := h
              refine ⟨k :: secs, q1, q2, rfl, q3, by rw [r1]; omega, q4, q5, ?_, q6, q7, q8⟩
              rw [c2, ← r3, h5]
              simp only [slicesBytes, List.nil_append, List.map_cons, List.map_nil, List.flatten_cons, List.flatten_nil,
                List.append_nil]
              rw [r1, r2]
              conv_lhs => rw [hnat]
              rw [take_slice]
              have hw := c3.whole h5
              rw [r1] at hw
              simp only [Int.toNat_natCast, Nat.add_sub_cancel_left, Nat.mul_div_cancel _ hs] at hw
              have hw' : j = d.length + a := by rcases hw with h | h <;> omega
              have e3 : base + (j + 1) * sec - (base + a * sec) = (d.length + 1) * sec := by
                subst hw'
                have : (d.length + a + 1) * sec = (d.length + 1) * sec + a * sec := by ring
                omega
              rw [e3]
              have : (size.toNat : Int) ≤ ((d.length + 1) * sec : Nat) := by
                rw [← hnat]; push_cast; push_cast at b2; exact b2
              exact_mod_cast this
            · simp only [Option.some.injEq, Except.ok.injEq, Prod.mk.injEq] at h
              obtain ⟨⟨rfl, rfl, rfl⟩, rfl⟩ := h
              refine ⟨k :: secs, q1, q2, rfl, q3, by omega, q4, q5, ?_, q6, q7, q8⟩
              rw [c2, ← r3]
              unfold slicesBytes
              have : (0 : Int) + size = ((size.toNat : Nat) : Int) := by omega
              rw [this, show (0 : Int) = ((0 : Nat) : Int) from rfl, slice_nat]
              simp

theorem locateStream_complete (seen : List Nat) (ignore : Bool) (mem : Bytes) (base : Nat) (sat : List Int)
    (sec : Nat) (hs : 0 < sec) (start : Int) (size : Nat) (id : Nat) (hid : id ≠ 0) (hid2 : id ≤ 255) (secs : List Nat)
    (hc : Chain sat start secs) (hne : secs ≠ []) (h1 : size ≤ secs.length * sec) (h2 : (secs.length - 1) * sec < size)
    (seen' : List Nat) (hm : Marked seen secs id seen') (fuel : Nat) (hf : secs.length ≤ fuel) :
    ∃ m, locateStream fuel seen ignore mem base sat sec start size id = some (.ok (m, seen')) := by
  have hst : ¬ start < 0 := by
    intro hn; exact hne (chain_neg hc hn).2
  have hlim : ((secs.length : Nat) : Int) = ((size : Int) + sec - 1) / sec := by
    obtain ⟨n, hn⟩ : ∃ n, secs.length = n + 1 := by
      cases secs with
      | nil => exact absurd rfl hne
      | cons a as => exact ⟨as.length, rfl⟩
    rw [hn] at h1 h2 ⊢
    simp only [Nat.add_sub_cancel] at h2
    symm
    have e : (n + 1) * sec = n * sec + sec := by ring
    have : (size : Int) + sec - 1 = ((size + sec - 1 : Nat) : Int) := by omega
    rw [this]
    have hd : (size + sec - 1) / sec = n + 1 := by
      rw [Nat.div_eq_iff hs]
      constructor
      · rw [e]; omega
      · rw [e]; omega
    exact_mod_cast hd
  obtain ⟨r, hr⟩ := locLoop_complete fuel seen ignore base sat sec _ start id hid hid2 ⟨-99, -9999, -8888, [], 0⟩ secs hc hf
    (by simpa using hlim) seen' hm
  unfold locateStream
  rw [if_neg hst]
  simp only [hr]
  split_ifs <;> exact ⟨_, rfl⟩

theorem marked_exists (seen secs : List Nat) (id : Nat) (hnd : secs.Nodup) (hfr : ∀ k ∈ secs, seen[k]? = some 0) :
    ∃ seen', Marked seen secs id seen' ∧ seen'.length = seen.length := by
  refine ⟨(List.range seen.length).map fun k => if k ∈ secs then id else seen.getD k 0, ⟨hnd, hfr, ?_⟩, by simp⟩
  intro k
  by_cases hk : k < seen.length
  · simp only [List.getElem?_map, List.getElem?_range hk, Option.map_some]
    split_ifs
    · rfl
    · rw [List.getElem?_eq_getElem hk]; simp [List.getD, List.getElem?_eq_getElem hk]
  · rw [List.getElem?_eq_none (by simp; omega), List.getElem?_eq_none (by omega), if_neg]
    intro hks
    have := hfr k hks
    rw [List.getElem?_eq_none (by omega)] at this; cases this

theorem locateStream_ends (seen : List Nat) (ignore : Bool) (mem : Bytes) (base : Int) (sat : List Int) (sec : Nat)
    (start size : Int) (id : Nat) :
    ∃ r, ∀ fuel, ((size + sec - 1) / sec).toNat < fuel → locateStream fuel seen ignore mem base sat sec start size id = some r := by
  unfold locateStream
  by_cases h0 : start < 0
  · simp only [h0, ↓reduceIte]; exact ⟨_, fun _ _ => rfl⟩
  · simp only [h0, ↓reduceIte]
    obtain ⟨v, hv⟩ := locLoop_ends (((size + sec - 1) / sec).toNat + 1) seen ignore base sat sec ((size + sec - 1) / sec)
      start id ⟨-99, -9999, -8888, [], 0⟩ (by push_cast; omega) (by omega)
    have : ∀ fuel, ((size + sec - 1) / sec).toNat < fuel →
        locLoop fuel seen ignore base sat sec ((size + sec - 1) / sec) start id ⟨-99, -9999, -8888, [], 0⟩ = some v :=
      fun fuel hf => locLoop_mono _ fuel (by omega) _ _ _ _ _ _ _ _ _ _ hv
    cases v with
    | error e => exact ⟨.error e, fun fuel hf => by rw [this fuel hf]⟩
    | ok p =>
      by_cases hp : p.1.slices = []
      · exact ⟨_, fun fuel hf => by rw [this fuel hf]; simp only [hp, ↓reduceIte]; rfl⟩
      · exact ⟨_, fun fuel hf => by rw [this fuel hf]; simp only [hp, ↓reduceIte]; rfl⟩

end Xlrd
