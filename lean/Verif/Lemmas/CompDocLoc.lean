import Verif.Lemmas.CompDoc

/-!
# Lemmas on `_locate_stream`
-/
set_option linter.unusedSimpArgs false
namespace Xlrd
open Spec

/-- bytes of a list of slices -/
def slicesBytes (mem : Bytes) (l : List (Int × Int)) : Bytes := (l.map fun se => slice mem se.1 se.2).flatten

theorem slice_run (mem : Bytes) (base sec a k : Nat) (h : a ≤ k) :
    slice mem ((base + a * sec : Nat) : Int) ((base + (k + 2) * sec : Nat) : Int) =
      slice mem ((base + a * sec : Nat) : Int) ((base + (k + 1) * sec : Nat) : Int) ++ sector mem base sec (k + 1) := by
  simp only [slice_nat, sector]
  have e1 : base + (k + 2) * sec = (base + (k + 1) * sec) + sec := by ring
  have h2 : base + a * sec ≤ base + (k + 1) * sec := by
    have : a * sec ≤ (k + 1) * sec := Nat.mul_le_mul_right _ (by omega)
    omega
  rw [e1]
  generalize base + (k + 1) * sec = p at *
  generalize base + a * sec = q at *
  rw [List.drop_take, List.drop_take]
  have e : p + sec - q = (p - q) + sec := by omega
  rw [e, List.take_add, List.drop_drop]
  congr 3
  omega

theorem slice_one (mem : Bytes) (base sec k : Nat) :
    slice mem ((base + k * sec : Nat) : Int) ((base + (k + 1) * sec : Nat) : Int) = sector mem base sec k := by
  simp only [slice_nat, sector]
  have e1 : base + (k + 1) * sec = (base + k * sec) + sec := by ring
  rw [e1, List.drop_take]
  congr 1
  omega

/-- state of the loop after the sectors `done ++ [k]` -/
structure LocInv (mem : Bytes) (base sec : Nat) (done : List Nat) (k : Nat) (st : LocState) : Prop where
  p : st.p = k
  found : st.found = done.length + 1
  run : ∃ a : Nat, a ≤ k ∧ st.startPos = ((base + a * sec : Nat) : Int) ∧ st.endPos = ((base + (k + 1) * sec : Nat) : Int) ∧
    slicesBytes mem (st.slices ++ [(st.startPos, st.endPos)]) = sectors mem base sec (done ++ [k])
  whole : st.slices = [] → k = done.length + (st.startPos.toNat - base) / sec ∨ sec = 0

theorem LocInv.first (mem : Bytes) (base sec k : Nat) :
    LocInv mem base sec [] k (locStep base sec ⟨-99, -9999, -8888, [], 0⟩ k) := by
  unfold locStep
  have h : ¬ ((k : Int) = -99 + 1) := by omega
  simp only [h, ↓reduceIte]
  refine ⟨rfl, rfl, ⟨k, le_refl _, by push_cast; rfl, by push_cast; ring, ?_⟩, ?_⟩
  · simp only [slicesBytes]
    have := slice_one mem base sec k
    push_cast at this
    have e : ((base : Int) + k * sec + sec) = base + (k + 1) * sec := by ring
    simp [e, this, sectors]
  · intro _
    by_cases hs : sec = 0
    · right; exact hs
    · left
      have : ((base : Int) + k * sec).toNat = base + k * sec := by
        have : ((base : Int) + k * sec) = ((base + k * sec : Nat) : Int) := by push_cast; rfl
        rw [this]; exact Int.toNat_natCast _
      simp only [this, List.length_nil]
      rw [Nat.add_sub_cancel_left, Nat.mul_div_cancel _ (by omega)]; omega

theorem LocInv.step (mem : Bytes) (base sec : Nat) (done : List Nat) (k j : Nat) (st : LocState)
    (inv : LocInv mem base sec done k st) : LocInv mem base sec (done ++ [k]) j (locStep base sec st j) := by
  obtain ⟨a, ha, h1, h2, h3⟩ := inv.run
  unfold locStep
  by_cases hj : (j : Int) = st.p + 1
  · have hjk : j = k + 1 := by rw [inv.p] at hj; omega
    subst hjk
    simp only [hj, ↓reduceIte]
    refine ⟨hj.symm ▸ rfl, by simp [inv.found], ⟨a, by omega, h1, ?_, ?_⟩, ?_⟩
    · simp only [h2]; push_cast; ring
    · simp only [slicesBytes, List.map_append, List.flatten_append, List.map_cons, List.map_nil, List.flatten_cons,
        List.flatten_nil, List.append_nil, sectors, List.flatMap_append, List.flatMap_cons, List.flatMap_nil] at h3 ⊢
      have e : st.endPos + (sec : Int) = ((base + (k + 2) * sec : Nat) : Int) := by rw [h2]; push_cast; ring
      rw [e, h1, slice_run mem base sec a k ha, ← List.append_assoc, ← h1, ← h2, h3]
    · intro hs
      rcases inv.whole hs with h | h
      · left; simp; omega
      · right; exact h
  · have hp : st.p ≥ 0 := by rw [inv.p]; omega
    simp only [hj, hp, ↓reduceIte]
    refine ⟨rfl, by simp [inv.found], ⟨j, le_refl _, by push_cast; rfl, by push_cast; ring, ?_⟩, ?_⟩
    · simp only [slicesBytes, List.map_append, List.flatten_append, List.map_cons, List.map_nil, List.flatten_cons,
        List.flatten_nil, List.append_nil, sectors, List.flatMap_append, List.flatMap_cons, List.flatMap_nil] at h3 ⊢
      rw [h3]
      have := slice_one mem base sec j
      push_cast at this
      have e : ((base : Int) + j * sec + sec) = base + (j + 1) * sec := by ring
      rw [e, this]
    · simp

theorem markLoose (seen : List Nat) (s : Nat) (id : Nat) (seen' : List Nat) :
    mark seen s id false = .ok seen' ↔ s < seen.length ∧ id ≤ 255 ∧ seen' = seen.set s id := by
  unfold mark
  rw [idx_nat']
  cases h : seen[s]? with
  | none =>
    have : seen.length ≤ s := List.getElem?_eq_none_iff.mp h
    simp [bind, Except.bind]; omega
  | some v =>
    have hlt : s < seen.length := by
      by_contra hn; rw [List.getElem?_eq_none (by omega)] at h; cases h
    simp only [bind, Except.bind, Bool.false_eq_true, and_false, ↓reduceIte, setIdx_nat _ _ _ hlt]
    by_cases hid : id > 255
    · simp [hid]
    · simp only [hid, ↓reduceIte, Except.ok.injEq, hlt, true_and]
      constructor
      · intro e; exact ⟨by omega, e.symm⟩
      · intro e; exact e.2.symm

theorem locLoop_sound (mem : Bytes) (fuel : Nat) (seen : List Nat) (ignore : Bool) (base : Nat) (sat : List Int) (sec : Nat)
    (limit : Int) (s : Int) (id : Nat) (hid : id ≠ 0) (st : LocState) (done : List Nat) (k : Nat)
    (inv : LocInv mem base sec done k st) (st' : LocState) (seen' : List Nat)
    (h : locLoop fuel seen ignore base sat sec limit s id st = some (.ok (st', seen'))) :
    ∃ secs d j, Chain sat s secs ∧ done ++ k :: secs = d ++ [j] ∧ LocInv mem base sec d j st' ∧
      ((d.length + 1 : Nat) : Int) = limit ∧ seen'.length = seen.length ∧ (∀ k ∈ secs, k < seen.length) ∧
      (ignore = false → Marked seen secs id seen') := by
  induction fuel generalizing seen s st done k with
  | zero =>
    unfold locLoop at h
    split_ifs at h with h1 h2
    · simp only [Option.some.injEq, Except.ok.injEq, Prod.mk.injEq] at h
      obtain ⟨rfl, rfl⟩ := h
      exact ⟨[], done, k, by rw [h2.1]; exact Chain.done, rfl, inv, by rw [← h2.2, inv.found], rfl, by simp,
        fun _ => Marked.nil _ _⟩
    · cases h
  | succ fuel ih =>
    unfold locLoop at h
    by_cases h1 : s ≥ 0
    · rw [if_pos h1] at h
      obtain ⟨j, rfl⟩ := Int.eq_ofNat_of_zero_le h1
      simp only [Int.ofNat_eq_natCast] at h
      cases hm : mark seen (j : Int) id (!ignore) with
      | error e => simp [hm] at h
      | ok s1 =>
        simp only [hm] at h
        split_ifs at h with h3
        · cases h
        · cases h4 : idx sat (j : Int) with
          | error e => simp [h4] at h
          | ok n =>
            simp only [h4] at h
            have hst : ∀ x, x = locStep base sec st j → locLoop fuel s1 ignore base sat sec limit n id x = some (.ok (st', seen')) →
                ∃ secs d j', Chain sat (j : Int) secs ∧ done ++ k :: secs = d ++ [j'] ∧ LocInv mem base sec d j' st' ∧
                  ((d.length + 1 : Nat) : Int) = limit ∧ seen'.length = seen.length ∧ (∀ k ∈ secs, k < seen.length) ∧
                  (ignore = false → Marked seen secs id seen') := by
              rintro x rfl hx
              obtain ⟨secs, d, j', c1, c2, c3, c4, c5, c6, c7⟩ :=
                ih s1 n (locStep base sec st j) (done ++ [k]) j (inv.step mem base sec done k j st) hx
              have hs1 : s1.length = seen.length ∧ j < seen.length := by
                cases ignore with
                | true =>
                  obtain ⟨a, _, rfl⟩ := (markLoose _ _ _ _).mp hm
                  exact ⟨by simp, a⟩
                | false =>
                  obtain ⟨a, _, rfl⟩ := (mark_ok _ _ _ _).mp hm
                  refine ⟨by simp, ?_⟩
                  by_contra hn; rw [List.getElem?_eq_none (by omega)] at a; cases a
              refine ⟨j :: secs, d, j', Chain.next j n secs ((idx_ok_nat _ _ _).mp h4) c1, by rw [← c2]; simp, c3, c4,
                by rw [c5, hs1.1], ?_, ?_⟩
              · intro k hk
                rcases List.mem_cons.mp hk with rfl | hk
                · exact hs1.2
                · rw [← hs1.1]; exact c6 k hk
              · intro hig
                subst hig
                obtain ⟨a, _, rfl⟩ := (mark_ok _ _ _ _).mp hm
                exact (Marked.cons_iff hid a).mp (c7 rfl)
            exact hst _ rfl h
    · rw [if_neg h1] at h
      split_ifs at h with h2
      · simp only [Option.some.injEq, Except.ok.injEq, Prod.mk.injEq] at h
        obtain ⟨rfl, rfl⟩ := h
        exact ⟨[], done, k, by rw [h2.1]; exact Chain.done, rfl, inv, by rw [← h2.2, inv.found], rfl, by simp,
        fun _ => Marked.nil _ _⟩
      · cases h

theorem locLoop_complete (fuel : Nat) (seen : List Nat) (ignore : Bool) (base : Nat) (sat : List Int) (sec : Nat)
    (limit : Int) (s : Int) (id : Nat) (hid : id ≠ 0) (hid2 : id ≤ 255) (st : LocState) (secs : List Nat)
    (hc : Chain sat s secs) (hf : secs.length ≤ fuel) (hl : ((st.found + secs.length : Nat) : Int) = limit)
    (seen' : List Nat) (hm : Marked seen secs id seen') :
    ∃ st', locLoop fuel seen ignore base sat sec limit s id st = some (.ok (st', seen')) := by
  induction hc generalizing seen st fuel with
  | done =>
    have e : seen' = seen := by apply List.ext_getElem?; intro k; simpa using hm.after k
    unfold locLoop
    simp [EOCSID] at hl ⊢
    simp [hl, e]
  | next k n rest hk _ ih =>
    obtain ⟨fuel, rfl⟩ : ∃ f, fuel = f + 1 := ⟨fuel - 1, by simp at hf; omega⟩
    have h0 := hm.fresh k (by simp)
    have hm' : mark seen (k : Int) id (!ignore) = .ok (seen.set k id) := by
      cases ignore with
      | false => exact (mark_ok _ _ _ _).mpr ⟨h0, hid2, rfl⟩
      | true =>
        refine (markLoose _ _ _ _).mpr ⟨?_, hid2, rfl⟩
        by_contra hx; rw [List.getElem?_eq_none (by omega)] at h0; cases h0
    have hi : idx sat (k : Int) = .ok n := (idx_ok_nat _ _ _).mpr hk
    unfold locLoop
    simp only [ge_iff_le, Int.natCast_nonneg, ↓reduceIte, hm', hi]
    simp only [List.length_cons] at hl hf
    rw [if_neg (by omega)]
    apply ih
    · omega
    · have hfd : (locStep base sec st k).found = st.found + 1 := by unfold locStep; split_ifs <;> rfl
      rw [hfd]; omega
    · exact (Marked.cons_iff hid h0).mpr hm

/-- the loop ends: the number of sectors is limited by the size -/
theorem locLoop_ends (fuel : Nat) (seen : List Nat) (ignore : Bool) (base : Int) (sat : List Int) (sec : Nat)
    (limit : Int) (s : Int) (id : Nat) (st : LocState) (hf : limit < ((st.found + fuel : Nat) : Int)) (h0 : 0 < fuel) :
    ∃ r, locLoop fuel seen ignore base sat sec limit s id st = some r := by
  induction fuel generalizing seen s st with
  | zero => omega
  | succ fuel ih =>
    unfold locLoop
    by_cases h1 : s ≥ 0
    · rw [if_pos h1]
      cases hm : mark seen s id (!ignore) with
      | error e => exact ⟨_, rfl⟩
      | ok s1 =>
        simp only
        by_cases h2 : ((st.found + 1 : Nat) : Int) > limit
        · rw [if_pos h2]; exact ⟨_, rfl⟩
        · rw [if_neg h2]
          cases idx sat s with
          | error e => exact ⟨_, rfl⟩
          | ok n =>
            have hfd : (locStep base sec st s).found = st.found + 1 := by unfold locStep; split_ifs <;> rfl
            exact ih s1 n (locStep base sec st s) (by rw [hfd]; omega) (by omega)
    · rw [if_neg h1]
      split_ifs <;> exact ⟨_, rfl⟩

theorem locLoop_mono (fuel fuel' : Nat) (hf : fuel ≤ fuel') (seen : List Nat) (ignore : Bool) (base : Int)
    (sat : List Int) (sec : Nat) (limit : Int) (s : Int) (id : Nat) (st : LocState) (r)
    (h : locLoop fuel seen ignore base sat sec limit s id st = some r) :
    locLoop fuel' seen ignore base sat sec limit s id st = some r := by
  induction fuel generalizing fuel' seen s st with
  | zero =>
    unfold locLoop at h ⊢
    by_cases h1 : s ≥ 0
    · rw [if_pos h1] at h; cases h
    · rw [if_neg h1] at h ⊢; exact h
  | succ fuel ih =>
    obtain ⟨fuel', rfl⟩ : ∃ f, fuel' = f + 1 := ⟨fuel' - 1, by omega⟩
    unfold locLoop at h ⊢
    by_cases h1 : s ≥ 0
    · rw [if_pos h1] at h ⊢
      cases hm : mark seen s id (!ignore) with
      | error e => simpa [hm] using h
      | ok s1 =>
        simp only [hm] at h ⊢
        by_cases h2 : ((st.found + 1 : Nat) : Int) > limit
        · rw [if_pos h2] at h ⊢; exact h
        · rw [if_neg h2] at h ⊢
          cases hi : idx sat s with
          | error e => simpa [hi] using h
          | ok n =>
            simp only [hi] at h ⊢
            exact ih fuel' (by omega) _ _ _ h
    · rw [if_neg h1] at h ⊢; exact h

end Xlrd
