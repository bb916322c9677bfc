import Verif.Lemmas.CompDocStream

/-!
# `CompDoc.__init__`: the loops end
-/
set_option linter.unusedSimpArgs false
namespace Xlrd
open Spec

theorem mark_length {seen : List Nat} {s : Nat} {id : Nat} {seen'} (h : mark seen s id true = .ok seen') :
    seen'.length = seen.length := by
  obtain ⟨_, _, rfl⟩ := (mark_ok _ _ _ _).mp h; simp

theorem msatLoop_ends (mem : Bytes) (sec : Nat) (fuel : Nat) (seen : List Nat) (msat : List Int) (sid : Int)
    (hf : seen.count 0 < fuel) : ∃ r, msatLoop fuel seen mem sec msat sid = some r := by
  induction fuel generalizing seen msat sid with
  | zero => omega
  | succ fuel ih =>
    unfold msatLoop
    split_ifs with h1 h2 h3
    · exact ⟨_, rfl⟩
    · exact ⟨_, rfl⟩
    · exact ⟨_, rfl⟩
    · obtain ⟨k, rfl⟩ := Int.eq_ofNat_of_zero_le (show 0 ≤ sid by omega)
      simp only [Int.ofNat_eq_natCast]
      cases hm : mark seen (k : Int) 1 with
      | error e => exact ⟨_, rfl⟩
      | ok s1 =>
        have := count_mark (by omega) hm
        simp only
        cases unpackInts (sec / 4) (slice mem (512 + (sec : Int) * k) (512 + (sec : Int) * k + sec)) with
        | error e => exact ⟨_, rfl⟩
        | ok ns => exact ih s1 _ _ (by omega)

theorem msatLoop_mono (mem : Bytes) (sec : Nat) (fuel fuel' : Nat) (hf : fuel ≤ fuel') (seen : List Nat) (msat : List Int)
    (sid : Int) (r) (h : msatLoop fuel seen mem sec msat sid = some r) : msatLoop fuel' seen mem sec msat sid = some r := by
  induction fuel generalizing fuel' seen msat sid with
  | zero =>
    unfold msatLoop at h ⊢
    by_cases h1 : sid = EOCSID ∨ sid = FREESID ∨ sid = MSATSID
    · rw [if_pos h1] at h ⊢; exact h
    · rw [if_neg h1] at h; cases h
  | succ fuel ih =>
    obtain ⟨fuel', rfl⟩ : ∃ f, fuel' = f + 1 := ⟨fuel' - 1, by omega⟩
    unfold msatLoop at h ⊢
    by_cases h1 : sid = EOCSID ∨ sid = FREESID ∨ sid = MSATSID
    · rw [if_pos h1] at h ⊢; exact h
    · rw [if_neg h1] at h ⊢
      simp only at h ⊢
      by_cases h2 : sid ≥ seen.length
      · rw [if_pos h2] at h ⊢; exact h
      · rw [if_neg h2] at h ⊢
        by_cases h3 : sid < 0
        · rw [if_pos h3] at h ⊢; exact h
        · rw [if_neg h3] at h ⊢
          cases hm : mark seen sid 1 with
          | error e => simpa [hm] using h
          | ok s1 =>
            simp only [hm] at h ⊢
            cases hu : unpackInts (sec / 4) (slice mem (512 + (sec : Int) * sid) (512 + (sec : Int) * sid + sec)) with
            | error e => simpa [hu] using h
            | ok ns =>
              simp only [hu] at h ⊢
              exact ih fuel' (by omega) _ _ _ h

theorem msatLoop_length (mem : Bytes) (sec : Nat) (fuel : Nat) (seen : List Nat) (msat : List Int) (sid : Int) (m s')
    (h : msatLoop fuel seen mem sec msat sid = some (.ok (m, s'))) : s'.length = seen.length := by
  induction fuel generalizing seen msat sid with
  | zero =>
    unfold msatLoop at h
    split_ifs at h
    simp at h; rw [h.2]
  | succ fuel ih =>
    unfold msatLoop at h
    split_ifs at h with h1 h2 h3
    · simp at h; rw [h.2]
    · cases h
    · cases h
    · obtain ⟨k, rfl⟩ := Int.eq_ofNat_of_zero_le (show 0 ≤ sid by omega)
      simp only [Int.ofNat_eq_natCast] at h
      cases hm : mark seen (k : Int) 1 with
      | error e => simp [hm] at h
      | ok s1 =>
        simp only [hm] at h
        cases hu : unpackInts (sec / 4) (slice mem (512 + (sec : Int) * k) (512 + (sec : Int) * k + sec)) with
        | error e => simp [hu] at h
        | ok ns =>
          simp only [hu] at h
          rw [ih _ _ _ h, mark_length hm]

theorem satLoop_length (mem : Bytes) (sec : Nat) (msat : List Int) (seen : List Nat) (m s')
    (h : satLoop mem sec msat seen = .ok (m, s')) : s'.length = seen.length := by
  induction msat generalizing seen m with
  | nil => simp [satLoop] at h; rw [h.2]
  | cons a as ih =>
    unfold satLoop at h
    split_ifs at h with h1 h2 h3
    · exact ih _ _ h
    · exact ih _ _ h
    · simp only [EOCSID, FREESID] at h1
      obtain ⟨k, rfl⟩ := Int.eq_ofNat_of_zero_le (show 0 ≤ a by omega)
      simp only [Int.ofNat_eq_natCast, bind, Except.bind] at h
      cases hm : mark seen (k : Int) 2 with
      | error e => simp [hm] at h
      | ok s1 =>
        simp only [hm] at h
        cases hu : unpackInts (sec / 4) (slice mem (512 + (sec : Int) * k) (512 + (sec : Int) * k + sec)) with
        | error e => simp [hu] at h
        | ok ns =>
          simp only [hu] at h
          cases hs : satLoop mem sec as s1 with
          | error e => simp [hs] at h
          | ok p =>
            simp [hs, pure, Except.pure] at h
            rw [ih s1 p.1 (by rw [hs, ← h.2]), mark_length hm]

theorem getStream_length (fuel : Nat) (seen : List Nat) (mem : Option Bytes) (base : Nat) (sat : List Int) (sec : Nat)
    (start : Int) (size : Option Int) (i : Nat) (hid : i ≠ 0) (b : Bytes) (seen' : List Nat)
    (h : getStream fuel seen mem base sat sec start size (some i) = some (.ok (b, seen'))) : seen'.length = seen.length := by
  obtain ⟨_, _, _, h3, _⟩ := getStream_sound fuel seen mem base sat sec start size (some i) (by simpa using hid) b seen' h
  exact h3.2.1

theorem memDataSecs_le (len sec : Nat) (hs : 0 < sec) : memDataSecs len sec ≤ len := by
  unfold memDataSecs
  simp only
  have h1 := Int.mul_ediv_add_emod ((len : Int) - 512) sec
  have h2 := Int.emod_nonneg ((len : Int) - 512) (show (sec : Int) ≠ 0 by omega)
  by_cases hl : (len : Int) - 512 ≤ 0
  · have : ((len : Int) - 512) / sec ≤ 0 := Int.ediv_nonpos_of_nonpos_of_neg hl (by omega)
    rcases Nat.eq_zero_or_pos len with h0 | h0
    · subst h0
      have : (((0 : Nat) : Int) - 512) / sec < 0 := Int.ediv_neg_of_neg_of_pos (by norm_num) (by omega)
      split_ifs <;> omega
    · split_ifs <;> omega
  · have : ((len : Int) - 512) / sec ≤ (len : Int) - 512 := Int.ediv_le_self _ (by omega)
    split_ifs <;> omega

theorem readSscs_ends (seen : List Nat) (mem : Bytes) (sat : List Int) (sec : Nat) (d : DirNode) :
    ∃ r, ∀ fuel, seen.length < fuel → readSscs fuel seen mem sat sec d = some r := by
  unfold readSscs
  split_ifs
  · exact ⟨_, fun _ _ => rfl⟩
  · obtain ⟨v, hv⟩ := getStream_ends seen (some mem) 512 sat sec d.firstSid (some d.totSize) 4 (by omega)
    cases v with
    | error e => exact ⟨_, fun f hf => by rw [hv f hf]⟩
    | ok p => exact ⟨_, fun f hf => by rw [hv f hf]⟩

theorem cdHeader_sec (mem : Bytes) (h : CDHeader) (e : cdHeader mem = .ok h) : 0 < h.sec := by
  unfold cdHeader at e
  simp only [bind, Except.bind, throw, throwThe, MonadExceptOf.throw, pure, Except.pure] at e
  repeat (split at e <;> try cases e)
  all_goals first | exact Nat.two_pow_pos _ | skip

theorem compDocInit_ends (depth : Nat) (mem : Bytes) (ignore : Bool) :
    ∃ r, ∀ fuel, mem.length < fuel → compDocInit fuel depth mem ignore = some r := by
  unfold compDocInit
  cases hh : cdHeader mem with
  | error e => exact ⟨_, fun _ _ => rfl⟩
  | ok h =>
    have hsec := cdHeader_sec mem h hh
    have hle := memDataSecs_le mem.length h.sec hsec
    simp only
    cases unpackInts 109 (slice mem 76 512) with
    | error e => exact ⟨_, fun _ _ => rfl⟩
    | ok msat0 =>
      simp only
      by_cases h1 : h.sec / 4 = 0 ∨ h.sec / 4 = 1
      · simp only [h1, ↓reduceIte]; exact ⟨_, fun _ _ => rfl⟩
      · simp only [h1, ↓reduceIte]
        -- the MSAT
        have hms : ∃ v : R (List Int × List Nat), (∀ m s', v = .ok (m, s') → s'.length = memDataSecs mem.length h.sec) ∧
            ∀ fuel, mem.length < fuel →
            (if h.msatxTot = 0 ∧ (h.msatxFirst = EOCSID ∨ h.msatxFirst = FREESID ∨ h.msatxFirst = 0)
              then some (.ok (msat0, List.replicate (memDataSecs mem.length h.sec) 0))
              else msatLoop fuel (List.replicate (memDataSecs mem.length h.sec) 0) mem h.sec msat0 h.msatxFirst) = some v := by
          by_cases h2 : h.msatxTot = 0 ∧ (h.msatxFirst = EOCSID ∨ h.msatxFirst = FREESID ∨ h.msatxFirst = 0)
          · refine ⟨_, ?_, fun fuel _ => by rw [if_pos h2]⟩
            intro m s' e; simp at e; rw [← e.2]; simp
          · obtain ⟨v, hv⟩ := msatLoop_ends mem h.sec (mem.length + 1) (List.replicate (memDataSecs mem.length h.sec) 0)
              msat0 h.msatxFirst (by
                have : (List.replicate (memDataSecs mem.length h.sec) 0).count 0 ≤ _ := List.count_le_length
                simp at this ⊢; omega)
            refine ⟨v, ?_, fun fuel hf => by rw [if_neg h2]; exact msatLoop_mono mem h.sec _ _ (by omega) _ _ _ _ hv⟩
            rintro m s' rfl
            have := msatLoop_length mem h.sec _ _ _ _ _ _ hv
            simpa using this
        obtain ⟨v, hvl, hv⟩ := hms
        cases v with
        | error e => exact ⟨.error e, fun fuel hf => by rw [hv fuel hf]⟩
        | ok ms =>
          have hl1 := hvl ms.1 ms.2 rfl
          cases hsat : satLoop mem h.sec ms.1 ms.2 with
          | error e => exact ⟨.error e, fun fuel hf => by rw [hv fuel hf]; simp only [hsat]⟩
          | ok ss =>
            have hl2 := satLoop_length mem h.sec ms.1 ms.2 ss.1 ss.2 hsat
            obtain ⟨w, hw⟩ := getStream_ends ss.2 (some mem) 512 ss.1 h.sec h.dirFirst none 3 (by omega)
            cases w with
            | error e => exact ⟨.error e, fun fuel hf => by rw [hv fuel hf]; simp only [hsat, hw fuel (by omega)]⟩
            | ok db =>
              have hl3 := getStream_length (mem.length + 1) ss.2 (some mem) 512 ss.1 h.sec h.dirFirst none 3 (by omega)
                db.1 db.2 (hw _ (by omega))
              cases hdl : (do
                let dl ← dirNodes db.1.length 0 db.1
                let r ← idx dl 0
                let dl ← buildFamilyTree depth dl 0 r.root
                let r ← idx dl 0
                pyAssert (r.etype = 5)
                pure (dl, r) : R (List DirNode × DirNode)) with
              | error e => exact ⟨.error e, fun fuel hf => by rw [hv fuel hf]; simp only [hsat, hw fuel (by omega), hdl]⟩
              | ok dr =>
                obtain ⟨x, hx⟩ := readSscs_ends db.2 mem ss.1 h.sec dr.2
                cases x with
                | error e =>
                  exact ⟨.error e, fun fuel hf => by
                    rw [hv fuel hf]; simp only [hsat, hw fuel (by omega), hdl, hx fuel (by omega)]⟩
                | ok sc =>
                  cases hss : (if dr.2.totSize > 0 then
                        if h.ssatTot < 0 then .error .assertion
                        else ssatLoop mem h.sec ss.1 h.ssatTot.toNat h.ssatFirst sc.2
                      else .ok ([], sc.2) : R (List Int × List Nat)) with
                  | error e =>
                    exact ⟨.error e, fun fuel hf => by
                      rw [hv fuel hf]; simp only [hsat, hw fuel (by omega), hdl, hx fuel (by omega), hss]⟩
                  | ok y =>
                    exact ⟨_, fun fuel hf => by
                      rw [hv fuel hf]; simp only [hsat, hw fuel (by omega), hdl, hx fuel (by omega), hss]
                      rfl⟩

end Xlrd
