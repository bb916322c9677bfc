import Verif.Props.UserName

/-!
# The user name after any records, before BIFF8
-/
set_option linter.unusedSimpArgs false
namespace Xlrd
open Spec

/-- What the records `hist` say of the user name. -/
structure UserHist (env : BookEnv) (hist : List GItem) (b : Book) : Prop where
  wait : WaitInv b
  at_last : ∀ before d after, hist = before ++ GItem.one 0x5c d :: after → (∀ d', GItem.one 0x5c d' ∉ after) → NameAt env before d after b
  without : (∀ d, GItem.one 0x5c d ∉ hist) → b.rawUser = none ∧ b.userName = []

theorem UserHist.start (env : BookEnv) (b : Book) (h1 : b.rawUser = none) (h2 : b.userName = []) : UserHist env [] b :=
  ⟨fun _ => h1, fun before d after h => by simp at h, fun _ => ⟨h1, h2⟩⟩

/-- Nothing about the name has changed. -/
theorem UserHist.congr {env : BookEnv} {hist : List GItem} {b b' : Book} (h : UserHist env hist b) (hs : SameName b b') : UserHist env hist b' := by
  obtain ⟨h1, h2, h3⟩ := hs
  refine ⟨fun hh => h2.trans (h.wait (by rw [← h3]; exact hh)), fun before d after e hn => ?_, fun hn => ⟨h2.trans (h.without hn).1, h1.trans (h.without hn).2⟩⟩
  unfold NameAt
  rw [h1, h2, h3]
  exact h.at_last before d after e hn

/-- The encoding is chosen. -/
theorem UserHist.derive {env : BookEnv} (h8 : env.bv < 80) {hist : List GItem} {b b' : Book} (h : UserHist env hist b) (hi : EncInv env hist b)
    (hd : deriveEncoding env b = .ok b') : UserHist env hist b' := by
  obtain ⟨⟨s1, s2⟩, n1, n2⟩ := derive_name h8 hd
  have hi2 := (derive_inv hi hd).1
  refine ⟨fun _ => n1, fun before d after e hn => ?_, fun hn => ⟨n1, ((s1 (h.without hn).1).2).trans (h.without hn).2⟩⟩
  rcases h.at_last before d after e hn with ⟨hr, he⟩ | ⟨hr, k, s, hk, hs, hu⟩
  · rcases s2 d hr with ⟨a1, a2⟩ | ⟨a1, e', s, a2, a3, a4⟩
    · rw [n1] at a1; cases a1
    · refine .inr ⟨a1, after.length, s, Nat.le_refl _, ?_, a4⟩
      rcases hi2.enc with hc | hc
      · rw [a2] at hc; cases hc
      · rw [a2] at hc
        cases hc
        rw [List.take_length]
        have : lastCodepage hist = lastCodepage (before ++ after) := by
          rw [e]; simp [lastCodepage, codepageOf]
        rw [← this]
        exact a3
  · exact .inr ⟨n1, k, s, hk, hs, ((s1 hr).2).trans hu⟩

theorem UserHist.ensure {env : BookEnv} (h8 : env.bv < 80) {hist : List GItem} {b b' : Book} (h : UserHist env hist b) (hi : EncInv env hist b)
    (hd : ensureEncoding env b = .ok b') : UserHist env hist b' := by
  unfold ensureEncoding at hd
  cases he : b.encoding with
  | none => rw [he] at hd; exact h.derive h8 hi hd
  | some e => rw [he] at hd; cases hd; exact h

theorem snoc_split {before after hist : List GItem} {d : Bytes} {it : GItem} (h : hist ++ [it] = before ++ GItem.one 0x5c d :: after) :
    (after = [] ∧ it = .one 0x5c d ∧ hist = before) ∨ ∃ a, after = a ++ [it] ∧ hist = before ++ GItem.one 0x5c d :: a := by
  rcases List.eq_nil_or_concat after with rfl | ⟨a, x, rfl⟩
  · left
    obtain ⟨h1, h2⟩ := List.append_inj' h rfl
    exact ⟨rfl, by simpa using h2, h1⟩
  · right
    have : before ++ GItem.one 0x5c d :: (a.concat x) = (before ++ GItem.one 0x5c d :: a) ++ [x] := by simp
    rw [this] at h
    obtain ⟨h1, h2⟩ := List.append_inj' h rfl
    have h2 : it = x := by simpa using h2
    exact ⟨a, by rw [h2]; simp, h1⟩

/-- One more record; `it` is the record as it stands in the file, `ri` as it is handled. -/
theorem UserHist.item {env : BookEnv} (h8 : env.bv < 80) {hist : List GItem} {b b' : Book} {it ri : GItem} (h : UserHist env hist b) (hi : EncInv env hist b)
    (hc : codepageOf ri = codepageOf it) (hw : ∀ d, ri = .one 0x5c d ↔ it = .one 0x5c d) (ha : applyGItem env b ri = .ok b') : UserHist env (hist ++ [it]) b' := by
  refine ⟨wait_item h8 hi h.wait ha, fun before d after e hn => ?_, fun hn => ?_⟩
  · rcases snoc_split e with ⟨rfl, hit, rfl⟩ | ⟨a, rfl, e2⟩
    · rw [(hw d).mpr hit] at ha
      exact (write_at h8 hi h.wait ha).1
    · have hlast : ∀ d', GItem.one 0x5c d' ∉ a := fun d' hd => hn d' (List.mem_append_left _ hd)
      have hit : ∀ d', ri ≠ .one 0x5c d' := fun d' hd => hn d' (List.mem_append_right _ (by rw [(hw d').mp hd]; exact List.mem_singleton_self _))
      have hcp : lastCodepage hist = lastCodepage (before ++ a) := by rw [e2]; simp [lastCodepage, codepageOf]
      have hi' : EncInv env (before ++ a) b := by
        obtain ⟨a1, a2, a3, a4, a5, a6⟩ := hi
        rw [hcp] at a1 a2 a3 a4 a5 a6
        exact ⟨a1, a2, a3, a4, a5, a6⟩
      rcases name_item h8 hi' hit (h.at_last before d a e2 hlast) ha with hh | ⟨hr, k, s, hk, hs, hu⟩
      · exact .inl hh
      · refine .inr ⟨hr, k, s, by simpa using hk, ?_, hu⟩
        have hkc : lastCodepage (before ++ (a ++ [it]).take k) = lastCodepage (before ++ (a ++ [ri]).take k) := by
          by_cases hle : k ≤ a.length
          · rw [List.take_append_of_le_length hle, List.take_append_of_le_length hle]
          · have hk' : k = a.length + 1 := by simp at hk; omega
            rw [hk', List.take_of_length_le (by simp), List.take_of_length_le (by simp)]
            simp [lastCodepage, List.filterMap_append, hc]
        rw [hkc]
        exact hs
  · have hit : ∀ d', ri ≠ .one 0x5c d' := fun d' hd => hn d' (List.mem_append_right _ (by rw [(hw d').mp hd]; exact List.mem_singleton_self _))
    obtain ⟨h1, h2⟩ := h.without (fun d hd => hn d (List.mem_append_left _ hd))
    obtain ⟨⟨s1, _⟩, _⟩ := item_name h8 hit ha
    exact ⟨(s1 h1).1, (s1 h1).2.trans h2⟩

end Xlrd
