import Verif.Lemmas.DumpLoop

/-!
# Lemmas about counting records
-/
namespace Xlrd
open Spec
set_option linter.unusedSimpArgs false

namespace DumpL

theorem hexUp_char : ∀ d : Nat, d < 16 → hexUp d = "0123456789ABCDEF".toList.getD d ' ' := by decide

theorem countName_eq (rc len : Nat) (hrc : rc < 65536) (h : ¬ (rc = 0 ∧ len = 0)) : countName rc len = countedName rc := by
  rw [countName, if_neg h, recName_spec, countedName]
  cases recordNamed rc with
  | some x => rfl
  | none =>
    simp only [Option.map_none, hex4Up, List.map_cons, List.map_nil]
    rw [hexUp_char _ (by omega), hexUp_char _ (by omega), hexUp_char _ (by omega), hexUp_char _ (by omega)]

theorem seg_drop {mem s r : Bytes} {pos e n : Nat} (h : seg mem pos e = s ++ r) (hn : s.length = n) : seg mem (pos + n) e = r := by
  simp only [seg] at *
  have e1 : (mem.drop (pos + n)).take (e - (pos + n)) = ((mem.drop pos).take (e - pos)).drop n := by
    rw [List.drop_take, List.drop_drop]; congr 1; omega
  rw [e1, h, ← hn, List.drop_left]

theorem countLoop_names {name : Nat → PyStr} (hname : name = countedName) {pad : Bool} {s : Bytes} {names : List PyStr} (h : RecordNames name pad s names) (mem : Bytes) (streamEnd : Nat)
    (hs : streamEnd ≤ mem.length) (hp : pad = true → streamEnd = mem.length) :
    ∀ (fuel pos : Nat) (tally : List (PyStr × Nat)), seg mem pos streamEnd = s → pos ≤ streamEnd → streamEnd - pos < fuel →
      countLoop mem streamEnd fuel pos tally = .ok (names.foldl (fun t n => tallyAdd n t) tally) := by
  subst hname
  have hlen : ∀ pos, pos ≤ streamEnd → (seg mem pos streamEnd).length = streamEnd - pos := fun pos hpos => by rw [seg_length]; omega
  have head : ∀ (pos rc len : Nat) (r : Bytes), rc < 65536 → len < 65536 → seg mem pos streamEnd = le16 rc ++ le16 len ++ r → pos ≤ streamEnd →
      pos + 4 ≤ streamEnd ∧ unpackN 4 (slice mem pos (pos + 4 : Nat)) = .ok (le16 rc ++ le16 len) := by
    intro pos rc len r h1 h2 hseg hpos
    have hl := hlen pos hpos
    rw [hseg] at hl
    simp [le16] at hl
    have h4 : pos + 4 ≤ streamEnd := by omega
    refine ⟨h4, ?_⟩
    rw [slice_seg]
    have := seg_append mem pos (pos + 4) streamEnd (by omega) h4
    rw [hseg] at this
    rw [List.append_inj_left this (by rw [seg_length]; simp [le16]; omega)]
    exact unpackN_ok (by simp [le16])
  induction h with
  | few b hb =>
    intro fuel pos tally hseg hpos hf
    cases fuel with
    | zero => omega
    | succ fuel =>
      have := hlen pos hpos
      rw [hseg] at this
      rw [countLoop, if_neg (by omega)]
      rfl
  | zeros n hpad =>
    intro fuel pos tally hseg hpos hf
    cases fuel with
    | zero => omega
    | succ fuel =>
      have hl := hlen pos hpos
      rw [hseg, List.length_replicate] at hl
      rw [countLoop]
      by_cases h4 : pos + 4 ≤ streamEnd
      · rw [if_pos h4]
        have hseg' : seg mem pos streamEnd = le16 0 ++ le16 0 ++ List.replicate (n - 4) 0 := by
          rw [hseg, show n = 4 + (n - 4) by omega, ← List.replicate_append_replicate, Nat.add_sub_cancel_left]; rfl
        rw [(head pos 0 0 _ (by omega) (by omega) hseg' hpos).2]
        simp only [bind, Except.bind]
        rw [(head_fld 0 0 (by omega) (by omega)).1, (head_fld 0 0 (by omega) (by omega)).2, sliceFrom_drop, if_pos]
        · rfl
        · refine ⟨rfl, rfl, ?_⟩
          rw [← hl, ← hseg, seg, List.take_of_length_le (by simp; have := hp hpad; omega)]
      · rw [if_neg h4]; rfl
  | dummy rest names hnz hr ih =>
    intro fuel pos tally hseg hpos hf
    cases fuel with
    | zero => omega
    | succ fuel =>
      have hh := head pos 0 0 rest (by omega) (by omega) (by rw [hseg]; rfl) hpos
      rw [countLoop, if_pos hh.1, hh.2]
      simp only [bind, Except.bind]
      rw [(head_fld 0 0 (by omega) (by omega)).1, (head_fld 0 0 (by omega) (by omega)).2, sliceFrom_drop, if_neg]
      · rw [ih fuel (pos + 0 + 4) _ (seg_drop hseg rfl) (by omega) (by omega)]
        rfl
      · rintro ⟨_, _, hall⟩
        obtain ⟨b, hb, hb0⟩ := hnz
        have hm : b ∈ mem.drop pos := by
          have : b ∈ seg mem pos streamEnd := by rw [hseg]; exact List.mem_append_right _ hb
          exact List.mem_of_mem_take this
        rw [hall] at hm
        exact hb0 (List.mem_replicate.1 hm).2
  | record code data rest names h1 h2 h3 hr ih =>
    intro fuel pos tally hseg hpos hf
    cases fuel with
    | zero => omega
    | succ fuel =>
      have hh := head pos code data.length (data ++ rest) h1 h2 (by rw [hseg, List.append_assoc]) hpos
      have h3' : ¬ (code = 0 ∧ data.length = 0) := fun hc => h3 ⟨hc.1, List.eq_nil_of_length_eq_zero hc.2⟩
      have hl := hlen pos hpos
      rw [hseg] at hl
      simp [le16] at hl
      rw [countLoop, if_pos hh.1, hh.2]
      simp only [bind, Except.bind]
      rw [(head_fld _ _ h1 h2).1, (head_fld _ _ h1 h2).2, if_neg (fun hc => h3' ⟨hc.1, hc.2.1⟩)]
      rw [ih fuel (pos + data.length + 4) _ (by rw [Nat.add_assoc]; exact seg_drop hseg (by simp [le16])) (by omega) (by omega), countName_eq _ _ h1 h3']
      rfl
  | cut code len data h1 h2 h3 =>
    intro fuel pos tally hseg hpos hf
    cases fuel with
    | zero => omega
    | succ fuel =>
      have hh := head pos code len data h1 h2 hseg hpos
      have h3' : ¬ (code = 0 ∧ len = 0) := fun hc => by omega
      have hl := hlen pos hpos
      rw [hseg] at hl
      simp [le16] at hl
      rw [countLoop, if_pos hh.1, hh.2]
      simp only [bind, Except.bind]
      rw [(head_fld _ _ h1 h2).1, (head_fld _ _ h1 h2).2, if_neg (fun hc => h3' ⟨hc.1, hc.2.1⟩)]
      cases fuel with
      | zero => omega
      | succ fuel =>
        rw [countLoop, if_neg (by omega), countName_eq _ _ h1 h3']
        rfl

/-! ## The tally -/

/-- The items of a dictionary with the number of times that each name occurs. -/
structure Tally (names : List PyStr) (t : List (PyStr × Nat)) : Prop where
  nodup : (t.map Prod.fst).Nodup
  mem : ∀ n k, (n, k) ∈ t ↔ k = names.count n ∧ n ∈ names

theorem mem_tallyAdd {name : PyStr} {t : List (PyStr × Nat)} (h : (t.map Prod.fst).Nodup) (n : PyStr) (k : Nat) :
    (n, k) ∈ tallyAdd name t ↔ (n ≠ name ∧ (n, k) ∈ t) ∨ (n = name ∧ ((∃ j, (n, j) ∈ t ∧ k = j + 1) ∨ ((∀ j, (n, j) ∉ t) ∧ k = 1))) := by
  induction t with
  | nil =>
    simp only [tallyAdd, List.mem_singleton, Prod.mk.injEq, List.not_mem_nil, and_false, false_and, exists_false, not_false_eq_true, implies_true, true_and, false_or]
  | cons x t ih =>
    obtain ⟨a, i⟩ := x
    simp only [List.map_cons, List.nodup_cons, List.mem_map, Prod.exists, exists_and_right, exists_eq_right, not_exists] at h
    rw [tallyAdd]
    by_cases ha : a = name
    · subst ha
      rw [if_pos rfl]
      simp only [List.mem_cons, Prod.mk.injEq]
      constructor
      · rintro (⟨rfl, rfl⟩ | hm)
        · exact .inr ⟨rfl, .inl ⟨i, .inl ⟨rfl, rfl⟩, rfl⟩⟩
        · refine .inl ⟨?_, .inr hm⟩
          rintro rfl
          exact h.1 k hm
      · rintro (⟨h1, ⟨h2, _⟩ | h2⟩ | ⟨rfl, ⟨j, ⟨_, rfl⟩ | hj, rfl⟩ | ⟨hj, rfl⟩⟩)
        · exact absurd h2 h1
        · exact .inr h2
        · exact .inl ⟨rfl, rfl⟩
        · exact absurd hj (h.1 j)
        · exact absurd (.inl ⟨rfl, rfl⟩) (hj i)
    · rw [if_neg ha]
      simp only [List.mem_cons, Prod.mk.injEq, ih h.2]
      constructor
      · rintro (⟨rfl, rfl⟩ | ⟨h1, h2⟩ | ⟨rfl, ⟨j, hj, rfl⟩ | ⟨hj, rfl⟩⟩)
        · exact .inl ⟨ha, .inl ⟨rfl, rfl⟩⟩
        · exact .inl ⟨h1, .inr h2⟩
        · exact .inr ⟨rfl, .inl ⟨j, .inr hj, rfl⟩⟩
        · exact .inr ⟨rfl, .inr ⟨fun j hc => hc.elim (fun hc => ha hc.1.symm) (hj j), rfl⟩⟩
      · rintro (⟨h1, ⟨rfl, rfl⟩ | h2⟩ | ⟨rfl, ⟨j, ⟨h2, _⟩ | hj, rfl⟩ | ⟨hj, rfl⟩⟩)
        · exact .inl ⟨rfl, rfl⟩
        · exact .inr (.inl ⟨h1, h2⟩)
        · exact absurd h2.symm ha
        · exact .inr (.inr ⟨rfl, .inl ⟨j, hj, rfl⟩⟩)
        · exact .inr (.inr ⟨rfl, .inr ⟨fun j hc => hj j (.inr hc), rfl⟩⟩)

theorem tallyAdd_keys (name : PyStr) (t : List (PyStr × Nat)) : ∀ n, n ∈ (tallyAdd name t).map Prod.fst → n = name ∨ n ∈ t.map Prod.fst := by
  induction t with
  | nil => intro n hn; left; simpa [tallyAdd] using hn
  | cons x t ih =>
    intro n hn
    obtain ⟨a, i⟩ := x
    rw [tallyAdd] at hn
    by_cases ha : a = name
    · rw [if_pos ha] at hn; exact .inr hn
    · rw [if_neg ha] at hn
      simp only [List.map_cons, List.mem_cons] at hn ⊢
      rcases hn with rfl | hn
      · exact .inr (.inl rfl)
      · exact (ih n hn).imp id .inr

theorem tallyAdd_nodup (name : PyStr) (t : List (PyStr × Nat)) (h : (t.map Prod.fst).Nodup) : ((tallyAdd name t).map Prod.fst).Nodup := by
  induction t with
  | nil => simp [tallyAdd]
  | cons x t ih =>
    obtain ⟨a, i⟩ := x
    rw [List.map_cons, List.nodup_cons] at h
    rw [tallyAdd]
    by_cases ha : a = name
    · rw [if_pos ha, List.map_cons, List.nodup_cons]; exact h
    · rw [if_neg ha, List.map_cons, List.nodup_cons]
      exact ⟨fun hc => (tallyAdd_keys name t _ hc).elim ha h.1, ih h.2⟩

theorem Tally.add {names : List PyStr} {t : List (PyStr × Nat)} (h : Tally names t) (name : PyStr) : Tally (names ++ [name]) (tallyAdd name t) := by
  refine ⟨tallyAdd_nodup name t h.nodup, fun n k => ?_⟩
  rw [mem_tallyAdd h.nodup]
  simp only [h.mem, List.count_append, List.mem_append, List.mem_singleton]
  by_cases hn : n = name
  · subst hn
    have h1 : [n].count n = 1 := by simp
    rw [h1]
    by_cases hm : n ∈ names
    · constructor
      · rintro (⟨hc, _⟩ | ⟨_, ⟨j, ⟨rfl, _⟩, rfl⟩ | ⟨hj, rfl⟩⟩)
        · exact absurd rfl hc
        · exact ⟨rfl, .inr rfl⟩
        · exact absurd ⟨rfl, hm⟩ (hj _)
      · rintro ⟨rfl, _⟩
        exact .inr ⟨rfl, .inl ⟨_, ⟨rfl, hm⟩, rfl⟩⟩
    · rw [List.count_eq_zero_of_not_mem hm]
      constructor
      · rintro (⟨hc, _⟩ | ⟨_, ⟨j, ⟨_, hc⟩, _⟩ | ⟨_, rfl⟩⟩)
        · exact absurd rfl hc
        · exact absurd hc hm
        · exact ⟨rfl, .inr rfl⟩
      · rintro ⟨rfl, _⟩
        exact .inr ⟨rfl, .inr ⟨fun j hc => hm hc.2, rfl⟩⟩
  · have h0 : [name].count n = 0 := List.count_eq_zero_of_not_mem (by simpa using hn)
    rw [h0]
    simp [hn]

theorem tally_names (names : List PyStr) : Tally names (names.foldl (fun t n => tallyAdd n t) []) := by
  suffices H : ∀ (names done : List PyStr) (t : List (PyStr × Nat)), Tally done t → Tally (done ++ names) (names.foldl (fun t n => tallyAdd n t) t) by
    simpa using H names [] [] ⟨List.nodup_nil, fun n k => by simp⟩
  intro names
  induction names with
  | nil => intro done t h; simpa using h
  | cons n names ih =>
    intro done t h
    have := ih (done ++ [n]) _ (h.add n)
    simpa using this

/-! ## Sorting -/

theorem strLe_lt : ∀ {a b : PyStr}, strLe a b = true → a ≠ b → a.map Char.toNat < b.map Char.toNat
  | [], [], _, h => absurd rfl h
  | [], _ :: _, _, _ => by simp
  | x :: s, y :: t, h, hne => by
    simp only [strLe, Bool.or_eq_true, decide_eq_true_eq, Bool.and_eq_true] at h
    rw [List.map_cons, List.map_cons, List.cons_lt_cons_iff]
    rcases h with h | ⟨h1, h2⟩
    · exact .inl h
    · have hxy : x = y := Char.toNat_inj.1 h1
      subst hxy
      exact .inr ⟨rfl, strLe_lt h2 (fun hc => hne (by rw [hc]))⟩

theorem strLe_total : ∀ {a b : PyStr}, ¬ strLe a b = true → strLe b a = true
  | [], _, h => absurd rfl h
  | _ :: _, [], _ => rfl
  | x :: s, y :: t, h => by
    simp only [strLe, Bool.or_eq_true, decide_eq_true_eq, Bool.and_eq_true, not_or, not_and] at h ⊢
    by_cases he : x.toNat = y.toNat
    · exact .inr ⟨he.symm, strLe_total (h.2 he)⟩
    · exact .inl (by omega)

theorem mem_sortInsert (x y : PyStr × Nat) (t : List (PyStr × Nat)) : y ∈ sortInsert x t ↔ y = x ∨ y ∈ t := by
  induction t with
  | nil => simp [sortInsert]
  | cons z t ih =>
    rw [sortInsert]
    by_cases h : strLe x.1 z.1 = true
    · rw [if_pos h]; simp
    · rw [if_neg h, List.mem_cons, ih, List.mem_cons]; tauto

theorem mem_sortItems (y : PyStr × Nat) (t : List (PyStr × Nat)) : y ∈ sortItems t ↔ y ∈ t := by
  induction t with
  | nil => rfl
  | cons x t ih => rw [sortItems, mem_sortInsert, ih, List.mem_cons]

/-- Less by code points. -/
abbrev Lt (a b : PyStr × Nat) : Prop := a.1.map Char.toNat < b.1.map Char.toNat

theorem sortInsert_sorted (x : PyStr × Nat) (t : List (PyStr × Nat)) (h : t.Pairwise Lt) (hx : ∀ y ∈ t, y.1 ≠ x.1) : (sortInsert x t).Pairwise Lt := by
  induction t with
  | nil => simp [sortInsert]
  | cons z t ih =>
    rw [List.pairwise_cons] at h
    rw [sortInsert]
    by_cases hle : strLe x.1 z.1 = true
    · rw [if_pos hle]
      have hxz : Lt x z := strLe_lt hle (fun hc => hx z (List.mem_cons_self ..) hc.symm)
      refine List.pairwise_cons.2 ⟨fun y hy => ?_, List.pairwise_cons.2 h⟩
      rcases List.mem_cons.1 hy with rfl | hy
      · exact hxz
      · exact List.lt_trans hxz (h.1 y hy)
    · rw [if_neg hle]
      refine List.pairwise_cons.2 ⟨fun y hy => ?_, ih h.2 fun y hy => hx y (List.mem_cons_of_mem _ hy)⟩
      rcases (mem_sortInsert _ _ _).1 hy with rfl | hy
      · exact strLe_lt (strLe_total hle) (hx z (List.mem_cons_self ..))
      · exact h.1 y hy

theorem sortItems_sorted (t : List (PyStr × Nat)) (h : (t.map Prod.fst).Nodup) : (sortItems t).Pairwise Lt := by
  induction t with
  | nil => exact List.Pairwise.nil
  | cons x t ih =>
    rw [List.map_cons, List.nodup_cons] at h
    refine sortInsert_sorted _ _ (ih h.2) fun y hy hc => h.1 ?_
    rw [← hc]
    exact List.mem_map_of_mem ((mem_sortItems _ _).1 hy)

end DumpL
end Xlrd
