import Verif.Model.CompDoc
import Verif.Spec.CompDoc
import Mathlib.Tactic.Ring
import Mathlib.Tactic.SplitIfs
import Mathlib.Tactic.Push

/-!
# Lemmas on sector chains
-/
set_option linter.unusedSimpArgs false
namespace Xlrd
open Spec

theorem idx_nat' {α} (l : List α) (n : Nat) :
    idx l (n : Int) = match l[n]? with | some x => .ok x | none => .error .index := by
  unfold idx
  have h1 : ¬ ((n : Int) < 0) := by omega
  simp only [h1, ↓reduceIte, Int.toNat_natCast]
  cases l[n]? <;> rfl

theorem idx_ok_nat {α} (l : List α) (n : Nat) (x : α) : idx l (n : Int) = .ok x ↔ l[n]? = some x := by
  rw [idx_nat']; cases l[n]? <;> simp

theorem setIdx_nat {α} (l : List α) (n : Nat) (x : α) (h : n < l.length) : setIdx l (n : Int) x = .ok (l.set n x) := by
  unfold setIdx
  have h1 : ¬ ((n : Int) < 0) := by omega
  simp [h1, h]

theorem slice_nat {α} (l : List α) (a b : Nat) : slice l (a : Int) (b : Int) = (l.take b).drop a := by
  unfold slice clampIdx
  have h1 : ¬ ((a : Int) < 0) := by omega
  have h2 : ¬ ((b : Int) < 0) := by omega
  simp only [h1, h2, ↓reduceIte, Int.toNat_natCast]
  apply List.ext_getElem?
  intro k
  simp only [List.getElem?_drop, List.getElem?_take]
  by_cases ha : a ≤ l.length
  · rw [Nat.min_eq_left ha]
    by_cases hb : b ≤ l.length
    · rw [Nat.min_eq_left hb]
    · rw [Nat.min_eq_right (by omega)]
      by_cases h : a + k < l.length
      · rw [if_pos h, if_pos (by omega)]
      · rw [if_neg h]
        by_cases hk : a + k < b
        · rw [if_pos hk, List.getElem?_eq_none (by omega)]
        · rw [if_neg hk]
  · rw [Nat.min_eq_right (by omega)]
    rw [List.getElem?_eq_none (by omega), List.getElem?_eq_none (by omega)]
    simp

theorem mark_ok (seen : List Nat) (s : Nat) (id : Nat) (seen' : List Nat) :
    mark seen s id true = .ok seen' ↔ seen[s]? = some 0 ∧ id ≤ 255 ∧ seen' = seen.set s id := by
  unfold mark
  rw [idx_nat']
  cases h : seen[s]? with
  | none => simp [bind, Except.bind]
  | some v =>
    have hlt : s < seen.length := by
      by_contra hn; rw [List.getElem?_eq_none (by omega)] at h; cases h
    simp only [bind, Except.bind, Option.some.injEq]
    by_cases hv : v = 0
    · subst hv
      by_cases hid : id > 255
      · simp [hid]
      · simp only [ne_eq, not_true_eq_false, false_and, ↓reduceIte, hid, setIdx_nat _ _ _ hlt, Except.ok.injEq, true_and]
        constructor
        · intro e; exact ⟨by omega, e.symm⟩
        · intro e; exact e.2.symm
    · simp [hv]

theorem satNext_ok (sat : List Int) (s : Nat) (n : Int) : satNext sat s = .ok n ↔ sat[s]? = some n := by
  unfold satNext
  rw [idx_nat']; cases sat[s]? <;> simp

/-- The piece taken from sector `k` when `todo` bytes remain. -/
def pieceOf (mem : Bytes) (base sec : Nat) (k : Nat) (todo : Option Int) : Bytes :=
  slice mem ((base : Int) + k * sec) ((base : Int) + k * sec + grabOf sec todo)

def todoNext (sec : Nat) (todo : Option Int) : Option Int :=
  todo.map (· - grabOf sec todo)

def piecesOf (mem : Bytes) (base sec : Nat) : List Nat → Option Int → List Bytes
  | [], _ => []
  | k :: ks, todo => pieceOf mem base sec k todo :: piecesOf mem base sec ks (todoNext sec todo)

theorem Chain.det {sat s a b} (h : Chain sat s a) (h' : Chain sat s b) : a = b := by
  induction h generalizing b with
  | done => cases h' with
    | done => rfl
  | next k n rest hk _ ih =>
    generalize hs : (k : Int) = s at h'
    cases h' with
    | done => omega
    | next k' n' rest' hk' hc =>
      have : k = k' := by omega
      subst this
      rw [hk] at hk'; injection hk' with hk'; subst hk'
      rw [ih hc]

/-- the chain from a sector on a chain is the rest of it -/
theorem Chain.suffix {sat s secs} (h : Chain sat s secs) :
    ∀ k ∈ secs, ∃ pre post, secs = pre ++ post ∧ Chain sat (k : Int) post := by
  induction h with
  | done => simp
  | next k n rest hk hc ih =>
    intro j hj
    rcases List.mem_cons.mp hj with rfl | hj
    · exact ⟨[], _, rfl, .next _ n rest hk hc⟩
    · obtain ⟨pre, post, e, c⟩ := ih j hj
      exact ⟨k :: pre, post, by rw [e]; rfl, c⟩

/-- A finite chain visits no sector twice. -/
theorem Chain.nodup {sat s secs} (h : Chain sat s secs) : secs.Nodup := by
  induction h with
  | done => exact List.nodup_nil
  | next k n rest hk hc ih =>
    refine List.nodup_cons.mpr ⟨?_, ih⟩
    intro hm
    obtain ⟨pre, post, e, c⟩ := Chain.suffix hc k hm
    have hd := Chain.det c (.next k n rest hk hc)
    have := congrArg List.length e
    rw [hd] at this
    simp at this
    omega

theorem chain_neg {sat s secs} (h : Chain sat s secs) (hs : s < 0) : s = -2 ∧ secs = [] := by
  cases h with
  | done => exact ⟨rfl, rfl⟩
  | next k => omega

theorem chain_nonneg {sat s secs} (h : Chain sat s secs) (hs : 0 ≤ s) :
    ∃ (k : Nat) (n : Int) (rest : List Nat), s = k ∧ secs = k :: rest ∧ sat[k]? = some n ∧ Chain sat n rest := by
  cases h with
  | done => omega
  | next k n rest h1 h2 => exact ⟨k, n, rest, rfl, rfl, h1, h2⟩

theorem Marked.nil (seen id) : Marked seen [] id seen := ⟨List.nodup_nil, by simp, by simp⟩

theorem Marked.cons_iff {seen k rest id seen'} (hid : id ≠ 0) (h0 : seen[k]? = some 0) :
    Marked (seen.set k id) rest id seen' ↔ Marked seen (k :: rest) id seen' := by
  have hlt : k < seen.length := by
    by_contra hn; rw [List.getElem?_eq_none (by omega)] at h0; cases h0
  have hset : ∀ j : Nat, (seen.set k id)[j]? = if j = k then some id else seen[j]? := by
    intro j
    rw [List.getElem?_set]
    by_cases hj : j = k
    · subst hj; simp [hlt]
    · rw [if_neg (fun h => hj h.symm), if_neg hj]
  constructor
  · intro m
    have hk : k ∉ rest := by
      intro hk
      have := m.fresh k hk
      rw [hset, if_pos rfl] at this
      injection this with this; exact hid this
    refine ⟨List.nodup_cons.mpr ⟨hk, m.nodup⟩, ?_, ?_⟩
    · intro j hj
      rcases List.mem_cons.mp hj with rfl | hj
      · exact h0
      · have := m.fresh j hj
        rw [hset] at this
        split at this
        · injection this with this; exact absurd this hid
        · exact this
    · intro j
      rw [m.after, hset]
      by_cases hj : j = k
      · subst hj; simp
      · simp [hj]
  · intro m
    have hnd := List.nodup_cons.mp m.nodup
    refine ⟨hnd.2, ?_, ?_⟩
    · intro j hj
      have hne : j ≠ k := fun e => hnd.1 (e ▸ hj)
      rw [hset, if_neg hne]
      exact m.fresh j (List.mem_cons_of_mem _ hj)
    · intro j
      rw [m.after, hset]
      by_cases hj : j = k
      · subst hj; simp [hnd.1]
      · simp [hj]

/-- what the marking leaves behind, with or without marks -/
def MarkedOpt (seen secs : List Nat) (id : Option Nat) (seen' : List Nat) : Prop :=
  match id with
  | none => seen' = seen
  | some i => Marked seen secs i seen' ∧ seen'.length = seen.length ∧ (secs ≠ [] → i ≤ 255)

theorem markOpt_ok {seen : List Nat} {k : Nat} {rest seen' id} (hid : id ≠ some 0) :
    (∃ s1, markOpt seen k id = .ok s1 ∧ MarkedOpt s1 rest id seen') ↔ MarkedOpt seen (k :: rest) id seen' := by
  cases id with
  | none => simp [markOpt, MarkedOpt]
  | some i =>
    have hi : i ≠ 0 := fun e => hid (by rw [e])
    simp only [markOpt, MarkedOpt, mark_ok]
    constructor
    · rintro ⟨s1, ⟨h0, h1, rfl⟩, m, l, _⟩
      exact ⟨(Marked.cons_iff hi h0).mp m, by simpa using l, fun _ => h1⟩
    · rintro ⟨m, l, h⟩
      have h0 := m.fresh k (by simp)
      exact ⟨_, ⟨h0, h (by simp), rfl⟩, (Marked.cons_iff hi h0).mpr m, by simpa using l, fun _ => h (by simp)⟩

theorem getLoop_sound (fuel : Nat) (seen : List Nat) (mem : Bytes) (base : Nat) (sat : List Int) (sec : Nat) (s : Int)
    (todo : Option Int) (id : Option Nat) (hid : id ≠ some 0) (ps : List Bytes) (seen' : List Nat)
    (h : getLoop fuel seen mem base sat sec s todo id = some (.ok (ps, seen'))) :
    ∃ secs, Chain sat s secs ∧ secs.length ≤ fuel ∧ ps = piecesOf mem base sec secs todo ∧ MarkedOpt seen secs id seen' := by
  induction fuel generalizing seen s todo ps seen' with
  | zero =>
    unfold getLoop at h
    split_ifs at h with h1 h2
    · simp only [Option.some.injEq, Except.ok.injEq, Prod.mk.injEq] at h
      refine ⟨[], ?_, by simp, h.1.symm, ?_⟩
      · rw [h2]; exact Chain.done
      · cases id with
        | none => exact h.2.symm
        | some i => rw [← h.2]; exact ⟨Marked.nil _ _, rfl, by simp⟩
    · cases h
  | succ fuel ih =>
    unfold getLoop at h
    split_ifs at h with h1 h2
    · obtain ⟨k, rfl⟩ := Int.eq_ofNat_of_zero_le h1
      simp only [Int.ofNat_eq_natCast] at h
      cases hm : markOpt seen (k : Int) id with
      | error e => simp [hm] at h
      | ok s1 =>
        simp only [hm] at h
        cases hn : satNext sat (k : Int) with
        | error e => simp [hn] at h
        | ok n =>
          simp only [hn] at h
          split at h
          · cases h
          · cases h
          · rename_i ps1 s2 hrec
            simp only [Option.some.injEq, Except.ok.injEq, Prod.mk.injEq] at h
            obtain ⟨rfl, rfl⟩ := h
            obtain ⟨secs, hc, hl, hp, hmk⟩ := ih s1 n _ ps1 s2 hrec
            refine ⟨k :: secs, Chain.next k n secs ((satNext_ok _ _ _).mp hn) hc, by simp; omega, ?_, ?_⟩
            · subst hp; rfl
            · exact (markOpt_ok hid).mp ⟨s1, hm, hmk⟩
    · simp only [Option.some.injEq, Except.ok.injEq, Prod.mk.injEq] at h
      refine ⟨[], ?_, by simp, h.1.symm, ?_⟩
      · rw [h2]; exact Chain.done
      · cases id with
        | none => exact h.2.symm
        | some i => rw [← h.2]; exact ⟨Marked.nil _ _, rfl, by simp⟩
    · cases h

theorem getLoop_complete (seen : List Nat) (mem : Bytes) (base : Nat) (sat : List Int) (sec : Nat) (s : Int)
    (todo : Option Int) (id : Option Nat) (hid : id ≠ some 0) (secs : List Nat) (hc : Chain sat s secs)
    (seen' : List Nat) (hm : MarkedOpt seen secs id seen') (fuel : Nat) (hf : secs.length ≤ fuel) :
    getLoop fuel seen mem base sat sec s todo id = some (.ok (piecesOf mem base sec secs todo, seen')) := by
  induction hc generalizing seen todo fuel with
  | done =>
    have : seen' = seen := by
      cases id with
      | none => exact hm
      | some i =>
        apply List.ext_getElem?
        intro k
        have := hm.1.after k
        simpa using this
    unfold getLoop
    simp [EOCSID, piecesOf, this]
  | next k n rest hk _ ih =>
    obtain ⟨fuel, rfl⟩ : ∃ f, fuel = f + 1 := ⟨fuel - 1, by simp at hf; omega⟩
    obtain ⟨s1, h1, h2⟩ := (markOpt_ok hid).mpr hm
    have hn := (satNext_ok sat k n).mpr hk
    unfold getLoop
    simp only [ge_iff_le, Int.natCast_nonneg, ↓reduceIte, h1, hn]
    rw [ih s1 _ h2 fuel (by simp at hf; omega)]
    rfl

/-- more fuel does not change a result -/
theorem getLoop_mono (fuel fuel' : Nat) (hf : fuel ≤ fuel') (seen : List Nat) (mem : Bytes) (base : Int) (sat : List Int)
    (sec : Nat) (s : Int) (todo : Option Int) (id : Option Nat) (r)
    (h : getLoop fuel seen mem base sat sec s todo id = some r) :
    getLoop fuel' seen mem base sat sec s todo id = some r := by
  induction fuel generalizing fuel' seen s todo r with
  | zero =>
    unfold getLoop at h ⊢
    split_ifs at h ⊢ <;> first | exact h | cases h
  | succ fuel ih =>
    obtain ⟨fuel', rfl⟩ : ∃ f, fuel' = f + 1 := ⟨fuel' - 1, by omega⟩
    unfold getLoop at h ⊢
    split_ifs at h ⊢ with h1 h2
    · cases hm : markOpt seen s id with
      | error e => simpa [hm] using h
      | ok s1 =>
        simp only [hm] at h ⊢
        cases hn : satNext sat s with
        | error e => simpa [hn] using h
        | ok n =>
          simp only [hn] at h ⊢
          split at h
          · cases h
          · rename_i e hrec
            rw [ih fuel' (by omega) _ _ _ _ hrec]; exact h
          · rename_i ps s2 hrec
            rw [ih fuel' (by omega) _ _ _ _ hrec]; exact h
    · exact h
    · exact h

theorem count_mark {seen : List Nat} {k : Nat} {id : Nat} {s1} (hid : id ≠ 0) (h : mark seen k id true = .ok s1) :
    s1.count 0 + 1 = seen.count 0 := by
  obtain ⟨h0, _, rfl⟩ := (mark_ok _ _ _ _).mp h
  have hlt : k < seen.length := by
    by_contra hn; rw [List.getElem?_eq_none (by omega)] at h0; cases h0
  rw [List.getElem?_eq_getElem hlt] at h0
  injection h0 with h0
  have hpos : 0 < seen.count 0 := List.count_pos_iff.mpr (h0 ▸ List.getElem_mem hlt)
  rw [List.count_set hlt]
  simp [h0, hid]
  omega

/-- with marks the loop ends within as many steps as there are unmarked sectors (plus the failing one) -/
theorem getLoop_ends (seen : List Nat) (mem : Bytes) (base : Int) (sat : List Int) (sec : Nat) (s : Int)
    (todo : Option Int) (i : Nat) (hid : i ≠ 0) (fuel : Nat) (hf : seen.count 0 < fuel) :
    ∃ r, getLoop fuel seen mem base sat sec s todo (some i) = some r := by
  induction fuel generalizing seen s todo with
  | zero => omega
  | succ fuel ih =>
    unfold getLoop
    split_ifs with h1 h2
    · obtain ⟨k, rfl⟩ := Int.eq_ofNat_of_zero_le h1
      simp only [Int.ofNat_eq_natCast]
      cases hm : markOpt seen (k : Int) (some i) with
      | error e => exact ⟨_, rfl⟩
      | ok s1 =>
        simp only
        cases hn : satNext sat (k : Int) with
        | error e => exact ⟨_, rfl⟩
        | ok n =>
          simp only
          have hc := count_mark hid hm
          obtain ⟨r, hr⟩ := ih s1 n (todo.map (· - grabOf sec todo)) (by omega)
          rw [hr]
          cases r with
          | error e => exact ⟨_, rfl⟩
          | ok p => exact ⟨_, rfl⟩
    · exact ⟨_, rfl⟩
    · exact ⟨_, rfl⟩

/-! ## bytes of the pieces -/

theorem pieceOf_nat (mem : Bytes) (base sec k t : Nat) :
    pieceOf mem base sec k (some (t : Int)) = (sector mem base sec k).take t := by
  unfold pieceOf sector grabOf
  have : ((base : Int) + k * sec) = ((base + k * sec : Nat) : Int) := by push_cast; rfl
  rw [this]
  have e2 : ((base + k * sec : Nat) : Int) + (if (sec : Int) > (t : Int) then (t : Int) else sec) =
      ((base + k * sec + min sec t : Nat) : Int) := by
    push_cast
    split_ifs <;> omega
  simp only [e2, slice_nat]
  rw [List.take_take, List.drop_take]
  congr 1
  omega

theorem pieceOf_none (mem : Bytes) (base sec k : Nat) :
    pieceOf mem base sec k none = sector mem base sec k := by
  unfold pieceOf sector grabOf
  have : ((base : Int) + k * sec) = ((base + k * sec : Nat) : Int) := by push_cast; rfl
  rw [this]
  have e2 : ((base + k * sec : Nat) : Int) + (sec : Int) = ((base + k * sec + sec : Nat) : Int) := by push_cast; rfl
  simp only [e2, slice_nat]
  rw [List.drop_take]
  congr 1
  omega

theorem todoNext_nat (sec t : Nat) : todoNext sec (some (t : Int)) = some ((t - sec : Nat) : Int) := by
  unfold todoNext grabOf
  simp only [Option.map_some, Option.some.injEq]
  split_ifs <;> omega

theorem piecesOf_none (mem : Bytes) (base sec : Nat) (secs : List Nat) :
    (piecesOf mem base sec secs none).flatten = sectors mem base sec secs := by
  induction secs with
  | nil => rfl
  | cons k ks ih =>
    unfold sectors at ih ⊢
    simp only [piecesOf, List.flatten_cons, pieceOf_none, todoNext, Option.map_none, ih, List.flatMap_cons]

theorem sector_length (mem : Bytes) (base sec k : Nat) (h : Whole mem base sec k) : (sector mem base sec k).length = sec := by
  unfold sector
  unfold Whole at h
  simp only [List.length_take, List.length_drop]
  have : (k + 1) * sec = k * sec + sec := by ring_nf
  omega

theorem piecesOf_some (mem : Bytes) (base sec : Nat) (secs : List Nat) (t : Nat)
    (hw : ∀ k ∈ secs.dropLast, Whole mem base sec k) :
    (piecesOf mem base sec secs (some (t : Int))).flatten = (sectors mem base sec secs).take t := by
  induction secs generalizing t with
  | nil => simp [piecesOf, sectors]
  | cons k ks ih =>
    simp only [piecesOf, List.flatten_cons, pieceOf_nat, todoNext_nat]
    cases ks with
    | nil => simp [piecesOf, sectors]
    | cons k' ks' =>
      rw [ih (t - sec) (fun j hj => hw j (by simp at hj ⊢; tauto))]
      have hk := sector_length mem base sec k (hw k (by simp))
      have e : sectors mem base sec (k :: k' :: ks') = sector mem base sec k ++ sectors mem base sec (k' :: ks') := by
        simp [sectors]
      rw [e, List.take_append, hk]

end Xlrd
