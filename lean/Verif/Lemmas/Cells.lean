import Verif.Spec.Cells

/-!
# The three grids of the cell store as one grid of cells
-/
set_option linter.unusedSimpArgs false
namespace Xlrd
open Spec

section maps
variable {α β : Type} (f : α → β)

theorem getRow_map (g : List (List α)) (r : Nat) :
    getRow (g.map (List.map f)) r = (getRow g r).map (List.map f) := by
  unfold getRow
  rw [List.getElem?_map]
  cases g[r]? <;> rfl

theorem setCell_map (g : List (List α)) (r c : Nat) (x : α) :
    setCell (g.map (List.map f)) r c (f x) = (setCell g r c x).map (List.map (List.map f)) := by
  unfold setCell
  rw [List.getElem?_map]
  cases g[r]? with
  | none => rfl
  | some row =>
    simp only [Option.map_some, List.length_map]
    split <;> simp [Except.map, List.map_set]

theorem extendRow_map (g : List (List α)) (r n : Nat) (b : α) :
    extendRow (g.map (List.map f)) r n (f b) = (extendRow g r n b).map (List.map (List.map f)) := by
  unfold extendRow
  rw [List.getElem?_map]
  cases g[r]? with
  | none => rfl
  | some row => simp [Except.map, List.map_set]

theorem appendRows_map (g : List (List α)) (n w : Nat) (b : α) :
    appendRows (g.map (List.map f)) n w (f b) = (appendRows g n w b).map (List.map f) := by
  simp [appendRows]

theorem raggedRow_map (row : List α) (ltr c : Nat) (b x : α) :
    raggedRow (row.map f) ltr c (f b) (f x) = (raggedRow row ltr c b x).map (List.map f) := by
  unfold raggedRow tailAssign
  split
  · simp [Except.map]
  · split
    · simp only [← List.map_take, ← List.map_replicate, ← List.map_append, List.length_map]
      split <;> simp [Except.map, List.map_set]
    · simp only [List.length_map]
      split <;> simp [Except.map, List.map_set]

theorem padRows_map (lens : List Nat) (ncols ub : Nat) (b : α) (g : List (List α)) :
    padRows lens ncols (f b) ub (g.map (List.map f)) = (padRows lens ncols b ub g).map (List.map f) := by
  unfold padRows
  apply List.ext_getElem?
  intro i
  simp only [List.getElem?_mapIdx, List.getElem?_map]
  cases g[i]? with
  | none => rfl
  | some row =>
    simp only [Option.map_some]
    split
    · split <;> simp
    · rfl
end maps

/-! ## One grid of cells -/

/-- the cell at a position, blank outside -/
def gAt (G : List (List ACell)) (i j : Nat) : ACell := (G.getD i []).getD j ACell.blank
/-- the length of a row, 0 outside -/
def gLen (G : List (List ACell)) (i : Nat) : Nat := (G.getD i []).length

theorem gAt_outside (G : List (List ACell)) (i j : Nat) (h : gLen G i ≤ j) : gAt G i j = ACell.blank := by
  unfold gAt; unfold gLen at h
  rw [List.getD_eq_getElem?_getD, List.getElem?_eq_none h]; rfl

theorem gLen_outside (G : List (List ACell)) (i : Nat) (h : G.length ≤ i) : gLen G i = 0 := by
  simp [gLen, List.getD, List.getElem?_eq_none h]

theorem getD_set {α} (l : List α) (c j : Nat) (x d : α) (h : c < l.length) :
    (l.set c x).getD j d = if j = c then x else l.getD j d := by
  simp only [List.getD, List.getElem?_set]
  by_cases hjc : j = c
  · subst hjc; simp [h]
  · have : ¬ c = j := fun h => hjc h.symm
    simp [this, hjc]

theorem getD_append_blank {α} (l : List α) (n j : Nat) (d : α) :
    (l ++ List.replicate n d).getD j d = l.getD j d := by
  simp only [List.getD, List.getElem?_append]
  split
  · rfl
  · rename_i h
    rw [List.getElem?_eq_none (by omega : l.length ≤ j)]
    rw [List.getElem?_replicate]
    split <;> rfl

theorem gAt_set (G : List (List ACell)) (r : Nat) (row : List ACell) (h : r < G.length) (i j : Nat) :
    gAt (G.set r row) i j = if i = r then row.getD j ACell.blank else gAt G i j := by
  unfold gAt
  rw [getD_set _ _ _ _ _ h]
  split <;> rfl

theorem gLen_set (G : List (List ACell)) (r : Nat) (row : List ACell) (h : r < G.length) (i : Nat) :
    gLen (G.set r row) i = if i = r then row.length else gLen G i := by
  unfold gLen
  rw [getD_set _ _ _ _ _ h]
  split <;> rfl

theorem gAt_append (G : List (List ACell)) (n w i j : Nat) :
    gAt (G ++ List.replicate n (List.replicate w ACell.blank)) i j = gAt G i j := by
  unfold gAt
  simp only [List.getD, List.getElem?_append]
  split
  · rfl
  · rename_i h
    rw [List.getElem?_eq_none (by omega : G.length ≤ i)]
    rw [List.getElem?_replicate]
    split
    · simp only [Option.getD_some, Option.getD_none, List.getElem?_replicate]
      split <;> rfl
    · rfl

theorem gLen_append (G : List (List ACell)) (n w i : Nat) :
    gLen (G ++ List.replicate n (List.replicate w ACell.blank)) i =
      if i < G.length then gLen G i else if i < G.length + n then w else 0 := by
  unfold gLen
  simp only [List.getD, List.getElem?_append]
  split
  · rfl
  · rename_i h
    rw [List.getElem?_replicate]
    have : (i - G.length < n) ↔ (i < G.length + n) := by omega
    simp only [this]
    split <;> simp

/-- What a write does to the grid: `L` gives the new row lengths. -/
structure PutSpec (G G' : List (List ACell)) (r c : Nat) (x : ACell) (L : Nat → Nat) : Prop where
  len : G'.length = max G.length (r + 1)
  lens : ∀ i, i < G'.length → gLen G' i = L i
  cells : ∀ i j, gAt G' i j = if i = r ∧ j = c then x else gAt G i j

/-- assignment inside the grid -/
theorem putSpec_assign (G : List (List ACell)) (r c : Nat) (x : ACell) (n : Nat) (hr : r < G.length)
    (hc : c < gLen G r + n) :
    PutSpec G (G.set r ((G.getD r [] ++ List.replicate n ACell.blank).set c x)) r c x
      (fun i => if i = r then gLen G r + n else gLen G i) where
  len := by simp; omega
  lens := by
    intro i _
    rw [gLen_set _ _ _ hr]
    split
    · simp [gLen]
    · rfl
  cells := by
    intro i j
    rw [gAt_set _ _ _ hr]
    by_cases hi : i = r
    · subst hi
      rw [getD_set _ _ _ _ _ (by simpa [gLen] using hc), getD_append_blank]
      by_cases hj : j = c <;> simp [hj, gAt]
    · simp [hi]

/-- assignment in a new row -/
theorem putSpec_append (G : List (List ACell)) (r c w n : Nat) (x : ACell) (hr : G.length ≤ r)
    (hc : c < w + n) :
    PutSpec G ((G ++ List.replicate (r + 1 - G.length) (List.replicate w ACell.blank)).set r
        ((List.replicate w ACell.blank ++ List.replicate n ACell.blank).set c x)) r c x
      (fun i => if i < G.length then gLen G i else if i = r then w + n else w) where
  len := by simp; omega
  lens := by
    intro i hi
    simp at hi
    rw [gLen_set _ _ _ (by simp; omega), gLen_append]
    by_cases h1 : i = r
    · subst h1; simp [show ¬ i < G.length by omega]
    · by_cases h2 : i < G.length
      · simp [h1, h2]
      · simp [h1, h2]; omega
  cells := by
    intro i j
    rw [gAt_set _ _ _ (by simp; omega), gAt_append]
    by_cases hi : i = r
    · subst hi
      rw [getD_set _ _ _ _ _ (by simpa using hc), getD_append_blank]
      have : gAt G i j = ACell.blank := gAt_outside _ _ _ (by rw [gLen_outside _ _ hr]; omega)
      rw [this]
      by_cases hj : j = c <;> simp [hj, List.getD, List.getElem?_replicate]
      split <;> rfl
    · simp [hi]

/-- The store represents the grid. -/
structure Rep (cfg : SheetCfg) (s : Store) (G : List (List ACell)) : Prop where
  types : s.types = G.map (List.map ACell.ty)
  values : s.values = G.map (List.map ACell.v)
  xfs : s.xfs = if cfg.fmtInfo then G.map (List.map ACell.xf) else []

theorem setCell_eq (G : List (List ACell)) (r c : Nat) (x : ACell) :
    setCell G r c x = if r < G.length ∧ c < gLen G r then .ok (G.set r ((G.getD r []).set c x)) else .error .index := by
  unfold setCell gLen
  by_cases h : r < G.length
  · have e : G[r]? = some G[r] := List.getElem?_eq_getElem h
    have e2 : G.getD r [] = G[r] := by simp [List.getD, e]
    rw [e2, e]
    simp [h]
  · have e : G[r]? = none := List.getElem?_eq_none (by omega)
    rw [e]
    simp [h]

def okXf (cfg : SheetCfg) (xf : Int) : Prop := cfg.fmtInfo = true → -32768 ≤ xf ∧ xf ≤ 32767

instance (cfg : SheetCfg) (xf : Int) : Decidable (okXf cfg xf) := by unfold okXf; infer_instance

theorem assign3_fail (cfg : SheetCfg) (s : Store) (G) (h : Rep cfg s G) (r c t : Nat) (v : Val) (xf : Int)
    (hn : ¬ (r < G.length ∧ c < gLen G r)) : assign3 cfg s r c t v xf = (s, some .index) := by
  unfold assign3
  have := setCell_map ACell.ty G r c ⟨t, v, xf⟩
  rw [setCell_eq, if_neg hn] at this
  simp only [Except.map] at this
  rw [h.types, this]

theorem assign3_ok (cfg : SheetCfg) (s : Store) (G) (h : Rep cfg s G) (r c t : Nat) (v : Val) (xf : Int)
    (hp : r < G.length ∧ c < gLen G r) :
    (okXf cfg xf → ∃ s', assign3 cfg s r c t v xf = (s', none) ∧
      Rep cfg s' (G.set r ((G.getD r []).set c ⟨t, v, xf⟩)) ∧ s'.nrows = s.nrows ∧ s'.ncols = s.ncols ∧
      s'.firstFull = s.firstFull) ∧
    (¬ okXf cfg xf → ∃ s', assign3 cfg s r c t v xf = (s', some .overflow)) := by
  have e1 := setCell_map ACell.ty G r c ⟨t, v, xf⟩
  have e2 := setCell_map ACell.v G r c ⟨t, v, xf⟩
  have e3 := setCell_map ACell.xf G r c ⟨t, v, xf⟩
  rw [setCell_eq, if_pos hp] at e1 e2 e3
  simp only [Except.map] at e1 e2 e3
  unfold assign3
  rw [h.types, e1]
  simp only
  rw [h.values, e2]
  simp only
  rw [h.xfs]
  cases hf : cfg.fmtInfo with
  | false =>
    simp only [hf, Bool.false_eq_true, ↓reduceIte]
    refine ⟨fun _ => ⟨_, rfl, ⟨rfl, rfl, ?_⟩, rfl, rfl, rfl⟩, fun hno => ?_⟩
    · simp [hf, h.xfs]
    · exact absurd (by simp [okXf, hf]) hno
  | true =>
    simp only [hf, ↓reduceIte, e3, bind, Except.bind, int16]
    refine ⟨fun hok => ?_, fun hno => ?_⟩
    · rw [if_pos (hok hf)]
      exact ⟨_, rfl, ⟨rfl, rfl, by simp [hf]⟩, rfl, rfl, rfl⟩
    · rw [if_neg (by simpa [okXf, hf] using hno)]
      exact ⟨_, rfl⟩

/-- the first-full-row marker after widening -/
def ffAfter (s : Store) (r c : Nat) : Int :=
  if c + 1 > s.ncols then
    if r + 1 < s.nrows then -2
    else if (r : Int) > s.firstFull ∧ s.firstFull > -2 then r else s.firstFull
  else s.firstFull

theorem set_getD_self {α} (G : List (List α)) (r : Nat) (hr : r < G.length) : G.set r (G.getD r []) = G := by
  simp [List.getD, List.getElem?_eq_getElem hr]

theorem extend_ok (cfg : SheetCfg) (s : Store) (G) (h : Rep cfg s G) (hn : s.nrows = G.length) (r c : Nat) :
    (c + 1 ≤ cfg.maxCols ∧ r + 1 ≤ cfg.maxRows →
    ∃ s', extend cfg s r c = .ok s' ∧ s'.ncols = max s.ncols (c + 1) ∧ s'.nrows = max s.nrows (r + 1) ∧
      s'.firstFull = ffAfter s r c ∧
      Rep cfg s' (if r < G.length then
          G.set r (G.getD r [] ++ List.replicate (max s.ncols (c + 1) - gLen G r) ACell.blank)
        else G ++ List.replicate (r + 1 - G.length) (List.replicate (max s.ncols (c + 1)) ACell.blank))) ∧
    (¬ (c + 1 ≤ cfg.maxCols ∧ r + 1 ≤ cfg.maxRows) → extend cfg s r c = .error .assertion) := by
  constructor
  swap
  · intro hb
    unfold extend
    simp only [pyAssert]
    by_cases h1 : c + 1 ≤ cfg.maxCols
    · have h2 : ¬ r + 1 ≤ cfg.maxRows := fun h2 => hb ⟨h1, h2⟩
      simp [h1, h2, bind, Except.bind]
    · simp [h1, bind, Except.bind]
  intro hb
  unfold extend
  -- the widened store
  obtain ⟨s1, hs1, e1, e2, e3, e4⟩ : ∃ s1 : Store,
      (if c + 1 > s.ncols then
        if r + 1 < s.nrows then { s with ncols := c + 1, firstFull := -2 }
        else if (r : Int) > s.firstFull ∧ s.firstFull > -2 then { s with ncols := c + 1, firstFull := r }
        else { s with ncols := c + 1 }
      else s) = s1 ∧ s1.ncols = max s.ncols (c + 1) ∧ s1.nrows = s.nrows ∧ s1.firstFull = ffAfter s r c ∧
      (s1.types = s.types ∧ s1.values = s.values ∧ s1.xfs = s.xfs) := by
    refine ⟨_, rfl, ?_⟩
    unfold ffAfter
    split_ifs <;> simp <;> omega
  have hrep : Rep cfg s1 G := ⟨e4.1.trans h.types, e4.2.1.trans h.values, e4.2.2.trans h.xfs⟩
  simp only [pyAssert, hb.1, hb.2, bind, Except.bind, pure, Except.pure, decide_true, Bool.and_self, Bool.true_and,
    Nat.le_add_left, ↓reduceIte]
  rw [hs1, e2, hn]
  clear hs1
  by_cases hr : r < G.length
  · rw [if_pos (by omega : r + 1 ≤ G.length), if_pos hr]
    have hrow : ∀ {β : Type} (f : ACell → β), (G.map (List.map f))[r]? = some ((G.getD r []).map f) := by
      intro β f
      simp [List.getD, List.getElem?_eq_getElem hr]
    simp only [getRow, hrep.types, hrow, List.length_map]
    by_cases hl : gLen G r < s1.ncols
    · have hl' : (G.getD r []).length < s1.ncols := hl
      rw [if_pos hl']
      have a1 := extendRow_map ACell.ty G r (s1.ncols - gLen G r) ACell.blank
      have a2 := extendRow_map ACell.v G r (s1.ncols - gLen G r) ACell.blank
      have a3 := extendRow_map ACell.xf G r (s1.ncols - gLen G r) ACell.blank
      have a0 : extendRow G r (s1.ncols - gLen G r) ACell.blank =
          .ok (G.set r (G.getD r [] ++ List.replicate (s1.ncols - gLen G r) ACell.blank)) := by
        simp [extendRow, List.getD, List.getElem?_eq_getElem hr]
      rw [a0] at a1 a2 a3
      simp only [Except.map] at a1 a2 a3
      have b1 : extendRow (List.map (List.map ACell.ty) G) r (s1.ncols - (G.getD r []).length) XL_CELL_EMPTY = _ := a1
      have b2 : extendRow (List.map (List.map ACell.v) G) r (s1.ncols - (G.getD r []).length) emptyVal = _ := a2
      have b3 : extendRow (List.map (List.map ACell.xf) G) r (s1.ncols - (G.getD r []).length) (-1) = _ := a3
      rw [b1]
      simp only [hrep.xfs, hrep.values]
      cases hf : cfg.fmtInfo with
      | false =>
        simp only [Bool.false_eq_true, ↓reduceIte, b2]
        refine ⟨_, rfl, e1, by simp only; omega, e3, ?_⟩
        rw [← e1]
        exact ⟨rfl, rfl, by simp [hf]⟩
      | true =>
        simp only [↓reduceIte, b2, b3]
        refine ⟨_, rfl, e1, by simp only; omega, e3, ?_⟩
        rw [← e1]
        exact ⟨rfl, rfl, by simp [hf]⟩
    · have hl' : ¬ (G.getD r []).length < s1.ncols := hl
      rw [if_neg hl']
      refine ⟨_, rfl, e1, by omega, e3, ?_⟩
      have : max s.ncols (c + 1) - gLen G r = 0 := by omega
      rw [this]
      simp only [List.replicate_zero, List.append_nil]
      rw [set_getD_self _ _ hr]
      exact hrep
  · rw [if_neg (by omega : ¬ r + 1 ≤ G.length), if_neg hr]
    refine ⟨_, rfl, e1, by simp only; omega, e3, ?_⟩
    have a1 := appendRows_map ACell.ty G (r + 1 - G.length) s1.ncols ACell.blank
    have a2 := appendRows_map ACell.v G (r + 1 - G.length) s1.ncols ACell.blank
    have a3 := appendRows_map ACell.xf G (r + 1 - G.length) s1.ncols ACell.blank
    refine ⟨?_, ?_, ?_⟩
    · simp only [hrep.types]; exact a1.trans (by rw [appendRows, e1])
    · simp only [hrep.values]; exact a2.trans (by rw [appendRows, e1])
    · simp only [hrep.xfs]
      cases hf : cfg.fmtInfo with
      | false => rfl
      | true => exact a3.trans (by rw [appendRows, e1]; rfl)

/-- length of row `i` after an unragged write -/
def lenAfterU (G : List (List ACell)) (w r c : Nat) (i : Nat) : Nat :=
  if i < G.length then
    if i = r then (if c < gLen G r then gLen G r else max (gLen G r) w) else gLen G i
  else w

theorem putUnragged_spec (cfg : SheetCfg) (s : Store) (G) (h : Rep cfg s G) (hn : s.nrows = G.length)
    (hlen : ∀ i, i < G.length → gLen G i ≤ s.ncols)
    (r c : Nat) (ct : Option Nat) (v : Val) (xf : Int) :
    (∀ t, resolveType cfg ct xf = .ok t → okXf cfg xf → c < cfg.maxCols → r < cfg.maxRows →
      ∃ s' G', putCellUnragged cfg s r c ct v xf = .ok s' ∧ Rep cfg s' G' ∧
        s'.ncols = max s.ncols (c + 1) ∧ s'.nrows = max s.nrows (r + 1) ∧
        s'.firstFull = (if r < G.length ∧ c < gLen G r then s.firstFull else ffAfter s r c) ∧
        PutSpec G G' r c ⟨t, v, xf⟩ (lenAfterU G s'.ncols r c)) ∧
    ((r < G.length ∧ c < gLen G r → c < cfg.maxCols ∧ r < cfg.maxRows) → ∀ s', putCellUnragged cfg s r c ct v xf = .ok s' →
      (∃ t, resolveType cfg ct xf = .ok t) ∧ okXf cfg xf ∧ c < cfg.maxCols ∧ r < cfg.maxRows) := by
  by_cases hp : r < G.length ∧ c < gLen G r
  · constructor
    · intro t ht hok hc hr
      obtain ⟨s', e, hrep, e1, e2, e3⟩ := (assign3_ok cfg s G h r c t v xf hp).1 hok
      refine ⟨s', _, ?_, hrep, ?_, ?_, ?_, ?_⟩
      · simp [putCellUnragged, ht, bind, Except.bind, e, pure, Except.pure]
      · have := hlen r hp.1; omega
      · omega
      · rw [e3, if_pos hp]
      · have := putSpec_assign G r c ⟨t, v, xf⟩ 0 hp.1 (by omega)
        simp only [List.replicate_zero, List.append_nil, Nat.add_zero] at this
        refine ⟨this.len, ?_, this.cells⟩
        intro i hi
        rw [this.lens i hi]
        unfold lenAfterU
        simp at hi
        by_cases hir : i = r
        · subst hir; simp [hp.1, hp.2]
        · simp [hi, hir]
    · intro hmx s' hs'
      unfold putCellUnragged at hs'
      cases ht : resolveType cfg ct xf with
      | error e => simp [ht, bind, Except.bind] at hs'
      | ok t =>
        refine ⟨⟨t, rfl⟩, ?_, ?_, ?_⟩
        · by_contra hno
          obtain ⟨s'', e⟩ := (assign3_ok cfg s G h r c t v xf hp).2 hno
          simp [ht, bind, Except.bind, e] at hs'
        · exact (hmx hp).1
        · exact (hmx hp).2
  · have hfail := fun t => assign3_fail cfg s G h r c t v xf hp
    constructor
    · intro t ht hok hc hr
      obtain ⟨s1, e, e1, e2, e3, hrep⟩ := (extend_ok cfg s G h hn r c).1 ⟨by omega, by omega⟩
      by_cases hr' : r < G.length
      · rw [if_pos hr'] at hrep
        have hcl : ¬ c < gLen G r := fun hc => hp ⟨hr', hc⟩
        have hlr := hlen r hr'
        have hlen' : gLen (G.set r (G.getD r [] ++ List.replicate (max s.ncols (c + 1) - gLen G r) ACell.blank)) r
            = max s.ncols (c + 1) := by
          rw [gLen_set _ _ _ hr']; simp only [↓reduceIte, List.length_append, List.length_replicate]
          have : (G.getD r []).length = gLen G r := rfl
          omega
        obtain ⟨s2, f, hrep2, f1, f2, f3⟩ := (assign3_ok cfg s1 _ hrep r c t v xf
          ⟨by simpa using hr', by rw [hlen']; omega⟩).1 hok
        refine ⟨s2, _, ?_, hrep2, by omega, by omega, by rw [f3, e3, if_neg hp], ?_⟩
        · simp [putCellUnragged, ht, bind, Except.bind, hfail, e, f, pure, Except.pure]
        · have := putSpec_assign G r c ⟨t, v, xf⟩ (max s.ncols (c + 1) - gLen G r) hr' (by omega)
          have hgd : (G.set r (G.getD r [] ++ List.replicate (max s.ncols (c + 1) - gLen G r) ACell.blank)).getD r []
              = G.getD r [] ++ List.replicate (max s.ncols (c + 1) - gLen G r) ACell.blank := by
            rw [getD_set _ _ _ _ _ hr']; simp
          rw [hgd, List.set_set]
          refine ⟨this.len, ?_, this.cells⟩
          intro i hi
          rw [this.lens i hi]
          unfold lenAfterU
          simp at hi
          by_cases hir : i = r
          · subst hir; simp [hr', hcl]; omega
          · simp [hi, hir]
      · rw [if_neg hr'] at hrep
        have hrl : r < (G ++ List.replicate (r + 1 - G.length) (List.replicate (max s.ncols (c + 1)) ACell.blank)).length := by
          simp; omega
        have hlen' : gLen (G ++ List.replicate (r + 1 - G.length) (List.replicate (max s.ncols (c + 1)) ACell.blank)) r
            = max s.ncols (c + 1) := by
          rw [gLen_append]; simp [hr']; omega
        obtain ⟨s2, f, hrep2, f1, f2, f3⟩ := (assign3_ok cfg s1 _ hrep r c t v xf
          ⟨hrl, by rw [hlen']; omega⟩).1 hok
        refine ⟨s2, _, ?_, hrep2, by omega, by omega, by rw [f3, e3, if_neg hp], ?_⟩
        · simp [putCellUnragged, ht, bind, Except.bind, hfail, e, f, pure, Except.pure]
        · have := putSpec_append G r c (max s.ncols (c + 1)) 0 ⟨t, v, xf⟩ (by omega) (by omega)
          have hgd : (G ++ List.replicate (r + 1 - G.length) (List.replicate (max s.ncols (c + 1)) ACell.blank)).getD r []
              = List.replicate (max s.ncols (c + 1)) ACell.blank := by
            simp only [List.getD, List.getElem?_append, hr', ↓reduceIte, List.getElem?_replicate]
            rw [if_pos (by omega)]; rfl
          rw [hgd]
          simp only [List.replicate_zero, List.append_nil, Nat.add_zero] at this
          refine ⟨this.len, ?_, this.cells⟩
          intro i hi
          rw [this.lens i hi]
          unfold lenAfterU
          by_cases hil : i < G.length
          · have : ¬ i = r := by omega
            simp [hil, this]
          · simp [hil, f2, e1]
    · intro hmx s' hs'
      unfold putCellUnragged at hs'
      cases ht : resolveType cfg ct xf with
      | error e => simp [ht, bind, Except.bind] at hs'
      | ok t =>
        simp only [ht, bind, Except.bind, hfail, ↓reduceIte] at hs'
        by_cases hb : c + 1 ≤ cfg.maxCols ∧ r + 1 ≤ cfg.maxRows
        · refine ⟨⟨t, rfl⟩, ?_, by omega, by omega⟩
          by_contra hno
          obtain ⟨s1, e, e1, e2, e3, hrep⟩ := (extend_ok cfg s G h hn r c).1 hb
          rw [e] at hs'
          simp only at hs'
          have hin : ∀ G1, (r < G1.length ∧ c < gLen G1 r) → Rep cfg s1 G1 → False := by
            intro G1 hin hrep1
            obtain ⟨s'', f⟩ := (assign3_ok cfg s1 G1 hrep1 r c t v xf hin).2 hno
            simp [f] at hs'
          refine hin _ ?_ hrep
          by_cases hr' : r < G.length
          · rw [if_pos hr']
            refine ⟨by simpa using hr', ?_⟩
            rw [gLen_set _ _ _ hr']
            have : (G.getD r []).length = gLen G r := rfl
            have := hlen r hr'
            simp only [↓reduceIte, List.length_append, List.length_replicate]
            omega
          · rw [if_neg hr']
            refine ⟨by simp; omega, ?_⟩
            rw [gLen_append, if_neg hr', if_pos (by omega)]; omega
        · rw [(extend_ok cfg s G h hn r c).2 hb] at hs'
          cases hs'

end Xlrd
