import Verif.Spec.CellKinds
import Verif.Lemmas.Cells
import Verif.Lemmas.Globals

/-!
# Types and values of cells stay together
-/
set_option linter.unusedSimpArgs false
set_option linter.unusedSectionVars false
namespace Xlrd
open Spec

def GoodRow (P : Nat → Val → Prop) (row : List (Nat × Val)) : Prop := ∀ p ∈ row, P p.1 p.2
def GoodGrid (P : Nat → Val → Prop) (G : List (List (Nat × Val))) : Prop := ∀ row ∈ G, GoodRow P row

/-- The two grids come from one grid of good cells. -/
def Kinds (P : Nat → Val → Prop) (s : Store) : Prop :=
  ∃ G : List (List (Nat × Val)), s.types = G.map (List.map Prod.fst) ∧ s.values = G.map (List.map Prod.snd) ∧ GoodGrid P G

def blankCell : Nat × Val := (XL_CELL_EMPTY, emptyVal)

/-- Predicates that hold of all good cells. -/
class Weaker (P : Nat → Val → Prop) : Prop where
  ok : ∀ t v, CellOk t v → P t v

instance : Weaker CellOk := ⟨fun _ _ h => h⟩
instance : Weaker OldCellOk := ⟨fun _ _ h => .inl h⟩

variable {P : Nat → Val → Prop} [Weaker P]

theorem blankCell_ok : P blankCell.1 blankCell.2 := Weaker.ok _ _ rfl

theorem good_set {row : List (Nat × Val)} (h : GoodRow P row) (c : Nat) {x : Nat × Val} (hx : P x.1 x.2) : GoodRow P (row.set c x) := by
  intro p hp
  rcases List.mem_or_eq_of_mem_set hp with hp | rfl
  · exact h p hp
  · exact hx

theorem good_append {a b : List (Nat × Val)} (h : GoodRow P a) (h' : GoodRow P b) : GoodRow P (a ++ b) := by
  intro p hp
  rcases List.mem_append.mp hp with hp | hp
  · exact h p hp
  · exact h' p hp

theorem good_blanks (n : Nat) : GoodRow P (List.replicate n blankCell) := by
  intro p hp
  rw [List.eq_of_mem_replicate hp]
  exact blankCell_ok

theorem good_take {a : List (Nat × Val)} (h : GoodRow P a) (n : Nat) : GoodRow P (a.take n) := fun p hp => h p (List.mem_of_mem_take hp)

theorem grid_set {G : List (List (Nat × Val))} (h : GoodGrid P G) (r : Nat) {row : List (Nat × Val)} (hx : GoodRow P row) : GoodGrid P (G.set r row) := by
  intro p hp
  rcases List.mem_or_eq_of_mem_set hp with hp | rfl
  · exact h p hp
  · exact hx

theorem goodGrid_get {G : List (List (Nat × Val))} (h : GoodGrid P G) {r : Nat} {row : List (Nat × Val)} (hr : G[r]? = some row) : GoodRow P row :=
  h row (List.mem_of_getElem? hr)

theorem setCell_good {G G' : List (List (Nat × Val))} (h : GoodGrid P G) {r c : Nat} {x : Nat × Val} (hx : P x.1 x.2) (e : setCell G r c x = .ok G') : GoodGrid P G' := by
  unfold setCell at e
  cases hr : G[r]? with
  | none => rw [hr] at e; cases e
  | some row =>
    rw [hr] at e
    simp only at e
    by_cases hc : c < row.length
    · rw [if_pos hc] at e; cases e; exact grid_set h r (good_set (goodGrid_get h hr) c hx)
    · rw [if_neg hc] at e; cases e

theorem assign_kinds {cfg : SheetCfg} {s : Store} (h : Kinds P s) {r c t : Nat} {v : Val} {xf : Int} (hx : P t v) : Kinds P (assign3 cfg s r c t v xf).1 := by
  obtain ⟨G, h1, h2, h3⟩ := h
  have e1 := setCell_map Prod.fst G r c (t, v)
  have e2 := setCell_map Prod.snd G r c (t, v)
  unfold assign3
  rw [h1]
  cases hs : setCell G r c (t, v) with
  | error e =>
    rw [hs] at e1
    simp only [Except.map] at e1
    rw [e1]
    exact ⟨G, h1, h2, h3⟩
  | ok G' =>
    rw [hs] at e1 e2
    simp only [Except.map] at e1 e2
    rw [e1]
    simp only [h2]
    rw [e2]
    have hg := setCell_good h3 hx hs
    simp only
    split
    · split <;> exact ⟨G', rfl, rfl, hg⟩
    · exact ⟨G', rfl, rfl, hg⟩

theorem kinds_of {s s' : Store} (h : Kinds P s) (h1 : s'.types = s.types) (h2 : s'.values = s.values) : Kinds P s' := by
  obtain ⟨G, a, b, c⟩ := h
  exact ⟨G, h1.trans a, h2.trans b, c⟩

theorem append_kinds {s s' : Store} (h : Kinds P s) {n w : Nat} (h1 : s'.types = appendRows s.types n w XL_CELL_EMPTY) (h2 : s'.values = appendRows s.values n w emptyVal) : Kinds P s' := by
  obtain ⟨G, a, b, c⟩ := h
  refine ⟨appendRows G n w blankCell, ?_, ?_, ?_⟩
  · rw [h1, a]; exact appendRows_map Prod.fst G n w blankCell
  · rw [h2, b]; exact appendRows_map Prod.snd G n w blankCell
  · intro row hr
    rcases List.mem_append.mp hr with hr | hr
    · exact c row hr
    · rw [List.eq_of_mem_replicate hr]; exact good_blanks w

theorem extend_rest {cfg : SheetCfg} {s s' : Store} (h : Kinds P s) {r : Nat}
    (e : (if r + 1 ≤ s.nrows then do
        let trow ← getRow s.types r
        if trow.length < s.ncols then do
          let n := s.ncols - trow.length
          let ty ← extendRow s.types r n XL_CELL_EMPTY
          let xs ← if cfg.fmtInfo then extendRow s.xfs r n (-1) else pure s.xfs
          let vs ← extendRow s.values r n emptyVal
          pure { s with types := ty, xfs := xs, values := vs }
        else pure s
      else
        let n := r + 1 - s.nrows
        pure { s with
          types := appendRows s.types n s.ncols XL_CELL_EMPTY
          values := appendRows s.values n s.ncols emptyVal
          xfs := if cfg.fmtInfo then appendRows s.xfs n s.ncols (-1) else s.xfs
          nrows := r + 1 } : R Store) = .ok s') : Kinds P s' := by
  by_cases hn : r + 1 ≤ s.nrows
  · rw [if_pos hn] at e
    obtain ⟨trow, h1, e⟩ := bind_ok e
    by_cases hl : trow.length < s.ncols
    · rw [if_pos hl] at e
      obtain ⟨ty, h2, e⟩ := bind_ok e
      have e : ∃ xs vs, extendRow s.values r (s.ncols - trow.length) emptyVal = .ok vs ∧ s' = { s with types := ty, xfs := xs, values := vs } := by
        by_cases hf : cfg.fmtInfo = true
        · simp only [if_pos hf] at e
          obtain ⟨xs, _, e⟩ := bind_ok e
          obtain ⟨vs, h4, e⟩ := bind_ok e
          cases e
          exact ⟨xs, vs, h4, rfl⟩
        · simp only [if_neg hf] at e
          obtain ⟨xs, _, e⟩ := bind_ok e
          obtain ⟨vs, h4, e⟩ := bind_ok e
          cases e
          exact ⟨xs, vs, h4, rfl⟩
      obtain ⟨xs, vs, h4, rfl⟩ := e
      obtain ⟨G, a, b, g⟩ := h
      have e1 := extendRow_map Prod.fst G r (s.ncols - trow.length) blankCell
      have e2 := extendRow_map Prod.snd G r (s.ncols - trow.length) blankCell
      rw [a] at h2
      rw [b] at h4
      have h2 := e1.symm.trans h2
      have h4 := e2.symm.trans h4
      cases hs : extendRow G r (s.ncols - trow.length) blankCell with
      | error e => rw [hs] at h2; cases h2
      | ok G' =>
        rw [hs] at h2 h4
        cases h2
        cases h4
        refine ⟨G', rfl, rfl, ?_⟩
        unfold extendRow at hs
        cases hr : G[r]? with
        | none => rw [hr] at hs; cases hs
        | some row => rw [hr] at hs; cases hs; exact grid_set g r (good_append (goodGrid_get g hr) (good_blanks _))
    · rw [if_neg hl] at e; cases e; exact h
  · rw [if_neg hn] at e
    cases e
    exact append_kinds h rfl rfl

theorem extend_kinds {cfg : SheetCfg} {s s' : Store} (h : Kinds P s) {r c : Nat} (e : extend cfg s r c = .ok s') : Kinds P s' := by
  unfold extend at e
  obtain ⟨_, _, e⟩ := bind_ok e
  obtain ⟨_, _, e⟩ := bind_ok e
  refine extend_rest ?_ e
  simp only
  split_ifs <;> exact kinds_of h rfl rfl

theorem raggedRow_good {row row' : List (Nat × Val)} (h : GoodRow P row) {ltr c : Nat} {x : Nat × Val} (hx : P x.1 x.2) (e : raggedRow row ltr c blankCell x = .ok row') :
    GoodRow P row' := by
  unfold raggedRow at e
  by_cases h1 : c = ltr
  · rw [if_pos h1] at e; cases e
    exact good_append h (by intro p hp; rw [List.mem_singleton.mp hp]; exact hx)
  · rw [if_neg h1] at e
    simp only at e
    have hg : GoodRow P (if c > ltr then tailAssign row ltr (c - ltr + 1) blankCell else row) := by
      split
      · exact good_append (good_take h _) (good_blanks _)
      · exact h
    generalize (if c > ltr then tailAssign row ltr (c - ltr + 1) blankCell else row) = row1 at e hg
    by_cases h2 : c < row1.length
    · rw [if_pos h2] at e; cases e; exact good_set hg c hx
    · rw [if_neg h2] at e; cases e

theorem ragged_rest {cfg : SheetCfg} {s s' : Store} (h : Kinds P s) {r c t : Nat} {v : Val} {xf : Int} (hx : P t v)
    (e : (do
      let trow ← getRow s.types r
      let vrow ← getRow s.values r
      let ltr := trow.length
      let s := if c ≥ s.ncols then { s with ncols := c + 1 } else s
      let trow' ← raggedRow trow ltr c XL_CELL_EMPTY t
      let vrow' ← raggedRow vrow ltr c emptyVal v
      if cfg.fmtInfo then do
        let frow ← getRow s.xfs r
        let x ← int16 xf
        let frow' ← raggedRow frow ltr c (-1) x
        pure { s with types := s.types.set r trow', values := s.values.set r vrow', xfs := s.xfs.set r frow' }
      else
        pure { s with types := s.types.set r trow', values := s.values.set r vrow' } : R Store) = .ok s') : Kinds P s' := by
  obtain ⟨G, a, b, g⟩ := h
  obtain ⟨trow, h1, e⟩ := bind_ok e
  obtain ⟨vrow, h2, e⟩ := bind_ok e
  obtain ⟨trow', h3, e⟩ := bind_ok e
  obtain ⟨vrow', h4, e⟩ := bind_ok e
  rw [a, getRow_map] at h1
  rw [b, getRow_map] at h2
  cases hr : G[r]? with
  | none => simp only [getRow, hr] at h1; cases h1
  | some row =>
    simp only [getRow, hr, Except.map] at h1 h2
    cases h1
    cases h2
    have h3 := (raggedRow_map Prod.fst row (row.map Prod.fst).length c blankCell (t, v)).symm.trans h3
    have h4 := (raggedRow_map Prod.snd row (row.map Prod.fst).length c blankCell (t, v)).symm.trans h4
    cases hs : raggedRow row (row.map Prod.fst).length c blankCell (t, v) with
    | error e => rw [hs] at h3; cases h3
    | ok row' =>
      rw [hs] at h3 h4
      cases h3
      cases h4
      have hg : GoodGrid P (G.set r row') := grid_set g r (raggedRow_good (goodGrid_get g hr) hx hs)
      have key : ∀ s'' : Store, s''.types = s.types.set r (row'.map Prod.fst) → s''.values = s.values.set r (row'.map Prod.snd) → Kinds P s'' := by
        intro s'' k1 k2
        exact ⟨G.set r row', by rw [k1, a, List.map_set], by rw [k2, b, List.map_set], hg⟩
      by_cases hf : cfg.fmtInfo = true
      · rw [if_pos hf] at e
        obtain ⟨_, _, e⟩ := bind_ok e
        obtain ⟨_, _, e⟩ := bind_ok e
        obtain ⟨_, _, e⟩ := bind_ok e
        cases e
        refine key _ ?_ ?_ <;> (simp only; split <;> rfl)
      · rw [if_neg hf] at e
        cases e
        refine key _ ?_ ?_ <;> (simp only; split <;> rfl)

theorem putCell_kinds {cfg : SheetCfg} {s s' : Store} (h : Kinds P s) {r c : Nat} {ct : Option Nat} {v : Val} {xf : Int}
    (hx : ∀ t, resolveType cfg ct xf = .ok t → P t v) (e : putCell cfg s r c ct v xf = .ok s') : Kinds P s' := by
  unfold putCell at e
  by_cases hr : cfg.ragged = true
  · rw [if_pos hr] at e
    unfold putCellRagged at e
    obtain ⟨t, h1, e⟩ := bind_ok e
    obtain ⟨_, _, e⟩ := bind_ok e
    obtain ⟨_, _, e⟩ := bind_ok e
    refine ragged_rest (cfg := cfg) (xf := xf) ?_ (hx t h1) e
    split
    · exact append_kinds h rfl rfl
    · exact h
  · rw [if_neg hr] at e
    unfold putCellUnragged at e
    obtain ⟨t, h1, e⟩ := bind_ok e
    have k1 := assign_kinds (cfg := cfg) h (r := r) (c := c) (xf := xf) (hx t h1)
    rcases ha : assign3 cfg s r c t v xf with ⟨s1, o⟩
    rw [ha] at e k1
    cases o with
    | none => cases e; exact k1
    | some x =>
      simp only at e
      by_cases hi : x = .index
      · rw [if_pos hi] at e
        obtain ⟨s2, h2, e⟩ := bind_ok e
        have k2 := assign_kinds (cfg := cfg) (extend_kinds k1 h2) (r := r) (c := c) (xf := xf) (hx t h1)
        rcases ha2 : assign3 cfg s2 r c t v xf with ⟨s3, o2⟩
        rw [ha2] at e k2
        cases o2 with
        | none => cases e; exact k2
        | some x => cases e
      · rw [if_neg hi] at e; cases e

theorem padRows_good {G : List (List (Nat × Val))} (h : GoodGrid P G) (lens : List Nat) (n u : Nat) : GoodGrid P (padRows lens n blankCell u G) := by
  intro row hr
  unfold padRows at hr
  obtain ⟨i, hi, rfl⟩ := List.mem_mapIdx.mp hr
  have hg := h G[i] (List.getElem_mem hi)
  split
  · simp only
    split
    · exact good_append (good_take hg _) (good_blanks _)
    · exact hg
  · exact hg

theorem pad_kinds {cfg : SheetCfg} {s s' : Store} (h : Kinds P s)
    (e : (if cfg.ragged then pure s
      else
        let ubound : Nat := if s.firstFull = -2 then s.nrows else s.firstFull.toNat
        let lens := s.types.map List.length
        pure { s with
          values := padRows lens s.ncols emptyVal ubound s.values
          types := padRows lens s.ncols XL_CELL_EMPTY ubound s.types
          xfs := if cfg.fmtInfo then padRows lens s.ncols (-1) ubound s.xfs else s.xfs } : R Store) = .ok s') : Kinds P s' := by
  by_cases hr : cfg.ragged = true
  · rw [if_pos hr] at e; cases e; exact h
  · rw [if_neg hr] at e
    cases e
    obtain ⟨G, a, b, g⟩ := h
    refine ⟨padRows (s.types.map List.length) s.ncols blankCell (if s.firstFull = -2 then s.nrows else s.firstFull.toNat) G, ?_, ?_, padRows_good g _ _ _⟩
    · rw [← padRows_map Prod.fst, ← a]; rfl
    · rw [← padRows_map Prod.snd, ← b]; rfl

theorem tidy_kinds {cfg : SheetCfg} {s s' : Store} (h : Kinds P s) {merged : List CRange} (e : tidyDimensions cfg s merged = .ok s') : Kinds P s' := by
  unfold tidyDimensions at e
  simp only at e
  by_cases hm : merged.isEmpty = true
  · rw [if_pos hm] at e
    exact pad_kinds h e
  · rw [if_neg hm] at e
    have k0 : ∀ nc : Nat, Kinds P (if nc > s.ncols then { s with ncols := nc, firstFull := -2 } else s) := by
      intro nc; split
      · exact kinds_of h rfl rfl
      · exact h
    have k1 := k0 (merged.foldl (fun a m => if m.chi > a then m.chi else a) 0)
    generalize (if merged.foldl (fun a m => if m.chi > a then m.chi else a) 0 > s.ncols then
      { s with ncols := merged.foldl (fun a m => if m.chi > a then m.chi else a) 0, firstFull := -2 } else s) = s1 at e k1
    by_cases hn : merged.foldl (fun a m => if m.rhi > a then m.rhi else a) 0 > s1.nrows
    · rw [if_pos hn] at e
      obtain ⟨s2, h1, e⟩ := bind_ok e
      exact pad_kinds (putCell_kinds k1 (by intro t ht; cases ht; exact Weaker.ok _ _ rfl) h1) e
    · rw [if_neg hn] at e
      exact pad_kinds k1 e

theorem idx_map {α β : Type} (f : α → β) (l : List α) (i : Int) : idx (l.map f) i = (idx l i).map f := by
  unfold idx
  simp only [List.length_map, List.getElem?_map]
  generalize (if i < 0 then i + (l.length : Int) else i) = k
  by_cases hk : k < 0
  · rw [if_pos hk, if_pos hk]; rfl
  · rw [if_neg hk, if_neg hk]
    cases l[k.toNat]? <;> rfl

theorem idx_mem {α : Type} {l : List α} {i : Int} {x : α} (h : idx l i = .ok x) : x ∈ l := by
  unfold idx at h
  simp only at h
  generalize (if i < 0 then i + (l.length : Int) else i) = k at h
  by_cases hk : k < 0
  · rw [if_pos hk] at h; cases h
  · rw [if_neg hk] at h
    cases hl : l[k.toNat]? with
    | none => rw [hl] at h; cases h
    | some y => rw [hl] at h; cases h; exact List.mem_of_getElem? hl

theorem kinds_ok {s : Store} (h : Kinds P s) : CellsAre P s := by
  obtain ⟨G, a, b, g⟩ := h
  have key : ∀ r c, (s.cellType r c = (do idx (← idx G r) c : R (Nat × Val)).map Prod.fst) ∧ (s.cellValue r c = (do idx (← idx G r) c : R (Nat × Val)).map Prod.snd) := by
    intro r c
    unfold Store.cellType Store.cellValue
    rw [a, b, idx_map, idx_map]
    cases idx G r with
    | error e => exact ⟨rfl, rfl⟩
    | ok row => exact ⟨idx_map .., idx_map ..⟩
  have good : ∀ r c p, (do idx (← idx G r) c : R (Nat × Val)) = .ok p → P p.1 p.2 := by
    intro r c p hp
    obtain ⟨row, h1, h2⟩ := bind_ok hp
    exact g row (idx_mem h1) p (idx_mem h2)
  constructor
  · intro r c t h
    rw [(key r c).1] at h
    cases hp : (do idx (← idx G r) c : R (Nat × Val)) with
    | error e => rw [hp] at h; cases h
    | ok p =>
      rw [hp] at h; cases h
      exact ⟨p.2, by rw [(key r c).2, hp]; rfl, good r c p hp⟩
  · intro r c v h
    rw [(key r c).2] at h
    cases hp : (do idx (← idx G r) c : R (Nat × Val)) with
    | error e => rw [hp] at h; cases h
    | ok p =>
      rw [hp] at h; cases h
      exact ⟨p.1, by rw [(key r c).1, hp]; rfl, good r c p hp⟩

end Xlrd
