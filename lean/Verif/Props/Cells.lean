import Verif.Lemmas.CellsR

/-!
# Properties of the cell store: C12 - C15

`ws` is the sequence of cell writes made while a sheet is read, `merged` the merged ranges
(decoded ranges have an exclusive upper column bound of at least 1, see C32).
-/
set_option linter.unusedSimpArgs false
namespace Xlrd
open Spec

theorem load_final (cfg : SheetCfg) (ws : List Write) (merged : List CRange) (hm : ∀ m ∈ merged, 1 ≤ m.chi) :
    ((∀ w ∈ ws, Accepts cfg w) ∧ MergedFits cfg ws merged →
      ∃ s G, loadCells cfg ws merged = .ok s ∧ Final cfg ws merged s G) ∧
    (∀ s, loadCells cfg ws merged = .ok s → ((∀ w ∈ ws, Accepts cfg w) ∧ MergedFits cfg ws merged) ∧
      ∃ G, Final cfg ws merged s G) := by
  have ra := run_all cfg ws [] Store.empty [] (Run.init cfg)
  have hl : loadCells cfg ws merged = (ws.foldlM (putW cfg) Store.empty >>= fun s => tidyDimensions cfg s merged) := rfl
  have fwd : (∀ w ∈ ws, Accepts cfg w) ∧ MergedFits cfg ws merged →
      ∃ s G, loadCells cfg ws merged = .ok s ∧ Final cfg ws merged s G := by
    rintro ⟨ha, hf⟩
    obtain ⟨s1, G1, e, run⟩ := ra.1 ha
    obtain ⟨s2, G2, e2, fin⟩ := (tidy_spec cfg ws s1 G1 (by simpa using run) merged hm).1 hf
    exact ⟨s2, G2, by rw [hl, e]; exact e2, fin⟩
  refine ⟨fwd, ?_⟩
  intro s hs
  rw [hl] at hs
  cases e : ws.foldlM (putW cfg) Store.empty with
  | error e' => rw [e] at hs; cases hs
  | ok s1 =>
    rw [e] at hs
    have ha := ra.2 s1 e
    obtain ⟨s1', G1, e', run⟩ := ra.1 ha
    rw [e] at e'; injection e' with e'; subst e'
    have hf := (tidy_spec cfg ws s1 G1 (by simpa using run) merged hm).2 s hs
    obtain ⟨s', G, e2, fin⟩ := fwd ⟨ha, hf⟩
    rw [hl, e, show (Except.ok s1 >>= fun s => tidyDimensions cfg s merged) = _ from hs] at e2
    injection e2 with e2; subst e2
    exact ⟨⟨ha, hf⟩, G, fin⟩

theorem idx_nat {α} (l : List α) (n : Nat) :
    idx l (n : Int) = match l[n]? with | some x => .ok x | none => .error .index := by
  unfold idx
  have h1 : ¬ ((n : Int) < 0) := by omega
  simp only [h1, ↓reduceIte, Int.toNat_natCast]
  cases l[n]? <;> rfl

theorem idx_nat_lt {α} (l : List α) (n : Nat) (h : n < l.length) : idx l (n : Int) = .ok l[n] := by
  rw [idx_nat, List.getElem?_eq_getElem h]

theorem idx_nat_ge {α} (l : List α) (n : Nat) (h : l.length ≤ n) : idx l (n : Int) = .error .index := by
  rw [idx_nat, List.getElem?_eq_none h]

/-- reading a projected grid -/
theorem grid_get {β} (f : ACell → β) (G : List (List ACell)) (r c : Nat) :
    (do idx (← idx (G.map (List.map f)) (r : Int)) (c : Int) : R β) =
      if r < G.length ∧ c < gLen G r then .ok (f (gAt G r c)) else .error .index := by
  by_cases hr : r < G.length
  · rw [idx_nat_lt _ _ (by simpa using hr)]
    simp only [bind, Except.bind, List.getElem_map]
    have e : G.getD r [] = G[r] := by simp [List.getD, List.getElem?_eq_getElem hr]
    unfold gLen gAt
    rw [e]
    by_cases hc : c < G[r].length
    · rw [idx_nat_lt _ _ (by simpa using hc), if_pos ⟨hr, hc⟩]
      simp [List.getD, List.getElem?_eq_getElem hc]
    · rw [idx_nat_ge _ _ (by simpa using hc), if_neg (by tauto)]
  · rw [idx_nat_ge _ _ (by simpa using hr), if_neg (by tauto)]
    rfl

theorem final_get (cfg ws merged s G) (f : Final cfg ws merged s G) (r c : Nat) :
    s.cellType r c = (if r < G.length ∧ c < gLen G r then .ok (cellAt cfg.typeMap ws r c).ty else .error .index) ∧
    s.cellValue r c = (if r < G.length ∧ c < gLen G r then .ok (cellAt cfg.typeMap ws r c).v else .error .index) ∧
    (cfg.fmtInfo = true → s.cellXf r c =
      (if r < G.length ∧ c < gLen G r then .ok (cellAt cfg.typeMap ws r c).xf else .error .index)) := by
  have h := f.shows r c
  rw [← h]
  refine ⟨?_, ?_, ?_⟩
  · unfold Store.cellType; rw [f.rep.types]; exact grid_get ACell.ty G r c
  · unfold Store.cellValue; rw [f.rep.values]; exact grid_get ACell.v G r c
  · intro hf
    unfold Store.cellXf; rw [f.rep.xfs, hf]; exact grid_get ACell.xf G r c

/-! ## C12 -/

/-- C12 (rectangular loading): every position of the sheet shows the last write made there, or an
empty cell; positions outside raise IndexError. -/
theorem C12_last_write_wins (cfg : SheetCfg) (ws : List Write) (merged : List CRange) (s : Store)
    (hm : ∀ m ∈ merged, 1 ≤ m.chi) (hrect : cfg.ragged = false) (h : loadCells cfg ws merged = .ok s) (r c : Nat) :
    (r < s.nrows ∧ c < s.ncols →
      s.cellType r c = .ok (cellAt cfg.typeMap ws r c).ty ∧
      s.cellValue r c = .ok (cellAt cfg.typeMap ws r c).v ∧
      (cfg.fmtInfo = true → s.cellXf r c = .ok (cellAt cfg.typeMap ws r c).xf)) ∧
    (¬ (r < s.nrows ∧ c < s.ncols) → s.cellType r c = .error .index ∧ s.cellValue r c = .error .index) := by
  obtain ⟨_, G, f⟩ := (load_final cfg ws merged hm).2 s h
  have g := final_get cfg ws merged s G f r c
  have hin : (r < G.length ∧ c < gLen G r) ↔ (r < s.nrows ∧ c < s.ncols) := by
    rw [f.nrows, f.ncols, ← f.glen]
    constructor
    · rintro ⟨a, b⟩; have := f.lens r a; simp [hrect] at this; omega
    · rintro ⟨a, b⟩; have := f.lens r a; simp [hrect] at this; omega
  simp only [hin] at g
  constructor
  · intro hp; simp only [hp, and_self, ↓reduceIte] at g; exact g
  · intro hp; simp only [hp, ↓reduceIte] at g; exact ⟨g.1, g.2.1⟩

/-- C12 (ragged loading): the same inside each row's length, and every written cell is inside. -/
theorem C12_last_write_wins_ragged (cfg : SheetCfg) (ws : List Write) (merged : List CRange) (s : Store)
    (hm : ∀ m ∈ merged, 1 ≤ m.chi) (hrag : cfg.ragged = true) (h : loadCells cfg ws merged = .ok s) (r c : Nat) :
    (∀ n, s.rowLen r = .ok n → c < n →
      s.cellType r c = .ok (cellAt cfg.typeMap ws r c).ty ∧
      s.cellValue r c = .ok (cellAt cfg.typeMap ws r c).v ∧
      (cfg.fmtInfo = true → s.cellXf r c = .ok (cellAt cfg.typeMap ws r c).xf)) ∧
    (∀ w ∈ ws, w.row = r → w.col = c → ∃ n, s.rowLen r = .ok n ∧ c < n) := by
  obtain ⟨_, G, f⟩ := (load_final cfg ws merged hm).2 s h
  have g := final_get cfg ws merged s G f r c
  have hlen : r < G.length → s.rowLen r = .ok (gLen G r) := by
    intro hr
    unfold Store.rowLen
    rw [f.rep.values, idx_nat_lt _ _ (by simpa using hr)]
    simp [bind, Except.bind, pure, Except.pure, gLen, List.getD, List.getElem?_eq_getElem hr]
  constructor
  · intro n hn hc
    by_cases hr : r < G.length
    · rw [hlen hr] at hn
      injection hn with hn
      subst hn
      simp only [hr, hc, and_self, ↓reduceIte] at g
      exact g
    · unfold Store.rowLen at hn
      rw [f.rep.values, idx_nat_ge _ _ (by simpa using hr)] at hn
      cases hn
  · intro w hw h1 h2
    subst h1; subst h2
    have hh : w.row < maxOf (ws.map (·.row + 1)) := by
      rw [lt_maxOf]; exact ⟨w.row + 1, List.mem_map.mpr ⟨w, hw, rfl⟩, by omega⟩
    have hr : w.row < G.length := by rw [f.glen]; unfold height; omega
    refine ⟨_, hlen hr, ?_⟩
    rw [f.lens w.row hr]
    simp only [hrag, ↓reduceIte]
    rw [if_neg (by rintro ⟨a, b⟩; omega)]
    unfold rowWidth
    rw [lt_maxOf]
    exact ⟨w.col + 1, List.mem_map.mpr ⟨w, List.mem_filter.mpr ⟨hw, by simp⟩, rfl⟩, by omega⟩

/-- C12: a load fails only because of a write outside the limits, an unknown XF index where the type
depends on it, an XF index that does not fit, or a merged range below the limits. -/
theorem C12_load_succeeds_iff (cfg : SheetCfg) (ws : List Write) (merged : List CRange)
    (hm : ∀ m ∈ merged, 1 ≤ m.chi) :
    (∃ s, loadCells cfg ws merged = .ok s) ↔
      (∀ w ∈ ws, w.row < cfg.maxRows ∧ w.col < cfg.maxCols ∧
        (w.ctype = none → ∃ t, cfg.typeMap w.xf = some t) ∧
        (cfg.fmtInfo = true → -32768 ≤ w.xf ∧ w.xf ≤ 32767)) ∧
      (height ws [] < maxOf (merged.map (·.rhi)) →
        maxOf (merged.map (·.rhi)) ≤ cfg.maxRows ∧ 0 < cfg.maxCols) := by
  constructor
  · rintro ⟨s, hs⟩; exact ((load_final cfg ws merged hm).2 s hs).1
  · intro h
    obtain ⟨s, G, e, _⟩ := (load_final cfg ws merged hm).1 h
    exact ⟨s, e⟩

/-- A history out of row order, with an overwritten cell and a merged range. -/
def exampleWrites : List Write :=
  [⟨2, 1, some 1, .text ['a'], 15⟩, ⟨0, 3, none, .num (.fin 5), 17⟩, ⟨2, 1, some 1, .text ['b'], 16⟩]

example : ∃ s, loadCells ⟨true, false, 65536, 256, fun x => if x = 17 then some 3 else some 2⟩
    exampleWrites [⟨3, 5, 0, 2⟩] = .ok s ∧ s.nrows = 5 ∧ s.ncols = 4 ∧ s.cellValue 2 1 = .ok (.text ['b']) ∧
      s.cellType 0 3 = .ok 3 ∧ s.cellType 4 3 = .ok 0 := by
  refine ⟨_, rfl, ?_⟩
  decide

/-! ## C13 -/

/-- C13: after loading, all three grids are exactly `nrows` by `ncols`. -/
theorem C13_rectangular (cfg : SheetCfg) (ws : List Write) (merged : List CRange) (s : Store)
    (hm : ∀ m ∈ merged, 1 ≤ m.chi) (hrect : cfg.ragged = false) (h : loadCells cfg ws merged = .ok s) :
    s.types.length = s.nrows ∧ (∀ row ∈ s.types, row.length = s.ncols) ∧
    s.values.length = s.nrows ∧ (∀ row ∈ s.values, row.length = s.ncols) ∧
    (if cfg.fmtInfo then s.xfs.length = s.nrows ∧ (∀ row ∈ s.xfs, row.length = s.ncols) else s.xfs = []) := by
  obtain ⟨_, G, f⟩ := (load_final cfg ws merged hm).2 s h
  have hrow : ∀ row ∈ G, row.length = s.ncols := by
    intro row hrow
    obtain ⟨i, hi, rfl⟩ := List.mem_iff_getElem.mp hrow
    have := f.lens i hi
    simp only [hrect, Bool.false_eq_true, ↓reduceIte, gLen, List.getD, List.getElem?_eq_getElem hi, Option.getD_some] at this
    rw [this, f.ncols]
  have hlen : G.length = s.nrows := by rw [f.glen, f.nrows]
  have hmap : ∀ {β : Type} (p : ACell → β), (∀ row ∈ G.map (List.map p), row.length = s.ncols) := by
    intro β p row hr
    obtain ⟨row', hr', rfl⟩ := List.mem_map.mp hr
    simpa using hrow row' hr'
  rw [f.rep.types, f.rep.values, f.rep.xfs]
  refine ⟨by simpa using hlen, hmap _, by simpa using hlen, hmap _, ?_⟩
  cases cfg.fmtInfo with
  | false => simp
  | true => exact ⟨by simpa using hlen, hmap ACell.xf⟩

/-! ## C14 -/

/-- C14: the dimensions are tight (in both loading modes). -/
theorem C14_dimensions_tight (cfg : SheetCfg) (ws : List Write) (merged : List CRange) (s : Store)
    (hm : ∀ m ∈ merged, 1 ≤ m.chi) (h : loadCells cfg ws merged = .ok s) :
    s.nrows = height ws merged ∧ s.ncols = width ws merged := by
  obtain ⟨_, G, f⟩ := (load_final cfg ws merged hm).2 s h
  exact ⟨f.nrows, f.ncols⟩

/-- C14: what `height` and `width` mean: a bound on everything written or merged, reached by
something written or merged unless it is 0. -/
theorem C14_tight_meaning (ws : List Write) (merged : List CRange) :
    (∀ w ∈ ws, w.row < height ws merged ∧ w.col < width ws merged) ∧
    (∀ m ∈ merged, m.rhi ≤ height ws merged ∧ m.chi ≤ width ws merged) ∧
    (0 < height ws merged → (∃ w ∈ ws, height ws merged = w.row + 1) ∨ ∃ m ∈ merged, height ws merged = m.rhi) ∧
    (0 < width ws merged → (∃ w ∈ ws, width ws merged = w.col + 1) ∨ ∃ m ∈ merged, width ws merged = m.chi) := by
  have mem : ∀ {l : List Nat}, 0 < maxOf l → maxOf l ∈ l := by
    intro l
    induction l with
    | nil => simp [maxOf]
    | cons a as ih =>
      intro h
      simp only [maxOf] at h ⊢
      rcases Nat.le_total a (maxOf as) with hle | hle
      · rw [Nat.max_eq_right hle]
        by_cases h0 : 0 < maxOf as
        · exact List.mem_cons_of_mem _ (ih h0)
        · have : a = maxOf as := by omega
          rw [← this]; simp
      · rw [Nat.max_eq_left hle]; simp
  have le : ∀ {l : List Nat} {x : Nat}, x ∈ l → x ≤ maxOf l := fun hx => maxOf_le.mp (Nat.le_refl _) _ hx
  refine ⟨?_, ?_, ?_, ?_⟩
  · intro w hw
    have h1 := le (List.mem_map.mpr ⟨w, hw, rfl⟩ : w.row + 1 ∈ ws.map (·.row + 1))
    have h2 := le (List.mem_map.mpr ⟨w, hw, rfl⟩ : w.col + 1 ∈ ws.map (·.col + 1))
    unfold height width; omega
  · intro m hm
    have h1 := le (List.mem_map.mpr ⟨m, hm, rfl⟩ : m.rhi ∈ merged.map (·.rhi))
    have h2 := le (List.mem_map.mpr ⟨m, hm, rfl⟩ : m.chi ∈ merged.map (·.chi))
    unfold height width; omega
  · intro h
    unfold height at h ⊢
    rcases Nat.le_total (maxOf (ws.map (·.row + 1))) (maxOf (merged.map (·.rhi))) with hle | hle
    · rw [Nat.max_eq_right hle] at h ⊢
      obtain ⟨m, hm, e⟩ := List.mem_map.mp (mem h)
      exact .inr ⟨m, hm, e.symm⟩
    · rw [Nat.max_eq_left hle] at h ⊢
      obtain ⟨m, hm, e⟩ := List.mem_map.mp (mem h)
      exact .inl ⟨m, hm, e.symm⟩
  · intro h
    unfold width at h ⊢
    rcases Nat.le_total (maxOf (ws.map (·.col + 1))) (maxOf (merged.map (·.chi))) with hle | hle
    · rw [Nat.max_eq_right hle] at h ⊢
      obtain ⟨m, hm, e⟩ := List.mem_map.mp (mem h)
      exact .inr ⟨m, hm, e.symm⟩
    · rw [Nat.max_eq_left hle] at h ⊢
      obtain ⟨m, hm, e⟩ := List.mem_map.mp (mem h)
      exact .inl ⟨m, hm, e.symm⟩

/-! ## C15 -/

theorem row_pad (W : Nat) (a b : List ACell) (hb : b.length = W) (ha : a.length ≤ W)
    (hsame : ∀ j, a.getD j ACell.blank = b.getD j ACell.blank) :
    b = a ++ List.replicate (W - a.length) ACell.blank := by
  apply List.ext_getElem?
  intro j
  have h := hsame j
  simp only [List.getD] at h
  rw [List.getElem?_append, List.getElem?_replicate]
  by_cases hj : j < a.length
  · rw [if_pos hj, List.getElem?_eq_getElem hj, List.getElem?_eq_getElem (by omega : j < b.length)]
    rw [List.getElem?_eq_getElem hj, List.getElem?_eq_getElem (by omega : j < b.length)] at h
    simpa using h.symm
  · rw [if_neg hj]
    by_cases hj2 : j < b.length
    · rw [List.getElem?_eq_getElem hj2, if_pos (by omega)]
      rw [List.getElem?_eq_none (by omega : a.length ≤ j), List.getElem?_eq_getElem hj2] at h
      simpa using h.symm
    · rw [List.getElem?_eq_none (by omega), if_neg (by omega)]

/-- C15: loading with `ragged_rows=True` succeeds for the same files, gives the same dimensions, and
each rectangular row is the ragged row followed by empty cells. -/
theorem C15_ragged_agrees (cfg : SheetCfg) (ws : List Write) (merged : List CRange)
    (hm : ∀ m ∈ merged, 1 ≤ m.chi) :
    ((∃ s, loadCells { cfg with ragged := true } ws merged = .ok s) ↔
      (∃ s, loadCells { cfg with ragged := false } ws merged = .ok s)) ∧
    ∀ sr su, loadCells { cfg with ragged := true } ws merged = .ok sr →
      loadCells { cfg with ragged := false } ws merged = .ok su →
      sr.nrows = su.nrows ∧ sr.ncols = su.ncols ∧
      sr.values.length = su.values.length ∧ sr.types.length = su.types.length ∧ sr.xfs.length = su.xfs.length ∧
      (∀ (r : Nat) a b, sr.values[r]? = some a → su.values[r]? = some b →
        b = a ++ List.replicate (su.ncols - a.length) (Val.text [])) ∧
      (∀ (r : Nat) a b, sr.types[r]? = some a → su.types[r]? = some b →
        b = a ++ List.replicate (su.ncols - a.length) 0) ∧
      (∀ (r : Nat) a b, sr.xfs[r]? = some a → su.xfs[r]? = some b →
        b = a ++ List.replicate (su.ncols - a.length) (-1)) := by
  constructor
  · rw [C12_load_succeeds_iff _ _ _ hm, C12_load_succeeds_iff _ _ _ hm]
  intro sr su hr hu
  obtain ⟨_, G1, f1⟩ := (load_final _ ws merged hm).2 sr hr
  obtain ⟨_, G2, f2⟩ := (load_final _ ws merged hm).2 su hu
  have hglen : G1.length = G2.length := by rw [f1.glen, f2.glen]
  have key : ∀ r, r < G1.length → G2.getD r [] = G1.getD r [] ++ List.replicate (su.ncols - gLen G1 r) ACell.blank := by
    intro r hr
    have l2 := f2.lens r (hglen ▸ hr)
    simp only [Bool.false_eq_true, ↓reduceIte] at l2
    have hle : gLen G1 r ≤ su.ncols := by
      rw [f1.lens r hr, f2.ncols]
      simp only [↓reduceIte]
      split
      · rename_i hc
        have hpos : maxOf (merged.map (·.rhi)) ≠ 0 := by
          have := hc.1; unfold height at this; omega
        cases merged with
        | nil => simp [maxOf] at hpos
        | cons m ms =>
          have := hm m (by simp)
          simp [width, maxOf]; omega
      · unfold rowWidth width
        have : maxOf ((ws.filter (·.row = r)).map (·.col + 1)) ≤ maxOf (ws.map (·.col + 1)) := by
          rw [maxOf_le]
          intro x hx
          obtain ⟨w, hw, rfl⟩ := List.mem_map.mp hx
          exact maxOf_le.mp (Nat.le_refl _) _ (List.mem_map.mpr ⟨w, (List.mem_filter.mp hw).1, rfl⟩)
        omega
    rw [f2.ncols]
    rw [f2.ncols] at hle
    refine row_pad _ _ _ l2 hle ?_
    intro j
    exact (f1.shows r j).trans (f2.shows r j).symm
  have proj : ∀ {β : Type} (p : ACell → β) (r : Nat) (a b : List β),
      (G1.map (List.map p))[r]? = some a → (G2.map (List.map p))[r]? = some b →
      b = a ++ List.replicate (su.ncols - a.length) (p ACell.blank) := by
    intro β p r a b ha hb
    have hr : r < G1.length := by
      by_contra hn
      rw [List.getElem?_eq_none (by simpa using hn)] at ha; cases ha
    have e1 : G1.getD r [] = G1[r] := by simp [List.getD, List.getElem?_eq_getElem hr]
    have e2 : G2.getD r [] = G2[r] := by simp [List.getD, List.getElem?_eq_getElem (hglen ▸ hr)]
    have k := key r hr
    unfold gLen at k
    rw [e1, e2] at k
    rw [List.getElem?_map, List.getElem?_eq_getElem hr] at ha
    rw [List.getElem?_map, List.getElem?_eq_getElem (hglen ▸ hr)] at hb
    simp only [Option.map_some, Option.some.injEq] at ha hb
    rw [← ha, ← hb, k]
    simp
  refine ⟨by rw [f1.nrows, f2.nrows], by rw [f1.ncols, f2.ncols], ?_, ?_, ?_, ?_, ?_, ?_⟩
  · rw [f1.rep.values, f2.rep.values]; simpa using hglen
  · rw [f1.rep.types, f2.rep.types]; simpa using hglen
  · rw [f1.rep.xfs, f2.rep.xfs]; cases cfg.fmtInfo <;> simp [hglen]
  · rw [f1.rep.values, f2.rep.values]; exact proj ACell.v
  · rw [f1.rep.types, f2.rep.types]; exact proj ACell.ty
  · rw [f1.rep.xfs, f2.rep.xfs]
    cases cfg.fmtInfo with
    | false => simp
    | true => exact proj ACell.xf

/-- C15: a ragged row ends at the last cell written in it, except that the last row of the sheet
gets one empty cell when it exists only because of a merged range. -/
theorem C15_ragged_row_length (cfg : SheetCfg) (ws : List Write) (merged : List CRange) (s : Store)
    (hm : ∀ m ∈ merged, 1 ≤ m.chi) (hrag : cfg.ragged = true) (h : loadCells cfg ws merged = .ok s)
    (r : Nat) (hr : r < s.nrows) :
    s.rowLen r = .ok (if (∀ w ∈ ws, w.row < r) ∧ r + 1 = s.nrows then 1 else rowWidth ws r) := by
  obtain ⟨_, G, f⟩ := (load_final cfg ws merged hm).2 s h
  have hG : r < G.length := by rw [f.glen, ← f.nrows]; exact hr
  unfold Store.rowLen
  rw [f.rep.values, idx_nat_lt _ _ (by simpa using hG)]
  have hl := f.lens r hG
  simp only [hrag, ↓reduceIte] at hl
  rw [← f.nrows] at hl
  have e : gLen G r = G[r].length := by simp [gLen, List.getD, List.getElem?_eq_getElem hG]
  simp only [List.getElem_map, bind, Except.bind, pure, Except.pure, List.length_map, ← e, hl]
  congr 1
  have hiff : (maxOf (ws.map (·.row + 1)) < s.nrows ∧ r + 1 = s.nrows) ↔
      ((∀ w ∈ ws, w.row < r) ∧ r + 1 = s.nrows) := by
    constructor
    · rintro ⟨a, b⟩
      refine ⟨fun w hw => ?_, b⟩
      have := maxOf_le.mp (Nat.le_refl _) _ (List.mem_map.mpr ⟨w, hw, rfl⟩ : w.row + 1 ∈ ws.map (·.row + 1))
      omega
    · rintro ⟨a, b⟩
      refine ⟨?_, b⟩
      have : maxOf (ws.map (·.row + 1)) ≤ r := by
        rw [maxOf_le]; intro x hx
        obtain ⟨w, hw, rfl⟩ := List.mem_map.mp hx
        exact a w hw
      omega
  simp only [hiff]

example : ∃ s, loadCells ⟨false, true, 65536, 256, fun _ => some 2⟩ exampleWrites [] = .ok s ∧
    s.rowLen 0 = .ok 4 ∧ s.rowLen 1 = .ok 0 ∧ s.rowLen 2 = .ok 2 := by
  refine ⟨_, rfl, ?_⟩
  decide

end Xlrd
