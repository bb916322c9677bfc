import Verif.Model.Access
import Verif.Props.Cells

/-!
# Properties of the accessors: C16 - C19
-/
set_option linter.unusedSimpArgs false
namespace Xlrd
open Spec

/-- `l[start:stop]`, `stop` possibly omitted. -/
def Spec.pySlice {α} (l : List α) (start : Int) (stop : Option Int) : List α :=
  match stop with
  | none => sliceFrom l start
  | some e => slice l start e

theorem getElem?_pyRange (a b : Int) (k : Nat) :
    (pyRange a b)[k]? = if (k : Int) < b - a then some (a + k) else none := by
  unfold pyRange
  rw [List.getElem?_map]
  by_cases h : k < (b - a).toNat
  · rw [List.getElem?_range h, if_pos (by omega)]; rfl
  · rw [List.getElem?_eq_none (by simpa using h), if_neg (by omega)]; rfl

theorem length_pyRange (a b : Int) : (pyRange a b).length = (b - a).toNat := by simp [pyRange]

/-- the adjusted `xrange` bounds select exactly the Python slice of the indexes -/
theorem pyRange_slice (n : Nat) (start : Int) (stop : Option Int) :
    pyRange (adjustStart n start) (adjustStop n stop) = pySlice (pyRange 0 n) start stop := by
  apply List.ext_getElem?
  intro k
  rw [getElem?_pyRange]
  have hl : (pyRange 0 (n : Int)).length = n := by simp [length_pyRange]
  cases stop with
  | none =>
    simp only [pySlice, sliceFrom, List.getElem?_drop, getElem?_pyRange, clampIdx, adjustStart, adjustStop, hl]
    split_ifs <;> (try simp) <;> omega
  | some e =>
    simp only [pySlice, slice, List.getElem?_drop, List.getElem?_take, getElem?_pyRange, clampIdx, adjustStart,
      adjustStop, hl]
    split_ifs <;> (try simp) <;> omega

theorem comp_ok_iff {α β} (f : α → R β) (l : List α) (ys : List β) :
    comp f l = .ok ys ↔ l.length = ys.length ∧ ∀ (k : Nat) x, l[k]? = some x → ∃ y, ys[k]? = some y ∧ f x = .ok y := by
  induction l generalizing ys with
  | nil =>
    simp only [comp, Except.ok.injEq, List.length_nil, List.getElem?_nil]
    constructor
    · rintro rfl; simp
    · rintro ⟨h, _⟩; exact (List.length_eq_zero_iff.mp h.symm).symm
  | cons a as ih =>
    simp only [comp, bind, Except.bind]
    cases hf : f a with
    | error e =>
      simp only [reduceCtorEq, false_iff, not_and]
      intro _ h
      obtain ⟨y, _, hy⟩ := h 0 a rfl
      rw [hf] at hy; cases hy
    | ok y =>
      simp only
      cases hc : comp f as with
      | error e =>
        simp only [reduceCtorEq, false_iff, not_and]
        intro hl h
        cases ys with
        | nil => simp at hl
        | cons z zs =>
          have : comp f as = .ok zs := by
            rw [ih]
            refine ⟨by simpa using hl, ?_⟩
            intro k x hx
            have := h (k + 1) x (by simpa using hx)
            simpa using this
          rw [hc] at this; cases this
      | ok zs =>
        simp only [pure, Except.pure, Except.ok.injEq]
        have hz := (ih zs).mp hc
        constructor
        · rintro rfl
          refine ⟨by simp [hz.1], ?_⟩
          intro k x hx
          cases k with
          | zero => simp at hx; subst hx; exact ⟨y, rfl, hf⟩
          | succ k => simpa using hz.2 k x (by simpa using hx)
        · rintro ⟨hl, h⟩
          cases ys with
          | nil => simp at hl
          | cons w ws =>
            obtain ⟨y', hy', hfy⟩ := h 0 a rfl
            simp at hy'; subst hy'
            rw [hf] at hfy; injection hfy with hfy; subst hfy
            have : comp f as = .ok ws := by
              rw [ih]
              refine ⟨by simpa using hl, ?_⟩
              intro k x hx
              simpa using h (k + 1) x (by simpa using hx)
            rw [hc] at this; injection this with this; rw [this]

theorem comp_drop {α β} (f : α → R β) (l : List α) (ys : List β) (h : comp f l = .ok ys) (n : Nat) :
    comp f (l.drop n) = .ok (ys.drop n) := by
  rw [comp_ok_iff] at h ⊢
  refine ⟨by simp [h.1], ?_⟩
  intro k x hx
  rw [List.getElem?_drop] at hx ⊢
  exact h.2 _ x hx

theorem comp_take {α β} (f : α → R β) (l : List α) (ys : List β) (h : comp f l = .ok ys) (n : Nat) :
    comp f (l.take n) = .ok (ys.take n) := by
  rw [comp_ok_iff] at h ⊢
  refine ⟨by simp [h.1], ?_⟩
  intro k x hx
  rw [List.getElem?_take] at hx ⊢
  by_cases hk : k < n
  · simp only [hk, ↓reduceIte] at hx ⊢; exact h.2 _ x hx
  · simp [hk] at hx

theorem comp_pySlice {α β} (f : α → R β) (l : List α) (ys : List β) (h : comp f l = .ok ys)
    (a : Int) (b : Option Int) : comp f (pySlice l a b) = .ok (pySlice ys a b) := by
  have hl := ((comp_ok_iff f l ys).mp h).1
  cases b with
  | none => simp only [pySlice, sliceFrom, hl]; exact comp_drop f l ys h _
  | some e => simp only [pySlice, slice, hl]; exact comp_drop f _ _ (comp_take f l ys h _) _

theorem map_pySlice {α β} (f : α → β) (l : List α) (a : Int) (b : Option Int) :
    (pySlice l a b).map f = pySlice (l.map f) a b := by
  cases b <;> simp [pySlice, sliceFrom, slice]

theorem comp_map_ok {α β γ} (f : α → R β) (g : α → R γ) (p : β → γ)
    (hfg : ∀ x y, f x = .ok y → g x = .ok (p y)) (l : List α) (ys : List β) (h : comp f l = .ok ys) :
    comp g l = .ok (ys.map p) := by
  rw [comp_ok_iff] at h ⊢
  refine ⟨by simp [h.1], ?_⟩
  intro k x hx
  obtain ⟨y, hy, e⟩ := h.2 k x hx
  exact ⟨p y, by simp [hy], hfg x y e⟩

theorem cell_parts (sh : SheetView) (r c : Int) (x : PCell) (h : cell sh r c = .ok x) :
    sh.store.cellType r c = .ok x.ty ∧ sh.store.cellValue r c = .ok x.v ∧
    (if sh.fmtInfo then ∃ k i, cellXfIndex sh r c = .ok (k, i) ∧ x.xf = some k else x.xf = none) := by
  unfold cell at h
  simp only [bind, Except.bind, pure, Except.pure] at h
  cases hf : sh.fmtInfo with
  | false =>
    simp only [hf, Bool.false_eq_true, ↓reduceIte] at h ⊢
    cases h1 : sh.store.cellType r c with
    | error e => simp [h1] at h
    | ok t =>
      cases h2 : sh.store.cellValue r c with
      | error e => simp [h1, h2] at h
      | ok v => simp [h1, h2] at h; subst h; exact ⟨rfl, rfl, rfl⟩
  | true =>
    simp only [hf, ↓reduceIte] at h ⊢
    cases h0 : cellXfIndex sh r c with
    | error e => simp [h0] at h
    | ok ki =>
      cases h1 : sh.store.cellType r c with
      | error e => simp [h0, h1] at h
      | ok t =>
        cases h2 : sh.store.cellValue r c with
        | error e => simp [h0, h1, h2] at h
        | ok v =>
          simp [h0, h1, h2] at h; subst h
          exact ⟨rfl, rfl, ki.1, ki.2, rfl, rfl⟩

/-! ## C16 -/

/-- C16: `row_slice`, `col_slice`, `col_values`, `col_types` visit exactly the positions selected by
the Python slice `[start:stop]`, for every sheet and all bounds. -/
theorem C16_slices_visit_python_slice (sh : SheetView) (start : Int) (stop : Option Int) :
    (∀ r, rowSlice sh r start stop = do
      let vs ← idx sh.store.values r
      comp (fun c => cell sh r c) (pySlice (pyRange 0 vs.length) start stop)) ∧
    (∀ c, colSlice sh c start stop = comp (fun r => cell sh r c) (pySlice (pyRange 0 sh.store.nrows) start stop)) ∧
    (∀ c, colValues sh c start stop = comp (fun r => sh.store.cellValue r c) (pySlice (pyRange 0 sh.store.nrows) start stop)) ∧
    (∀ c, colTypes sh c start stop = comp (fun r => sh.store.cellType r c) (pySlice (pyRange 0 sh.store.nrows) start stop)) := by
  refine ⟨?_, ?_, ?_, ?_⟩
  · intro r; simp only [rowSlice, pyRange_slice]
  all_goals intro c; simp only [colSlice, colValues, colTypes, pyRange_slice]

/-- a cell of a loaded sheet is readable -/
theorem cell_readable (cfg ws merged s G) (f : Final cfg ws merged s G) (sh : SheetView) (hs : sh.store = s)
    (hf : sh.fmtInfo = cfg.fmtInfo) (r c : Nat) (hr : r < G.length) (hc : c < gLen G r) :
    ∃ x, cell sh r c = .ok x := by
  have g := final_get cfg ws merged s G f r c
  simp only [hr, hc, and_self, ↓reduceIte, ← hs] at g
  unfold cell
  rw [g.1, g.2.1]
  cases hfi : sh.fmtInfo with
  | false => exact ⟨_, rfl⟩
  | true =>
    have g3 := g.2.2 (hf ▸ hfi)
    have : ∃ ki, cellXfIndex sh r c = .ok ki := by
      unfold cellXfIndex reqFmtInfo
      simp only [hfi, ↓reduceIte, bind, Except.bind, g3]
      split
      · exact ⟨_, rfl⟩
      · cases sh.rowinfoMap r with
        | none => cases sh.colinfoMap c <;> exact ⟨_, rfl⟩
        | some ri =>
          simp only
          split
          · exact ⟨_, rfl⟩
          · cases sh.colinfoMap c <;> exact ⟨_, rfl⟩
    obtain ⟨ki, e⟩ := this
    simp only [↓reduceIte, e, bind, Except.bind, pure, Except.pure]
    exact ⟨_, rfl⟩

/-- C16: in a loaded sheet (rectangular or ragged), for every row: `row` is the list of the cells of
the row, and `row_slice`, `row_values`, `row_types` are Python slices of it. -/
theorem C16_row_accessors_agree (cfg : SheetCfg) (ws : List Write) (merged : List CRange) (sh : SheetView)
    (hm : ∀ m ∈ merged, 1 ≤ m.chi) (h : loadCells cfg ws merged = .ok sh.store)
    (hf : sh.fmtInfo = cfg.fmtInfo) (r : Nat) (hr : r < sh.store.nrows) :
    ∃ cells, row sh r = .ok cells ∧ sh.store.rowLen r = .ok cells.length ∧
      (∀ (c : Nat) x, cells[c]? = some x ↔ c < cells.length ∧ cell sh r c = .ok x) ∧
      ∀ start stop,
        rowSlice sh r start stop = .ok (pySlice cells start stop) ∧
        rowValues sh r start stop = .ok ((pySlice cells start stop).map PCell.v) ∧
        rowTypes sh r start stop = .ok ((pySlice cells start stop).map PCell.ty) := by
  obtain ⟨_, G, f⟩ := (load_final cfg ws merged hm).2 _ h
  have hG : r < G.length := by rw [f.glen, ← f.nrows]; exact hr
  have e : G.getD r [] = G[r] := by simp [List.getD, List.getElem?_eq_getElem hG]
  have el : gLen G r = G[r].length := by unfold gLen; rw [e]
  have hv : idx sh.store.values r = .ok (G[r].map ACell.v) := by
    rw [f.rep.values, idx_nat_lt _ _ (by simpa using hG)]; simp
  have ht : idx sh.store.types r = .ok (G[r].map ACell.ty) := by
    rw [f.rep.types, idx_nat_lt _ _ (by simpa using hG)]; simp
  -- all cells of the row are readable
  have hall : ∀ n, n ≤ G[r].length → ∃ cells, comp (fun c => cell sh r c) ((pyRange 0 G[r].length).take n) = .ok cells := by
    intro n
    induction n with
    | zero => intro _; exact ⟨[], rfl⟩
    | succ n ih =>
      intro hn
      obtain ⟨cells, hc⟩ := ih (by omega)
      obtain ⟨x, hx⟩ := cell_readable cfg ws merged _ G f sh rfl hf r n hG (by omega)
      refine ⟨cells ++ [x], ?_⟩
      rw [comp_ok_iff] at hc ⊢
      have hlen := hc.1
      simp only [List.length_take, length_pyRange] at hlen ⊢
      refine ⟨by simp; omega, ?_⟩
      intro k y hk
      rw [List.getElem?_take, getElem?_pyRange] at hk
      split at hk
      · rename_i hkn
        by_cases hkn' : k < n
        · obtain ⟨z, hz, ez⟩ := hc.2 k y (by
            rw [List.getElem?_take, if_pos hkn', getElem?_pyRange]; exact hk)
          refine ⟨z, ?_, ez⟩
          rw [List.getElem?_append_left (by omega)]; exact hz
        · have : k = n := by omega
          subst this
          refine ⟨x, ?_, ?_⟩
          · rw [List.getElem?_append_right (by omega)]
            have : k - cells.length = 0 := by omega
            simp [this]
          · split at hk
            · simp at hk; subst hk; exact hx
            · cases hk
      · cases hk
  obtain ⟨cells, hcells⟩ := hall G[r].length (Nat.le_refl _)
  rw [List.take_of_length_le (by simp [length_pyRange])] at hcells
  have hrow : row sh r = .ok cells := by
    unfold row; rw [hv]; simp only [bind, Except.bind, List.length_map]; exact hcells
  have hci := (comp_ok_iff _ _ _).mp hcells
  have hlen : cells.length = G[r].length := by rw [← hci.1]; simp [length_pyRange]
  have hget : ∀ c : Nat, c < cells.length → ∃ y, cells[c]? = some y ∧ cell sh r c = .ok y := by
    intro c hc
    have := hci.2 c (c : Int) (by rw [getElem?_pyRange, if_pos (by omega)]; simp)
    simpa using this
  have hvs : cells.map PCell.v = G[r].map ACell.v := by
    apply List.ext_getElem?
    intro c
    by_cases hc : c < cells.length
    · obtain ⟨y, hy, ey⟩ := hget c hc
      have p := cell_parts sh r c y ey
      rw [List.getElem?_map, hy]
      have p2 := p.2.1
      unfold Store.cellValue at p2
      rw [hv] at p2
      simp only [bind, Except.bind] at p2
      rw [idx_nat_lt _ _ (by simp; omega)] at p2
      injection p2 with p2
      rw [List.getElem?_eq_getElem (by simp; omega), p2]; rfl
    · rw [List.getElem?_eq_none (by simp; omega), List.getElem?_eq_none (by simp; omega)]
  have hts : cells.map PCell.ty = G[r].map ACell.ty := by
    apply List.ext_getElem?
    intro c
    by_cases hc : c < cells.length
    · obtain ⟨y, hy, ey⟩ := hget c hc
      have p := cell_parts sh r c y ey
      rw [List.getElem?_map, hy]
      have p2 := p.1
      unfold Store.cellType at p2
      rw [ht] at p2
      simp only [bind, Except.bind] at p2
      rw [idx_nat_lt _ _ (by simp; omega)] at p2
      injection p2 with p2
      rw [List.getElem?_eq_getElem (by simp; omega), p2]; rfl
    · rw [List.getElem?_eq_none (by simp; omega), List.getElem?_eq_none (by simp; omega)]
  refine ⟨cells, hrow, ?_, ?_, ?_⟩
  · unfold Store.rowLen; rw [hv]; simp [bind, Except.bind, pure, Except.pure, hlen]
  · intro c x
    constructor
    · intro hx
      have hc : c < cells.length := by
        by_contra hn; rw [List.getElem?_eq_none (by omega)] at hx; cases hx
      obtain ⟨y, hy, ey⟩ := hget c hc
      rw [hx] at hy; injection hy with hy; subst hy
      exact ⟨hc, ey⟩
    · rintro ⟨hc, hx⟩
      obtain ⟨y, hy, ey⟩ := hget c hc
      rw [hx] at ey; injection ey with ey; subst ey
      exact hy
  · intro start stop
    refine ⟨?_, ?_, ?_⟩
    · rw [(C16_slices_visit_python_slice sh start stop).1, hv]
      simp only [bind, Except.bind, List.length_map]
      exact comp_pySlice _ _ _ hcells start stop
    · rw [map_pySlice, hvs]
      unfold rowValues; rw [hv]
      cases stop <;> rfl
    · rw [map_pySlice, hts]
      unfold rowTypes; rw [ht]
      cases stop <;> rfl

/-- C16: in a rectangular sheet, for every column: `col` is the list of the cells of the column and
`col_slice`, `col_values`, `col_types` are Python slices of it. -/
theorem C16_col_accessors_agree (cfg : SheetCfg) (ws : List Write) (merged : List CRange) (sh : SheetView)
    (hm : ∀ m ∈ merged, 1 ≤ m.chi) (hrect : cfg.ragged = false) (h : loadCells cfg ws merged = .ok sh.store)
    (hf : sh.fmtInfo = cfg.fmtInfo) (c : Nat) (hc : c < sh.store.ncols) :
    ∃ cells, colSlice sh c 0 none = .ok cells ∧ cells.length = sh.store.nrows ∧
      (∀ (r : Nat) x, cells[r]? = some x ↔ r < sh.store.nrows ∧ cell sh r c = .ok x) ∧
      ∀ start stop,
        colSlice sh c start stop = .ok (pySlice cells start stop) ∧
        colValues sh c start stop = .ok ((pySlice cells start stop).map PCell.v) ∧
        colTypes sh c start stop = .ok ((pySlice cells start stop).map PCell.ty) := by
  obtain ⟨_, G, f⟩ := (load_final cfg ws merged hm).2 _ h
  have hN : sh.store.nrows = G.length := by rw [f.glen, f.nrows]
  have hin : ∀ r : Nat, r < sh.store.nrows → ∃ x, cell sh r c = .ok x := by
    intro r hr
    have hG : r < G.length := by omega
    refine cell_readable cfg ws merged _ G f sh rfl hf r c hG ?_
    rw [f.lens r hG]; simp [hrect]; rw [← f.ncols]; exact hc
  obtain ⟨cells, hcells⟩ : ∃ cells, comp (fun r => cell sh r c) (pyRange 0 sh.store.nrows) = .ok cells := by
    have : ∀ l : List Int, (∀ r ∈ l, ∃ x, cell sh r c = .ok x) → ∃ cells, comp (fun r => cell sh r c) l = .ok cells := by
      intro l
      induction l with
      | nil => intro _; exact ⟨[], rfl⟩
      | cons a as ih =>
        intro hl
        obtain ⟨x, hx⟩ := hl a (by simp)
        obtain ⟨xs, hxs⟩ := ih (fun r hr => hl r (by simp [hr]))
        exact ⟨x :: xs, by simp [comp, hx, hxs, bind, Except.bind, pure, Except.pure]⟩
    apply this
    intro r hr
    simp only [pyRange, List.mem_map, List.mem_range] at hr
    obtain ⟨k, hk, rfl⟩ := hr
    have := hin k (by omega)
    simpa using this
  have hci := (comp_ok_iff _ _ _).mp hcells
  have hlen : cells.length = sh.store.nrows := by rw [← hci.1]; simp [length_pyRange]
  have sl := fun a b => C16_slices_visit_python_slice sh a b
  have hfull : pySlice (pyRange 0 (sh.store.nrows : Int)) 0 none = pyRange 0 sh.store.nrows := by
    simp [pySlice, sliceFrom, clampIdx]
  refine ⟨cells, ?_, hlen, ?_, ?_⟩
  · rw [(sl 0 none).2.1, hfull]; exact hcells
  · intro r x
    constructor
    · intro hx
      have hr : r < cells.length := by
        by_contra hn; rw [List.getElem?_eq_none (by omega)] at hx; cases hx
      obtain ⟨y, hy, ey⟩ := hci.2 r (r : Int) (by rw [getElem?_pyRange, if_pos (by omega)]; simp)
      rw [hx] at hy; injection hy with hy; subst hy
      exact ⟨by omega, ey⟩
    · rintro ⟨hr, hx⟩
      obtain ⟨y, hy, ey⟩ := hci.2 r (r : Int) (by rw [getElem?_pyRange, if_pos (by omega)]; simp)
      simp only [hx, Except.ok.injEq] at ey
      rw [ey]; exact hy
  · intro start stop
    have hs := comp_pySlice _ _ _ hcells start stop
    refine ⟨by rw [(sl start stop).2.1]; exact hs, ?_, ?_⟩
    · rw [(sl start stop).2.2.1]
      exact comp_map_ok _ _ PCell.v (fun x y hxy => (cell_parts sh x c y hxy).2.1) _ _ hs
    · rw [(sl start stop).2.2.2]
      exact comp_map_ok _ _ PCell.ty (fun x y hxy => (cell_parts sh x c y hxy).1) _ _ hs

/-- C16: iterating over a loaded sheet yields its rows in order. -/
theorem C16_get_rows (cfg : SheetCfg) (ws : List Write) (merged : List CRange) (sh : SheetView)
    (hm : ∀ m ∈ merged, 1 ≤ m.chi) (h : loadCells cfg ws merged = .ok sh.store) (hf : sh.fmtInfo = cfg.fmtInfo) :
    ∃ rows, getRows sh = .ok rows ∧ rows.length = sh.store.nrows ∧
      ∀ (r : Nat) x, rows[r]? = some x ↔ r < sh.store.nrows ∧ row sh r = .ok x := by
  have hin : ∀ r : Nat, r < sh.store.nrows → ∃ x, row sh r = .ok x := by
    intro r hr
    obtain ⟨cells, hc, _⟩ := C16_row_accessors_agree cfg ws merged sh hm h hf r hr
    exact ⟨cells, hc⟩
  obtain ⟨rows, hrows⟩ : ∃ rows, comp (fun r => row sh r) (pyRange 0 sh.store.nrows) = .ok rows := by
    have : ∀ l : List Int, (∀ r ∈ l, ∃ x, row sh r = .ok x) → ∃ rows, comp (fun r => row sh r) l = .ok rows := by
      intro l
      induction l with
      | nil => intro _; exact ⟨[], rfl⟩
      | cons a as ih =>
        intro hl
        obtain ⟨x, hx⟩ := hl a (by simp)
        obtain ⟨xs, hxs⟩ := ih (fun r hr => hl r (by simp [hr]))
        exact ⟨x :: xs, by simp [comp, hx, hxs, bind, Except.bind, pure, Except.pure]⟩
    apply this
    intro r hr
    simp only [pyRange, List.mem_map, List.mem_range] at hr
    obtain ⟨k, hk, rfl⟩ := hr
    have := hin k (by omega)
    simpa using this
  have hci := (comp_ok_iff _ _ _).mp hrows
  have hlen : rows.length = sh.store.nrows := by rw [← hci.1]; simp [length_pyRange]
  refine ⟨rows, hrows, hlen, ?_⟩
  intro r x
  constructor
  · intro hx
    have hr : r < rows.length := by
      by_contra hn; rw [List.getElem?_eq_none (by omega)] at hx; cases hx
    obtain ⟨y, hy, ey⟩ := hci.2 r (r : Int) (by rw [getElem?_pyRange, if_pos (by omega)]; simp)
    rw [hx] at hy; injection hy with hy; subst hy
    exact ⟨by omega, ey⟩
  · rintro ⟨hr, hx⟩
    obtain ⟨y, hy, ey⟩ := hci.2 r (r : Int) (by rw [getElem?_pyRange, if_pos (by omega)]; simp)
    simp only [hx, Except.ok.injEq] at ey
    rw [ey]; exact hy

example : ∃ s, loadCells ⟨false, false, 65536, 256, fun _ => some 2⟩ exampleWrites [] = .ok s ∧
    rowValues ⟨s, false, 80, fun _ => none, fun _ => none, none, none, []⟩ 2 (-3) (some 3) =
      .ok [.text ['b'], .text []] := by
  refine ⟨_, rfl, ?_⟩
  decide

/-! ## C17 -/

theorem idx_neg {α} (l : List α) (n : Nat) (h : n < l.length) : idx l ((n : Int) - l.length) = idx l n := by
  unfold idx
  have h1 : (n : Int) - l.length < 0 := by omega
  have h2 : ¬ ((n : Int) < 0) := by omega
  have h3 : (n : Int) - l.length + l.length = n := by omega
  simp only [h1, h2, h3, ↓reduceIte]

/-- C17 (types and values): negative indexes count from the end.  For the XF index this is false when
the cell has no XF index of its own (`C17_xf_default_missed`); with its own XF index it holds
(`C17_negative_xf_partial`). -/
theorem C17_negative_indexes_partial (cfg : SheetCfg) (ws : List Write) (merged : List CRange) (s : Store)
    (hm : ∀ m ∈ merged, 1 ≤ m.chi) (hrect : cfg.ragged = false) (h : loadCells cfg ws merged = .ok s)
    (r c : Nat) (hr : r < s.nrows) (hc : c < s.ncols) :
    s.cellType ((r : Int) - s.nrows) c = s.cellType r c ∧ s.cellType r ((c : Int) - s.ncols) = s.cellType r c ∧
    s.cellValue ((r : Int) - s.nrows) c = s.cellValue r c ∧ s.cellValue r ((c : Int) - s.ncols) = s.cellValue r c ∧
    (cfg.fmtInfo = true →
      s.cellXf ((r : Int) - s.nrows) c = s.cellXf r c ∧ s.cellXf r ((c : Int) - s.ncols) = s.cellXf r c) := by
  obtain ⟨ht1, ht2, hv1, hv2, hx⟩ := C13_rectangular cfg ws merged s hm hrect h
  have go : ∀ {β : Type} (g : List (List β)), g.length = s.nrows → (∀ row ∈ g, row.length = s.ncols) →
      ((do idx (← idx g ((r : Int) - s.nrows)) (c : Int) : R β) = (do idx (← idx g (r : Int)) (c : Int))) ∧
      ((do idx (← idx g (r : Int)) ((c : Int) - s.ncols) : R β) = (do idx (← idx g (r : Int)) (c : Int))) := by
    intro β g h1 h2
    constructor
    · rw [← h1, idx_neg g r (by omega)]
    · rw [idx_nat_lt g r (by omega)]
      simp only [bind, Except.bind]
      rw [← h2 g[r] (List.getElem_mem _), idx_neg _ c (by rw [h2 _ (List.getElem_mem _)]; omega)]
  refine ⟨(go _ ht1 ht2).1, (go _ ht1 ht2).2, (go _ hv1 hv2).1, (go _ hv1 hv2).2, ?_⟩
  intro hf
  rw [hf] at hx
  simp only [↓reduceIte] at hx
  exact ⟨(go _ hx.1 hx.2).1, (go _ hx.1 hx.2).2⟩

/-- C17: a cell with its own XF index reports it under negative indexes too. -/
theorem C17_negative_xf_partial (cfg : SheetCfg) (ws : List Write) (merged : List CRange) (sh : SheetView)
    (hm : ∀ m ∈ merged, 1 ≤ m.chi) (hrect : cfg.ragged = false) (h : loadCells cfg ws merged = .ok sh.store)
    (hf : sh.fmtInfo = cfg.fmtInfo) (r c : Nat) (hr : r < sh.store.nrows) (hc : c < sh.store.ncols)
    (hown : 0 ≤ (cellAt cfg.typeMap ws r c).xf) :
    cell sh ((r : Int) - sh.store.nrows) c = cell sh r c ∧ cell sh r ((c : Int) - sh.store.ncols) = cell sh r c := by
  obtain ⟨a1, a2, a3, a4, a5⟩ := C17_negative_indexes_partial cfg ws merged sh.store hm hrect h r c hr hc
  unfold cell
  rw [a1, a2, a3, a4]
  cases hfi : sh.fmtInfo with
  | false => simp
  | true =>
    have hcf : cfg.fmtInfo = true := hf ▸ hfi
    obtain ⟨b1, b2⟩ := a5 hcf
    have own := ((C12_last_write_wins cfg ws merged sh.store hm hrect h r c).1 ⟨hr, hc⟩).2.2 hcf
    have key : ∀ r' c' : Int, sh.store.cellXf r' c' = .ok (cellAt cfg.typeMap ws r c).xf →
        cellXfIndex sh r' c' = .ok ((cellAt cfg.typeMap ws r c).xf, 0) := by
      intro r' c' e
      unfold cellXfIndex reqFmtInfo
      simp only [hfi, ↓reduceIte, bind, Except.bind, e]
      rw [if_pos (by omega)]
    simp only [key _ _ own, key _ _ (b1.trans own), key _ _ (b2.trans own), and_self]

/-- C17 fails for the XF index of a cell that has none of its own: the row default is found for row
0 but not for the same row addressed as -1. -/
theorem C17_xf_default_missed : ∃ sh : SheetView,
    loadCells ⟨true, false, 65536, 256, fun _ => some 2⟩ [⟨0, 1, some 1, .text ['a'], 20⟩] [] = .ok sh.store ∧
    cellXfIndex sh 0 0 = .ok (42, 1) ∧ cellXfIndex sh (-1) 0 = .ok (15, 3) :=
  ⟨⟨_, true, 80, fun r => if r = 0 then some ⟨0, 0, 0, 0, 0, 0, 1, 42, 0, 0, false⟩ else none, fun _ => none, none, none, []⟩,
    rfl, by decide, by decide⟩

example : ∃ s, loadCells ⟨true, false, 65536, 256, fun _ => some 2⟩ exampleWrites [] = .ok s ∧
    s.cellValue (-1) (-3) = .ok (.text ['b']) ∧ 0 ≤ (cellAt (fun _ => some 2) exampleWrites 2 1).xf := by
  refine ⟨_, rfl, ?_⟩
  decide

/-! ## C18 -/

/-- C18: the XF index of a cell of a loaded sheet: the cell's own, else the row's, else the
column's, else 15; the second component names the statistics counter. -/
theorem C18_xf_precedence (cfg : SheetCfg) (ws : List Write) (merged : List CRange) (sh : SheetView)
    (hm : ∀ m ∈ merged, 1 ≤ m.chi) (hrect : cfg.ragged = false) (h : loadCells cfg ws merged = .ok sh.store)
    (hcf : cfg.fmtInfo = true) (hf : sh.fmtInfo = true) (r c : Nat) (hr : r < sh.store.nrows) (hc : c < sh.store.ncols)
    (hws : ∀ w ∈ ws, -1 ≤ w.xf) :
    (∀ w, lastAt ws r c = some w → w.xf ≠ -1 → cellXfIndex sh r c = .ok (w.xf, 0)) ∧
    ((lastAt ws r c = none ∨ ∃ w, lastAt ws r c = some w ∧ w.xf = -1) →
      (∀ ri, sh.rowinfoMap r = some ri → 0 ≤ ri.xfIndex → cellXfIndex sh r c = .ok (ri.xfIndex, 1)) ∧
      ((sh.rowinfoMap r = none ∨ ∃ ri, sh.rowinfoMap r = some ri ∧ ri.xfIndex < 0) →
        (∀ ci, sh.colinfoMap c = some ci → ci.xfIndex ≠ -1 → cellXfIndex sh r c = .ok (ci.xfIndex, 2)) ∧
        (∀ ci, sh.colinfoMap c = some ci → ci.xfIndex = -1 → cellXfIndex sh r c = .ok (15, 2)) ∧
        (sh.colinfoMap c = none → cellXfIndex sh r c = .ok (15, 3)))) := by
  have own := ((C12_last_write_wins cfg ws merged sh.store hm hrect h r c).1 ⟨hr, hc⟩).2.2 hcf
  unfold cellXfIndex reqFmtInfo
  simp only [hf, ↓reduceIte, bind, Except.bind, own]
  constructor
  · intro w hw hx
    have hmem : w ∈ ws := by
      have := List.mem_of_find?_eq_some hw
      simpa using this
    have := hws w hmem
    have hx' : (cellAt cfg.typeMap ws r c).xf = w.xf := by simp [cellAt, hw, stored]
    rw [hx', if_pos (by omega)]
  · intro hno
    have hx : (cellAt cfg.typeMap ws r c).xf = -1 := by
      rcases hno with h0 | ⟨w, h0, h1⟩
      · simp [cellAt, h0, ACell.blank]
      · simp [cellAt, h0, stored, h1]
    rw [hx, if_neg (by omega)]
    constructor
    · intro ri hri h0
      simp only [hri]
      rw [if_pos (by omega)]
    · intro hri
      rcases hri with h0 | ⟨ri, h0, h1⟩
      · simp only [h0]
        refine ⟨?_, ?_, ?_⟩
        · intro ci hci hne; simp [hci, hne]
        · intro ci hci he; simp [hci, he]
        · intro hci; simp [hci]
      · simp only [h0]
        rw [if_neg (by omega)]
        refine ⟨?_, ?_, ?_⟩
        · intro ci hci hne; simp [hci, hne]
        · intro ci hci he; simp [hci, he]
        · intro hci; simp [hci]

/-- C18: without formatting information the call raises XLRDError. -/
theorem C18_requires_formatting (sh : SheetView) (r c : Int) (h : sh.fmtInfo = false) :
    cellXfIndex sh r c = .error .xlrd := by
  simp [cellXfIndex, reqFmtInfo, h, bind, Except.bind]

/-- Own index, row default, column default and 15 all occur. -/
example : ∃ sh : SheetView, loadCells ⟨true, false, 65536, 256, fun _ => some 2⟩ exampleWrites [] = .ok sh.store ∧
    cellXfIndex sh 2 1 = .ok (16, 0) ∧ cellXfIndex sh 2 0 = .ok (42, 1) ∧ cellXfIndex sh 1 3 = .ok (43, 2) ∧
    cellXfIndex sh 1 2 = .ok (15, 3) :=
  ⟨⟨_, true, 80, fun r => if r = 2 then some ⟨0, 0, 0, 0, 0, 0, 1, 42, 0, 0, false⟩ else none,
    fun c => if c = 3 then some ⟨777, 43, 0, 0, 0, 0⟩ else none, none, none, []⟩, rfl, by decide⟩

/-! ## C19 -/

/-- C19: the sources of a column width, in order, for each file generation. -/
def Spec.widthSources (version : Nat) (flagged : Bool) (col std : Option Nat) (dflt : Option Nat) : List (Option Nat) :=
  (if version ≥ 80 then [col, std]
   else if version ≥ 40 then (if flagged then [std] else [col])
   else if version = 30 then [col]
   else []) ++ [dflt.map (· * 256), some (8 * 256)]

/-- first available source -/
def Spec.firstSome : List (Option Nat) → Option Nat
  | [] => none
  | some x :: _ => some x
  | none :: xs => firstSome xs

/-- C19: the width is the first available source, for every version; only a column outside the GCW
flags of a version 4-7 file can fail. -/
theorem C19_width_precedence (sh : SheetView) (colx : Int) (hf : sh.fmtInfo = true)
    (flag : Nat) (hg : 40 ≤ sh.biffVersion → sh.biffVersion < 80 → idx sh.gcw colx = .ok flag) :
    ∃ w, computedColumnWidth sh colx = .ok w ∧
      firstSome (widthSources sh.biffVersion (flag != 0) ((sh.colinfoMap colx).map Colinfo.width)
        sh.standardwidth sh.defcolwidth) = some w := by
  unfold computedColumnWidth reqFmtInfo widthSources
  simp only [hf, ↓reduceIte, bind, Except.bind]
  by_cases h80 : sh.biffVersion ≥ 80
  · simp only [h80, ↓reduceIte]
    cases sh.colinfoMap colx <;> cases sh.standardwidth <;> cases sh.defcolwidth <;> simp [firstSome]
  · by_cases h40 : sh.biffVersion ≥ 40
    · simp only [h80, h40, ↓reduceIte, hg h40 (by omega)]
      by_cases hfl : flag = 0
      · subst hfl
        cases sh.colinfoMap colx <;> cases sh.defcolwidth <;> simp [firstSome]
      · cases sh.standardwidth <;> cases sh.defcolwidth <;> simp [firstSome, hfl]
    · by_cases h30 : sh.biffVersion = 30
      · simp only [h30]
        cases sh.colinfoMap colx <;> cases sh.defcolwidth <;> simp [firstSome]
      · simp only [h80, h40, h30, ↓reduceIte]
        cases sh.defcolwidth <;> simp [firstSome]

/-- C19: the GCW flags are only consulted in versions 4 to 7, and with the 256 flags always present a
column 0..255 never fails. -/
theorem C19_width_total (sh : SheetView) (colx : Nat) (hf : sh.fmtInfo = true) (hg : sh.gcw.length = 256)
    (hc : colx < 256) : ∃ w, computedColumnWidth sh colx = .ok w := by
  obtain ⟨w, hw, _⟩ := C19_width_precedence sh colx hf (sh.gcw[colx]) (fun _ _ => idx_nat_lt _ _ (by omega))
  exact ⟨w, hw⟩

example : computedColumnWidth ⟨Store.empty, true, 50, fun _ => none, fun c => if c = 3 then some ⟨777, 15, 0, 0, 0, 0⟩ else none,
    some 2560, some 9, List.replicate 3 0 ++ [0, 1] ++ List.replicate 251 0⟩ 3 = .ok 777 := by decide

end Xlrd
