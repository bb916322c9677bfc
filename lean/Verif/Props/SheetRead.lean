import Verif.Lemmas.SheetFields
import Verif.Props.Cells

/-!
# C31, C39, C40, C55 and C58 to C61: reading the records of a worksheet
-/
set_option linter.unusedSimpArgs false
set_option linter.unreachableTactic false
set_option linter.unusedTactic false
namespace Xlrd
open Spec

/-- The merged ranges as `tidy_dimensions` sees them. -/
def mergedRanges (fmtInfo : Bool) (items : List SheetItem) : List CRange :=
  if fmtInfo then (mergedOf items).map fun r => ⟨r.1, r.2.1 + 1, r.2.2.1, r.2.2.2 + 1⟩ else []

theorem merged_pos (b : Bool) (items : List SheetItem) : ∀ m ∈ mergedRanges b items, 1 ≤ m.chi := by
  intro m hm
  unfold mergedRanges at hm
  split_ifs at hm
  · obtain ⟨r, _, rfl⟩ := List.mem_map.mp hm; simp
  · simp at hm

/-- The state reached on a well formed sheet. -/
theorem read_state {env : SheetEnv} (h30 : 30 ≤ env.bv) {L : Layout} (hL : L.Ok env.bv env.dec env.sst) {pre rest : Bytes} {s : SheetSt}
    (h : sheetRead env (pre ++ encRecs (L.records env.bv) ++ rest) (pre.length : Int) = .ok s) :
    ∃ s1 s2 s3, applyItems env {} L.head = .ok s1 ∧ applyDim env s1 L.dim s2 ∧ applyItems env s2 L.body = .ok s3 ∧ sheetFinish env s3 = .ok s := by
  rcases sheetRead_layout env h30 L hL pre rest with ⟨e, _, he⟩ | ⟨s1, s2, h1, h2, h3⟩
  · rw [he] at h; cases h
  · rw [h3] at h
    cases hb : applyItems env s2 L.body with
    | error e => rw [hb] at h; simp [Except.bind] at h
    | ok s3 => rw [hb] at h; exact ⟨s1, s2, s3, h1, h2, hb, h⟩

theorem finish_fields {env : SheetEnv} {s3 s : SheetSt} (h : sheetFinish env s3 = .ok s) :
    tidyDimensions env.cfg s3.store (s3.merged.map toCRange) = .ok s.store ∧ s = updateCooked { s3 with store := s.store } := by
  unfold sheetFinish at h
  cases ht : tidyDimensions env.cfg s3.store (s3.merged.map toCRange) with
  | error e => rw [ht] at h; simp [bind, Except.bind] at h
  | ok st =>
    rw [ht] at h
    simp only [bind, Except.bind, pure, Except.pure, Except.ok.injEq] at h
    have : s.store = st := by rw [← h]; unfold updateCooked; split_ifs <;> rfl
    rw [this]
    exact ⟨rfl, h.symm⟩

theorem head_no_cells {L : Layout} {f : ℚ → ℚ} {b : Bool} {sst : List PyStr} (h : ∀ i ∈ L.head, i.isCell = false) : cellsOf f b sst L.head = [] := by
  unfold cellsOf
  rw [List.flatMap_eq_nil_iff]
  intro x hx
  have := h x hx
  cases x <;> simp_all [SheetItem.isCell]

theorem merged_map (b : Bool) (items : List SheetItem) :
    (if b then (mergedOf items).map Rect.half else []).map toCRange = mergedRanges b items := by
  unfold mergedRanges
  split_ifs
  · rw [List.map_map]; rfl
  · rfl

/-! ## C31 The cells -/

/-- C31: the published codes for the types of cells; they are different. -/
theorem C31_type_codes : XL_CELL_EMPTY = 0 ∧ XL_CELL_TEXT = 1 ∧ XL_CELL_NUMBER = 2 ∧ XL_CELL_DATE = 3 ∧ XL_CELL_BOOLEAN = 4 ∧ XL_CELL_ERROR = 5 ∧
    XL_CELL_BLANK = 6 := ⟨rfl, rfl, rfl, rfl, rfl, rfl, rfl⟩

/-- C31: reading a worksheet made of any settings, any cells (numbers, RK values alone or in groups, shared
strings, labels, rich strings, booleans, errors, blanks, formula results of every kind), unknown records and
embedded charts leaves exactly the contents of the cells described, in the order of the records, and the
merged ranges: the sheet is the one `loadCells` builds, to which C12 to C15 apply. -/
theorem C31_sheet_is_its_cells (env : SheetEnv) (h30 : 30 ≤ env.bv) (L : Layout) (hL : L.Ok env.bv env.dec env.sst) (pre rest : Bytes)
    (s : SheetSt) (h : sheetRead env (pre ++ encRecs (L.records env.bv) ++ rest) (pre.length : Int) = .ok s) :
    loadCells env.cfg (cellsOf fl env.cfg.fmtInfo env.sst L.items) (mergedRanges env.cfg.fmtInfo L.items) = .ok s.store := by
  obtain ⟨s1, s2, s3, h1, h2, h3, h4⟩ := read_state h30 hL h
  obtain ⟨h5, _⟩ := finish_fields h4
  have hh := head_no_cells (f := fl) (b := env.cfg.fmtInfo) (sst := env.sst) hL.2.1
  have e1 := items_store h1
  rw [hh] at e1
  have hs1 : s1.store = Store.empty := by
    simp only [putAll, List.foldlM_nil, pure, Except.pure, Except.ok.injEq] at e1; exact e1.symm
  have m1 := items_merged h1
  have m3 := items_merged h3
  have hs2 : s2.store = Store.empty ∧ s2.merged = s1.merged := by
    cases hd : L.dim with
    | none => rw [hd] at h2; simp only [applyDim] at h2; subst h2; exact ⟨hs1, rfl⟩
    | some d =>
      rw [hd] at h2
      obtain ⟨a, b, rfl, _⟩ := h2
      refine ⟨?_, rfl⟩
      simp only [hs1]; rfl
  have e3 := items_store h3
  rw [hs2.1] at e3
  have hm : s3.merged.map toCRange = mergedRanges env.cfg.fmtInfo L.items := by
    rw [m3, hs2.2, m1, ← merged_map]
    simp only [Layout.items, mergedOf, List.flatMap_append]
    split_ifs <;> simp
  unfold loadCells
  have hc : cellsOf fl env.cfg.fmtInfo env.sst L.items = cellsOf fl env.cfg.fmtInfo env.sst L.body := by
    have : cellsOf fl env.cfg.fmtInfo env.sst L.items = cellsOf fl env.cfg.fmtInfo env.sst L.head ++ cellsOf fl env.cfg.fmtInfo env.sst L.body := by
      simp [Layout.items, cellsOf]
    rw [this, hh, List.nil_append]
  unfold putAll at e3
  rw [hc, ← hm]
  simp only [bind, Except.bind] at e3 ⊢
  rw [e3]
  exact h5

/-- C31: and a worksheet whose cells can be stored is read without an error (`nearest_colour_index` being
defined on every colour, C38). -/
theorem C31_sheet_loads (env : SheetEnv) (h30 : 30 ≤ env.bv) (hn : ∀ rgb, ∃ k, env.nearest rgb = .ok k) (L : Layout)
    (hL : L.Ok env.bv env.dec env.sst) (pre rest : Bytes) (st : Store)
    (h : loadCells env.cfg (cellsOf fl env.cfg.fmtInfo env.sst L.items) (mergedRanges env.cfg.fmtInfo L.items) = .ok st) :
    ∃ s, sheetRead env (pre ++ encRecs (L.records env.bv) ++ rest) (pre.length : Int) = .ok s ∧ s.store = st := by
  have hh := head_no_cells (f := fl) (b := env.cfg.fmtInfo) (sst := env.sst) hL.2.1
  have hc : cellsOf fl env.cfg.fmtInfo env.sst L.items = cellsOf fl env.cfg.fmtInfo env.sst L.body := by
    have : cellsOf fl env.cfg.fmtInfo env.sst L.items = cellsOf fl env.cfg.fmtInfo env.sst L.head ++ cellsOf fl env.cfg.fmtInfo env.sst L.body := by
      simp [Layout.items, cellsOf]
    rw [this, hh, List.nil_append]
  have key : ∃ s, sheetRead env (pre ++ encRecs (L.records env.bv) ++ rest) (pre.length : Int) = .ok s := by
    rw [hc] at h
    unfold loadCells at h
    obtain ⟨s1', h1'⟩ := items_total hn L.head {} Store.empty (by rw [hh]; rfl)
    rcases sheetRead_layout env h30 L hL pre rest with ⟨e, he, _⟩ | ⟨s1, s2, h1, h2, h3⟩
    · rw [he] at h1'; cases h1'
    · have e1 := items_store h1
      rw [hh] at e1
      have hs1 : s1.store = Store.empty := by
        simp only [putAll, List.foldlM_nil, pure, Except.pure, Except.ok.injEq] at e1; exact e1.symm
      have hs2 : s2.store = Store.empty ∧ s2.merged = s1.merged := by
        cases hd : L.dim with
        | none => rw [hd] at h2; simp only [applyDim] at h2; subst h2; exact ⟨hs1, rfl⟩
        | some d =>
          rw [hd] at h2
          obtain ⟨a, b, rfl, _⟩ := h2
          refine ⟨?_, rfl⟩
          simp only [hs1]; rfl
      simp only [bind, Except.bind] at h
      cases hp : putAll env.cfg Store.empty (cellsOf fl env.cfg.fmtInfo env.sst L.body) with
      | error e => rw [show List.foldlM _ _ _ = _ from hp] at h; cases h
      | ok st3 =>
        rw [show List.foldlM _ _ _ = _ from hp] at h
        obtain ⟨s3, h3'⟩ := items_total hn L.body s2 st3 (by rw [hs2.1]; exact hp)
        have e3 := items_store h3'
        rw [hs2.1, hp] at e3
        simp only [Except.ok.injEq] at e3
        have m1 := items_merged h1
        have m3 := items_merged h3'
        have hm : s3.merged.map toCRange = mergedRanges env.cfg.fmtInfo L.items := by
          rw [m3, hs2.2, m1, ← merged_map]
          simp only [Layout.items, mergedOf, List.flatMap_append]
          split_ifs <;> simp
        rw [h3, h3']
        show ∃ s, sheetFinish env s3 = .ok s
        unfold sheetFinish
        rw [hm, ← e3]
        simp only [Except.bind, bind] at h ⊢
        rw [h]
        exact ⟨_, rfl⟩
  obtain ⟨s, hs⟩ := key
  refine ⟨s, hs, ?_⟩
  have := C31_sheet_is_its_cells env h30 L hL pre rest s hs
  rw [h] at this
  simpa using this.symm

/-- C31 for the accessors: every cell shows the last record about it (type, value, and XF index when
formatting information is kept), every cell without a record is empty, and nothing lies outside. -/
theorem C31_cell_at (env : SheetEnv) (h30 : 30 ≤ env.bv) (L : Layout) (hL : L.Ok env.bv env.dec env.sst) (pre rest : Bytes)
    (s : SheetSt) (h : sheetRead env (pre ++ encRecs (L.records env.bv) ++ rest) (pre.length : Int) = .ok s)
    (hrect : env.cfg.ragged = false) (r c : Nat) :
    let cells := cellsOf fl env.cfg.fmtInfo env.sst L.items
    (r < s.store.nrows ∧ c < s.store.ncols →
      s.store.cellType r c = .ok (cellAt env.cfg.typeMap cells r c).ty ∧
      s.store.cellValue r c = .ok (cellAt env.cfg.typeMap cells r c).v ∧
      (env.cfg.fmtInfo = true → s.store.cellXf r c = .ok (cellAt env.cfg.typeMap cells r c).xf)) ∧
    (¬ (r < s.store.nrows ∧ c < s.store.ncols) → s.store.cellType r c = .error .index ∧ s.store.cellValue r c = .error .index) ∧
    s.store.nrows = height cells (mergedRanges env.cfg.fmtInfo L.items) ∧ s.store.ncols = width cells (mergedRanges env.cfg.fmtInfo L.items) := by
  have hl := C31_sheet_is_its_cells env h30 L hL pre rest s h
  obtain ⟨h1, h2⟩ := C12_last_write_wins env.cfg _ _ s.store (merged_pos _ _) hrect hl r c
  obtain ⟨h3, h4⟩ := C14_dimensions_tight env.cfg _ _ s.store (merged_pos _ _) hl
  exact ⟨h1, h2, h3, h4⟩

/-! ## The other attributes of the sheet -/

/-- An attribute decided by the last item that speaks about it. -/
theorem before_last {env : SheetEnv} {L : Layout} {s1 s2 s3 : SheetSt} {α : Type} (f : SheetSt → α) (g : SheetItem → Option α)
    (h1 : ∀ s x s', applyItem env s x = .ok s' → f s' = (g x).getD (f s))
    (hd : ∀ s st a b, f { s with store := st, dimnrows := a, dimncols := b } = f s)
    (e1 : applyItems env {} L.head = .ok s1) (e2 : applyDim env s1 L.dim s2) (e3 : applyItems env s2 L.body = .ok s3) :
    f s3 = (L.items.filterMap g).getLast?.getD (f {}) := by
  have a1 := items_last f g h1 e1
  have a3 := items_last f g h1 e3
  have a2 : f s2 = f s1 := by
    cases hdm : L.dim with
    | none => rw [hdm] at e2; simp only [applyDim] at e2; rw [e2]
    | some d => rw [hdm] at e2; obtain ⟨a, b, rfl, _⟩ := e2; exact hd ..
  rw [a3, a2, a1, Layout.items, List.filterMap_append, List.getLast?_append]
  cases (L.body.filterMap g).getLast? <;> rfl

theorem read_last {env : SheetEnv} (h30 : 30 ≤ env.bv) {L : Layout} (hL : L.Ok env.bv env.dec env.sst) {pre rest : Bytes} {s : SheetSt}
    (h : sheetRead env (pre ++ encRecs (L.records env.bv) ++ rest) (pre.length : Int) = .ok s)
    {α : Type} (f : SheetSt → α) (g : SheetItem → Option α)
    (h1 : ∀ s x s', applyItem env s x = .ok s' → f s' = (g x).getD (f s))
    (hd : ∀ s st a b, f { s with store := st, dimnrows := a, dimncols := b } = f s)
    (hf : ∀ s st, f (updateCooked { s with store := st }) = f s) :
    f s = (L.items.filterMap g).getLast?.getD (f {}) := by
  obtain ⟨s1, s2, s3, e1, e2, e3, e4⟩ := read_state h30 hL h
  rw [(finish_fields e4).2, hf]
  exact before_last f g h1 hd e1 e2 e3

/-- An attribute that collects a list. -/
theorem read_append {env : SheetEnv} (h30 : 30 ≤ env.bv) {L : Layout} (hL : L.Ok env.bv env.dec env.sst) {pre rest : Bytes} {s : SheetSt}
    (h : sheetRead env (pre ++ encRecs (L.records env.bv) ++ rest) (pre.length : Int) = .ok s)
    {α : Type} (f : SheetSt → List α) (g : List SheetItem → List α)
    (h1 : ∀ {items s s'}, applyItems env s items = .ok s' → f s' = f s ++ g items) (h0 : f {} = [])
    (ha : ∀ a b, g (a ++ b) = g a ++ g b)
    (hd : ∀ s st a b, f { s with store := st, dimnrows := a, dimncols := b } = f s)
    (hf : ∀ s st, f (updateCooked { s with store := st }) = f s) :
    f s = g L.items := by
  obtain ⟨s1, s2, s3, e1, e2, e3, e4⟩ := read_state h30 hL h
  rw [(finish_fields e4).2, hf, h1 e3]
  have a2 : f s2 = f s1 := by
    cases hdm : L.dim with
    | none => rw [hdm] at e2; simp only [applyDim] at e2; rw [e2]
    | some d => rw [hdm] at e2; obtain ⟨a, b, rfl, _⟩ := e2; exact hd ..
  rw [a2, h1 e1, h0, List.nil_append, Layout.items, ha]

theorem filterMap_last {α β γ : Type} (l : List α) (g : α → Option (Option γ)) (h : α → Option β) (p : β → Bool) (info : β → γ)
    (e : ∀ x, g x = (h x).bind fun y => if p y then some (some (info y)) else none) :
    (l.filterMap g).getLast?.getD none = ((l.filterMap h).filter p).getLast?.map info := by
  have : l.filterMap g = ((l.filterMap h).filter p).map (some ∘ info) := by
    induction l with
    | nil => rfl
    | cons x xs ih =>
      cases hx : h x with
      | none =>
        have : g x = none := by rw [e, hx]; rfl
        rw [List.filterMap_cons_none this, List.filterMap_cons_none hx, ih]
      | some y =>
        rw [List.filterMap_cons_some hx]
        by_cases hp : p y
        · have : g x = some (some (info y)) := by rw [e, hx]; simp [hp]
          rw [List.filterMap_cons_some this, List.filter_cons_of_pos hp, ih]; rfl
        · have : g x = none := by rw [e, hx]; simp [hp]
          rw [List.filterMap_cons_none this, List.filter_cons_of_neg hp, ih]
  rw [this, List.getLast?_map]
  cases ((l.filterMap h).filter p).getLast? <;> rfl

/-! ## C39 Row and column attributes -/

/-- C39: with formatting information, a row has exactly the attributes of the last ROW record about it. -/
theorem C39_row_attributes (env : SheetEnv) (h30 : 30 ≤ env.bv) (hfmt : env.cfg.fmtInfo = true) (L : Layout)
    (hL : L.Ok env.bv env.dec env.sst) (pre rest : Bytes) (s : SheetSt)
    (h : sheetRead env (pre ++ encRecs (L.records env.bv) ++ rest) (pre.length : Int) = .ok s) (r : Nat) (hr : r < env.cfg.maxRows) :
    s.rowinfo (r : Int) = ((rowsOf L.items).filter (·.row = r)).getLast?.map RowRec.info := by
  rw [read_last h30 hL h (fun s => s.rowinfo (r : Int)) (fun i => match i with | .row x _ => if x.row = r then some (some x.info) else none | _ => none)
    ?_ (fun _ _ _ _ => rfl) (fun s st => by unfold updateCooked; split_ifs <;> rfl)]
  · show (List.filterMap _ L.items).getLast?.getD none = _
    unfold rowsOf
    apply filterMap_last
    intro x
    cases x <;> simp
  · intro s x s' hx
    cases x with
    | row y j =>
      simp only [applyItem, Except.ok.injEq] at hx
      subst hx
      by_cases hy : y.row = r
      · rw [if_pos ⟨hfmt, by omega⟩]
        simp [dictSet, hy]
      · simp only [if_neg hy, Option.getD_none]
        by_cases h1 : env.cfg.fmtInfo = true ∧ y.row < env.cfg.maxRows
        · rw [if_pos h1]
          simp only [dictSet]
          rw [if_neg (by omega)]
        · rw [if_neg h1]
    | cell y => obtain ⟨st, hput, he⟩ := cell_applied hx; subst he; rfl
    | window y => obtain ⟨g, gr, pb, nv, he, hw1, hw2⟩ := window_applied hx; subst he; rfl
    | _ => (simp only [applyItem, Except.ok.injEq] at hx; subst hx; (try split_ifs) <;> rfl)

/-- C39: a column has exactly the attributes of the last COLINFO record whose range covers it; without
formatting information no attributes are kept. -/
theorem C39_column_attributes (env : SheetEnv) (h30 : 30 ≤ env.bv) (hfmt : env.cfg.fmtInfo = true) (L : Layout)
    (hL : L.Ok env.bv env.dec env.sst) (pre rest : Bytes) (s : SheetSt)
    (h : sheetRead env (pre ++ encRecs (L.records env.bv) ++ rest) (pre.length : Int) = .ok s) (c : Int) :
    s.colinfo c = ((colsOf L.items).filter (·.covers c)).getLast?.map ColRec.info := by
  rw [read_last h30 hL h (fun s => s.colinfo c) (fun i => match i with | .col x => if x.covers c then some (some x.info) else none | _ => none)
    ?_ (fun _ _ _ _ => rfl) (fun s st => by unfold updateCooked; split_ifs <;> rfl)]
  · show (List.filterMap _ L.items).getLast?.getD none = _
    unfold colsOf
    apply filterMap_last
    intro x
    cases x <;> simp
  · intro s x s' hx
    cases x with
    | col y =>
      simp only [applyItem, Except.ok.injEq] at hx
      subst hx
      rw [if_pos hfmt]
      simp only
      split_ifs <;> rfl
    | cell y => obtain ⟨st, hput, he⟩ := cell_applied hx; subst he; rfl
    | window y => obtain ⟨g, gr, pb, nv, he, hw1, hw2⟩ := window_applied hx; subst he; rfl
    | _ => (simp only [applyItem, Except.ok.injEq] at hx; subst hx; (try split_ifs) <;> rfl)

/-- C39: without formatting information no row or column attributes are kept. -/
theorem C39_no_attributes_without_formatting (env : SheetEnv) (h30 : 30 ≤ env.bv) (hfmt : env.cfg.fmtInfo = false) (L : Layout)
    (hL : L.Ok env.bv env.dec env.sst) (pre rest : Bytes) (s : SheetSt)
    (h : sheetRead env (pre ++ encRecs (L.records env.bv) ++ rest) (pre.length : Int) = .ok s) (i : Int) :
    s.rowinfo i = none ∧ s.colinfo i = none := by
  have key := read_last h30 hL h (fun s => (s.rowinfo i, s.colinfo i)) (fun _ => none) ?_ (fun _ _ _ _ => rfl)
    (fun s st => by unfold updateCooked; split_ifs <;> rfl)
  · simp only [List.filterMap_none, List.getLast?_nil, Option.getD_none, Prod.mk.injEq] at key
    exact key
  · intro s x s' hx
    item_cases x hx using (simp [hfmt])

/-! ## C40 Magnification -/

/-- The scale an SCL record `num / den` gives in per cent; out of range (or a zero denominator) means 100. -/
def scale (num den : Nat) : Nat := if 10 ≤ num * 100 / den ∧ num * 100 / den ≤ 400 then num * 100 / den else 100

/-- The scale of the sheet: that of the last SCL record, 100 without one. -/
def scaleOf (items : List SheetItem) : Nat := ((zoomsOf items).getLast?.map fun p => scale p.1 p.2).getD 100

/-- Whether the last WINDOW2 record selects the page break preview. -/
def inPreview (items : List SheetItem) : Bool := ((windowsOf items).getLast?.map fun x => x.options.getD 11 false).getD false

/-- The magnifications cached in the last BIFF8 WINDOW2 record (page break preview, normal view). -/
def cachedOf (items : List SheetItem) : Nat × Nat :=
  ((windowsOf items).filterMap fun x => match x.tail with | .inl (_, _, pb, nv) => some (pb, nv) | .inr _ => none).getLast?.getD (0, 0)

def inRange (n : Nat) : Prop := 10 ≤ n ∧ n ≤ 400
instance (n : Nat) : Decidable (inRange n) := by unfold inRange; infer_instance

theorem getLast?_filterMap_opt {α β γ : Type} (l : List α) (g : α → Option γ) (h : α → Option β) (f : β → Option γ)
    (e : ∀ x, g x = (h x).bind f) : l.filterMap g = (l.filterMap h).filterMap f := by
  rw [List.filterMap_filterMap]
  congr 1
  funext x; exact e x

/-- C40: the magnification of the view in use is the scale of the sheet; that of the other view is the
cached one if in range, a cached 0 meaning 60 for the page break preview, and else the scale. -/
theorem C40_magnification (env : SheetEnv) (h30 : 30 ≤ env.bv) (L : Layout) (hL : L.Ok env.bv env.dec env.sst) (pre rest : Bytes)
    (s : SheetSt) (h : sheetRead env (pre ++ encRecs (L.records env.bv) ++ rest) (pre.length : Int) = .ok s) :
    let z := scaleOf L.items
    let (pb, nv) := cachedOf L.items
    (inPreview L.items = true → s.cookedPageBreak = z ∧ s.cookedNormal = if inRange nv then nv else z) ∧
    (inPreview L.items = false → s.cookedNormal = z ∧ s.cookedPageBreak = if pb = 0 then 60 else if inRange pb then pb else z) := by
  obtain ⟨s1, s2, s3, e1, e2, e3, e4⟩ := read_state h30 hL h
  have hz : s3.scl = (zoomsOf L.items).getLast?.map fun p => scale p.1 p.2 := by
    rw [before_last (fun s => s.scl) (fun i => match i with | .zoom n d => some (some (scale n d)) | _ => none)
      ?_ (fun _ _ _ _ => rfl) e1 e2 e3]
    · have := filterMap_last L.items (fun i => match i with | .zoom n d => some (some (scale n d)) | _ => none)
        (fun i => match i with | .zoom n d => some (n, d) | _ => none) (fun _ => true) (fun p => scale p.1 p.2)
        (by intro x; cases x <;> rfl)
      simp only [List.filter_true] at this
      exact this
    · intro s x s' hx
      item_cases x hx using (first | rfl | (split_ifs <;> rfl))
  have hw : s3.window2.getD 11 0 = bit (inPreview L.items) := by
    rw [before_last (fun s => s.window2.getD 11 0) (fun i => match i with | .window x => some ((x.options.map bit).getD 11 0) | _ => none)
      ?_ (fun _ _ _ _ => rfl) e1 e2 e3]
    · rw [getLast?_filterMap_opt L.items _ (fun i => match i with | .window x => some x | _ => none) (fun x => some ((x.options.map bit).getD 11 0))
        (by intro x; cases x <;> rfl)]
      show _ = bit (((windowsOf L.items).getLast?.map _).getD false)
      rw [show List.filterMap (fun i => match i with | .window x => some x | _ => none) L.items = windowsOf L.items from rfl,
        show (List.filterMap (fun x : WinRec => some ((x.options.map bit).getD 11 0)) (windowsOf L.items)) =
          (windowsOf L.items).map (fun x : WinRec => (x.options.map bit).getD 11 0) from
            congrFun List.filterMap_eq_map _, List.getLast?_map]
      cases (windowsOf L.items).getLast? with
      | none => rfl
      | some x =>
        simp only [Option.map_some, Option.getD_some, List.getD_eq_getElem?_getD, List.getElem?_map]
        cases x.options[11]? <;> rfl
    · intro s x s' hx
      item_cases x hx using (first | rfl | (split_ifs <;> rfl))
  have hc : (s3.cachedPageBreak, s3.cachedNormal) = cachedOf L.items := by
    rw [before_last (fun s => (s.cachedPageBreak, s.cachedNormal))
      (fun i => match i with | .window x => (match x.tail with | .inl (_, _, pb, nv) => some (pb, nv) | .inr _ => none) | _ => none)
      ?_ (fun _ _ _ _ => rfl) e1 e2 e3]
    · rw [getLast?_filterMap_opt L.items _ (fun i => match i with | .window x => some x | _ => none)
        (fun x => match x.tail with | .inl (_, _, pb, nv) => some (pb, nv) | .inr _ => none)
        (by intro x; cases x <;> rfl)]
      rfl
    · intro s x s' hx
      cases x with
      | window y =>
        obtain ⟨g, gr, pb, nv, he, hw1, hw2⟩ := window_applied hx
        subst he
        cases ht : y.tail with
        | inl t =>
          obtain ⟨i, u, p, n⟩ := t
          obtain ⟨_, _, rfl, rfl⟩ := hw1 i u p n ht
          simp [ht]
        | inr t =>
          obtain ⟨r, k, b⟩ := t
          obtain ⟨_, _, rfl, rfl⟩ := hw2 r k b ht
          simp [ht]
      | cell y => obtain ⟨st, hput, he⟩ := cell_applied hx; subst he; rfl
      | _ => (simp only [applyItem, Except.ok.injEq] at hx; subst hx; (try split_ifs) <;> rfl)
  have hs := (finish_fields e4).2
  rw [hs]
  rw [← hc]
  have hzz : scaleOf L.items = (match s3.scl with | none => 100 | some x => x) := by
    unfold scaleOf
    rw [← hz]
    cases s3.scl <;> rfl
  simp only
  rw [hzz]
  unfold updateCooked
  simp only [hw]
  refine ⟨fun hp => ?_, fun hp => ?_⟩
  · rw [hp]; exact ⟨rfl, rfl⟩
  · rw [hp]; exact ⟨rfl, rfl⟩

/-! For any bytes at all. -/

def SclOk (s : SheetSt) : Prop := ∀ x, s.scl = some x → inRange x

theorem put_scl {env : SheetEnv} {s s' : SheetSt} {r c : Nat} {ct : Option Nat} {v : Val} {xf : Nat} (h : s.put env r c ct v xf = .ok s') :
    s'.scl = s.scl := by
  unfold SheetSt.put at h
  cases hp : putCell env.cfg s.store r c ct v (xf : Int) with
  | error e => rw [hp] at h; simp [bind, Except.bind] at h
  | ok st => rw [hp] at h; simp only [bind, Except.bind, pure, Except.pure, Except.ok.injEq] at h; rw [← h]

theorem bind_ok {α β : Type} {x : R α} {f : α → R β} {b : β} (h : (x >>= f) = .ok b) : ∃ a, x = .ok a ∧ f a = .ok b := by
  cases x with
  | error e => simp [bind, Except.bind] at h
  | ok a => exact ⟨a, rfl, h⟩

theorem mulRk_scl {env : SheetEnv} {data : Bytes} {r : Nat} (n : Nat) : ∀ {c : Nat} {pos : Int} {s s' : SheetSt},
    mulRkLoop env data r n c pos s = .ok s' → s'.scl = s.scl := by
  induction n with
  | zero => intro c pos s s' h; simp only [mulRkLoop, Except.ok.injEq] at h; rw [h]
  | succ n ih =>
    intro c pos s s' h
    simp only [mulRkLoop] at h
    obtain ⟨_, _, h⟩ := bind_ok h
    obtain ⟨_, _, h⟩ := bind_ok h
    obtain ⟨_, h1, h⟩ := bind_ok h
    rw [ih h, put_scl h1]

theorem mulBlank_scl {env : SheetEnv} {data : Bytes} {r : Nat} (n : Nat) : ∀ {c : Nat} {pos : Nat} {s s' : SheetSt},
    mulBlankLoop env data r n c pos s = .ok s' → s'.scl = s.scl := by
  induction n with
  | zero => intro c pos s s' h; simp only [mulBlankLoop, Except.ok.injEq] at h; rw [h]
  | succ n ih =>
    intro c pos s s' h
    simp only [mulBlankLoop] at h
    obtain ⟨_, h1, h⟩ := bind_ok h
    rw [ih h, put_scl h1]

theorem sstRich_scl (env : SheetEnv) (s : SheetSt) (r c : Nat) (i : Int) : (sstRich env s r c i).scl = s.scl := by
  unfold sstRich
  split_ifs
  · cases env.richMap i with
    | none => rfl
    | some l => cases l <;> rfl
  · rfl

/-- Close a goal `s'.scl = s.scl` from a successful handler. -/
macro "keep_scl" h:ident : tactic => `(tactic|
  ((try split_ifs at $h:ident) <;> (repeat (obtain ⟨_, _, $h⟩ := bind_ok $h)) <;> (try split_ifs at $h:ident) <;>
   (repeat (obtain ⟨_, _, $h⟩ := bind_ok $h)) <;>
   first
   | exact put_scl $h
   | exact mulRk_scl _ $h
   | exact mulBlank_scl _ $h
   | (cases $h:ident; first | done | rfl | (rw [sstRich_scl]; exact put_scl (by assumption)) | exact put_scl (by assumption))))

theorem recNumber_scl {env : SheetEnv} {s s' : SheetSt} {data : Bytes} (h : recNumber env s data = .ok s') : s'.scl = s.scl := by
  unfold recNumber at h
  keep_scl h

theorem recLabelSst_scl {env : SheetEnv} {s s' : SheetSt} {data : Bytes} (h : recLabelSst env s data = .ok s') : s'.scl = s.scl := by
  unfold recLabelSst at h
  keep_scl h

theorem recLabel_scl {env : SheetEnv} {s s' : SheetSt} {data : Bytes} (h : recLabel env s data = .ok s') : s'.scl = s.scl := by
  unfold recLabel at h
  keep_scl h

theorem recRString_scl {env : SheetEnv} {s s' : SheetSt} {data : Bytes} (h : recRString env s data = .ok s') : s'.scl = s.scl := by
  unfold recRString at h
  obtain ⟨b, _, h⟩ := bind_ok h
  obtain ⟨⟨x, runs⟩, _, h⟩ := bind_ok h
  obtain ⟨s1, h1, h⟩ := bind_ok h
  have e := put_scl h1
  cases h
  exact e

theorem recRk_scl {env : SheetEnv} {s s' : SheetSt} {data : Bytes} (h : recRk env s data = .ok s') : s'.scl = s.scl := by
  unfold recRk at h
  keep_scl h

theorem recMulRk_scl {env : SheetEnv} {s s' : SheetSt} {data : Bytes} (h : recMulRk env s data = .ok s') : s'.scl = s.scl := by
  unfold recMulRk at h
  keep_scl h

theorem recRow_scl {env : SheetEnv} {s s' : SheetSt} {data : Bytes} (h : recRow env s data = .ok s') : s'.scl = s.scl := by
  unfold recRow at h
  keep_scl h

theorem recBoolErr_scl {env : SheetEnv} {s s' : SheetSt} {data : Bytes} (h : recBoolErr env s data = .ok s') : s'.scl = s.scl := by
  unfold recBoolErr at h
  keep_scl h

theorem recColinfo_scl {env : SheetEnv} {s s' : SheetSt} {data : Bytes} (h : recColinfo env s data = .ok s') : s'.scl = s.scl := by
  unfold recColinfo at h
  split_ifs at h
  · obtain ⟨b, _, h⟩ := bind_ok h
    simp only at h
    split_ifs at h <;> (cases h; rfl)
  · cases h; rfl

theorem recBlank_scl {env : SheetEnv} {s s' : SheetSt} {data : Bytes} (h : recBlank env s data = .ok s') : s'.scl = s.scl := by
  unfold recBlank at h
  keep_scl h

theorem recCondFmt_scl {env : SheetEnv} {s s' : SheetSt} {data : Bytes} (h : recCondFmt env s data = .ok s') : s'.scl = s.scl := by
  unfold recCondFmt at h
  keep_scl h

theorem recDefColWidth_scl {s s' : SheetSt} {data : Bytes} (h : recDefColWidth s data = .ok s') : s'.scl = s.scl := by
  unfold recDefColWidth at h
  keep_scl h

theorem recStandardWidth_scl {s s' : SheetSt} {data : Bytes} (h : recStandardWidth s data = .ok s') : s'.scl = s.scl := by
  unfold recStandardWidth at h
  keep_scl h

theorem recPane_scl {s s' : SheetSt} {data : Bytes} (h : recPane s data = .ok s') : s'.scl = s.scl := by
  unfold recPane at h
  keep_scl h

theorem recGcw_scl {env : SheetEnv} {s s' : SheetSt} {len : Nat} {data : Bytes} (h : recGcw env s len data = .ok s') : s'.scl = s.scl := by
  unfold recGcw at h
  keep_scl h

theorem recMulBlank_scl {env : SheetEnv} {s s' : SheetSt} {len : Nat} {data : Bytes} (h : recMulBlank env s len data = .ok s') : s'.scl = s.scl := by
  unfold recMulBlank at h
  keep_scl h

theorem recDimension_scl {env : SheetEnv} {s s' : SheetSt} {len : Nat} {data : Bytes} (h : recDimension env s len data = .ok s') : s'.scl = s.scl := by
  unfold recDimension at h
  keep_scl h

theorem recCf_scl {env : SheetEnv} {s s' : SheetSt} {len : Nat} {data : Bytes} (h : recCf env s len data = .ok s') : s'.scl = s.scl := by
  unfold recCf at h
  keep_scl h

theorem recMergedCells_scl {env : SheetEnv} {s s' : SheetSt} {len : Nat} {data : Bytes} (h : recMergedCells env s len data = .ok s') : s'.scl = s.scl := by
  unfold recMergedCells at h
  keep_scl h

theorem recWindow2_scl {env : SheetEnv} {s s' : SheetSt} {len : Nat} {data : Bytes} (h : recWindow2 env s len data = .ok s') : s'.scl = s.scl := by
  unfold recWindow2 at h
  keep_scl h

theorem recHBreaks_scl {env : SheetEnv} {s s' : SheetSt} {len : Nat} {data : Bytes} (h : recHBreaks env s len data = .ok s') : s'.scl = s.scl := by
  unfold recHBreaks at h
  keep_scl h

theorem recVBreaks_scl {env : SheetEnv} {s s' : SheetSt} {len : Nat} {data : Bytes} (h : recVBreaks env s len data = .ok s') : s'.scl = s.scl := by
  unfold recVBreaks at h
  keep_scl h

theorem recLabelRanges_scl {s s' : SheetSt} {len : Nat} {data : Bytes} (h : recLabelRanges s len data = .ok s') : s'.scl = s.scl := by
  unfold recLabelRanges at h
  keep_scl h

theorem recDefaultRowHeight_scl {s s' : SheetSt} {len : Nat} {data : Bytes} (h : recDefaultRowHeight s len data = .ok s') : s'.scl = s.scl := by
  unfold recDefaultRowHeight at h
  keep_scl h

theorem recScl_range {s s' : SheetSt} {data : Bytes} (h : recScl s data = .ok s') : SclOk s' := by
  unfold recScl at h
  obtain ⟨_, _, h⟩ := bind_ok h
  cases h
  intro x hx
  simp only [Option.some.injEq] at hx
  subst hx
  unfold inRange
  split_ifs <;> omega

theorem plain_scl {env : SheetEnv} {s s' : SheetSt} {rc len : Nat} {data : Bytes} (hs : SclOk s)
    (h : plainRecord env s rc len data = .ok s') : SclOk s' := by
  have keep : s'.scl = s.scl → SclOk s' := fun e x hx => hs x (e ▸ hx)
  unfold plainRecord at h
  by_cases c : rc = XL_NUMBER
  · rw [if_pos c] at h
    exact keep (recNumber_scl h)
  rw [if_neg c] at h; clear c
  by_cases c : rc = XL_LABELSST
  · rw [if_pos c] at h
    exact keep (recLabelSst_scl h)
  rw [if_neg c] at h; clear c
  by_cases c : rc = XL_LABEL
  · rw [if_pos c] at h
    exact keep (recLabel_scl h)
  rw [if_neg c] at h; clear c
  by_cases c : rc = XL_RSTRING
  · rw [if_pos c] at h
    exact keep (recRString_scl h)
  rw [if_neg c] at h; clear c
  by_cases c : rc = XL_RK
  · rw [if_pos c] at h
    exact keep (recRk_scl h)
  rw [if_neg c] at h; clear c
  by_cases c : rc = XL_MULRK
  · rw [if_pos c] at h
    exact keep (recMulRk_scl h)
  rw [if_neg c] at h; clear c
  by_cases c : rc = XL_ROW
  · rw [if_pos c] at h
    exact keep (recRow_scl h)
  rw [if_neg c] at h; clear c
  by_cases c : rc = XL_BOOLERR
  · rw [if_pos c] at h
    exact keep (recBoolErr_scl h)
  rw [if_neg c] at h; clear c
  by_cases c : rc = XL_COLINFO
  · rw [if_pos c] at h
    exact keep (recColinfo_scl h)
  rw [if_neg c] at h; clear c
  by_cases c : rc = XL_DEFCOLWIDTH
  · rw [if_pos c] at h
    exact keep (recDefColWidth_scl h)
  rw [if_neg c] at h; clear c
  by_cases c : rc = XL_STANDARDWIDTH
  · rw [if_pos c] at h
    exact keep (recStandardWidth_scl h)
  rw [if_neg c] at h; clear c
  by_cases c : rc = XL_GCW
  · rw [if_pos c] at h
    exact keep (recGcw_scl h)
  rw [if_neg c] at h; clear c
  by_cases c : rc = XL_BLANK
  · rw [if_pos c] at h
    exact keep (recBlank_scl h)
  rw [if_neg c] at h; clear c
  by_cases c : rc = XL_MULBLANK
  · rw [if_pos c] at h
    exact keep (recMulBlank_scl h)
  rw [if_neg c] at h; clear c
  by_cases c : rc = XL_DIMENSION ∨ rc = XL_DIMENSION2
  · rw [if_pos c] at h
    exact keep (recDimension_scl h)
  rw [if_neg c] at h; clear c
  by_cases c : rc = XL_LABELRANGES
  · rw [if_pos c] at h
    exact keep (recLabelRanges_scl h)
  rw [if_neg c] at h; clear c
  by_cases c : rc = XL_ARRAY
  · rw [if_pos c] at h
    obtain ⟨_, _, h⟩ := bind_ok h; cases h; exact hs
  rw [if_neg c] at h; clear c
  by_cases c : rc = XL_SHRFMLA
  · rw [if_pos c] at h
    obtain ⟨_, _, h⟩ := bind_ok h; cases h; exact hs
  rw [if_neg c] at h; clear c
  by_cases c : rc = XL_CONDFMT
  · rw [if_pos c] at h
    exact keep (recCondFmt_scl h)
  rw [if_neg c] at h; clear c
  by_cases c : rc = XL_CF
  · rw [if_pos c] at h
    exact keep (recCf_scl h)
  rw [if_neg c] at h; clear c
  by_cases c : rc = XL_DEFAULTROWHEIGHT
  · rw [if_pos c] at h
    exact keep (recDefaultRowHeight_scl h)
  rw [if_neg c] at h; clear c
  by_cases c : rc = XL_MERGEDCELLS
  · rw [if_pos c] at h
    exact keep (recMergedCells_scl h)
  rw [if_neg c] at h; clear c
  by_cases c : rc = XL_WINDOW2
  · rw [if_pos c] at h
    exact keep (recWindow2_scl h)
  rw [if_neg c] at h; clear c
  by_cases c : rc = XL_SCL
  · rw [if_pos c] at h
    exact recScl_range h
  rw [if_neg c] at h; clear c
  by_cases c : rc = XL_PANE
  · rw [if_pos c] at h
    exact keep (recPane_scl h)
  rw [if_neg c] at h; clear c
  by_cases c : rc = XL_HORIZONTALPAGEBREAKS
  · rw [if_pos c] at h
    exact keep (recHBreaks_scl h)
  rw [if_neg c] at h; clear c
  by_cases c : rc = XL_VERTICALPAGEBREAKS
  · rw [if_pos c] at h
    exact keep (recVBreaks_scl h)
  rw [if_neg c] at h; clear c
  cases h; exact hs

theorem loop_scl {env : SheetEnv} {mem : Bytes} (fuel : Nat) : ∀ {s s' : SheetSt} {pos : Int}, SclOk s →
    sheetLoop env mem fuel s pos = .ok s' → SclOk s' := by
  induction fuel with
  | zero => intro s s' pos _ h; simp [sheetLoop] at h
  | succ n ih =>
    intro s s' pos hs h
    simp only [sheetLoop] at h
    obtain ⟨⟨⟨rc, len, data⟩, pos'⟩, _, h⟩ := bind_ok h
    simp only at h
    by_cases he : rc = XL_EOF
    · rw [if_pos he] at h; cases h; exact hs
    · rw [if_neg he] at h
      obtain ⟨⟨s1, p1⟩, h1, h⟩ := bind_ok h
      refine ih ?_ h
      unfold sheetRecord at h1
      split_ifs at h1
      · unfold recFormula at h1
        obtain ⟨_, _, h1⟩ := bind_ok h1
        obtain ⟨⟨ty, v, p⟩, _, h1⟩ := bind_ok h1
        obtain ⟨s2, h2, h1⟩ := bind_ok h1
        cases h1
        intro x hx
        exact hs x (by rw [← put_scl h2]; exact hx)
      · obtain ⟨_, _, h1⟩ := bind_ok h1; cases h1; exact hs
      · obtain ⟨_, _, h1⟩ := bind_ok h1; cases h1; exact hs
      · obtain ⟨_, h2, h1⟩ := bind_ok h1; cases h1; exact plain_scl hs h2

/-- C40: whatever the bytes of the file are, a sheet that loads has both magnifications between 10 and 400
per cent. -/
theorem C40_magnification_in_range (env : SheetEnv) (mem : Bytes) (pos : Int) (s : SheetSt) (h : sheetRead env mem pos = .ok s) :
    (10 ≤ s.cookedNormal ∧ s.cookedNormal ≤ 400) ∧ (10 ≤ s.cookedPageBreak ∧ s.cookedPageBreak ≤ 400) := by
  unfold sheetRead at h
  obtain ⟨s3, h3, h⟩ := bind_ok h
  have hs : SclOk s3 := loop_scl _ (fun x hx => by simp at hx) h3
  rw [(finish_fields h).2]
  unfold updateCooked
  cases e : s3.scl with
  | none =>
    simp only [e]
    split_ifs <;> simp only <;> omega
  | some x =>
    have := hs x e
    unfold inRange at this
    simp only [e]
    split_ifs <;> simp only <;> omega

/-! ## C55 With and without formatting information -/

def Write.isBlank (w : Write) : Bool := w.ctype = some XL_CELL_BLANK

theorem FResult.value_not_blank (x : FResult) : x.value.1 ≠ some XL_CELL_BLANK := by cases x <;> simp [FResult.value]

/-- Without formatting information the blank cells are left out, and nothing else. -/
theorem cells_without_formatting (f : ℚ → ℚ) (sst : List PyStr) (items : List SheetItem) :
    cellsOf f false sst items = (cellsOf f true sst items).filter fun w => !w.isBlank := by
  unfold cellsOf
  rw [List.filter_flatMap]
  congr 1
  funext i
  cases i with
  | cell y =>
    cases y with
    | mulrk r c cells =>
      simp only [CellRec.cells]
      rw [List.filter_eq_self.mpr]
      intro w hw
      obtain ⟨k, hk, rfl⟩ := List.mem_mapIdx.mp hw
      simp [Write.isBlank]
    | mulblank r c xfs =>
      simp only [CellRec.cells, Bool.false_eq_true, if_false, if_true]
      symm
      rw [List.filter_eq_nil_iff]
      intro w hw
      obtain ⟨k, hk, rfl⟩ := List.mem_mapIdx.mp hw
      simp [Write.isBlank]
    | formula r c xf res code flags junk =>
      have := FResult.value_not_blank res
      simp [CellRec.cells, Write.isBlank, this]
    | boolerr r c xf e v j => cases e <;> simp [CellRec.cells, Write.isBlank]
    | _ => simp [CellRec.cells, Write.isBlank]
  | _ => rfl

theorem lastAt_filter (ws : List Write) (p : Write → Bool) (r c : Nat)
    (h : ∀ w ∈ ws, w.row = r → w.col = c → p w = true) : lastAt (ws.filter p) r c = lastAt ws r c := by
  unfold lastAt
  rw [← List.filter_reverse, List.find?_filter]
  have h' : ∀ w ∈ ws.reverse, w.row = r → w.col = c → p w = true := fun w hw => h w (List.mem_reverse.mp hw)
  revert h'
  induction ws.reverse with
  | nil => intro _; rfl
  | cons w ws ih =>
    intro h'
    rw [List.find?_cons, List.find?_cons, ih fun x hx => h' x (List.mem_cons_of_mem _ hx)]
    by_cases hw : w.row = r ∧ w.col = c
    · simp [hw, h' w (List.mem_cons_self ..) hw.1 hw.2]
    · have : (decide (w.row = r ∧ w.col = c)) = false := by simpa using hw
      simp [this]

theorem blank_value {f : ℚ → ℚ} {b : Bool} {sst : List PyStr} {items : List SheetItem} {w : Write} (h : w ∈ cellsOf f b sst items)
    (hw : w.ctype = some XL_CELL_BLANK) : w.val = .text [] := by
  unfold cellsOf at h
  obtain ⟨i, _, h⟩ := List.mem_flatMap.mp h
  cases i with
  | cell y =>
    cases y with
    | mulrk r c cells => obtain ⟨k, hk, rfl⟩ := List.mem_mapIdx.mp h; simp at hw
    | mulblank r c xfs =>
      simp only [CellRec.cells] at h
      split_ifs at h
      · obtain ⟨k, hk, rfl⟩ := List.mem_mapIdx.mp h; rfl
      · simp at h
    | blank r c xf j =>
      simp only [CellRec.cells] at h
      split_ifs at h
      · rw [List.mem_singleton] at h; subst h; rfl
      · simp at h
    | formula r c xf res code flags junk =>
      simp only [CellRec.cells, List.mem_singleton] at h
      subst h
      exact absurd hw (FResult.value_not_blank res)
    | boolerr r c xf e v j =>
      simp only [CellRec.cells, List.mem_singleton] at h
      subst h
      cases e <;> simp at hw
    | _ =>
      simp only [CellRec.cells, List.mem_singleton] at h
      subst h
      simp at hw
  | _ => simp at h

theorem le_maxOf {l : List Nat} {x : Nat} (h : x ∈ l) : x ≤ maxOf l := maxOf_le.mp le_rfl x h

theorem maxOf_filter (ws : List Write) (p : Write → Bool) (f : Write → Nat) : maxOf ((ws.filter p).map f) ≤ maxOf (ws.map f) := by
  induction ws with
  | nil => simp
  | cons w ws ih =>
    rw [List.filter_cons]
    split_ifs
    · simp only [List.map_cons, maxOf]; omega
    · simp only [List.map_cons, maxOf]; omega

/-- A cell with and without formatting information: the same, or a blank cell that shows as empty. -/
theorem cell_both (tm : Int → Option Nat) (sst : List PyStr) (items : List SheetItem)
    (hb : ∀ w ∈ cellsOf fl true sst items, ∀ w' ∈ cellsOf fl true sst items, w.row = w'.row → w.col = w'.col →
      w.ctype = some XL_CELL_BLANK → w'.ctype = some XL_CELL_BLANK) (r c : Nat) :
    cellAt tm (cellsOf fl false sst items) r c = cellAt tm (cellsOf fl true sst items) r c ∨
      cellAt tm (cellsOf fl false sst items) r c = ACell.blank ∧
      (cellAt tm (cellsOf fl true sst items) r c).ty = XL_CELL_BLANK ∧
      (cellAt tm (cellsOf fl true sst items) r c).v = .text [] := by
  have hc := cells_without_formatting fl sst items
  by_cases hx : ∃ w ∈ cellsOf fl true sst items, w.row = r ∧ w.col = c ∧ w.ctype = some XL_CELL_BLANK
  · obtain ⟨w, hw, hr, hcc, ht⟩ := hx
    right
    have hall : ∀ w' ∈ cellsOf fl true sst items, w'.row = r → w'.col = c → w'.ctype = some XL_CELL_BLANK :=
      fun w' hw' e1 e2 => hb w hw w' hw' (by omega) (by omega) ht
    constructor
    · have : lastAt (cellsOf fl false sst items) r c = none := by
        unfold lastAt
        rw [List.find?_eq_none]
        intro x hx
        rw [List.mem_reverse, hc, List.mem_filter] at hx
        simp only [decide_eq_true_eq]
        intro hh
        have := hall x hx.1 hh.1 hh.2
        simp [Write.isBlank, this] at hx
      unfold cellAt; rw [this]
    · cases hl : lastAt (cellsOf fl true sst items) r c with
      | none =>
        unfold lastAt at hl
        rw [List.find?_eq_none] at hl
        exact absurd (by simp [hr, hcc]) (hl w (List.mem_reverse.mpr hw))
      | some x =>
        have hm := List.mem_of_find?_eq_some hl
        rw [List.mem_reverse] at hm
        have hp := List.find?_some hl
        simp only [decide_eq_true_eq] at hp
        have ht := hall x hm hp.1 hp.2
        unfold cellAt
        rw [hl]
        refine ⟨by simp [stored, ht], ?_⟩
        exact blank_value hm ht
  · left
    unfold cellAt
    rw [hc, lastAt_filter]
    intro w hw e1 e2
    have : w.ctype ≠ some XL_CELL_BLANK := fun h => hx ⟨w, hw, e1, e2, h⟩
    simp [Write.isBlank, this]

/-- Outside the sheet there is no cell. -/
theorem cell_outside (tm : Int → Option Nat) (cells : List Write) (merged : List CRange) {r c : Nat} (hn : ¬ (r < height cells merged ∧ c < width cells merged)) :
    cellAt tm cells r c = ACell.blank := by
  cases hl : lastAt cells r c with
  | none => unfold cellAt; rw [hl]
  | some x =>
    exfalso
    have hm := List.mem_of_find?_eq_some hl
    rw [List.mem_reverse] at hm
    have hp := List.find?_some hl
    simp only [decide_eq_true_eq] at hp
    apply hn
    have q1 := le_maxOf (List.mem_map_of_mem (f := fun w : Write => w.row + 1) hm)
    have q2 := le_maxOf (List.mem_map_of_mem (f := fun w : Write => w.col + 1) hm)
    unfold height width
    omega

/-- Blank cells and merged ranges only make the sheet larger. -/
theorem size_both (sst : List PyStr) (items : List SheetItem) :
    height (cellsOf fl false sst items) (mergedRanges false items) ≤ height (cellsOf fl true sst items) (mergedRanges true items) ∧
    width (cellsOf fl false sst items) (mergedRanges false items) ≤ width (cellsOf fl true sst items) (mergedRanges true items) := by
  rw [cells_without_formatting fl sst items]
  have h1 := maxOf_filter (cellsOf fl true sst items) (fun w => !w.isBlank) (·.row + 1)
  have h2 := maxOf_filter (cellsOf fl true sst items) (fun w => !w.isBlank) (·.col + 1)
  constructor
  · simp only [height, mergedRanges, Bool.false_eq_true, if_false, List.map_nil, maxOf]; omega
  · simp only [width, mergedRanges, Bool.false_eq_true, if_false, List.map_nil, maxOf]; omega

/-- C55 (partial): loading the same sheet with and without formatting information gives the same type and
value at every cell of the smaller sheet, except that blank cells show as empty; and what only the larger
sheet has are blank and empty cells.  Missing: a cell with both a blank record and another record
(`C55_blank_after_text_differs`), excluded here by `hb`. -/
theorem C55_formatting_independent_partial (env : SheetEnv) (h30 : 30 ≤ env.bv) (L : Layout) (hL : L.Ok env.bv env.dec env.sst)
    (pre rest : Bytes) (s0 s1 : SheetSt) (hrect : env.cfg.ragged = false)
    (h0 : sheetRead { env with cfg := { env.cfg with fmtInfo := false } } (pre ++ encRecs (L.records env.bv) ++ rest) (pre.length : Int) = .ok s0)
    (h1 : sheetRead { env with cfg := { env.cfg with fmtInfo := true } } (pre ++ encRecs (L.records env.bv) ++ rest) (pre.length : Int) = .ok s1)
    (hb : ∀ w ∈ cellsOf fl true env.sst L.items, ∀ w' ∈ cellsOf fl true env.sst L.items, w.row = w'.row → w.col = w'.col →
      w.ctype = some XL_CELL_BLANK → w'.ctype = some XL_CELL_BLANK) (r c : Nat) :
    s0.store.nrows ≤ s1.store.nrows ∧ s0.store.ncols ≤ s1.store.ncols ∧
    (r < s0.store.nrows ∧ c < s0.store.ncols → s0.store.cellValue r c = s1.store.cellValue r c ∧
      (s0.store.cellType r c = s1.store.cellType r c ∨
        s0.store.cellType r c = .ok XL_CELL_EMPTY ∧ s1.store.cellType r c = .ok XL_CELL_BLANK)) ∧
    (r < s1.store.nrows ∧ c < s1.store.ncols → ¬ (r < s0.store.nrows ∧ c < s0.store.ncols) →
      s1.store.cellValue r c = .ok (.text []) ∧ (s1.store.cellType r c = .ok XL_CELL_EMPTY ∨ s1.store.cellType r c = .ok XL_CELL_BLANK)) := by
  obtain ⟨a0, a1, a2, a3⟩ := C31_cell_at { env with cfg := { env.cfg with fmtInfo := false } } h30 L hL pre rest s0 h0 hrect r c
  obtain ⟨b0, b1, b2, b3⟩ := C31_cell_at { env with cfg := { env.cfg with fmtInfo := true } } h30 L hL pre rest s1 h1 hrect r c
  simp only at a0 a2 a3 b0 b2 b3
  have n1 : s0.store.nrows ≤ s1.store.nrows := by rw [a2, b2]; exact (size_both env.sst L.items).1
  have n2 : s0.store.ncols ≤ s1.store.ncols := by rw [a3, b3]; exact (size_both env.sst L.items).2
  have key := cell_both env.cfg.typeMap env.sst L.items hb r c
  refine ⟨n1, n2, ?_, ?_⟩
  · intro hh
    obtain ⟨c1, c2, _⟩ := a0 hh
    obtain ⟨d1, d2, _⟩ := b0 ⟨by omega, by omega⟩
    rw [c1, c2, d1, d2]
    rcases key with k | ⟨k1, k2, k3⟩
    · rw [k]; exact ⟨rfl, .inl rfl⟩
    · rw [k1, k2, k3]; exact ⟨rfl, .inr ⟨rfl, rfl⟩⟩
  · intro hh hn
    obtain ⟨d1, d2, _⟩ := b0 hh
    rw [d1, d2]
    have hout : cellAt env.cfg.typeMap (cellsOf fl false env.sst L.items) r c = ACell.blank :=
      cell_outside _ _ (mergedRanges false L.items) (by rw [a2, a3] at hn; exact hn)
    rcases key with k | ⟨k1, k2, k3⟩
    · rw [← k, hout]; exact ⟨rfl, .inl rfl⟩
    · rw [k2, k3]; exact ⟨rfl, .inr rfl⟩

/-- A sheet with defaults for the examples: BIFF8, two shared strings, XF 15 is a number and 16 a date. -/
def exEnv (fmt : Bool) : SheetEnv :=
  { cfg := { fmtInfo := fmt, ragged := false, maxRows := 65536, maxCols := 256,
             typeMap := fun x => if x = 15 then some 2 else if x = 16 then some 3 else none }
    bv := 80, dec := fun _ => .error .value, sst := [['a'], ['b']], richMap := fun _ => none,
    nearest := fun _ => .ok 8, countries := (0, 0) }

def exBlank : Layout := ⟨[], none, [.cell (.labelsst 0 0 15 1), .cell (.blank 0 0 15 [])], []⟩

/-- C55: the part that fails: a blank record after a text record for the same cell hides the text, but only
with formatting information. -/
theorem C55_blank_after_text_differs :
    exBlank.Ok 80 (exEnv true).dec (exEnv true).sst ∧
    (sheetRead (exEnv false) (encRecs (exBlank.records 80)) 0 >>= fun s => s.store.cellValue 0 0) = .ok (.text ['b']) ∧
    (sheetRead (exEnv true) (encRecs (exBlank.records 80)) 0 >>= fun s => s.store.cellValue 0 0) = .ok (.text []) := by
  refine ⟨⟨?_, ?_, ?_⟩, by decide +kernel, by decide +kernel⟩
  · intro i hi
    simp only [exBlank, Layout.items, List.nil_append, List.mem_cons, List.not_mem_nil, or_false] at hi
    rcases hi with rfl | rfl
    · show _ ∧ _; decide
    · show _ ∧ _; decide
  · intro i hi; simp [exBlank] at hi
  · intro q hq
    have : q ∈ (exBlank.records 80) → q.2.length < 65536 := by
      revert q; decide +kernel
    exact this hq

end Xlrd
