import Verif.Props.SheetRead

/-!
# C58 to C63: settings of a worksheet
-/
set_option linter.unusedSimpArgs false
set_option linter.unreachableTactic false
set_option linter.unusedTactic false
namespace Xlrd
open Spec

theorem filterMap_last_d {α β γ : Type} (l : List α) (g : α → Option γ) (h : α → Option β) (info : β → γ) (d : γ)
    (e : ∀ x, g x = (h x).map info) :
    (l.filterMap g).getLast?.getD d = ((l.filterMap h).getLast?.map info).getD d := by
  have : l.filterMap g = (l.filterMap h).map info := by
    rw [List.map_filterMap]
    congr 1
    funext x; exact e x
  rw [this, List.getLast?_map]

/-! ## C58 Window settings -/

/-- The view settings of a sheet without a WINDOW2 record. -/
def defaultWindow : List Bool := [false, true, true, false, true, true, false, true, false, false, false, false]

/-- C58: the twelve view options and the first visible row and column are those of the last WINDOW2 record. -/
theorem C58_window_options (env : SheetEnv) (h30 : 30 ≤ env.bv) (L : Layout) (hL : L.Ok env.bv env.dec env.sst) (pre rest : Bytes)
    (s : SheetSt) (h : sheetRead env (pre ++ encRecs (L.records env.bv) ++ rest) (pre.length : Int) = .ok s) :
    (s.window2, s.firstVisibleRowx, s.firstVisibleColx) =
      ((windowsOf L.items).getLast?.map fun x => (x.options.map bit, x.row, x.col)).getD (defaultWindow.map bit, 0, 0) := by
  rw [read_last h30 hL h (fun s => (s.window2, s.firstVisibleRowx, s.firstVisibleColx))
    (fun i => match i with | .window x => some (x.options.map bit, x.row, x.col) | _ => none)
    ?_ (fun _ _ _ _ => rfl) (fun s st => by unfold updateCooked; split_ifs <;> rfl)]
  · exact filterMap_last_d L.items _ _ _ _ (by intro x; cases x <;> rfl)
  · intro s x s' hx
    item_cases x hx using (first | rfl | (split_ifs <;> rfl))

/-- The colour of the gridlines a WINDOW2 record sets: in BIFF8 an index, before an RGB triple for which the
nearest palette colour is taken. -/
def gridColour (nearest : Nat × Nat × Nat → R Nat) (x : WinRec) (k : Nat) : Prop :=
  match x.tail with
  | .inl (i, _, _, _) => k = i
  | .inr (r, g, b) => nearest (r.toNat, g.toNat, b.toNat) = .ok k

/-- C58: the gridline colour is that of the last WINDOW2 record, and 0x40 (automatic) without one. -/
theorem C58_gridline_colour (env : SheetEnv) (h30 : 30 ≤ env.bv) (L : Layout) (hL : L.Ok env.bv env.dec env.sst) (pre rest : Bytes)
    (s : SheetSt) (h : sheetRead env (pre ++ encRecs (L.records env.bv) ++ rest) (pre.length : Int) = .ok s) :
    match (windowsOf L.items).getLast? with
    | none => s.gridlineColourIndex = 0x40
    | some x => gridColour env.nearest x s.gridlineColourIndex := by
  have key := read_last h30 hL h (fun s => (.ok s.gridlineColourIndex : R Nat))
    (fun i => match i with
      | .window x => some (match x.tail with | .inl (i, _, _, _) => .ok i | .inr (r, g, b) => env.nearest (r.toNat, g.toNat, b.toNat))
      | _ => none) ?_ (fun _ _ _ _ => rfl) (fun s st => by unfold updateCooked; split_ifs <;> rfl)
  · rw [filterMap_last_d L.items _ (fun i => match i with | .window x => some x | _ => none)
      (fun x => match x.tail with | .inl (i, _, _, _) => .ok i | .inr (r, g, b) => env.nearest (r.toNat, g.toNat, b.toNat)) _
      (by intro x; cases x <;> rfl)] at key
    rw [show List.filterMap (fun i => match i with | .window x => some x | _ => none) L.items = windowsOf L.items from rfl] at key
    cases hw : (windowsOf L.items).getLast? with
    | none => rw [hw] at key; simpa using key
    | some x =>
      rw [hw] at key
      simp only [Option.map_some, Option.getD_some] at key
      simp only [gridColour]
      cases ht : x.tail with
      | inl t => rw [ht] at key; simpa using key
      | inr t => rw [ht] at key; exact key.symm
  · intro s x s' hx
    cases x with
    | window y =>
      obtain ⟨g, gr, pb, nv, he, hw1, hw2⟩ := window_applied hx
      subst he
      cases ht : y.tail with
      | inl t =>
        obtain ⟨i, u, p, n⟩ := t
        obtain ⟨rfl, _, _, _⟩ := hw1 i u p n ht
        simp [ht]
      | inr t =>
        obtain ⟨r, k, b⟩ := t
        obtain ⟨e, _, _, _⟩ := hw2 r k b ht
        simp [ht, e]
    | cell y => obtain ⟨st, hput, he⟩ := cell_applied hx; subst he; rfl
    | _ => (simp only [applyItem, Except.ok.injEq] at hx; subst hx; (try split_ifs) <;> rfl)

/-- The panes recorded in a sheet. -/
def panesOf (items : List SheetItem) : List (Nat × Nat × Nat × Nat × Nat) :=
  items.filterMap fun i => match i with | .pane v h hf vf a _ => some (v, h, hf, vf, a.toNat) | _ => none

/-- C58: the split positions, the first visible row and column of the panes and the active pane are those
of the last PANE record. -/
theorem C58_panes (env : SheetEnv) (h30 : 30 ≤ env.bv) (L : Layout) (hL : L.Ok env.bv env.dec env.sst) (pre rest : Bytes)
    (s : SheetSt) (h : sheetRead env (pre ++ encRecs (L.records env.bv) ++ rest) (pre.length : Int) = .ok s) :
    (s.vertSplitPos, s.horzSplitPos, s.horzSplitFirstVisible, s.vertSplitFirstVisible, s.splitActivePane) =
      (panesOf L.items).getLast?.getD (0, 0, 0, 0, 0) ∧ (s.hasPane = true ↔ panesOf L.items ≠ []) := by
  have key := read_last h30 hL h (fun s => (((s.vertSplitPos, s.horzSplitPos, s.horzSplitFirstVisible, s.vertSplitFirstVisible,
      s.splitActivePane), s.hasPane) : (Nat × Nat × Nat × Nat × Nat) × Bool))
    (fun i => match i with | .pane v h hf vf a _ => some ((v, h, hf, vf, a.toNat), true) | _ => none)
    ?_ (fun _ _ _ _ => rfl) (fun s st => by unfold updateCooked; split_ifs <;> rfl)
  · rw [filterMap_last_d L.items _ (fun i => match i with | .pane v h hf vf a _ => some (v, h, hf, vf, a.toNat) | _ => none)
      (fun p => (p, true)) _ (by intro x; cases x <;> rfl)] at key
    rw [show List.filterMap (fun i => match i with | .pane v h hf vf a _ => some (v, h, hf, vf, a.toNat) | _ => none) L.items =
      panesOf L.items from rfl] at key
    cases hp : (panesOf L.items).getLast? with
    | none =>
      rw [hp] at key
      rw [List.getLast?_eq_none_iff] at hp
      simp only [Option.map_none, Option.getD_none, Prod.mk.injEq] at key
      refine ⟨?_, ?_⟩
      · simp only [Prod.mk.injEq, Option.getD_none]; exact key.1
      · rw [key.2, hp]; simp
    | some x =>
      rw [hp] at key
      have : panesOf L.items ≠ [] := by intro e; rw [e] at hp; simp at hp
      simp only [Option.map_some, Option.getD_some, Prod.mk.injEq] at key
      exact ⟨key.1, by simp [key.2, this]⟩
  · intro s x s' hx
    item_cases x hx using (first | rfl | (split_ifs <;> rfl))

/-! ## C59 Page breaks -/

/-- C59: with formatting information the page breaks are all those recorded, in order; without, none. -/
theorem C59_page_breaks (env : SheetEnv) (h30 : 30 ≤ env.bv) (L : Layout) (hL : L.Ok env.bv env.dec env.sst) (pre rest : Bytes)
    (s : SheetSt) (h : sheetRead env (pre ++ encRecs (L.records env.bv) ++ rest) (pre.length : Int) = .ok s) :
    s.hbreaks = (if env.cfg.fmtInfo then hbreaksOf L.items else []) ∧
    s.vbreaks = (if env.cfg.fmtInfo then vbreaksOf L.items else []) := by
  constructor
  · refine read_append h30 hL h (·.hbreaks) (fun l => if env.cfg.fmtInfo then hbreaksOf l else []) (fun h => items_hbreaks h) rfl ?_
      (fun _ _ _ _ => rfl) (fun s st => by unfold updateCooked; split_ifs <;> rfl)
    intro a b; split_ifs <;> simp [hbreaksOf]
  · refine read_append h30 hL h (·.vbreaks) (fun l => if env.cfg.fmtInfo then vbreaksOf l else []) (fun h => items_vbreaks h) rfl ?_
      (fun _ _ _ _ => rfl) (fun s st => by unfold updateCooked; split_ifs <;> rfl)
    intro a b; split_ifs <;> simp [vbreaksOf]

/-! ## C60 Default sizes -/

def defColWidthsOf (items : List SheetItem) : List Nat := items.filterMap fun i => match i with | .defcolwidth w _ => some w | _ => none
def stdWidthsOf (items : List SheetItem) : List Nat := items.filterMap fun i => match i with | .stdwidth w _ => some w | _ => none
def gcwOf (items : List SheetItem) : List (List Bool) := items.filterMap fun i => match i with | .gcw fs => some fs | _ => none
/-- (height, the height differs from the font's, hidden, space above, space below) -/
def rowHeightsOf (items : List SheetItem) : List (Nat × Bool × Bool × Bool × Bool) :=
  items.filterMap fun i => match i with | .defrowheight m h a b _ ht => some (ht, m, h, a, b) | _ => none

/-- C60: default column width, standard width, global column width flags and default row height with its
options are those of the last record of each kind. -/
theorem C60_default_sizes (env : SheetEnv) (h30 : 30 ≤ env.bv) (L : Layout) (hL : L.Ok env.bv env.dec env.sst) (pre rest : Bytes)
    (s : SheetSt) (h : sheetRead env (pre ++ encRecs (L.records env.bv) ++ rest) (pre.length : Int) = .ok s) :
    s.defcolwidth = (defColWidthsOf L.items).getLast? ∧ s.standardwidth = (stdWidthsOf L.items).getLast? ∧
    s.defaultRowHeight = (rowHeightsOf L.items).getLast?.map (·.1) ∧
    (s.defaultRowHeightMismatch, s.defaultRowHidden, s.defaultSpaceAbove, s.defaultSpaceBelow) =
      (((rowHeightsOf L.items).getLast?.map fun x => (bit x.2.1, bit x.2.2.1, bit x.2.2.2.1, bit x.2.2.2.2)).getD (0, 0, 0, 0)) ∧
    s.gcw = (if env.cfg.fmtInfo then (gcwOf L.items).getLast?.getD (List.replicate 256 false) else List.replicate 256 false).map bit := by
  refine ⟨?_, ?_, ?_, ?_, ?_⟩
  · rw [read_last h30 hL h (fun s => s.defcolwidth) (fun i => match i with | .defcolwidth w _ => some (some w) | _ => none)
      ?_ (fun _ _ _ _ => rfl) (fun s st => by unfold updateCooked; split_ifs <;> rfl)]
    · rw [filterMap_last_d L.items _ (fun i => match i with | .defcolwidth w _ => some w | _ => none) some _ (by intro x; cases x <;> rfl)]
      show (Option.map some (defColWidthsOf L.items).getLast?).getD none = _
      cases (defColWidthsOf L.items).getLast? <;> rfl
    · intro s x s' hx
      item_cases x hx using (first | rfl | (split_ifs <;> rfl))
  · rw [read_last h30 hL h (fun s => s.standardwidth) (fun i => match i with | .stdwidth w _ => some (some w) | _ => none)
      ?_ (fun _ _ _ _ => rfl) (fun s st => by unfold updateCooked; split_ifs <;> rfl)]
    · rw [filterMap_last_d L.items _ (fun i => match i with | .stdwidth w _ => some w | _ => none) some _ (by intro x; cases x <;> rfl)]
      show (Option.map some (stdWidthsOf L.items).getLast?).getD none = _
      cases (stdWidthsOf L.items).getLast? <;> rfl
    · intro s x s' hx
      item_cases x hx using (first | rfl | (split_ifs <;> rfl))
  · rw [read_last h30 hL h (fun s => s.defaultRowHeight) (fun i => match i with | .defrowheight _ _ _ _ _ ht => some (some ht) | _ => none)
      ?_ (fun _ _ _ _ => rfl) (fun s st => by unfold updateCooked; split_ifs <;> rfl)]
    · rw [filterMap_last_d L.items _ (fun i => match i with | .defrowheight m h a b _ ht => some (ht, m, h, a, b) | _ => none)
        (fun x => some x.1) _ (by intro x; cases x <;> rfl)]
      show (Option.map _ (rowHeightsOf L.items).getLast?).getD none = _
      cases (rowHeightsOf L.items).getLast? <;> rfl
    · intro s x s' hx
      item_cases x hx using (first | rfl | (split_ifs <;> rfl))
  · rw [read_last h30 hL h (fun s => (s.defaultRowHeightMismatch, s.defaultRowHidden, s.defaultSpaceAbove, s.defaultSpaceBelow))
      (fun i => match i with | .defrowheight m h a b _ _ => some (bit m, bit h, bit a, bit b) | _ => none)
      ?_ (fun _ _ _ _ => rfl) (fun s st => by unfold updateCooked; split_ifs <;> rfl)]
    · exact filterMap_last_d L.items _ (fun i => match i with | .defrowheight m h a b _ ht => some (ht, m, h, a, b) | _ => none)
        (fun x => (bit x.2.1, bit x.2.2.1, bit x.2.2.2.1, bit x.2.2.2.2)) _ (by intro x; cases x <;> rfl)
    · intro s x s' hx
      item_cases x hx using (first | rfl | (split_ifs <;> rfl))
  · by_cases hf : env.cfg.fmtInfo = true
    · rw [if_pos hf, read_last h30 hL h (fun s => s.gcw) (fun i => match i with | .gcw fs => some (fs.map bit) | _ => none)
        ?_ (fun _ _ _ _ => rfl) (fun s st => by unfold updateCooked; split_ifs <;> rfl)]
      · rw [filterMap_last_d L.items _ (fun i => match i with | .gcw fs => some fs | _ => none) (List.map bit) _ (by intro x; cases x <;> rfl)]
        show (Option.map (List.map bit) (gcwOf L.items).getLast?).getD _ = _
        cases (gcwOf L.items).getLast? with
        | none => simp only [Option.map_none, Option.getD_none, List.map_replicate]; rfl
        | some x => rfl
      · intro s x s' hx
        item_cases x hx using (first | rfl | (rw [if_pos hf]; rfl) | (split_ifs <;> rfl))
    · rw [if_neg hf, read_last h30 hL h (fun s => s.gcw) (fun _ => none) ?_ (fun _ _ _ _ => rfl) (fun s st => by unfold updateCooked; split_ifs <;> rfl)]
      · simp only [List.filterMap_none, List.getLast?_nil, Option.getD_none, List.map_replicate]; rfl
      · intro s x s' hx
        item_cases x hx using (first | rfl | (rw [if_neg hf]; rfl) | (split_ifs <;> rfl))

/-! ## C61 Merged cells and label ranges -/

/-- C61: the merged ranges are all those recorded, in order, with exclusive upper bounds (with formatting
information; without, none), and so are the row and column label ranges. -/
theorem C61_ranges (env : SheetEnv) (h30 : 30 ≤ env.bv) (L : Layout) (hL : L.Ok env.bv env.dec env.sst) (pre rest : Bytes)
    (s : SheetSt) (h : sheetRead env (pre ++ encRecs (L.records env.bv) ++ rest) (pre.length : Int) = .ok s) :
    s.merged = (if env.cfg.fmtInfo then (mergedOf L.items).map Rect.half else []) ∧
    s.rowLabelRanges = (rowLabelsOf L.items).map Rect.half ∧ s.colLabelRanges = (colLabelsOf L.items).map Rect.half := by
  refine ⟨?_, ?_, ?_⟩
  · refine read_append h30 hL h (·.merged) (fun l => if env.cfg.fmtInfo then (mergedOf l).map Rect.half else []) (fun h => items_merged h) rfl ?_
      (fun _ _ _ _ => rfl) (fun s st => by unfold updateCooked; split_ifs <;> rfl)
    intro a b; split_ifs <;> simp [mergedOf]
  · refine read_append h30 hL h (·.rowLabelRanges) (fun l => (rowLabelsOf l).map Rect.half) (fun h => items_rowLabels h) rfl ?_
      (fun _ _ _ _ => rfl) (fun s st => by unfold updateCooked; split_ifs <;> rfl)
    intro a b; simp [rowLabelsOf]
  · refine read_append h30 hL h (·.colLabelRanges) (fun l => (colLabelsOf l).map Rect.half) (fun h => items_colLabels h) rfl ?_
      (fun _ _ _ _ => rfl) (fun s st => by unfold updateCooked; split_ifs <;> rfl)
    intro a b; simp [colLabelsOf]

/-! ## C62 Rich text -/

/-- C62: the formatting runs at a cell are those of the last cell record there that has runs: an RSTRING
record, or (with formatting information) a reference to a shared string with at least one run. -/
theorem C62_rich_text (env : SheetEnv) (h30 : 30 ≤ env.bv) (L : Layout) (hL : L.Ok env.bv env.dec env.sst) (pre rest : Bytes)
    (s : SheetSt) (h : sheetRead env (pre ++ encRecs (L.records env.bv) ++ rest) (pre.length : Int) = .ok s) (r c : Nat) :
    s.rich (r, c) = ((richOf env.cfg.fmtInfo env.richMap L.items).filter (·.1 = (r, c))).getLast?.map (·.2) := by
  have e := read_last h30 hL h (fun s => s.rich (r, c))
    (fun i => ((match i with
      | .cell (.labelsst r c _ k) =>
          if env.cfg.fmtInfo then (match env.richMap k with | some (x :: xs) => some ((r, c), x :: xs) | _ => none) else none
      | .cell (.rstring r c _ _ _ runs) => some ((r, c), runs)
      | _ => none) : Option ((Nat × Nat) × List (Nat × Nat))).bind fun y => if decide (y.1 = (r, c)) then some (some y.2) else none)
    ?_ (fun _ _ _ _ => rfl) (fun s st => by unfold updateCooked; split_ifs <;> rfl)
  · rw [e]
    exact filterMap_last L.items _ _ _ _ (by intro x; rfl)
  · intro s x s' hx
    cases x with
    | cell y =>
      obtain ⟨st, hput, he⟩ := cell_applied hx
      subst he
      cases y with
      | labelsst r' c' xf k =>
        simp only [richAfter, sstRich]
        by_cases hf : env.cfg.fmtInfo = true
        · rw [if_pos hf, if_pos hf]
          cases env.richMap (k : Int) with
          | none => rfl
          | some l =>
            cases l with
            | nil => rfl
            | cons a l =>
              simp only [dictSet, Option.bind_some, decide_eq_true_eq]
              by_cases hp : (r, c) = (r', c')
              · rw [if_pos hp, if_pos hp.symm]; rfl
              · rw [if_neg hp, if_neg (Ne.symm hp)]; rfl
        · rw [if_neg hf, if_neg hf]; rfl
      | rstring r' c' xf t body runs =>
        simp only [richAfter, dictSet, Option.bind_some, decide_eq_true_eq]
        by_cases hp : (r, c) = (r', c')
        · rw [if_pos hp, if_pos hp.symm]; rfl
        · rw [if_neg hp, if_neg (Ne.symm hp)]; rfl
      | _ => rfl
    | window y => obtain ⟨g, gr, pb, nv, he, hw1, hw2⟩ := window_applied hx; subst he; rfl
    | _ => (simp only [applyItem, Except.ok.injEq] at hx; subst hx; (try split_ifs) <;> rfl)

/-! ## C63 Unknown records -/

/-- Records the library does not know, and embedded substreams such as charts. -/
def foreign : SheetItem → Bool
  | .unknown _ _ => true
  | .embedded _ _ _ _ => true
  | _ => false

theorem applyItems_foreign (env : SheetEnv) (items : List SheetItem) : ∀ (s : SheetSt),
    applyItems env s items = applyItems env s (items.filter fun i => !foreign i) := by
  induction items with
  | nil => intro s; rfl
  | cons x xs ih =>
    intro s
    by_cases hx : foreign x = true
    · have : applyItem env s x = .ok s := by cases x <;> simp [foreign] at hx <;> rfl
      rw [List.filter_cons_of_neg (by simp [hx]), applyItems_cons, this]
      exact ih s
    · rw [List.filter_cons_of_pos (by simp [hx]), applyItems_cons, applyItems_cons]
      cases applyItem env s x with
      | error e => rfl
      | ok s1 => exact ih s1

/-- C63: two files whose worksheets differ only in unknown records and embedded substreams, and in the
bytes before and after the sheet, give the same sheet in every respect, or fail alike. -/
theorem C63_foreign_records_ignored (env : SheetEnv) (h30 : 30 ≤ env.bv) (L L' : Layout)
    (hL : L.Ok env.bv env.dec env.sst) (hL' : L'.Ok env.bv env.dec env.sst) (hd : L.dim = L'.dim)
    (hh : L.head.filter (fun i => !foreign i) = L'.head.filter fun i => !foreign i)
    (hb : L.body.filter (fun i => !foreign i) = L'.body.filter fun i => !foreign i) (pre rest pre' rest' : Bytes) :
    sheetRead env (pre ++ encRecs (L.records env.bv) ++ rest) (pre.length : Int) =
    sheetRead env (pre' ++ encRecs (L'.records env.bv) ++ rest') (pre'.length : Int) := by
  have e1 : applyItems env {} L.head = applyItems env {} L'.head := by
    rw [applyItems_foreign env L.head, applyItems_foreign env L'.head, hh]
  have e2 : ∀ s, applyItems env s L.body = applyItems env s L'.body := by
    intro s; rw [applyItems_foreign env L.body, applyItems_foreign env L'.body, hb]
  rcases sheetRead_layout env h30 L hL pre rest with ⟨e, he, h⟩ | ⟨s1, s2, h1, h2, h⟩ <;>
  rcases sheetRead_layout env h30 L' hL' pre' rest' with ⟨e', he', h'⟩ | ⟨s1', s2', h1', h2', h'⟩
  · rw [e1, he'] at he; rw [h, h']; exact he.symm
  · rw [e1, h1'] at he; cases he
  · rw [e1, he'] at h1; cases h1
  · rw [e1, h1'] at h1
    cases h1
    have : s2 = s2' := by
      rw [hd] at h2
      cases hx : L'.dim with
      | none => rw [hx] at h2 h2'; simp only [applyDim] at h2 h2'; rw [h2, h2']
      | some x =>
        rw [hx] at h2 h2'
        obtain ⟨a, b, rfl, ha⟩ := h2
        obtain ⟨a', b', rfl, ha'⟩ := h2'
        rw [ha] at ha'
        cases ha'
        rfl
    rw [h, h', this, e2]

end Xlrd
