import Verif.Lemmas.SheetLayout

/-!
# The fields of a sheet after a list of items
-/
set_option linter.unusedSimpArgs false
set_option linter.unreachableTactic false
set_option linter.unusedTactic false
namespace Xlrd
open Spec

theorem cell_applied {env : SheetEnv} {s s' : SheetSt} {y : CellRec} (h : applyItem env s (.cell y) = .ok s') :
    ∃ st, putAll env.cfg s.store (y.cells fl env.cfg.fmtInfo env.sst) = .ok st ∧
      s' = { s with store := st, rich := (richAfter env s y).rich } := by
  simp only [applyItem, SheetSt.puts] at h
  cases hp : putAll env.cfg s.store (y.cells fl env.cfg.fmtInfo env.sst) with
  | error e => rw [hp] at h; simp [bind, Except.bind, Except.map] at h
  | ok st =>
    rw [hp] at h
    simp only [bind, Except.bind, Except.map, pure, Except.pure, Except.ok.injEq] at h
    refine ⟨st, rfl, ?_⟩
    rw [← h]
    cases y <;> simp only [richAfter]
    unfold sstRich
    split_ifs
    · cases env.richMap _ with
      | none => rfl
      | some l => cases l <;> rfl
    · rfl

theorem window_applied {env : SheetEnv} {s s' : SheetSt} {y : WinRec} (h : applyItem env s (.window y) = .ok s') :
    ∃ g gr pb nv, s' = { s with firstVisibleRowx := y.row, firstVisibleColx := y.col, window2 := y.options.map bit,
                                gridlineColourIndex := g, gridlineColourRgb := gr, cachedPageBreak := pb, cachedNormal := nv } ∧
      (∀ i u p n, y.tail = .inl (i, u, p, n) → g = i ∧ gr = s.gridlineColourRgb ∧ pb = p ∧ nv = n) ∧
      (∀ r k b, y.tail = .inr (r, k, b) → env.nearest (r.toNat, k.toNat, b.toNat) = .ok g ∧ gr = some (r.toNat, k.toNat, b.toNat) ∧
        pb = s.cachedPageBreak ∧ nv = s.cachedNormal) := by
  simp only [applyItem, applyWindow] at h
  cases ht : y.tail with
  | inl t =>
    obtain ⟨i, u, p, n⟩ := t
    rw [ht] at h
    simp only [Except.ok.injEq] at h
    refine ⟨i, s.gridlineColourRgb, p, n, h.symm, ?_, ?_⟩
    · intro i' u' p' n' he
      simp only [Sum.inl.injEq, Prod.mk.injEq] at he
      obtain ⟨rfl, _, rfl, rfl⟩ := he
      exact ⟨rfl, rfl, rfl, rfl⟩
    · intro _ _ _ he; cases he
  | inr t =>
    obtain ⟨r, k, b⟩ := t
    rw [ht] at h
    simp only [bind, Except.bind] at h
    cases hn : env.nearest (r.toNat, k.toNat, b.toNat) with
    | error e => rw [hn] at h; simp at h
    | ok g =>
      rw [hn] at h
      simp only [pure, Except.pure, Except.ok.injEq] at h
      refine ⟨g, some (r.toNat, k.toNat, b.toNat), s.cachedPageBreak, s.cachedNormal, h.symm, ?_, ?_⟩
      · intro _ _ _ _ he; cases he
      · intro r' k' b' he
        simp only [Sum.inr.injEq, Prod.mk.injEq] at he
        obtain ⟨rfl, rfl, rfl⟩ := he
        exact ⟨hn, rfl, rfl, rfl⟩

/-- Split a successful `applyItem` into its cases and close each by the given tactic. -/
macro "item_cases" x:ident h:ident "using" t:tacticSeq : tactic => `(tactic|
  (cases $x:ident with
   | cell y => (obtain ⟨st, hput, he⟩ := cell_applied $h; subst he; ($t))
   | window y => (obtain ⟨g, gr, pb, nv, he, hw1, hw2⟩ := window_applied $h; subst he; ($t))
   | _ => (simp only [applyItem, Except.ok.injEq] at $h:ident; subst $h; ($t))))

theorem cellsOf_cons (f : ℚ → ℚ) (fmt : Bool) (sst : List PyStr) (x : SheetItem) (xs : List SheetItem) :
    cellsOf f fmt sst (x :: xs) = cellsOf f fmt sst [x] ++ cellsOf f fmt sst xs := by simp [cellsOf]

theorem item_store {env : SheetEnv} {s s' : SheetSt} {x : SheetItem} (h : applyItem env s x = .ok s') :
    putAll env.cfg s.store (cellsOf fl env.cfg.fmtInfo env.sst [x]) = .ok s'.store := by
  cases x with
  | cell y => obtain ⟨st, hput, he⟩ := cell_applied h; subst he; simpa [cellsOf] using hput
  | window y => obtain ⟨g, gr, pb, nv, he, _⟩ := window_applied h; subst he; rfl
  | _ =>
    simp only [applyItem, Except.ok.injEq] at h
    subst h
    (try split_ifs) <;> rfl

theorem items_ok_ind {env : SheetEnv} {P : SheetSt → List SheetItem → SheetSt → Prop} (h0 : ∀ s, P s [] s)
    (h1 : ∀ s x xs s1 s', applyItem env s x = .ok s1 → P s1 xs s' → P s (x :: xs) s') (items : List SheetItem) :
    ∀ s s', applyItems env s items = .ok s' → P s items s' := by
  induction items with
  | nil =>
    intro s s' h
    have : s = s' := by simpa [applyItems, pure, Except.pure] using h
    subst this; exact h0 s
  | cons x xs ih =>
    intro s s' h
    rw [applyItems_cons] at h
    cases hx : applyItem env s x with
    | error e => rw [hx] at h; simp [Except.bind] at h
    | ok s1 =>
      rw [hx] at h
      exact h1 s x xs s1 s' hx (ih s1 s' h)

theorem items_store {env : SheetEnv} {items : List SheetItem} {s s' : SheetSt} (h : applyItems env s items = .ok s') :
    putAll env.cfg s.store (cellsOf fl env.cfg.fmtInfo env.sst items) = .ok s'.store := by
  refine items_ok_ind (P := fun s items s' => putAll env.cfg s.store (cellsOf fl env.cfg.fmtInfo env.sst items) = .ok s'.store)
    (fun s => rfl) ?_ items s s' h
  intro s x xs s1 s' hx ih
  rw [cellsOf_cons, putAll_append, item_store hx]
  exact ih

/-- Which failures are possible: a cell that cannot be stored, or a colour that cannot be matched. -/
theorem items_total {env : SheetEnv} (hn : ∀ rgb, ∃ k, env.nearest rgb = .ok k) (items : List SheetItem) :
    ∀ (s : SheetSt) (st : Store), putAll env.cfg s.store (cellsOf fl env.cfg.fmtInfo env.sst items) = .ok st →
      ∃ s', applyItems env s items = .ok s' := by
  induction items with
  | nil => intro s st _; exact ⟨s, rfl⟩
  | cons x xs ih =>
    intro s st h
    have : ∃ s1, applyItem env s x = .ok s1 := by
      cases x with
      | cell y =>
        rw [cellsOf_cons, putAll_append] at h
        have hc : cellsOf fl env.cfg.fmtInfo env.sst [.cell y] = y.cells fl env.cfg.fmtInfo env.sst := by simp [cellsOf]
        rw [hc] at h
        simp only [applyItem, SheetSt.puts]
        cases hp : putAll env.cfg s.store (y.cells fl env.cfg.fmtInfo env.sst) with
        | error e => rw [hp] at h; simp [Except.bind] at h
        | ok st => exact ⟨_, rfl⟩
      | window y =>
        simp only [applyItem, applyWindow]
        cases y.tail with
        | inl t => exact ⟨_, rfl⟩
        | inr t =>
          obtain ⟨k, hk⟩ := hn (t.1.toNat, t.2.1.toNat, t.2.2.toNat)
          obtain ⟨r, g, b⟩ := t
          simp only at hk ⊢
          rw [hk]; exact ⟨_, rfl⟩
      | _ => exact ⟨_, rfl⟩
    obtain ⟨s1, hs1⟩ := this
    rw [cellsOf_cons, putAll_append, item_store hs1] at h
    obtain ⟨s', hs'⟩ := ih s1 st h
    exact ⟨s', by rw [applyItems_cons, hs1]; exact hs'⟩

/-- Fields that collect a list. -/
theorem items_append {env : SheetEnv} {α : Type} (f : SheetSt → List α) (g : List SheetItem → List α)
    (g0 : g [] = []) (gc : ∀ x xs, g (x :: xs) = g [x] ++ g xs)
    (h1 : ∀ s x s', applyItem env s x = .ok s' → f s' = f s ++ g [x]) {items : List SheetItem} {s s' : SheetSt}
    (h : applyItems env s items = .ok s') : f s' = f s ++ g items := by
  refine items_ok_ind (P := fun s items s' => f s' = f s ++ g items) (fun s => by rw [g0, List.append_nil]) ?_ items s s' h
  intro s x xs s1 s' hx ih
  rw [ih, h1 s x s1 hx, gc x xs, List.append_assoc]

theorem items_merged {env : SheetEnv} {items : List SheetItem} {s s' : SheetSt} (h : applyItems env s items = .ok s') :
    s'.merged = s.merged ++ if env.cfg.fmtInfo then (mergedOf items).map Rect.half else [] := by
  refine items_append (·.merged) (fun l => if env.cfg.fmtInfo then (mergedOf l).map Rect.half else []) (by simp [mergedOf]) ?_ ?_ h
  · intro x xs; split_ifs <;> simp [mergedOf]
  · intro s x s' hx
    item_cases x hx using (try split_ifs) <;> simp [mergedOf]

theorem items_hbreaks {env : SheetEnv} {items : List SheetItem} {s s' : SheetSt} (h : applyItems env s items = .ok s') :
    s'.hbreaks = s.hbreaks ++ if env.cfg.fmtInfo then hbreaksOf items else [] := by
  refine items_append (·.hbreaks) (fun l => if env.cfg.fmtInfo then hbreaksOf l else []) (by simp [hbreaksOf]) ?_ ?_ h
  · intro x xs; split_ifs <;> simp [hbreaksOf]
  · intro s x s' hx
    item_cases x hx using (try split_ifs) <;> simp [hbreaksOf]

theorem items_vbreaks {env : SheetEnv} {items : List SheetItem} {s s' : SheetSt} (h : applyItems env s items = .ok s') :
    s'.vbreaks = s.vbreaks ++ if env.cfg.fmtInfo then vbreaksOf items else [] := by
  refine items_append (·.vbreaks) (fun l => if env.cfg.fmtInfo then vbreaksOf l else []) (by simp [vbreaksOf]) ?_ ?_ h
  · intro x xs; split_ifs <;> simp [vbreaksOf]
  · intro s x s' hx
    item_cases x hx using (try split_ifs) <;> simp [vbreaksOf]

theorem items_rowLabels {env : SheetEnv} {items : List SheetItem} {s s' : SheetSt} (h : applyItems env s items = .ok s') :
    s'.rowLabelRanges = s.rowLabelRanges ++ (rowLabelsOf items).map Rect.half := by
  refine items_append (·.rowLabelRanges) (fun l => (rowLabelsOf l).map Rect.half) (by simp [rowLabelsOf]) ?_ ?_ h
  · intro x xs; simp [rowLabelsOf]
  · intro s x s' hx
    item_cases x hx using (try split_ifs) <;> simp [rowLabelsOf]

theorem items_colLabels {env : SheetEnv} {items : List SheetItem} {s s' : SheetSt} (h : applyItems env s items = .ok s') :
    s'.colLabelRanges = s.colLabelRanges ++ (colLabelsOf items).map Rect.half := by
  refine items_append (·.colLabelRanges) (fun l => (colLabelsOf l).map Rect.half) (by simp [colLabelsOf]) ?_ ?_ h
  · intro x xs; simp [colLabelsOf]
  · intro s x s' hx
    item_cases x hx using (try split_ifs) <;> simp [colLabelsOf]

/-- Fields where the last item that speaks about them decides. -/
theorem items_last {env : SheetEnv} {α : Type} (f : SheetSt → α) (g : SheetItem → Option α)
    (h1 : ∀ s x s', applyItem env s x = .ok s' → f s' = (g x).getD (f s)) {items : List SheetItem} {s s' : SheetSt}
    (h : applyItems env s items = .ok s') : f s' = (items.filterMap g).getLast?.getD (f s) := by
  refine items_ok_ind (P := fun s items s' => f s' = (items.filterMap g).getLast?.getD (f s)) (fun s => rfl) ?_ items s s' h
  intro s x xs s1 s' hx ih
  rw [ih, h1 s x s1 hx]
  cases hg : g x with
  | none => rw [List.filterMap_cons_none hg]; rfl
  | some a =>
    rw [List.filterMap_cons_some hg, List.getLast?_cons]
    cases (xs.filterMap g).getLast? <;> rfl

end Xlrd
