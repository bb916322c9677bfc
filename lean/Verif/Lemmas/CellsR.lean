import Verif.Lemmas.Cells

/-!
# Ragged writes, the invariant of the store, and `tidy_dimensions`
-/
set_option linter.unusedSimpArgs false
namespace Xlrd
open Spec

theorem raggedRow_eq {α} (row : List α) (c : Nat) (b x : α) :
    raggedRow row row.length c b x = .ok ((row ++ List.replicate (c + 1 - row.length) b).set c x) := by
  unfold raggedRow tailAssign
  by_cases h : c = row.length
  · subst h
    simp [List.set_append_right]
  · rw [if_neg h]
    by_cases h2 : c > row.length
    · rw [if_pos h2]
      simp only [List.take_length, List.length_append, List.length_replicate]
      rw [if_pos (by omega)]
      have : c - row.length + 1 = c + 1 - row.length := by omega
      rw [this]
    · rw [if_neg h2, if_pos (by omega)]
      have : c + 1 - row.length = 0 := by omega
      rw [this]; simp

/-- length of row `i` after a ragged write -/
def lenAfterR (G : List (List ACell)) (r c : Nat) (i : Nat) : Nat :=
  if i = r then max (gLen G r) (c + 1) else gLen G i

theorem putRagged_spec (cfg : SheetCfg) (s : Store) (G) (h : Rep cfg s G) (hn : s.nrows = G.length)
    (r c : Nat) (ct : Option Nat) (v : Val) (xf : Int) :
    (∀ t, resolveType cfg ct xf = .ok t → okXf cfg xf → c < cfg.maxCols → r < cfg.maxRows →
      ∃ s' G', putCellRagged cfg s r c ct v xf = .ok s' ∧ Rep cfg s' G' ∧
        s'.ncols = max s.ncols (c + 1) ∧ s'.nrows = max s.nrows (r + 1) ∧
        PutSpec G G' r c ⟨t, v, xf⟩ (lenAfterR G r c)) ∧
    (∀ s', putCellRagged cfg s r c ct v xf = .ok s' →
      (∃ t, resolveType cfg ct xf = .ok t) ∧ okXf cfg xf ∧ c < cfg.maxCols ∧ r < cfg.maxRows) := by
  -- the store with the missing rows appended
  obtain ⟨s1, hs1, e1, e2, hrep⟩ : ∃ s1 : Store,
      (if s.nrows < r + 1 then
        { s with
          types := appendRows s.types (r + 1 - s.nrows) 0 XL_CELL_EMPTY
          values := appendRows s.values (r + 1 - s.nrows) 0 emptyVal
          xfs := if cfg.fmtInfo then appendRows s.xfs (r + 1 - s.nrows) 0 (-1) else s.xfs
          nrows := r + 1 }
      else s) = s1 ∧ s1.ncols = s.ncols ∧ s1.nrows = max s.nrows (r + 1) ∧
      Rep cfg s1 (G ++ List.replicate (r + 1 - G.length) []) := by
    refine ⟨_, rfl, ?_⟩
    split
    · refine ⟨rfl, by simp only; omega, ?_⟩
      have a1 := appendRows_map ACell.ty G (r + 1 - s.nrows) 0 ACell.blank
      have a2 := appendRows_map ACell.v G (r + 1 - s.nrows) 0 ACell.blank
      have a3 := appendRows_map ACell.xf G (r + 1 - s.nrows) 0 ACell.blank
      refine ⟨?_, ?_, ?_⟩
      · simp only [h.types]; exact a1.trans (by rw [appendRows, hn]; rfl)
      · simp only [h.values]; exact a2.trans (by rw [appendRows, hn]; rfl)
      · simp only [h.xfs]
        cases hf : cfg.fmtInfo with
        | false => rfl
        | true => exact a3.trans (by rw [appendRows, hn]; rfl)
    · refine ⟨rfl, by omega, ?_⟩
      have : r + 1 - G.length = 0 := by omega
      rw [this]; simpa using h
  set G1 := G ++ List.replicate (r + 1 - G.length) ([] : List ACell) with hG1
  have hr1 : r < G1.length := by simp [hG1]; omega
  have hrow : ∀ {β : Type} (f : ACell → β), (G1.map (List.map f))[r]? = some ((G1.getD r []).map f) := by
    intro β f
    simp [List.getD, List.getElem?_eq_getElem hr1]
  have hnil : ∀ i j, gAt G1 i j = gAt G i j := by
    intro i j; have := gAt_append G (r + 1 - G.length) 0 i j; simpa using this
  have hlen1 : ∀ i, gLen G1 i = gLen G i := by
    intro i; have := gLen_append G (r + 1 - G.length) 0 i
    simp only [List.replicate_zero] at this
    rw [this]
    by_cases hi : i < G.length
    · simp [hi]
    · rw [gLen_outside G i (by omega)]; simp [hi]
  constructor
  · intro t ht hok hc hr
    set x : ACell := ⟨t, v, xf⟩ with hx
    have q1 := raggedRow_map ACell.ty (G1.getD r []) (G1.getD r []).length c ACell.blank x
    have q2 := raggedRow_map ACell.v (G1.getD r []) (G1.getD r []).length c ACell.blank x
    have q3 := raggedRow_map ACell.xf (G1.getD r []) (G1.getD r []).length c ACell.blank x
    rw [raggedRow_eq] at q1 q2 q3
    simp only [Except.map] at q1 q2 q3
    have b1 : raggedRow (List.map ACell.ty (G1.getD r [])) (G1.getD r []).length c XL_CELL_EMPTY t = _ := q1
    have b2 : raggedRow (List.map ACell.v (G1.getD r [])) (G1.getD r []).length c emptyVal v = _ := q2
    have b3 : raggedRow (List.map ACell.xf (G1.getD r [])) (G1.getD r []).length c (-1) xf = _ := q3
    have hps := putSpec_assign G1 r c x (c + 1 - gLen G1 r) hr1 (by omega)
    have spec : PutSpec G (G1.set r ((G1.getD r [] ++ List.replicate (c + 1 - gLen G1 r) ACell.blank).set c x)) r c x
        (lenAfterR G r c) := by
      refine ⟨?_, ?_, ?_⟩
      · rw [hps.len, hG1]; simp; omega
      · intro i hi
        rw [hps.lens i hi]
        unfold lenAfterR
        simp only [hlen1]
        split <;> omega
      · intro i j
        rw [hps.cells, hnil]
    have hncols : ∀ s2 : Store, s2 = (if c ≥ s1.ncols then { s1 with ncols := c + 1 } else s1) →
        s2.ncols = max s.ncols (c + 1) ∧ s2.nrows = s1.nrows ∧ s2.types = s1.types ∧ s2.values = s1.values ∧ s2.xfs = s1.xfs := by
      intro s2 hs2
      rw [hs2]; split
      · refine ⟨by simp only; omega, rfl, rfl, rfl, rfl⟩
      · refine ⟨by omega, rfl, rfl, rfl, rfl⟩
    unfold putCellRagged
    simp only [ht, bind, Except.bind, pyAssert, hc, hr, decide_true, ↓reduceIte, pure, Except.pure]
    rw [hs1]
    generalize hs2 : (if c ≥ s1.ncols then { s1 with ncols := c + 1 } else s1) = s2
    obtain ⟨k1, k2, k3, k4, k5⟩ := hncols s2 hs2.symm
    simp only [getRow, hrep.types, hrep.values, hrow, List.length_map, b1, b2, k5, hrep.xfs]
    cases hf : cfg.fmtInfo with
    | false =>
      refine ⟨_, _, rfl, ?_, k1, k2.trans e2, spec⟩
      refine ⟨?_, ?_, ?_⟩
      · simp only [k3, hrep.types]; rw [← List.map_set]; rfl
      · simp only [k4, hrep.values]; rw [← List.map_set]; rfl
      · simp [k5, hrep.xfs, hf]
    | true =>
      simp only [↓reduceIte, hrow, int16, hok hf, and_self, b3]
      refine ⟨_, _, rfl, ?_, k1, k2.trans e2, spec⟩
      refine ⟨?_, ?_, ?_⟩
      · simp only [k3, hrep.types]; rw [← List.map_set]; rfl
      · simp only [k4, hrep.values]; rw [← List.map_set]; rfl
      · simp only [hf, ↓reduceIte]; rw [← List.map_set]; rfl
  · intro s' hs'
    unfold putCellRagged at hs'
    cases ht : resolveType cfg ct xf with
    | error e => simp [ht, bind, Except.bind] at hs'
    | ok t =>
      refine ⟨⟨t, rfl⟩, ?_⟩
      by_cases hc : c < cfg.maxCols
      · by_cases hr : r < cfg.maxRows
        · refine ⟨?_, hc, hr⟩
          intro hf
          by_contra hno
          simp only [ht, bind, Except.bind, pyAssert, hc, hr, decide_true, ↓reduceIte, pure, Except.pure] at hs'
          rw [hs1] at hs'
          generalize (if c ≥ s1.ncols then { s1 with ncols := c + 1 } else s1) = s2 at hs'
          simp only [getRow, hrep.types, hrep.values, hrow, List.length_map, hf, ↓reduceIte, int16, hno] at hs'
          repeat' split at hs'
          all_goals cases hs'
        · simp [ht, bind, Except.bind, pyAssert, hc, hr] at hs'
      · simp [ht, bind, Except.bind, pyAssert, hc] at hs'

/-- The grid shows the writes. -/
def Shows (cfg : SheetCfg) (ws : List Write) (G : List (List ACell)) : Prop :=
  ∀ i j, gAt G i j = cellAt cfg.typeMap ws i j

/-- Invariant between writes: `H`, `W` are the dimensions. -/
structure Inv (cfg : SheetCfg) (ws : List Write) (s : Store) (G : List (List ACell)) (H W : Nat) : Prop where
  rep : Rep cfg s G
  nrows : s.nrows = H
  ncols : s.ncols = W
  glen : G.length = H
  lens : ∀ i, i < H → gLen G i ≤ W
  shows : Shows cfg ws G
  full : cfg.ragged = false → s.firstFull = -2 ∨ (s.firstFull = -1 ∧ H = 0 ∧ W = 0) ∨
    (0 ≤ s.firstFull ∧ ∀ i : Nat, s.firstFull ≤ (i : Int) → i < H → gLen G i = W)

theorem cellAt_snoc (tm) (ws : List Write) (w : Write) (i j : Nat) :
    cellAt tm (ws ++ [w]) i j = if i = w.row ∧ j = w.col then stored tm w else cellAt tm ws i j := by
  unfold cellAt lastAt
  simp only [List.reverse_append, List.reverse_cons, List.reverse_nil, List.nil_append, List.singleton_append,
    List.find?_cons]
  by_cases h : i = w.row ∧ j = w.col
  · simp [h.1, h.2]
  · have : ¬ (w.row = i ∧ w.col = j) := fun ⟨a, b⟩ => h ⟨a.symm, b.symm⟩
    simp [h, this]

theorem resolve_stored (cfg : SheetCfg) (w : Write) (t : Nat) (h : resolveType cfg w.ctype w.xf = .ok t) :
    stored cfg.typeMap w = ⟨t, w.val, w.xf⟩ := by
  unfold resolveType at h
  unfold stored
  cases hc : w.ctype with
  | some t' => rw [hc] at h; injection h with h; simp [h]
  | none =>
    rw [hc] at h
    cases hm : cfg.typeMap w.xf with
    | none => rw [hm] at h; cases h
    | some t' => rw [hm] at h; injection h with h; simp [hm, h]

/-- When a write is accepted. -/
def Accepts (cfg : SheetCfg) (w : Write) : Prop :=
  w.row < cfg.maxRows ∧ w.col < cfg.maxCols ∧
  (w.ctype = none → ∃ t, cfg.typeMap w.xf = some t) ∧ okXf cfg w.xf

theorem resolve_ok_iff (cfg : SheetCfg) (ct : Option Nat) (xf : Int) :
    (∃ t, resolveType cfg ct xf = .ok t) ↔ (ct = none → ∃ t, cfg.typeMap xf = some t) := by
  unfold resolveType
  cases ct with
  | some t => simp
  | none => cases cfg.typeMap xf <;> simp

/-- ragged row lengths after a write -/
def lenNext (cfg : SheetCfg) (G : List (List ACell)) (W r c : Nat) : Nat → Nat :=
  if cfg.ragged then lenAfterR G r c else lenAfterU G (max W (c + 1)) r c

theorem put_step (cfg : SheetCfg) (ws s G H W) (inv : Inv cfg ws s G H W) (w : Write) :
    (Accepts cfg w → ∃ s' G', putCell cfg s w.row w.col w.ctype w.val w.xf = .ok s' ∧
      Inv cfg (ws ++ [w]) s' G' (max H (w.row + 1)) (max W (w.col + 1)) ∧
      (∀ i, i < G'.length → gLen G' i = lenNext cfg G W w.row w.col i)) ∧
    ((w.row < G.length ∧ w.col < gLen G w.row → w.col < cfg.maxCols ∧ w.row < cfg.maxRows) → ∀ s', putCell cfg s w.row w.col w.ctype w.val w.xf = .ok s' → Accepts cfg w) := by
  have hlens : ∀ i, i < G.length → gLen G i ≤ s.ncols := by
    intro i hi; rw [inv.ncols]; exact inv.lens i (inv.glen ▸ hi)
  have hnr : s.nrows = G.length := inv.nrows.trans inv.glen.symm
  unfold putCell
  cases hrag : cfg.ragged with
  | true =>
    simp only [↓reduceIte]
    have hp := putRagged_spec cfg s G inv.rep hnr w.row w.col w.ctype w.val w.xf
    constructor
    · rintro ⟨hr, hc, ht, hok⟩
      obtain ⟨t, ht⟩ := (resolve_ok_iff cfg w.ctype w.xf).mpr ht
      obtain ⟨s', G', e, hrep, e1, e2, ps⟩ := hp.1 t ht hok hc hr
      refine ⟨s', G', e, ?_, ?_⟩
      · have i1 := inv.nrows
        have i2 := inv.ncols
        have i3 := inv.glen
        refine ⟨hrep, by omega, by omega, by rw [ps.len]; omega, ?_, ?_, ?_⟩
        · intro i hi
          rw [ps.lens i (by rw [ps.len]; omega)]
          unfold lenAfterR
          have hi2 : gLen G i ≤ W := by
            by_cases hiH : i < H
            · exact inv.lens i hiH
            · rw [gLen_outside G i (by omega)]; omega
          split
          · next hir => subst hir; omega
          · omega
        · intro i j
          rw [ps.cells, cellAt_snoc, resolve_stored cfg w t ht, inv.shows]
        · intro hf; simp [hrag] at hf
      · intro i hi
        rw [ps.lens i hi]; simp [lenNext, hrag]
    · intro hmx s' hs'
      obtain ⟨ht, hok, hc, hr⟩ := hp.2 s' hs'
      exact ⟨hr, hc, (resolve_ok_iff cfg w.ctype w.xf).mp ht, hok⟩
  | false =>
    simp only [Bool.false_eq_true, ↓reduceIte]
    have hp := putUnragged_spec cfg s G inv.rep hnr hlens w.row w.col w.ctype w.val w.xf
    constructor
    · rintro ⟨hr, hc, ht, hok⟩
      obtain ⟨t, ht⟩ := (resolve_ok_iff cfg w.ctype w.xf).mpr ht
      obtain ⟨s', G', e, hrep, e1, e2, e3, ps⟩ := hp.1 t ht hok hc hr
      have i1 := inv.nrows
      have i2 := inv.ncols
      have i3 := inv.glen
      have hnc : s'.ncols = max W (w.col + 1) := by omega
      refine ⟨s', G', e, ?_, ?_⟩
      · refine ⟨hrep, by omega, hnc, by rw [ps.len]; omega, ?_, ?_, ?_⟩
        · intro i hi
          rw [ps.lens i (by rw [ps.len]; omega), hnc]
          unfold lenAfterU
          by_cases hi2 : i < G.length
          · have := inv.lens i (by omega)
            by_cases hir : i = w.row
            · subst hir
              simp only [hi2, ↓reduceIte]; split <;> omega
            · simp only [hi2, hir, ↓reduceIte]; omega
          · simp only [hi2, ↓reduceIte]; omega
        · intro i j
          rw [ps.cells, cellAt_snoc, resolve_stored cfg w t ht, inv.shows]
        · intro _
          have hfull := inv.full hrag
          rw [e3]
          have key : ∀ i, i < max H (w.row + 1) → gLen G' i = lenAfterU G (max W (w.col + 1)) w.row w.col i := by
            intro i hi
            rw [ps.lens i (by rw [ps.len]; omega), hnc]
          by_cases hin : w.row < G.length ∧ w.col < gLen G w.row
          · rw [if_pos hin]
            have hW : max W (w.col + 1) = W := by
              have := inv.lens w.row (by omega); omega
            have hH : max H (w.row + 1) = H := by omega
            rcases hfull with hf | ⟨hf, h0⟩ | ⟨hf, hall⟩
            · exact .inl hf
            · omega
            · refine .inr (.inr ⟨hf, ?_⟩)
              intro i hi1 hi2
              have := hall i hi1 (by omega)
              rw [key i hi2]
              unfold lenAfterU
              by_cases hi3 : i < G.length
              · by_cases hir : i = w.row
                · subst hir; simp only [hi3, hin.2, ↓reduceIte]; omega
                · simp only [hi3, hir, ↓reduceIte]; omega
              · omega
          · rw [if_neg hin]
            unfold ffAfter
            by_cases hwide : w.col + 1 > s.ncols
            · rw [if_pos hwide]
              by_cases hb : w.row + 1 < s.nrows
              · rw [if_pos hb]; exact .inl rfl
              · rw [if_neg hb]
                have last : ∀ ff : Int, 0 ≤ ff → (ff = w.row ∨ (w.row + 1 ≤ G.length ∧ ff ≥ w.row) ∨ w.row = ff) →
                    ∀ i : Nat, ff ≤ (i : Int) → i < max H (w.row + 1) → gLen G' i = max W (w.col + 1) := by
                  intro ff h0 hff i hi1 hi2
                  have hir : i = w.row := by omega
                  rw [key i hi2, hir]
                  unfold lenAfterU
                  by_cases hi3 : w.row < G.length
                  · have : ¬ w.col < gLen G w.row := fun hc => hin ⟨hi3, hc⟩
                    have := inv.lens w.row (by omega)
                    rw [if_pos hi3, if_pos rfl, if_neg ‹_›]; omega
                  · simp only [hi3, ↓reduceIte]
                by_cases hff : (w.row : Int) > s.firstFull ∧ s.firstFull > -2
                · rw [if_pos hff]
                  exact .inr (.inr ⟨by omega, last w.row (by omega) (.inl rfl)⟩)
                · rw [if_neg hff]
                  rcases hfull with hf | ⟨hf, h0⟩ | ⟨hf, hall⟩
                  · exact .inl hf
                  · omega
                  · refine .inr (.inr ⟨hf, ?_⟩)
                    intro i hi1 hi2
                    -- firstFull ≥ row, and row is the last one
                    exact last w.row (by omega) (.inl rfl) i (by omega) hi2
            · rw [if_neg hwide]
              have hW : max W (w.col + 1) = W := by omega
              rcases hfull with hf | ⟨hf, h0⟩ | ⟨hf, hall⟩
              · exact .inl hf
              · -- no rows: then no columns either
                omega
              · refine .inr (.inr ⟨hf, ?_⟩)
                intro i hi1 hi2
                rw [key i hi2]
                unfold lenAfterU
                by_cases hi3 : i < G.length
                · have := hall i hi1 (by omega)
                  by_cases hir : i = w.row
                  · subst hir
                    simp only [hi3, ↓reduceIte]
                    split <;> omega
                  · simp only [hi3, hir, ↓reduceIte]; omega
                · simp only [hi3, ↓reduceIte]
      · intro i hi
        rw [ps.lens i hi, hnc]; simp [lenNext, hrag]
    · intro hmx s' hs'
      obtain ⟨ht, hok, hc, hr⟩ := hp.2 hmx s' hs'
      exact ⟨hr, hc, (resolve_ok_iff cfg w.ctype w.xf).mp ht, hok⟩

/-! ## Whole loads -/

theorem maxOf_append (a b : List Nat) : maxOf (a ++ b) = max (maxOf a) (maxOf b) := by
  induction a with
  | nil => simp [maxOf]
  | cons x xs ih => simp [maxOf, ih]

theorem rowWidth_snoc (ws : List Write) (w : Write) (i : Nat) :
    rowWidth (ws ++ [w]) i = if w.row = i then max (rowWidth ws i) (w.col + 1) else rowWidth ws i := by
  unfold rowWidth
  rw [List.filter_append, List.map_append, maxOf_append]
  by_cases h : w.row = i <;> simp [h, maxOf]

theorem foldl_maxOf {α} (f : α → Nat) (ms : List α) :
    ∀ a, ms.foldl (fun a m => if f m > a then f m else a) a = max a (maxOf (ms.map f)) := by
  induction ms with
  | nil => intro a; simp [maxOf]
  | cons m ms ih =>
    intro a
    simp only [List.foldl_cons, List.map_cons, maxOf]
    rw [ih]
    split <;> omega

/-- Invariant of a run, with ragged row lengths. -/
structure Run (cfg : SheetCfg) (ws : List Write) (s : Store) (G : List (List ACell)) : Prop where
  inv : Inv cfg ws s G (height ws []) (width ws [])
  rag : cfg.ragged = true → ∀ i, gLen G i = rowWidth ws i
  acc : ∀ w ∈ ws, Accepts cfg w

theorem height_snoc (ws : List Write) (w : Write) : height (ws ++ [w]) [] = max (height ws []) (w.row + 1) := by
  simp [height, maxOf_append, maxOf]
theorem width_snoc (ws : List Write) (w : Write) : width (ws ++ [w]) [] = max (width ws []) (w.col + 1) := by
  simp [width, maxOf_append, maxOf]

theorem maxOf_le {l : List Nat} {n : Nat} : maxOf l ≤ n ↔ ∀ x ∈ l, x ≤ n := by
  induction l with
  | nil => simp [maxOf]
  | cons a as ih => simp [maxOf, ← ih]

theorem lt_maxOf {l : List Nat} {n : Nat} : n < maxOf l ↔ ∃ x ∈ l, n < x := by
  induction l with
  | nil => simp [maxOf]
  | cons a as ih => simp [maxOf, ← ih]

theorem Run.step (cfg ws s G) (h : Run cfg ws s G) (w : Write) :
    (Accepts cfg w → ∃ s' G', putCell cfg s w.row w.col w.ctype w.val w.xf = .ok s' ∧ Run cfg (ws ++ [w]) s' G') ∧
    (∀ s', putCell cfg s w.row w.col w.ctype w.val w.xf = .ok s' → Accepts cfg w) := by
  have ps := put_step cfg ws s G _ _ h.inv w
  constructor
  · intro ha
    obtain ⟨s', G', e, inv', hl⟩ := ps.1 ha
    refine ⟨s', G', e, ?_, ?_, ?_⟩
    · rw [height_snoc, width_snoc]; exact inv'
    · intro hr i
      rw [rowWidth_snoc]
      have hG := inv'.glen
      have hG0 := h.inv.glen
      by_cases hi : i < G'.length
      · rw [hl i hi, lenNext, if_pos hr, lenAfterR]
        have := h.rag hr i
        by_cases hir : i = w.row
        · subst hir; simp [this]
        · have hne : ¬ w.row = i := fun h => hir h.symm
          simp [hir, hne, this]
      · rw [gLen_outside _ _ (by omega)]
        have := h.rag hr i
        rw [gLen_outside _ _ (by omega)] at this
        rw [if_neg (by omega), ← this]
    · intro w' hw'
      rcases List.mem_append.mp hw' with hw' | hw'
      · exact h.acc w' hw'
      · simp at hw'; rw [hw']; exact ha
  · intro s' hs'
    refine ps.2 ?_ s' hs'
    rintro ⟨h1, h2⟩
    have hr : height ws [] ≤ cfg.maxRows := by
      unfold height
      simp only [List.map_nil, maxOf, Nat.max_zero]
      rw [maxOf_le]
      intro x hx
      obtain ⟨w', hw', rfl⟩ := List.mem_map.mp hx
      exact (h.acc w' hw').1
    have hc : width ws [] ≤ cfg.maxCols := by
      unfold width
      simp only [List.map_nil, maxOf, Nat.max_zero]
      rw [maxOf_le]
      intro x hx
      obtain ⟨w', hw', rfl⟩ := List.mem_map.mp hx
      exact (h.acc w' hw').2.1
    have hg := h.inv.glen
    have := h.inv.lens w.row (by omega)
    omega

theorem Run.init (cfg : SheetCfg) : Run cfg [] Store.empty [] where
  inv := by
    refine ⟨⟨rfl, rfl, by simp [Store.empty]⟩, rfl, rfl, rfl, by simp [height, maxOf], ?_, ?_⟩
    · intro i j; simp [gAt, cellAt, lastAt]
    · intro _; exact .inr (.inl ⟨rfl, rfl, rfl⟩)
  rag := by intro _ i; simp [gLen, rowWidth, maxOf]
  acc := by simp

abbrev putW (cfg : SheetCfg) (s : Store) (w : Write) : R Store := putCell cfg s w.row w.col w.ctype w.val w.xf

theorem run_all (cfg : SheetCfg) (ws : List Write) : ∀ (pre : List Write) (s : Store) (G), Run cfg pre s G →
    ((∀ w ∈ ws, Accepts cfg w) → ∃ s' G', ws.foldlM (putW cfg) s = .ok s' ∧ Run cfg (pre ++ ws) s' G') ∧
    (∀ s', ws.foldlM (putW cfg) s = .ok s' → ∀ w ∈ ws, Accepts cfg w) := by
  induction ws with
  | nil =>
    intro pre s G h
    exact ⟨fun _ => ⟨s, G, rfl, by simpa using h⟩, by simp⟩
  | cons w ws ih =>
    intro pre s G h
    have st := h.step cfg pre s G w
    constructor
    · intro ha
      obtain ⟨s1, G1, e, h1⟩ := st.1 (ha w (by simp))
      obtain ⟨s2, G2, e2, h2⟩ := (ih (pre ++ [w]) s1 G1 h1).1 (fun w' hw' => ha w' (by simp [hw']))
      refine ⟨s2, G2, ?_, by simpa using h2⟩
      simp only [List.foldlM_cons, putW, e, bind, Except.bind]
      exact e2
    · intro s' hs' w' hw'
      simp only [List.foldlM_cons, putW, bind, Except.bind] at hs'
      cases e : putCell cfg s w.row w.col w.ctype w.val w.xf with
      | error e' => rw [e] at hs'; cases hs'
      | ok s1 =>
        rw [e] at hs'
        have ha := st.2 s1 e
        obtain ⟨s1', G1, e', h1⟩ := st.1 ha
        rw [e] at e'; injection e' with e'; subst e'
        rcases List.mem_cons.mp hw' with rfl | hw'
        · exact ha
        · exact (ih _ _ _ h1).2 s' hs' w' hw'

/-- The store after a complete load. -/
structure Final (cfg : SheetCfg) (ws : List Write) (merged : List CRange) (s : Store) (G : List (List ACell)) : Prop where
  rep : Rep cfg s G
  nrows : s.nrows = height ws merged
  ncols : s.ncols = width ws merged
  glen : G.length = height ws merged
  lens : ∀ i, i < G.length → gLen G i = if cfg.ragged then
      (if maxOf (ws.map (·.row + 1)) < height ws merged ∧ i + 1 = height ws merged then 1 else rowWidth ws i)
    else width ws merged
  shows : Shows cfg ws G

theorem padRows_self (W ub : Nat) (G : List (List ACell)) :
    padRows (G.map List.length) W ACell.blank ub G =
      G.mapIdx fun i row => if i < ub then row ++ List.replicate (W - row.length) ACell.blank else row := by
  unfold padRows
  apply List.ext_getElem?
  intro i
  simp only [List.getElem?_mapIdx]
  cases h : G[i]? with
  | none => rfl
  | some row =>
    simp only [Option.map_some, List.getD, List.getElem?_map, h, Option.getD_some]
    congr 1
    split
    · split
      · simp
      · rename_i hl
        have : W - row.length = 0 := by omega
        simp [this]
    · rfl

theorem pad_spec (W ub : Nat) (G : List (List ACell)) (hub : ∀ i, i < G.length → ub ≤ i → gLen G i = W)
    (hle : ∀ i, i < G.length → gLen G i ≤ W) :
    (padRows (G.map List.length) W ACell.blank ub G).length = G.length ∧
    (∀ i, i < G.length → gLen (padRows (G.map List.length) W ACell.blank ub G) i = W) ∧
    (∀ i j, gAt (padRows (G.map List.length) W ACell.blank ub G) i j = gAt G i j) := by
  rw [padRows_self]
  refine ⟨by simp, ?_, ?_⟩
  · intro i hi
    have h1 := hub i hi
    have h2 := hle i hi
    have e : G.getD i [] = G[i] := by simp [List.getD, List.getElem?_eq_getElem hi]
    unfold gLen at h1 h2 ⊢
    rw [e] at h1 h2
    simp only [List.getD, List.getElem?_mapIdx, List.getElem?_eq_getElem hi, Option.map_some, Option.getD_some]
    split
    · simp; omega
    · exact h1 (by omega)
  · intro i j
    unfold gAt
    simp only [List.getD, List.getElem?_mapIdx]
    cases G[i]? with
    | none => rfl
    | some row =>
      simp only [Option.map_some, Option.getD_some]
      split
      · exact getD_append_blank row _ j ACell.blank
      · rfl

/-- `tidy_dimensions` after the merged ranges have been taken into account -/
theorem tidy_pad (cfg : SheetCfg) (ws s G H W) (inv : Inv cfg ws s G H W) (hr : cfg.ragged = false) :
    ∃ G', Rep cfg
      { s with
        values := padRows (s.types.map List.length) s.ncols emptyVal (if s.firstFull = -2 then s.nrows else s.firstFull.toNat) s.values
        types := padRows (s.types.map List.length) s.ncols XL_CELL_EMPTY (if s.firstFull = -2 then s.nrows else s.firstFull.toNat) s.types
        xfs := if cfg.fmtInfo then padRows (s.types.map List.length) s.ncols (-1) (if s.firstFull = -2 then s.nrows else s.firstFull.toNat) s.xfs else s.xfs } G' ∧
      G'.length = H ∧ (∀ i, i < H → gLen G' i = W) ∧ Shows cfg ws G' := by
  set ub := (if s.firstFull = -2 then s.nrows else s.firstFull.toNat) with hub
  have hl : s.types.map List.length = G.map List.length := by
    rw [inv.rep.types]; simp [Function.comp_def]
  have sp := pad_spec W ub G (by
    intro i hi hle
    have hi' : i < H := inv.glen ▸ hi
    rcases inv.full hr with hf | ⟨hf, h0⟩ | ⟨hf, hall⟩
    · rw [hub, if_pos hf, inv.nrows] at hle; omega
    · omega
    · rw [hub, if_neg (by omega)] at hle
      exact hall i (by omega) hi') (by
    intro i hi; exact inv.lens i (inv.glen ▸ hi))
  refine ⟨padRows (G.map List.length) W ACell.blank ub G, ⟨?_, ?_, ?_⟩, ?_, ?_, ?_⟩
  · simp only [hl, inv.ncols]
    rw [inv.rep.types]
    exact padRows_map ACell.ty _ _ _ ACell.blank _
  · simp only [hl, inv.ncols, inv.rep.values]
    exact padRows_map ACell.v _ _ _ ACell.blank _
  · simp only [hl, inv.ncols, inv.rep.xfs]
    cases hf : cfg.fmtInfo with
    | false => rfl
    | true => exact padRows_map ACell.xf _ _ _ ACell.blank _
  · rw [sp.1, inv.glen]
  · intro i hi; exact sp.2.1 i (inv.glen.symm ▸ hi)
  · intro i j; rw [sp.2.2]; exact inv.shows i j

/-- a write of an empty cell below everything else changes nothing visible -/
theorem shows_drop (cfg : SheetCfg) (ws : List Write) (w : Write) (G)
    (hw : stored cfg.typeMap w = ACell.blank) (hnew : maxOf (ws.map (·.row + 1)) ≤ w.row)
    (h : Shows cfg (ws ++ [w]) G) : Shows cfg ws G := by
  intro i j
  rw [h i j, cellAt_snoc]
  split
  · rename_i hij
    rw [hw]
    unfold cellAt lastAt
    rw [hij.1, hij.2]
    have : ws.reverse.find? (fun w' => decide (w'.row = w.row ∧ w'.col = w.col)) = none := by
      rw [List.find?_eq_none]
      intro w' hw' hc
      simp at hw' hc
      rw [maxOf_le] at hnew
      have := hnew (w'.row + 1) (List.mem_map.mpr ⟨w', hw', rfl⟩)
      omega
    rw [this]
  · rfl

theorem inv_widen (cfg ws s G H W) (inv : Inv cfg ws s G H W) (nc : Nat) :
    Inv cfg ws (if nc > s.ncols then { s with ncols := nc, firstFull := -2 } else s) G H (max W nc) := by
  have hW := inv.ncols
  by_cases h : nc > s.ncols
  · rw [if_pos h]
    refine ⟨⟨inv.rep.types, inv.rep.values, inv.rep.xfs⟩, inv.nrows, by simp only; omega, inv.glen, ?_, inv.shows, ?_⟩
    · intro i hi; have := inv.lens i hi; omega
    · intro _; exact .inl rfl
  · rw [if_neg h]
    have : max W nc = W := by omega
    rw [this]; exact inv

/-- Whether `tidy_dimensions` can add the last row of a merged range. -/
def MergedFits (cfg : SheetCfg) (ws : List Write) (merged : List CRange) : Prop :=
  height ws [] < maxOf (merged.map (·.rhi)) → maxOf (merged.map (·.rhi)) ≤ cfg.maxRows ∧ 0 < cfg.maxCols

theorem tidy_spec (cfg : SheetCfg) (ws s G) (run : Run cfg ws s G) (merged : List CRange)
    (hm : ∀ m ∈ merged, 1 ≤ m.chi) :
    (MergedFits cfg ws merged → ∃ s' G', tidyDimensions cfg s merged = .ok s' ∧ Final cfg ws merged s' G') ∧
    (∀ s', tidyDimensions cfg s merged = .ok s' → MergedFits cfg ws merged) := by
  have inv := run.inv
  have hH : height ws [] = maxOf (ws.map (·.row + 1)) := by simp [height, maxOf]
  have hW : width ws [] = maxOf (ws.map (·.col + 1)) := by simp [width, maxOf]
  have hHm : height ws merged = max (height ws []) (maxOf (merged.map (·.rhi))) := by simp [height, maxOf]
  have hWm : width ws merged = max (width ws []) (maxOf (merged.map (·.chi))) := by simp [width, maxOf]
  -- the padding half
  have finish : ∀ (s1 : Store) (G1 : List (List ACell)), Inv cfg ws s1 G1 (height ws merged) (width ws merged) →
      (cfg.ragged = true → ∀ i, i < G1.length → gLen G1 i =
        if maxOf (ws.map (·.row + 1)) < height ws merged ∧ i + 1 = height ws merged then 1 else rowWidth ws i) →
      ∃ s' G', (if cfg.ragged then (pure s1 : R Store) else
        pure { s1 with
          values := padRows (s1.types.map List.length) s1.ncols emptyVal (if s1.firstFull = -2 then s1.nrows else s1.firstFull.toNat) s1.values
          types := padRows (s1.types.map List.length) s1.ncols XL_CELL_EMPTY (if s1.firstFull = -2 then s1.nrows else s1.firstFull.toNat) s1.types
          xfs := if cfg.fmtInfo then padRows (s1.types.map List.length) s1.ncols (-1) (if s1.firstFull = -2 then s1.nrows else s1.firstFull.toNat) s1.xfs else s1.xfs }) = .ok s' ∧
        Final cfg ws merged s' G' := by
    intro s1 G1 inv1 hrag
    cases hr : cfg.ragged with
    | true =>
      refine ⟨s1, G1, rfl, inv1.rep, inv1.nrows, inv1.ncols, inv1.glen, ?_, inv1.shows⟩
      intro i hi
      rw [hrag hr i hi]; simp [hr]
    | false =>
      obtain ⟨G', hrep, hg, hl, hsh⟩ := tidy_pad cfg ws s1 G1 _ _ inv1 hr
      refine ⟨_, G', rfl, hrep, inv1.nrows, inv1.ncols, hg, ?_, hsh⟩
      intro i hi
      rw [hl i (hg ▸ hi)]; simp [hr]
  unfold tidyDimensions
  cases merged with
  | nil =>
    refine ⟨fun _ => ?_, fun _ _ => ?_⟩
    · simp only [List.isEmpty_nil, ↓reduceIte, bind, Except.bind, pure, Except.pure]
      refine finish s G inv ?_
      intro hr i hi
      rw [run.rag hr i]; simp [hH]
    · intro h; simp [maxOf] at h
  | cons m0 ms =>
    set merged := m0 :: ms with hmerged
    have hpos : 1 ≤ maxOf (merged.map (·.chi)) := by
      have := hm m0 (by simp [hmerged])
      simp [hmerged, maxOf]; omega
    simp only [show merged.isEmpty = false from rfl, Bool.false_eq_true, ↓reduceIte]
    rw [foldl_maxOf (fun m : CRange => m.rhi), foldl_maxOf (fun m : CRange => m.chi)]
    simp only [Nat.zero_max]
    set nr := maxOf (merged.map (·.rhi)) with hnr
    set nc := maxOf (merged.map (·.chi)) with hnc
    have inv1 := inv_widen cfg ws s G _ _ inv nc
    rw [← hWm] at inv1
    set s1 := (if nc > s.ncols then { s with ncols := nc, firstFull := -2 } else s) with hs1
    have hn1 : s1.nrows = height ws [] := inv1.nrows
    by_cases hbig : nr > s1.nrows
    · simp only [hbig, ↓reduceIte]
      set w : Write := ⟨nr - 1, 0, some XL_CELL_EMPTY, emptyVal, -1⟩ with hw
      have st := put_step cfg ws s1 G _ _ inv1 w
      have hacc : Accepts cfg w ↔ nr ≤ cfg.maxRows ∧ 0 < cfg.maxCols := by
        unfold Accepts okXf
        simp [hw]; omega
      constructor
      · intro hfit
        have hfit := hfit (by omega)
        obtain ⟨s2, G2, e, inv2, hl⟩ := st.1 (hacc.mpr hfit)
        have e' : putCell cfg s1 (nr - 1) 0 (some XL_CELL_EMPTY) emptyVal (-1) = .ok s2 := e
        rw [e']
        simp only [bind, Except.bind]
        have hh : max (height ws []) (w.row + 1) = height ws merged := by
          rw [hHm]; simp [hw]; omega
        have hww : max (width ws merged) (w.col + 1) = width ws merged := by
          simp [hw]; omega
        rw [hh, hww] at inv2
        refine finish s2 G2 ⟨inv2.rep, inv2.nrows, inv2.ncols, inv2.glen, inv2.lens, ?_, inv2.full⟩ ?_
        · refine shows_drop cfg ws w G2 rfl ?_ inv2.shows
          rw [← hH]; simp [hw]; omega
        · intro hr i hi
          rw [hl i hi, lenNext, if_pos hr, lenAfterR]
          have hg2 := inv2.glen
          have hrg := run.rag hr
          by_cases hir : i = w.row
          · have h0 : gLen G w.row = 0 := gLen_outside _ _ (by rw [inv.glen]; simp [hw]; omega)
            rw [if_pos hir, h0, if_pos ⟨by omega, by simp [hw] at hir; omega⟩]
            simp [hw]
          · rw [if_neg hir, hrg i, if_neg]
            rintro ⟨_, h2⟩
            apply hir
            simp [hw]; omega
      · intro s' hs' _
        simp only [bind, Except.bind] at hs'
        -- the put succeeded
        cases e : putCell cfg s1 (nr - 1) 0 (some XL_CELL_EMPTY) emptyVal (-1) with
        | error e' => rw [e] at hs'; cases hs'
        | ok s2 =>
          refine hacc.mp (st.2 ?_ s2 e)
          rintro ⟨h1, _⟩
          rw [inv.glen] at h1
          simp [hw] at h1; omega
    · simp only [hbig, ↓reduceIte, bind, Except.bind, pure, Except.pure]
      have hh : height ws merged = height ws [] := by omega
      refine ⟨fun _ => ?_, fun _ _ h => ?_⟩
      · rw [← hh] at inv1
        refine finish s1 G inv1 ?_
        intro hr i hi
        rw [run.rag hr i, if_neg]
        rintro ⟨h1, _⟩
        omega
      · omega

end Xlrd
