import Verif.Lemmas.Biff2File
import Verif.Props.SheetAttrs

/-!
# The parts of a BIFF2 worksheet
-/
set_option linter.unusedSimpArgs false
namespace Xlrd
open Spec

/-- What an item leaves alone. -/
theorem step_parts {E : SheetEnv} {f : CellAttr → Nat} {g : Nat → Nat} {s s' : SheetSt} {it : B2Item} (hp : ∀ x, it = .setting x → x.isPlain = true)
    (h : stepB2 E f g s it = .ok s') :
    putAll E.cfg s.store (it.cells E.cfg.fmtInfo f) = .ok s'.store ∧ s'.rowinfo = rowsInto s.rowinfo (it.rows E.cfg.fmtInfo f g) ∧
      s'.colinfo = defaultsInto (widthsInto s.colinfo (it.widths E.cfg.fmtInfo)) (it.defaults E.cfg.fmtInfo f) ∧ s'.merged = s.merged := by
  unfold stepB2 SheetSt.puts at h
  obtain ⟨s1, h1, h⟩ := bind_ok h
  obtain ⟨st, h2, h1⟩ := bind_ok h1
  cases h1
  cases it with
  | setting x =>
    have := hp x rfl
    simp only [otherB2] at h
    cases h2
    cases x <;> first | (cases this; done) | (simp only [applyItem, Except.ok.injEq] at h; subst h; refine ⟨?_, ?_, ?_, ?_⟩ <;> (try split_ifs) <;> rfl)
  | window o top left auto r g b junk =>
    simp only [otherB2, windowB2] at h
    obtain ⟨k, _, h⟩ := bind_ok h
    cases h
    exact ⟨h2, rfl, rfl, rfl⟩
  | _ =>
    cases h
    exact ⟨h2, rfl, rfl, rfl⟩

/-! ## Rows and columns -/

def rowMap (l : List (Nat × Rowinfo)) (r : Int) : Option Rowinfo := if 0 ≤ r then lastEntry l r.toNat else none
def colMap (w x : List (Nat × Nat)) (c : Int) : Option Colinfo := if 0 ≤ c then colAt w x c.toNat else none

theorem lastEntry_snoc {α : Type} (l : List (Nat × α)) (p : Nat × α) (k : Nat) : lastEntry (l ++ [p]) k = if p.1 = k then some p.2 else lastEntry l k := by
  unfold lastEntry
  rw [List.reverse_append, List.reverse_singleton, List.singleton_append, List.find?_cons]
  by_cases h : p.1 = k
  · simp [h]
  · simp [h]

theorem rowMap_nil : rowMap [] = fun _ => none := by funext r; unfold rowMap; split_ifs <;> rfl
theorem colMap_nil : colMap [] [] = fun _ => none := by funext r; unfold colMap; split_ifs <;> rfl

theorem rowMap_snoc (l : List (Nat × Rowinfo)) (p : Nat × Rowinfo) : dictSet (rowMap l) (p.1 : Int) p.2 = rowMap (l ++ [p]) := by
  funext r
  unfold dictSet rowMap
  rw [lastEntry_snoc]
  by_cases h : r = (p.1 : Int)
  · subst h; simp
  · rw [if_neg h]
    by_cases h0 : 0 ≤ r
    · rw [if_pos h0, if_pos h0, if_neg (by omega)]
    · rw [if_neg h0, if_neg h0]

theorem rowsInto_map (l : List (Nat × Rowinfo)) : ∀ l0, rowsInto (rowMap l0) l = rowMap (l0 ++ l) := by
  induction l with
  | nil => intro l0; rw [List.append_nil]; rfl
  | cons p l ih =>
    intro l0
    show rowsInto (dictSet (rowMap l0) (p.1 : Int) p.2) l = _
    rw [rowMap_snoc, ih, List.append_assoc]
    rfl

theorem colMap_width (w x : List (Nat × Nat)) (p : Nat × Nat) :
    dictSet (colMap w x) (p.1 : Int) { (colMap w x p.1).getD newColinfo with width := p.2 } = colMap (w ++ [p]) x := by
  funext c
  unfold dictSet
  by_cases h : c = (p.1 : Int)
  · subst h
    rw [if_pos rfl]
    unfold colMap colAt
    simp only [Int.natCast_nonneg, if_true, Int.toNat_natCast, lastEntry_snoc]
    cases lastEntry w p.1 <;> cases lastEntry x p.1 <;> rfl
  · rw [if_neg h]
    unfold colMap colAt
    by_cases h0 : 0 ≤ c
    · rw [if_pos h0, if_pos h0, lastEntry_snoc, if_neg (by omega)]
    · rw [if_neg h0, if_neg h0]

theorem colMap_default (w x : List (Nat × Nat)) (p : Nat × Nat) :
    dictSet (colMap w x) (p.1 : Int) { (colMap w x p.1).getD newColinfo with xfIndex := (p.2 : Int) } = colMap w (x ++ [p]) := by
  funext c
  unfold dictSet
  by_cases h : c = (p.1 : Int)
  · subst h
    rw [if_pos rfl]
    unfold colMap colAt
    simp only [Int.natCast_nonneg, if_true, Int.toNat_natCast, lastEntry_snoc]
    cases lastEntry w p.1 <;> cases lastEntry x p.1 <;> rfl
  · rw [if_neg h]
    unfold colMap colAt
    by_cases h0 : 0 ≤ c
    · rw [if_pos h0, if_pos h0, lastEntry_snoc, if_neg (by omega)]
    · rw [if_neg h0, if_neg h0]

theorem widthsInto_map (l : List (Nat × Nat)) : ∀ w x, widthsInto (colMap w x) l = colMap (w ++ l) x := by
  induction l with
  | nil => intro w x; rw [List.append_nil]; rfl
  | cons p l ih =>
    intro w x
    show widthsInto (dictSet (colMap w x) (p.1 : Int) _) l = _
    rw [colMap_width, ih, List.append_assoc]
    rfl

theorem defaultsInto_map (l : List (Nat × Nat)) : ∀ w x, defaultsInto (colMap w x) l = colMap w (x ++ l) := by
  induction l with
  | nil => intro w x; rw [List.append_nil]; rfl
  | cons p l ih =>
    intro w x
    show defaultsInto (dictSet (colMap w x) (p.1 : Int) _) l = _
    rw [colMap_default, ih, List.append_assoc]
    rfl

/-! ## All items -/

theorem steps_cons {E : SheetEnv} {f : Option Nat → CellAttr → Nat} {i : Option Nat} {s s' : SheetSt} {it : B2Item} {rest : List B2Item} (h : stepsB2 E f i s (it :: rest) = .ok s') :
    ∃ s1, stepB2 E (f i) (ixfeIndex i) s it = .ok s1 ∧ stepsB2 E f (nextIxfe i it) s1 rest = .ok s' := bind_ok h

theorem steps_parts {E : SheetEnv} {f : Option Nat → CellAttr → Nat} {s' : SheetSt} : ∀ (items : List B2Item) (i : Option Nat) (s : SheetSt)
    (r0 : List (Nat × Rowinfo)) (w0 x0 : List (Nat × Nat)), (∀ x, B2Item.setting x ∈ items → x.isPlain = true) → s.rowinfo = rowMap r0 → s.colinfo = colMap w0 x0 →
    stepsB2 E f i s items = .ok s' →
    putAll E.cfg s.store ((withIxfe i items).flatMap fun q => q.2.cells E.cfg.fmtInfo (f q.1)) = .ok s'.store ∧
      s'.rowinfo = rowMap (r0 ++ (withIxfe i items).flatMap fun q => q.2.rows E.cfg.fmtInfo (f q.1) (ixfeIndex q.1)) ∧
      s'.colinfo = colMap (w0 ++ items.flatMap fun x => x.widths E.cfg.fmtInfo) (x0 ++ (withIxfe i items).flatMap fun q => q.2.defaults E.cfg.fmtInfo (f q.1)) ∧
      s'.merged = s.merged := by
  intro items
  induction items with
  | nil =>
    intro i s r0 w0 x0 _ h1 h2 h
    cases h
    exact ⟨rfl, by simpa [withIxfe] using h1, by simpa [withIxfe] using h2, rfl⟩
  | cons it items ih =>
    intro i s r0 w0 x0 hp h1 h2 h
    obtain ⟨s1, h3, h4⟩ := steps_cons h
    obtain ⟨p1, p2, p3, p4⟩ := step_parts (fun x hx => hp x (by rw [hx]; simp)) h3
    rw [h1, rowsInto_map] at p2
    rw [h2, widthsInto_map, defaultsInto_map] at p3
    obtain ⟨q1, q2, q3, q4⟩ := ih _ s1 _ _ _ (fun x hx => hp x (List.mem_cons_of_mem _ hx)) p2 p3 h4
    rw [withIxfe_cons]
    simp only [List.flatMap_cons]
    refine ⟨?_, ?_, ?_, q4.trans p4⟩
    · rw [putAll_append, p1]; exact q1
    · rw [q2, List.append_assoc]
    · rw [q3, List.append_assoc, List.append_assoc]

/-- A part of the sheet that only settings change. -/
structure Setting {β : Type} (π : SheetSt → β) : Prop where
  cells : ∀ s st ri ci, π { s with store := st, rowinfo := ri, colinfo := ci } = π s
  dims : ∀ s st a b, π { s with store := st, dimnrows := a, dimncols := b } = π s
  finish : ∀ s st a b, π { s with store := st, cookedNormal := a, cookedPageBreak := b } = π s
  window : ∀ (s : SheetSt) w a b c d, π { s with window2 := w, firstVisibleRowx := a, firstVisibleColx := b, gridlineColourRgb := c, gridlineColourIndex := d } = π s

theorem step_setting {β : Type} {π : SheetSt → β} (hπ : Setting π) {E : SheetEnv} {f : CellAttr → Nat} {g : Nat → Nat} {s s' : SheetSt} {it : B2Item}
    (h : stepB2 E f g s it = .ok s') : (∀ x, it ≠ .setting x) → π s' = π s := by
  intro hn
  unfold stepB2 SheetSt.puts at h
  obtain ⟨s1, h1, h⟩ := bind_ok h
  obtain ⟨st, h2, h1⟩ := bind_ok h1
  cases h1
  cases it with
  | setting x => exact absurd rfl (hn x)
  | window o top left auto r g b junk =>
    simp only [otherB2, windowB2] at h
    obtain ⟨k, _, h⟩ := bind_ok h
    cases h
    exact (hπ.window { s with store := st, rowinfo := _, colinfo := _ } _ _ _ _ _).trans (hπ.cells s st _ _)
  | _ =>
    cases h
    exact hπ.cells s st _ _

/-- The last setting counts. -/
theorem steps_last {β : Type} {π : SheetSt → β} (hπ : Setting π) {E : SheetEnv} {f : Option Nat → CellAttr → Nat} {sel : SheetItem → Option β}
    (hsel : ∀ s x s', x.isPlain = true → applyItem E s x = .ok s' → π s' = (sel x).getD (π s)) {s' : SheetSt} : ∀ (items : List B2Item) (i : Option Nat) (s : SheetSt),
    (∀ x, B2Item.setting x ∈ items → x.isPlain = true) → stepsB2 E f i s items = .ok s' → π s' = (((settingsB2 items).filterMap sel).getLast?).getD (π s) := by
  intro items
  induction items with
  | nil => intro i s _ h; cases h; rfl
  | cons it items ih =>
    intro i s hp h
    obtain ⟨s1, h3, h4⟩ := steps_cons h
    have hi := ih _ s1 (fun x hx => hp x (List.mem_cons_of_mem _ hx)) h4
    rw [hi]
    have other : (∀ x, it ≠ .setting x) → (((settingsB2 items).filterMap sel).getLast?).getD (π s1) = (((settingsB2 (it :: items)).filterMap sel).getLast?).getD (π s) := by
      intro hn
      rw [step_setting hπ h3 hn]
      have : settingsB2 (it :: items) = settingsB2 items := by cases it <;> first | rfl | exact absurd rfl (hn _)
      rw [this]
    cases it with
    | setting x =>
      have hx := hsel s x s1 (hp x (by simp)) h3
      have : settingsB2 (.setting x :: items) = x :: settingsB2 items := rfl
      rw [this, List.filterMap_cons]
      cases hs : sel x with
      | none => rw [hs] at hx; rw [hx]; rfl
      | some y =>
        rw [hs] at hx
        simp only
        rw [hx, List.getLast?_cons]
        cases ((settingsB2 items).filterMap sel).getLast? <;> rfl
    | _ => exact other (fun x hx => by cases hx)

/-- Settings add up. -/
theorem steps_append {β : Type} {π : SheetSt → List β} (hπ : Setting π) {E : SheetEnv} {f : Option Nat → CellAttr → Nat} {sel : SheetItem → List β}
    (hsel : ∀ s x s', x.isPlain = true → applyItem E s x = .ok s' → π s' = π s ++ sel x) {s' : SheetSt} : ∀ (items : List B2Item) (i : Option Nat) (s : SheetSt),
    (∀ x, B2Item.setting x ∈ items → x.isPlain = true) → stepsB2 E f i s items = .ok s' → π s' = π s ++ (settingsB2 items).flatMap sel := by
  intro items
  induction items with
  | nil => intro i s _ h; cases h; simp [settingsB2]
  | cons it items ih =>
    intro i s hp h
    obtain ⟨s1, h3, h4⟩ := steps_cons h
    have hi := ih _ s1 (fun x hx => hp x (List.mem_cons_of_mem _ hx)) h4
    rw [hi]
    have other : (∀ x, it ≠ .setting x) → π s1 ++ (settingsB2 items).flatMap sel = π s ++ (settingsB2 (it :: items)).flatMap sel := by
      intro hn
      rw [step_setting hπ h3 hn]
      have : settingsB2 (it :: items) = settingsB2 items := by cases it <;> first | rfl | exact absurd rfl (hn _)
      rw [this]
    cases it with
    | setting x =>
      have hx := hsel s x s1 (hp x (by simp)) h3
      have : settingsB2 (.setting x :: items) = x :: settingsB2 items := rfl
      rw [this, List.flatMap_cons, hx, List.append_assoc]
    | _ => exact other (fun x hx => by cases hx)

/-- The window: the five options, the others, and what the last record says. -/
theorem steps_window {E : SheetEnv} {f : Option Nat → CellAttr → Nat} {s' : SheetSt} : ∀ (items : List B2Item) (i : Option Nat) (s : SheetSt),
    (∀ x, B2Item.setting x ∈ items → x.isPlain = true) → stepsB2 E f i s items = .ok s' → s.window2.length = 12 →
    s'.window2.length = 12 ∧ s'.window2.drop 6 = s.window2.drop 6 ∧ match (windowsB2 items).getLast? with
      | none => s'.window2 = s.window2 ∧ s'.firstVisibleRowx = s.firstVisibleRowx ∧ s'.firstVisibleColx = s.firstVisibleColx ∧ s'.gridlineColourIndex = s.gridlineColourIndex
      | some (top, left, auto, rgb) => s'.window2 = [1, 1, 1, 1, 1, auto] ++ s.window2.drop 6 ∧ s'.firstVisibleRowx = top ∧ s'.firstVisibleColx = left ∧
          E.nearest rgb = .ok s'.gridlineColourIndex := by
  intro items
  induction items with
  | nil => intro i s _ h h12; cases h; exact ⟨h12, rfl, rfl, rfl, rfl, rfl⟩
  | cons it items ih =>
    intro i s hp h h12
    obtain ⟨s1, h3, h4⟩ := steps_cons h
    have ih' := ih _ s1 (fun x hx => hp x (List.mem_cons_of_mem _ hx)) h4
    have other : s1.window2 = s.window2 ∧ s1.firstVisibleRowx = s.firstVisibleRowx ∧ s1.firstVisibleColx = s.firstVisibleColx ∧
        s1.gridlineColourIndex = s.gridlineColourIndex → windowsB2 (it :: items) = windowsB2 items →
        s'.window2.length = 12 ∧ s'.window2.drop 6 = s.window2.drop 6 ∧ match (windowsB2 (it :: items)).getLast? with
          | none => s'.window2 = s.window2 ∧ s'.firstVisibleRowx = s.firstVisibleRowx ∧ s'.firstVisibleColx = s.firstVisibleColx ∧ s'.gridlineColourIndex = s.gridlineColourIndex
          | some (top, left, auto, rgb) => s'.window2 = [1, 1, 1, 1, 1, auto] ++ s.window2.drop 6 ∧ s'.firstVisibleRowx = top ∧ s'.firstVisibleColx = left ∧
              E.nearest rgb = .ok s'.gridlineColourIndex := by
      rintro ⟨e1, e2, e3, e4⟩ e5
      rw [e5]
      have := ih' (by rw [e1]; exact h12)
      rw [e1, e2, e3, e4] at this
      exact this
    unfold stepB2 SheetSt.puts at h3
    obtain ⟨t, h1, h⟩ := bind_ok h3
    obtain ⟨st, h2, h1⟩ := bind_ok h1
    cases h1
    cases it with
    | setting x =>
      have hpl := hp x (by simp)
      refine other ?_ rfl
      simp only [otherB2] at h
      cases x <;> first | (cases hpl; done) | (simp only [applyItem, Except.ok.injEq] at h; subst h; refine ⟨?_, ?_, ?_, ?_⟩ <;> (try split_ifs) <;> rfl)
    | window o top left auto r g b junk =>
      simp only [otherB2, windowB2] at h
      obtain ⟨k, hk, h⟩ := bind_ok h
      cases h
      obtain ⟨a0, a1, a2, a3, a4, a5, tl, htl⟩ : ∃ a0 a1 a2 a3 a4 a5 tl, s.window2 = a0 :: a1 :: a2 :: a3 :: a4 :: a5 :: tl := by
        rcases hw : s.window2 with _ | ⟨a0, _ | ⟨a1, _ | ⟨a2, _ | ⟨a3, _ | ⟨a4, _ | ⟨a5, tl⟩⟩⟩⟩⟩⟩ <;> rw [hw] at h12 <;> first | (simp at h12; done) | exact ⟨_, _, _, _, _, _, _, rfl⟩
      have hw : (List.replicate 5 1 ++ s.window2.drop 5).set 5 auto.toNat = [1, 1, 1, 1, 1, auto.toNat] ++ s.window2.drop 6 := by rw [htl]; rfl
      simp only [hw] at ih'
      have hlen : ([1, 1, 1, 1, 1, auto.toNat] ++ s.window2.drop 6).length = 12 := by simp [h12]
      obtain ⟨j1, j2, j3⟩ := ih' hlen
      have hdrop : ([1, 1, 1, 1, 1, auto.toNat] ++ s.window2.drop 6).drop 6 = s.window2.drop 6 := rfl
      rw [hdrop] at j2 j3
      refine ⟨j1, j2, ?_⟩
      have hcons : windowsB2 (.window o top left auto r g b junk :: items) = (top, left, auto.toNat, (r.toNat, g.toNat, b.toNat)) :: windowsB2 items := rfl
      rw [hcons, List.getLast?_cons]
      cases hl : (windowsB2 items).getLast? with
      | none =>
        rw [hl] at j3
        simp only [Option.getD_none] at j3 ⊢
        obtain ⟨k1, k2, k3, k4⟩ := j3
        exact ⟨k1, k2, k3, by rw [hk, k4]⟩
      | some q =>
        rw [hl] at j3
        exact j3
    | _ =>
      cases h
      exact other ⟨rfl, rfl, rfl, rfl⟩ rfl

/-! ## The whole sheet -/

theorem settings_append (a b : List B2Item) : settingsB2 (a ++ b) = settingsB2 a ++ settingsB2 b := List.filterMap_append
theorem windows_append (a b : List B2Item) : windowsB2 (a ++ b) = windowsB2 a ++ windowsB2 b := List.filterMap_append

theorem b2_plain {dec : Bytes → R PyStr} {F : B2File} (hF : F.Ok dec) (x : SheetItem) (h : B2Item.setting x ∈ F.items) : x.isPlain = true := (hF.items _ h).1

theorem cooked_other (s : SheetSt) : ∃ a b, updateCooked s = { s with cookedNormal := a, cookedPageBreak := b } := by
  unfold updateCooked
  by_cases h : s.window2.getD 11 0 ≠ 0
  · rw [if_pos h]; exact ⟨_, _, rfl⟩
  · rw [if_neg h]; exact ⟨_, _, rfl⟩

theorem finish_setting {β : Type} {π : SheetSt → β} (hπ : Setting π) {E : SheetEnv} {s3 s : SheetSt} (h : sheetFinish E s3 = .ok s) : π s = π s3 := by
  obtain ⟨a, b, e⟩ := cooked_other { s3 with store := s.store }
  rw [(finish_fields h).2, e]
  exact hπ.finish s3 _ _ _

theorem free_parts {x : B2Item} (h : x.isFree = true) (fi : Bool) (f : CellAttr → Nat) : x.cells fi f = [] := by
  cases x <;> first | rfl | cases h

/-- The cells, rows and columns. -/
theorem b2_parts {env : OpenEnv} {dec : Bytes → R PyStr} {F : B2File} {b0 b1 : Book} {o : OldSt} (h : B2Read env dec F b0 b1 o) (hF : F.Ok dec) :
    loadCells (o.env env).cfg (cellsB2 env.fi (xfOf (hasXfs b1) o) F.items) [] = .ok o.sheet.store ∧
      o.sheet.rowinfo = rowMap (rowsB2 env.fi (xfOf (hasXfs b1) o) F.items) ∧
      o.sheet.colinfo = colMap (widthsB2 env.fi F.items) (defaultsB2 env.fi (xfOf (hasXfs b1) o) F.items) ∧ o.sheet.merged = [] := by
  obtain ⟨s1, a, b, s3, e1, e2, e3⟩ := h.steps
  have hfi : (o.env env).cfg.fmtInfo = env.fi := rfl
  obtain ⟨p1, p2, p3, p4⟩ := steps_parts F.headItems none {} [] [] [] (fun x hx => b2_plain hF x (List.mem_append_left _ hx)) rowMap_nil.symm colMap_nil.symm e1
  have hc : ((withIxfe none F.headItems).flatMap fun q => q.2.cells (o.env env).cfg.fmtInfo (xfOf (hasXfs b1) o q.1)) = [] := by
    rw [List.flatMap_eq_nil_iff]
    intro q hq
    exact free_parts (hF.free _ (withIxfe_mem hq)) _ _
  rw [hc] at p1
  have hs1 : s1.store = Store.empty := by
    simp only [putAll, List.foldlM_nil, pure, Except.pure, Except.ok.injEq] at p1; exact p1.symm
  obtain ⟨q1, q2, q3, q4⟩ := steps_parts F.body (lastIxfe none F.headItems) { s1 with store := { s1.store with nrows := 0, ncols := 0 }, dimnrows := a, dimncols := b } _ _ _
    (fun x hx => b2_plain hF x (List.mem_append_right _ hx)) p2 p3 e2
  obtain ⟨f1, f2⟩ := finish_fields e3
  obtain ⟨ca, cb, ec⟩ := cooked_other { s3 with store := o.sheet.store }
  rw [ec] at f2
  rw [hs1] at q1
  have hm : s3.merged = [] := q4.trans p4
  rw [hm] at f1
  refine ⟨?_, ?_, ?_, ?_⟩
  · unfold cellsB2 loadCells
    rw [B2File.items, withIxfe_append, List.flatMap_append]
    rw [hfi] at hc q1
    rw [hc, List.nil_append]
    have : putAll (o.env env).cfg Store.empty ((withIxfe (lastIxfe none F.headItems) F.body).flatMap fun q => q.2.cells env.fi (xfOf (hasXfs b1) o q.1)) = .ok s3.store := q1
    unfold putAll at this
    rw [this]
    exact f1
  · rw [f2]
    show s3.rowinfo = _
    rw [q2, List.nil_append]
    unfold rowsB2
    rw [B2File.items, withIxfe_append, List.flatMap_append]
    rfl
  · rw [f2]
    show s3.colinfo = _
    rw [q3, List.nil_append, List.nil_append]
    unfold widthsB2 defaultsB2
    rw [B2File.items, withIxfe_append, List.flatMap_append, List.flatMap_append]
    rfl
  · rw [f2]; exact hm

theorem b2_last {β : Type} {π : SheetSt → β} (hπ : Setting π) {env : OpenEnv} {dec : Bytes → R PyStr} {F : B2File} {b0 b1 : Book} {o : OldSt}
    (h : B2Read env dec F b0 b1 o) (hF : F.Ok dec) (sel : SheetItem → Option β)
    (hsel : ∀ s x s', x.isPlain = true → applyItem (o.env env) s x = .ok s' → π s' = (sel x).getD (π s)) :
    π o.sheet = (((settingsB2 F.items).filterMap sel).getLast?).getD (π {}) := by
  obtain ⟨s1, a, b, s3, e1, e2, e3⟩ := h.steps
  have h1 := steps_last hπ hsel F.headItems none {} (fun x hx => b2_plain hF x (List.mem_append_left _ hx)) e1
  have h2 := steps_last hπ hsel F.body _ _ (fun x hx => b2_plain hF x (List.mem_append_right _ hx)) e2
  rw [hπ.dims s1 { s1.store with nrows := 0, ncols := 0 } a b] at h2
  rw [finish_setting hπ e3, h2, h1, B2File.items, settings_append, List.filterMap_append, List.getLast?_append]
  cases ((settingsB2 F.body).filterMap sel).getLast? <;> rfl

theorem b2_append {β : Type} {π : SheetSt → List β} (hπ : Setting π) {env : OpenEnv} {dec : Bytes → R PyStr} {F : B2File} {b0 b1 : Book} {o : OldSt}
    (h : B2Read env dec F b0 b1 o) (hF : F.Ok dec) (sel : SheetItem → List β) (h0 : π {} = [])
    (hsel : ∀ s x s', x.isPlain = true → applyItem (o.env env) s x = .ok s' → π s' = π s ++ sel x) : π o.sheet = (settingsB2 F.items).flatMap sel := by
  obtain ⟨s1, a, b, s3, e1, e2, e3⟩ := h.steps
  have h1 := steps_append hπ hsel F.headItems none {} (fun x hx => b2_plain hF x (List.mem_append_left _ hx)) e1
  have h2 := steps_append hπ hsel F.body _ _ (fun x hx => b2_plain hF x (List.mem_append_right _ hx)) e2
  rw [hπ.dims s1 { s1.store with nrows := 0, ncols := 0 } a b] at h2
  rw [finish_setting hπ e3, h2, h1, h0, List.nil_append, B2File.items, settings_append, List.flatMap_append]

theorem head_windows {F : B2File} (h : ∀ x ∈ F.headItems, x.isFree = true) : windowsB2 F.headItems = [] := by
  unfold windowsB2
  rw [List.filterMap_eq_nil_iff]
  intro x hx
  have := h x hx
  cases x <;> first | rfl | cases this

theorem b2_window {env : OpenEnv} {dec : Bytes → R PyStr} {F : B2File} {b0 b1 : Book} {o : OldSt} (h : B2Read env dec F b0 b1 o) (hF : F.Ok dec) :
    (match (windowsB2 F.items).getLast? with
      | none => o.sheet.window2 = defaultWindow.map bit ∧ o.sheet.firstVisibleRowx = 0 ∧ o.sheet.firstVisibleColx = 0 ∧ o.sheet.gridlineColourIndex = 0x40
      | some (top, left, auto, rgb) => o.sheet.window2 = [1, 1, 1, 1, 1, auto, 0, 1, 0, 0, 0, 0] ∧ o.sheet.firstVisibleRowx = top ∧ o.sheet.firstVisibleColx = left ∧
          (o.env env).nearest rgb = .ok o.sheet.gridlineColourIndex) ∧ o.sheet.window2.getD 11 0 = 0 := by
  obtain ⟨s1, a, b, s3, e1, e2, e3⟩ := h.steps
  obtain ⟨k1, k2, k3⟩ := steps_window F.headItems none {} (fun x hx => b2_plain hF x (List.mem_append_left _ hx)) e1 rfl
  rw [head_windows hF.free] at k3
  obtain ⟨l1, l2, l3, l4⟩ := k3
  obtain ⟨m1, m2, m3⟩ := steps_window F.body _ _ (fun x hx => b2_plain hF x (List.mem_append_right _ hx)) e2 k1
  obtain ⟨f1, f2⟩ := finish_fields e3
  obtain ⟨ca, cb, ec⟩ := cooked_other { s3 with store := o.sheet.store }
  rw [ec] at f2
  have hw : o.sheet.window2 = s3.window2 := by rw [f2]
  have hr : o.sheet.firstVisibleRowx = s3.firstVisibleRowx := by rw [f2]
  have hc : o.sheet.firstVisibleColx = s3.firstVisibleColx := by rw [f2]
  have hg : o.sheet.gridlineColourIndex = s3.gridlineColourIndex := by rw [f2]
  simp only [l1, l2, l3, l4] at m2 m3
  rw [B2File.items, windows_append, head_windows hF.free, List.nil_append, hw, hr, hc, hg]
  refine ⟨?_, ?_⟩
  · cases hl : (windowsB2 F.body).getLast? with
    | none => rw [hl] at m3; exact m3
    | some q => rw [hl] at m3; exact m3
  · have := congrArg (fun l => l.getD 5 0) m2
    simp only [List.getD_eq_getElem?_getD, List.getElem?_drop] at this
    rw [List.getD_eq_getElem?_getD, this]
    rfl

end Xlrd
