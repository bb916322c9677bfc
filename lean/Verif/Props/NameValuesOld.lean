import Verif.Spec.OldRefExpr
import Verif.Props.NameValues

/-!
# C70 what names refer to, in BIFF5 and BIFF7 workbooks
-/
set_option linter.unusedSimpArgs false
namespace Xlrd
open Spec

/-- The entries of the table are as the formulas say. -/
def OldGoodTbl (loc : OldSheets → Nat → Nat → Prop) (names : List NameObj) (t : NameTbl) : Prop :=
  ∀ (i : Nat) e x l, t[i]? = some (some e) → OldNameFormula names i x → OldRefVal loc names x l → ∃ o, e = { stack := [o], anyRel := false, anyErr := false } ∧ Means o l

/-- What evaluation needs to know of the book. -/
structure OldRefBook (loc : OldSheets → Nat → Nat → Prop) (env : FEnv) : Prop where
  bv : env.bv = 50 ∨ env.bv = 70
  loc : ∀ sh x y, loc sh x y → sh.unused.length = 8 ∧ (∀ (tok : Bytes) (c : UInt8) (rest : Bytes),
      sheets3d env.bv env.bk (tok ++ c :: (sh.enc ++ rest)) (tok.length : Int) = .ok ((x : Int), (y : Int))) ∧
    x < env.bk.sheetNames.length ∧ y < env.bk.sheetNames.length

theorem oldSheets_length (sh : OldSheets) (h : sh.unused.length = 8) : sh.enc.length = 14 := by simp [OldSheets.enc, le16_length, h]

theorem old_encAddr {bv : Nat} (h : bv = 50 ∨ bv = 70) (r c : Coord) : encAddr bv r c = encAddr 70 r c := by
  rcases h with rfl | rfl <;> rfl
theorem old_encArea {bv : Nat} (h : bv = 50 ∨ bv = 70) (r1 r2 c1 c2 : Coord) : encArea bv r1 r2 c1 c2 = encArea 70 r1 r2 c1 c2 := by
  rcases h with rfl | rfl <;> rfl
theorem old_rowCount {bv : Nat} (h : bv = 50 ∨ bv = 70) : rowCount bv = 16384 := by
  rcases h with rfl | rfl <;> rfl

/-- One token of a cell reference. -/
theorem old_evRef3d_at {loc : OldSheets → Nat → Nat → Prop} {env : FEnv} (hb : OldRefBook loc env) {sh : OldSheets} {x y r c : Nat} (hl : loc sh x y)
    (hr : r < 16384) (hc : c < 256) (pre rest : Bytes) (st : EvSt) :
    ∃ o, evRef3d env (pre ++ ((OldRefExpr.cell sh r c).tokens ++ rest)) (pre.length : Int) 1 st = .ok { st with stack := o :: st.stack } ∧
      Means o [⟨x, y + 1, r, r + 1, c, c + 1⟩] := by
  obtain ⟨hu, hs, hx, hy⟩ := hb.loc sh x y hl
  obtain ⟨t, ht⟩ := rangename3d_ok env.bk.sheetNames x y r r c c hx hy hc hc
  have ha := C47_cell_address env.bv (.abs r) (.abs c) ⟨by simpa [Coord.Fits, old_rowCount hb.bv] using hr, by simpa [Coord.Fits] using hc⟩ none none (pre ++ 0x3A :: sh.enc) rest
  rw [show (((pre ++ 0x3A :: sh.enc).length : Nat) : Int) = (pre.length : Int) + 15 by simp [oldSheets_length sh hu], old_encAddr hb.bv] at ha
  have hs := hs pre 0x3A (encAddr 70 (.abs r) (.abs c) ++ rest)
  have e1 : pre ++ ((OldRefExpr.cell sh r c).tokens ++ rest) = pre ++ 0x3A :: sh.enc ++ encAddr 70 (.abs r) (.abs c) ++ rest := by simp [OldRefExpr.tokens]
  have e2 : pre ++ ((OldRefExpr.cell sh r c).tokens ++ rest) = pre ++ 0x3A :: (sh.enc ++ (encAddr 70 (.abs r) (.abs c) ++ rest)) := by simp [OldRefExpr.tokens]
  refine ⟨{ kind := .ref, value := some (.refs [{ shtxlo := x, shtxhi := y + 1, rowxlo := r, rowxhi := r + 1, colxlo := c, colxhi := c + 1 }]), rank := LEAF_RANK, text := t }, ?_, rfl, rfl⟩
  unfold evRef3d
  rw [if_neg (by rcases hb.bv with h | h <;> rw [h] <;> omega)]
  conv_lhs => rw [show getCellAddr (pre ++ ((OldRefExpr.cell sh r c).tokens ++ rest)) ((pre.length : Int) + 15) env.bv true none none = .ok (addrOf (.abs r) (.abs c)) by
    rw [e1]; exact ha]
  conv_lhs => rw [show sheets3d env.bv env.bk (pre ++ ((OldRefExpr.cell sh r c).tokens ++ rest)) (pre.length : Int) = .ok ((x : Int), (y : Int)) by rw [e2]; exact hs]
  simp only [bind, Except.bind, pure, Except.pure, ref3dOpnd, mkRef3d, addrOf, Coord.num, Coord.isRel, Bool.or_self, Bool.false_eq_true, if_false, if_true, ht]
  simp only [Bool.or_false, decide_eq_false (show ¬ ((x : Int) < -1) by omega)]

/-- One token of an area reference. -/
theorem old_evArea3d_at {loc : OldSheets → Nat → Nat → Prop} {env : FEnv} (hb : OldRefBook loc env) {sh : OldSheets} {x y r1 r2 c1 c2 : Nat} (hl : loc sh x y)
    (hr1 : r1 < 16384) (hr2 : r2 < 16384) (hc1 : c1 < 256) (hc2 : c2 < 256) (pre rest : Bytes) (st : EvSt) :
    ∃ o, evArea3d env (pre ++ ((OldRefExpr.area sh r1 r2 c1 c2).tokens ++ rest)) (pre.length : Int) 1 st = .ok { st with stack := o :: st.stack } ∧
      Means o [⟨x, y + 1, r1, r2 + 1, c1, c2 + 1⟩] := by
  obtain ⟨hu, hs, hx, hy⟩ := hb.loc sh x y hl
  obtain ⟨t, ht⟩ := rangename3d_ok env.bk.sheetNames x y r1 r2 c1 c2 hx hy hc1 hc2
  have ha := C47_area_address env.bv (.abs r1) (.abs r2) (.abs c1) (.abs c2) ⟨by simpa [Coord.Fits, old_rowCount hb.bv] using hr1, by simpa [Coord.Fits] using hc1⟩
    ⟨by simpa [Coord.Fits, old_rowCount hb.bv] using hr2, by simpa [Coord.Fits] using hc2⟩ none none (pre ++ 0x3B :: sh.enc) rest
  rw [show (((pre ++ 0x3B :: sh.enc).length : Nat) : Int) = (pre.length : Int) + 15 by simp [oldSheets_length sh hu], old_encArea hb.bv] at ha
  have hs := hs pre 0x3B (encArea 70 (.abs r1) (.abs r2) (.abs c1) (.abs c2) ++ rest)
  have e1 : pre ++ ((OldRefExpr.area sh r1 r2 c1 c2).tokens ++ rest) = pre ++ 0x3B :: sh.enc ++ encArea 70 (.abs r1) (.abs r2) (.abs c1) (.abs c2) ++ rest := by
    simp [OldRefExpr.tokens]
  have e2 : pre ++ ((OldRefExpr.area sh r1 r2 c1 c2).tokens ++ rest) = pre ++ 0x3B :: (sh.enc ++ (encArea 70 (.abs r1) (.abs r2) (.abs c1) (.abs c2) ++ rest)) := by
    simp [OldRefExpr.tokens]
  refine ⟨{ kind := .ref, value := some (.refs [{ shtxlo := x, shtxhi := y + 1, rowxlo := r1, rowxhi := r2 + 1, colxlo := c1, colxhi := c2 + 1 }]), rank := LEAF_RANK, text := t }, ?_, rfl, rfl⟩
  unfold evArea3d
  rw [if_neg (by rcases hb.bv with h | h <;> rw [h] <;> omega)]
  conv_lhs => rw [show getCellRangeAddr (pre ++ ((OldRefExpr.area sh r1 r2 c1 c2).tokens ++ rest)) ((pre.length : Int) + 15) env.bv true none none =
    .ok (addrOf (.abs r1) (.abs c1), addrOf (.abs r2) (.abs c2)) by rw [e1]; exact ha]
  conv_lhs => rw [show sheets3d env.bv env.bk (pre ++ ((OldRefExpr.area sh r1 r2 c1 c2).tokens ++ rest)) (pre.length : Int) = .ok ((x : Int), (y : Int)) by rw [e2]; exact hs]
  simp only [bind, Except.bind, pure, Except.pure, ref3dOpnd, mkRef3d, addrOf, Coord.num, Coord.isRel, Bool.or_self, Bool.false_eq_true, if_false, if_true, ht]
  simp only [Bool.or_false, decide_eq_false (show ¬ ((x : Int) < -1) by omega)]

theorem old_nameRef_good {loc : OldSheets → Nat → Nat → Prop} {env : FEnv} {rc : NameTbl → Nat → Int → R NameTbl} {st st' : EvSt} {k : Nat} {e : OldRefExpr} {l : List Ref3D}
    (hrc : ∀ t i g t', OldGoodTbl loc env.bk.nameObjs t → rc t i g = .ok t' → OldGoodTbl loc env.bk.nameObjs t') (hg : OldGoodTbl loc env.bk.nameObjs st.tbl)
    (hk : OldNameFormula env.bk.nameObjs k e) (hv : OldRefVal loc env.bk.nameObjs e l) (h : nameRef env rc st k = .ok st') :
    ∃ o tbl, Means o l ∧ OldGoodTbl loc env.bk.nameObjs tbl ∧ st' = { st with stack := o :: st.stack, tbl := tbl } := by
  obtain ⟨ob, rest, h1, h2, h3, h4, h5⟩ := hk
  unfold nameRef at h
  rw [(idx_ok_nat _ _ _).mpr h1] at h
  simp only [bind, Except.bind] at h
  have hp : pyPos env.bk.nameObjs (k : Int) = k := by unfold pyPos; rw [if_neg (by omega)]; rfl
  rw [hp] at h
  cases h6 : evaluated rc st.tbl k (k : Int) with
  | error e => rw [h6] at h; cases h
  | ok tbl =>
    rw [h6] at h
    have ht : OldGoodTbl loc env.bk.nameObjs tbl := by
      unfold evaluated at h6
      split at h6
      · cases h6; exact hg
      · exact hrc _ _ _ _ hg h6
    simp only at h
    split at h
    · rename_i ev hev
      obtain ⟨o, rfl, ho⟩ := ht k ev e l hev ⟨ob, rest, h1, h2, h3, h4, h5⟩ hv
      unfold useName at h
      rw [if_neg (by simp [h2, h3])] at h
      simp only at h
      obtain ⟨t, _, h⟩ := bind_ok h
      cases h
      exact ⟨{ o with rank := LEAF_RANK, text := t }, tbl, ⟨ho.1, ho.2⟩, ht, rfl⟩
    · cases h

theorem old_refVal_ne {loc : OldSheets → Nat → Nat → Prop} {names : List NameObj} {x : OldRefExpr} {l : List Ref3D} (h : OldRefVal loc names x l) : l ≠ [] := by
  induction h <;> simp_all

theorem enc70_length (r c : Coord) : (encAddr 70 r c).length = 3 := by simp [encAddr, encCol, le16_length]
theorem encArea70_length (r1 r2 c1 c2 : Coord) : (encArea 70 r1 r2 c1 c2).length = 6 := by simp [encArea, encCol, le16_length]

/-- Evaluation of the tokens of an expression pushes the areas that it means. -/
theorem old_run_tokens {loc : OldSheets → Nat → Nat → Prop} {env : FEnv} (hb : OldRefBook loc env) {rc : NameTbl → Nat → Int → R NameTbl}
    (hrc : ∀ t i g t', OldGoodTbl loc env.bk.nameObjs t → rc t i g = .ok t' → OldGoodTbl loc env.bk.nameObjs t') (namex : Int) (data : Bytes) (len : Nat) (st' : EvSt)
    {x : OldRefExpr} {l : List Ref3D} (hv : OldRefVal loc env.bk.nameObjs x l) :
    ∀ (pre rest : Bytes) (fuel : Nat) (st : EvSt), data = pre ++ (x.tokens ++ rest) → pre.length + x.tokens.length ≤ len → OldGoodTbl loc env.bk.nameObjs st.tbl →
      evLoop env rc sztab3 namex data len fuel st pre.length = .ok st' →
      ∃ f o tbl, Means o l ∧ OldGoodTbl loc env.bk.nameObjs tbl ∧
        evLoop env rc sztab3 namex data len f { st with stack := o :: st.stack, tbl := tbl } ((pre.length + x.tokens.length : Nat) : Int) = .ok st' := by
  induction hv with
  | cell sh r c x y hl hr hc =>
    intro pre rest fuel st hd hlen hg h
    have hp : pre.length < len := by simp only [OldRefExpr.tokens, List.length_cons] at hlen; omega
    obtain ⟨f, q, h1, h⟩ := evLoop_ok hp h
    rw [evStep_class st (b := 0x3A) (rest := sh.enc ++ encAddr 70 (.abs r) (.abs c) ++ rest) (by rw [hd, drop_pre]; simp [OldRefExpr.tokens]) (by decide : _ = 0x1A)
      (by decide : _ = 1) (by decide) (sz := 18) (by decide) (by decide)] at h1
    obtain ⟨o, ho, hm⟩ := old_evRef3d_at hb hl hr hc pre rest st
    have e : evClass env rc namex data (pre.length : Int) 0x1A 1 st = .ok { st with stack := o :: st.stack } := by rw [hd]; simp [evClass]; exact ho
    rw [e] at h1
    cases h1
    refine ⟨f, o, st.tbl, hm, hg, ?_⟩
    rw [show ((pre.length + (OldRefExpr.cell sh r c).tokens.length : Nat) : Int) = (pre.length : Int) + 18 by simp [OldRefExpr.tokens, oldSheets_length sh (hb.loc sh x y hl).1, enc70_length]]
    exact h
  | area sh r1 r2 c1 c2 x y hl hr1 hr2 hc1 hc2 =>
    intro pre rest fuel st hd hlen hg h
    have hp : pre.length < len := by simp only [OldRefExpr.tokens, List.length_cons] at hlen; omega
    obtain ⟨f, q, h1, h⟩ := evLoop_ok hp h
    rw [evStep_class st (b := 0x3B) (rest := sh.enc ++ encArea 70 (.abs r1) (.abs r2) (.abs c1) (.abs c2) ++ rest) (by rw [hd, drop_pre]; simp [OldRefExpr.tokens])
      (by decide : _ = 0x1B) (by decide : _ = 1) (by decide) (sz := 21) (by decide) (by decide)] at h1
    obtain ⟨o, ho, hm⟩ := old_evArea3d_at hb hl hr1 hr2 hc1 hc2 pre rest st
    have e : evClass env rc namex data (pre.length : Int) 0x1B 1 st = .ok { st with stack := o :: st.stack } := by rw [hd]; simp [evClass]; exact ho
    rw [e] at h1
    cases h1
    refine ⟨f, o, st.tbl, hm, hg, ?_⟩
    rw [show ((pre.length + (OldRefExpr.area sh r1 r2 c1 c2).tokens.length : Nat) : Int) = (pre.length : Int) + 21 by
      simp [OldRefExpr.tokens, oldSheets_length sh (hb.loc sh x y hl).1, encArea70_length]]
    exact h
  | name k u e l hk hu12 hn hv _ =>
    intro pre rest fuel st hd hlen hg h
    have hp : pre.length < len := by simp only [OldRefExpr.tokens, List.length_cons] at hlen; omega
    obtain ⟨f, q, h1, h⟩ := evLoop_ok hp h
    have hd' : data.drop pre.length = 0x23 :: (le16 (k + 1) ++ (u ++ rest)) := by rw [hd, drop_pre]; simp [OldRefExpr.tokens]
    rw [evStep_class st hd' (by decide : _ = 3) (by decide : _ = 1) (by decide) (sz := 15) (by decide) (by decide)] at h1
    have hu := unpackH_at (data := data) (p := pre.length + 1) hk (by rw [← List.drop_drop, hd']; rfl)
    rw [show ((pre.length + 1 : Nat) : Int) + 2 = (pre.length : Int) + 3 by omega, show ((pre.length + 1 : Nat) : Int) = (pre.length : Int) + 1 by omega] at hu
    have e1 : evClass env rc namex data (pre.length : Int) 3 1 st = nameRef env rc st k := by
      simp [evClass, hu, bind, Except.bind]
    rw [e1] at h1
    cases h2 : nameRef env rc st k with
    | error e => rw [h2] at h1; cases h1
    | ok st1 =>
      rw [h2] at h1
      cases h1
      obtain ⟨o, tbl, hm, ht, rfl⟩ := old_nameRef_good hrc hg hn hv h2
      refine ⟨f, o, tbl, hm, ht, ?_⟩
      rw [show ((pre.length + (OldRefExpr.name k u).tokens.length : Nat) : Int) = (pre.length : Int) + 15 by simp [OldRefExpr.tokens, le16_length, hu12]]
      exact h
  | paren e l hv ih =>
    intro pre rest fuel st hd hlen hg h
    simp only [OldRefExpr.tokens, List.length_append, List.length_cons, List.length_nil, List.append_assoc] at hd hlen ⊢
    obtain ⟨f, o, tbl, hm, ht, h1⟩ := ih pre ([0x15] ++ rest) fuel st hd (by omega) hg h
    obtain ⟨f, q, h2, h⟩ := evLoop_ok (by omega) h1
    rw [evStep_plain _ (b := 0x15) (rest := rest) (by rw [hd, ← List.append_assoc, ← List.length_append, drop_pre]; rfl) (by decide : _ = 0x15) (by decide) (by decide)
      (by simp [evPlain]; rfl)] at h2
    cases h2
    exact ⟨f, o, tbl, hm, ht, by rw [show ((pre.length + (e.tokens.length + (0 + 1)) : Nat) : Int) = ((pre.length + e.tokens.length : Nat) : Int) + 1 by omega]; exact h⟩
  | mem size e l hs hv ih =>
    intro pre rest fuel st hd hlen hg h
    simp only [OldRefExpr.tokens, List.length_append, List.length_cons, List.cons_append, List.append_assoc, le16_length] at hd hlen ⊢
    obtain ⟨f, q, h1, h⟩ := evLoop_ok (by omega) h
    have hd' : data.drop pre.length = 0x29 :: (le16 size ++ (e.tokens ++ rest)) := by rw [hd, drop_pre]
    rw [evStep_class st hd' (by decide : _ = 9) (by decide : _ = 1) (by decide) (sz := 3) (by decide) (by decide)] at h1
    have hu := unpackH_at (data := data) (p := pre.length + 1) hs (by rw [← List.drop_drop, hd']; rfl)
    rw [show ((pre.length + 1 : Nat) : Int) + 2 = (pre.length : Int) + 3 by omega, show ((pre.length + 1 : Nat) : Int) = (pre.length : Int) + 1 by omega] at hu
    have e1 : evClass env rc namex data (pre.length : Int) 9 1 st = .ok st := by
      simp [evClass, hu, bind, Except.bind, pure, Except.pure]
    rw [e1] at h1
    cases h1
    have e2 : (pre.length : Int) + 3 = (((pre ++ 0x29 :: le16 size).length : Nat) : Int) := by simp [le16_length]
    simp only [e2] at h
    obtain ⟨f, o, tbl, hm, ht, h1⟩ := ih (pre ++ 0x29 :: le16 size) rest f st (by rw [hd]; simp) (by simp only [List.length_append, List.length_cons, le16_length]; omega) hg h
    refine ⟨f, o, tbl, hm, ht, ?_⟩
    rw [show ((pre.length + (2 + e.tokens.length + 1) : Nat) : Int) = (((pre ++ 0x29 :: le16 size).length + e.tokens.length : Nat) : Int) by
      simp only [List.length_append, List.length_cons, le16_length]; omega]
    exact h1
  | range a b x y _ _ iha ihb =>
    intro pre rest fuel st hd hlen hg h
    simp only [OldRefExpr.tokens, List.length_append, List.length_cons, List.length_nil, List.append_assoc] at hd hlen ⊢
    obtain ⟨f, oa, tbl, hma, ht, h1⟩ := iha pre (b.tokens ++ ([0x11] ++ rest)) fuel st hd (by omega) hg h
    rw [← List.length_append] at h1
    obtain ⟨f, ob, tbl, hmb, ht, h1⟩ := ihb (pre ++ a.tokens) ([0x11] ++ rest) f _ (by rw [hd]; simp) (by rw [List.length_append]; omega) ht h1
    simp only at h1
    obtain ⟨f, q, h2, h⟩ := evLoop_ok (by rw [List.length_append]; omega) h1
    obtain ⟨o, ho, hm⟩ := range_means hma hmb st.stack
    rw [evStep_plain _ (b := 0x11) (rest := rest) (by rw [hd, ← List.append_assoc, ← List.append_assoc, ← List.length_append, drop_pre]; rfl) (by decide : _ = 0x11) (by decide) (by decide)
      (by simp [evPlain, ho, bind, Except.bind]; rfl)] at h2
    cases h2
    refine ⟨f, o, tbl, hm, ht, ?_⟩
    rw [show ((pre.length + (a.tokens.length + (b.tokens.length + (0 + 1))) : Nat) : Int) = (((pre ++ a.tokens).length + b.tokens.length : Nat) : Int) + 1 by
      rw [List.length_append]; omega]
    exact h
  | isect a b x y _ _ iha ihb =>
    intro pre rest fuel st hd hlen hg h
    simp only [OldRefExpr.tokens, List.length_append, List.length_cons, List.length_nil, List.append_assoc] at hd hlen ⊢
    obtain ⟨f, oa, tbl, hma, ht, h1⟩ := iha pre (b.tokens ++ ([0x0F] ++ rest)) fuel st hd (by omega) hg h
    rw [← List.length_append] at h1
    obtain ⟨f, ob, tbl, hmb, ht, h1⟩ := ihb (pre ++ a.tokens) ([0x0F] ++ rest) f _ (by rw [hd]; simp) (by rw [List.length_append]; omega) ht h1
    simp only at h1
    obtain ⟨f, q, h2, h⟩ := evLoop_ok (by rw [List.length_append]; omega) h1
    obtain ⟨o, ho, hm⟩ := isect_means hma hmb st.stack
    rw [evStep_plain _ (b := 0x0F) (rest := rest) (by rw [hd, ← List.append_assoc, ← List.append_assoc, ← List.length_append, drop_pre]; rfl) (by decide : _ = 0x0F) (by decide) (by decide)
      (by simp [evPlain, ho, bind, Except.bind]; rfl)] at h2
    cases h2
    refine ⟨f, o, tbl, hm, ht, ?_⟩
    rw [show ((pre.length + (a.tokens.length + (b.tokens.length + (0 + 1))) : Nat) : Int) = (((pre ++ a.tokens).length + b.tokens.length : Nat) : Int) + 1 by
      rw [List.length_append]; omega]
    exact h
  | union a b l y hva _ iha ihb =>
    intro pre rest fuel st hd hlen hg h
    simp only [OldRefExpr.tokens, List.length_append, List.length_cons, List.length_nil, List.append_assoc] at hd hlen ⊢
    obtain ⟨f, oa, tbl, hma, ht, h1⟩ := iha pre (b.tokens ++ ([0x10] ++ rest)) fuel st hd (by omega) hg h
    rw [← List.length_append] at h1
    obtain ⟨f, ob, tbl, hmb, ht, h1⟩ := ihb (pre ++ a.tokens) ([0x10] ++ rest) f _ (by rw [hd]; simp) (by rw [List.length_append]; omega) ht h1
    simp only at h1
    obtain ⟨f, q, h2, h⟩ := evLoop_ok (by rw [List.length_append]; omega) h1
    obtain ⟨o, ho, hm⟩ := union_means (old_refVal_ne hva) hma hmb st.stack
    rw [evStep_plain _ (b := 0x10) (rest := rest) (by rw [hd, ← List.append_assoc, ← List.append_assoc, ← List.length_append, drop_pre]; rfl) (by decide : _ = 0x10) (by decide) (by decide)
      (by simp [evPlain, ho, bind, Except.bind]; rfl)] at h2
    cases h2
    refine ⟨f, o, tbl, hm, ht, ?_⟩
    rw [show ((pre.length + (a.tokens.length + (b.tokens.length + (0 + 1))) : Nat) : Int) = (((pre ++ a.tokens).length + b.tokens.length : Nat) : Int) + 1 by
      rw [List.length_append]; omega]
    exact h

theorem old_tokens_ne (x : OldRefExpr) : x.tokens.length ≠ 0 := by
  induction x <;> simp [OldRefExpr.tokens, *]

theorem old_good_kept {loc : OldSheets → Nat → Nat → Prop} {env : FEnv} (hb : OldRefBook loc env) :
    ∀ (k : Nat) (t : NameTbl) (i : Nat) (g : Int) (t' : NameTbl), OldGoodTbl loc env.bk.nameObjs t → evaluateName env k t i g = .ok t' →
      OldGoodTbl loc env.bk.nameObjs t' := by
  apply evaluateName_inv
  intro k t i g o tab st hg ho htab hrc h hst j e x l hj hn hv
  rcases getElem?_set_cases _ _ _ _ _ hj with ⟨rfl, he⟩ | hj
  · cases he
    obtain ⟨o', rest, h1, h2, h3, h4, h5⟩ := hn
    rw [ho] at h1
    cases h1
    have ht : tab = sztab3 := by
      rcases hb.bv with h | h <;> rw [h] at htab <;> simpa [szdict] using htab.symm
    subst ht
    rw [if_neg (by rw [h5]; exact old_tokens_ne x)] at h
    obtain ⟨f, op, tbl, hm, _, h6⟩ := old_run_tokens hb hrc g o.rawFormula o.basicFormulaLen st hv [] rest o.basicFormulaLen { stack := [], tbl := t } h4
      (by rw [h5]; simp) hg h
    have h7 : ∀ f s, evLoop env (evaluateName env k) sztab3 g o.rawFormula o.basicFormulaLen f s ((([] : Bytes).length + x.tokens.length : Nat) : Int) = .ok s := by
      intro f s
      cases f <;> simp only [evLoop] <;> rw [if_neg (by rw [h5]; simp)]
    rw [h7] at h6
    cases h6
    exact ⟨op, rfl, hm⟩
  · exact hst j e x l hj hn hv

theorem old_bookNames_spec {loc : OldSheets → Nat → Nat → Prop} {env : FEnv} (hb : OldRefBook loc env) {tbl : NameTbl} (h : bookNames env = .ok tbl) :
    OldGoodTbl loc env.bk.nameObjs tbl ∧ Filled env.bk.nameObjs.length (fun j => ∃ o, env.bk.nameObjs[j]? = some o ∧ o.macroFlag = 0 ∧ o.binary = 0) tbl := by
  refine bookNames_inv (old_good_kept hb) ?_ h
  intro i e x l hi
  rw [List.getElem?_map] at hi
  cases h1 : env.bk.nameObjs[i]? with
  | none => rw [h1] at hi; cases hi
  | some o => rw [h1] at hi; cases hi

theorem old_nameFormula_mono {names names' : List NameObj} (hm : ∀ (i : Nat) o, names[i]? = some o → ∃ s, names'[i]? = some { o with nameIndex := i, scope := some s })
    {k : Nat} {e : OldRefExpr} (h : OldNameFormula names k e) : OldNameFormula names' k e := by
  obtain ⟨o, rest, h1, h2, h3, h4, h5⟩ := h
  obtain ⟨s, hs⟩ := hm k o h1
  exact ⟨_, rest, hs, h2, h3, h4, h5⟩

theorem old_refVal_mono {loc : OldSheets → Nat → Nat → Prop} {names names' : List NameObj}
    (hm : ∀ (i : Nat) o, names[i]? = some o → ∃ s, names'[i]? = some { o with nameIndex := i, scope := some s }) {x : OldRefExpr} {l : List Ref3D}
    (h : OldRefVal loc names x l) : OldRefVal loc names' x l := by
  induction h with
  | cell sh r c x y h1 h2 h3 => exact .cell sh r c x y h1 h2 h3
  | area sh r1 r2 c1 c2 x y h1 h2 h3 h4 h5 => exact .area sh r1 r2 c1 c2 x y h1 h2 h3 h4 h5
  | name k u e l h1 h2 h3 _ ih => exact .name k u e l h1 h2 (old_nameFormula_mono hm h3) ih
  | paren e l _ ih => exact .paren e l ih
  | mem size e l h1 _ ih => exact .mem size e l h1 ih
  | range a b x y _ _ iha ihb => exact .range a b x y iha ihb
  | isect a b x y _ _ iha ihb => exact .isect a b x y iha ihb
  | union a b l y _ _ iha ihb => exact .union a b l y iha ihb

/-! ## C70 -/

theorem oldLocal_range {b b' : Book} (hb : SameTables b b') {base : Int} {sheets : List SheetRec} (hl : SheetLists base sheets b') {bv : Nat} (hbv : bv < 80)
    {sh : OldSheets} {x y : Nat} (h : OldLocal sheets sh x y) : sh.unused.length = 8 ∧ (∀ (tok : Bytes) (c : UInt8) (rest : Bytes),
      sheets3d bv b (tok ++ c :: (sh.enc ++ rest)) (tok.length : Int) = .ok ((x : Int), (y : Int))) ∧
    x < b.sheetNames.length ∧ y < b.sheetNames.length := by
  obtain ⟨hext, hu, hle, hsmall, s1, s2, h1, h2, w1, w2, rfl, rfl⟩ := h
  have lt : ∀ (i : Nat) (s : SheetRec), sheets[i]? = some s → s.isWorksheet = true → worksheetNo sheets i < b.sheetNames.length := by
    intro i s hi hw
    have hlt := (List.getElem?_eq_some_iff.mp hi).1
    have e : sheets = sheets.take i ++ s :: sheets.drop (i + 1) := by
      conv_lhs => rw [← List.take_append_drop i sheets]
      rw [List.drop_eq_getElem_cons hlt, (List.getElem?_eq_some_iff.mp hi).2]
    rw [hb.sheetNames, hl.names, List.length_map]
    conv_rhs => rw [e, List.filter_append, List.filter_cons, if_pos hw, List.length_append, List.length_cons]
    unfold worksheetNo
    omega
  refine ⟨hu, ?_, lt _ _ h1 w1, lt _ _ h2 w2⟩
  intro tok c rest
  obtain ⟨k, unused, first, last⟩ := sh
  simp only [OldSheets.enc] at *
  unfold sheets3d
  rw [if_neg (by omega)]
  have hlen : (le16 k ++ unused ++ le16 first ++ le16 last).length = 14 := by simp [le16_length, hu]
  have hd : (tok ++ c :: ((le16 k ++ unused ++ le16 first ++ le16 last) ++ rest)).drop (tok.length + 1) =
      (le16 k ++ unused ++ le16 first ++ le16 last) ++ rest := by
    rw [← List.drop_drop, List.drop_left]
    rfl
  have hsl := slice_at hd hlen
  push_cast at hsl
  rw [show (tok.length : Int) + 15 = (tok.length : Int) + 1 + 14 by ring, hsl, unpackN_ok hlen]
  simp only [bind, Except.bind]
  have e : le16 k ++ unused ++ le16 first ++ le16 last = le16 k ++ (unused ++ (le16 first ++ le16 last)) := by simp
  have fskip : ∀ (x y : Bytes) (i : Nat), x.length ≤ i → fld (x ++ y) i 2 = fld y (i - x.length) 2 := by
    intro x y i hi
    unfold fld
    rw [List.drop_append, List.drop_eq_nil_of_le hi, List.nil_append]
  have f1 : fld (le16 k ++ unused ++ le16 first ++ le16 last) 0 2 = k := by rw [e, fld_head _ (by omega)]
  have f2 : fld (le16 k ++ unused ++ le16 first ++ le16 last) 10 2 = first := by
    rw [e, fskip _ _ 10 (by rw [le16_length]; omega), le16_length, fskip _ _ _ (by omega), hu]
    exact fld_head _ (by omega) _
  have f3 : fld (le16 k ++ unused ++ le16 first ++ le16 last) 12 2 = last := by
    rw [e, fskip _ _ 12 (by rw [le16_length]; omega), le16_length, fskip _ _ _ (by omega), hu, fskip _ _ _ (by rw [le16_length]), le16_length]
    exact fld_only _ (by omega)
  rw [f1, f2, f3]
  have g1 : ¬ sgn 16 k > 0 := by
    unfold sgn
    by_cases hk : k < 2 ^ (16 - 1)
    · rw [if_pos hk]; omega
    · rw [if_neg hk]; omega
  have g2 : sgn 16 first = (first : Int) := by unfold sgn; rw [if_pos (by omega)]
  have g3 : sgn 16 last = (last : Int) := by unfold sgn; rw [if_pos (by omega)]
  rw [g2, g3]
  unfold externRange57
  have hloc : localRange b (-103) first last = localRange b' (-103) first last := by
    unfold localRange; rw [hb.sheetsMap]
  rw [if_neg g1, if_neg (by omega), hloc, localRange_ok hl _ h1 h2 hle, if_pos ⟨w1, w2⟩]
  rfl

/-- **C70** (BIFF5 and BIFF7).  Every ordinary name of which the formula is an expression of references (`OldRefExpr`) has been evaluated to a reference
to exactly the areas that the expression means. -/
theorem C70_old_name_areas (env : BookEnv) (h57 : env.bv = 50 ∨ env.bv = 70) (pre post eof : Bytes) (he : eof.length < 65536) (items : List GItem)
    (hok : GlobalsOk env.bv items) (sheets : List SheetRec) (hsh : Sheets env.bv (textAt env) items sheets)
    (names : List NameObj) (hn : Names env.bv (textAt env) items names) (b : Book) (p : Int)
    (h : parseGlobals env (pre ++ encGlobals items eof ++ post) newBook (pre.length : Int) = .ok (b, p))
    (fenv : FEnv) (hbv : fenv.bv = env.bv) (hb : SameTables fenv.bk b) (tbl : NameTbl) (ht : bookNames fenv = .ok tbl)
    (i : Nat) (x : OldRefExpr) (l : List Ref3D) (hx : OldNameFormula names i x) (hv : OldRefVal (OldLocal sheets) names x l) :
    ∃ e o, tbl[i]? = some (some e) ∧ e.result = some o ∧ o.kind = .ref ∧ o.value = some (.refs (l.map fun a => { toRef3D := a })) ∧
      opndRefs e.result = .ok (some l) := by
  have h50 : 50 ≤ env.bv := by omega
  have hl : SheetLists env.base sheets b := by
    obtain ⟨f, b1, _, h4, h3, _⟩ := parse_ok he hok h
    have hl1 := sheets_items h50 hsh h4
    obtain ⟨os, _, _, _, _, _, rfl⟩ := eof_frame h3
    exact hl1.congr rfl rfl rfl rfl rfl
  obtain ⟨_, hnames⟩ := C44_names env h50 pre post eof he items hok names hn sheets hsh b p h
  have hm : ∀ (i : Nat) o, names[i]? = some o → ∃ s, fenv.bk.nameObjs[i]? = some { o with nameIndex := i, scope := some s } := by
    intro i o hi
    obtain ⟨s, hs, _⟩ := hnames i o hi
    exact ⟨s, by rw [hb.names]; exact hs⟩
  have hrb : OldRefBook (OldLocal sheets) fenv := ⟨by rw [hbv]; exact h57, fun sh x y hloc => oldLocal_range hb hl (by omega) hloc⟩
  obtain ⟨hg, hf⟩ := old_bookNames_spec hrb ht
  have hx' := old_nameFormula_mono hm hx
  obtain ⟨o, rest, h1, h2, h3, _, _⟩ := hx'
  obtain ⟨e, he⟩ := hf.2 i ⟨o, h1, h2, h3⟩
  obtain ⟨op, rfl, hop⟩ := hg i e x l he (old_nameFormula_mono hm hx) (old_refVal_mono hm hv)
  refine ⟨_, op, he, rfl, hop.1, hop.2, ?_⟩
  simp only [NameEval.result, opndRefs, hop.1, hop.2, if_true, List.map_map]
  refine congrArg Except.ok (congrArg some ?_)
  conv_rhs => rw [← List.map_id l]
  rfl

/-- **C70** (`Name.cell`, BIFF5 and BIFF7). -/
theorem C70_old_cell (env : BookEnv) (h57 : env.bv = 50 ∨ env.bv = 70) (pre post eof : Bytes) (he : eof.length < 65536) (items : List GItem)
    (hok : GlobalsOk env.bv items) (sheets : List SheetRec) (hsh : Sheets env.bv (textAt env) items sheets)
    (names : List NameObj) (hn : Names env.bv (textAt env) items names) (b : Book) (p : Int)
    (h : parseGlobals env (pre ++ encGlobals items eof ++ post) newBook (pre.length : Int) = .ok (b, p))
    (fenv : FEnv) (hbv : fenv.bv = env.bv) (hb : SameTables fenv.bk b) (tbl : NameTbl) (ht : bookNames fenv = .ok tbl)
    (i : Nat) (x : OldRefExpr) (hx : OldNameFormula names i x) (s row col : Nat)
    (hv : OldRefVal (OldLocal sheets) names x [⟨s, s + 1, row, row + 1, col, col + 1⟩]) (oenv : OpenEnv) (lib : Lib) :
    ∃ e res, tbl[i]? = some (some e) ∧ opndRefs e.result = .ok res ∧
      (nameCell oenv lib res).1 = (sheetByIndex oenv lib s).1.map fun sh => (sh, (row : Int), (col : Int)) := by
  obtain ⟨e, _, h1, _, _, _, h2⟩ := C70_old_name_areas env h57 pre post eof he items hok sheets hsh names hn b p h fenv hbv hb tbl ht i x _ hx hv
  exact ⟨e, _, h1, h2, (C45_cell oenv lib _).1 s row col (by omega) rfl⟩

/-- **C70** (`Name.area2d`, BIFF5 and BIFF7). -/
theorem C70_old_area2d (env : BookEnv) (h57 : env.bv = 50 ∨ env.bv = 70) (pre post eof : Bytes) (he : eof.length < 65536) (items : List GItem)
    (hok : GlobalsOk env.bv items) (sheets : List SheetRec) (hsh : Sheets env.bv (textAt env) items sheets)
    (names : List NameObj) (hn : Names env.bv (textAt env) items names) (b : Book) (p : Int)
    (h : parseGlobals env (pre ++ encGlobals items eof ++ post) newBook (pre.length : Int) = .ok (b, p))
    (fenv : FEnv) (hbv : fenv.bv = env.bv) (hb : SameTables fenv.bk b) (tbl : NameTbl) (ht : bookNames fenv = .ok tbl)
    (i : Nat) (x : OldRefExpr) (hx : OldNameFormula names i x) (s r1 r2 c1 c2 : Nat)
    (hv : OldRefVal (OldLocal sheets) names x [⟨s, s + 1, r1, r2, c1, c2⟩]) (oenv : OpenEnv) (lib : Lib) :
    ∃ e res, tbl[i]? = some (some e) ∧ opndRefs e.result = .ok res ∧
      (∀ e', (sheetByIndex oenv lib s).1 = .error e' → (nameArea2d oenv lib res false).1 = .error e') ∧
      ∀ sh, (sheetByIndex oenv lib s).1 = .ok sh → (nameArea2d oenv lib res false).1 = .ok (sh, (r1 : Int), (r2 : Int), (c1 : Int), (c2 : Int)) := by
  obtain ⟨e, _, h1, _, _, _, h2⟩ := C70_old_name_areas env h57 pre post eof he items hok sheets hsh names hn b p h fenv hbv hb tbl ht i x _ hx hv
  refine ⟨e, _, h1, h2, ?_⟩
  have := (C45_area2d oenv lib (some [⟨s, s + 1, r1, r2, c1, c2⟩]) false).1 _ rfl (by simp) rfl (by simp) (by simp)
  exact ⟨this.1, fun sh hs => (this.2 sh hs).1 rfl⟩

end Xlrd
