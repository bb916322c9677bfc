import Verif.Spec.RelExpr
import Verif.Props.NameValuesOld

/-!
# C85 names that refer to cells relative to where they are used
-/
set_option linter.unusedSimpArgs false
namespace Xlrd
open Spec

/-- A reference and the area for which it stands. -/
def Follow (x : RelRef) (m : MovingArea) : Prop := x.relflags = m.moves ∧ ∀ sht row col, resolve x sht row col = m.at sht row col

/-- The operand for a list of areas. -/
structure StandsFor (o : Opnd) (l : List MovingArea) : Prop where
  value : ∃ refs, o.value = some (.refs refs) ∧ List.Forall₂ Follow refs l
  rel : SomeMove l → o.kind = .relref
  abs : ¬ SomeMove l → o.kind = .ref

/-- The entries of the table are as the formulas say. -/
def RelTbl (bv : Nat) (loc : Bytes → Nat → Nat → Prop) (names : List NameObj) (t : NameTbl) : Prop :=
  ∀ (i : Nat) e x l, t[i]? = some (some e) → RelFormula bv names i x → RelVal bv loc names x l → ∃ o rel, e = { stack := [o], anyRel := rel, anyErr := false } ∧ StandsFor o l

/-- What evaluation needs to know of the book. -/
structure RelBook (loc : Bytes → Nat → Nat → Prop) (env : FEnv) : Prop where
  bv : env.bv = 50 ∨ env.bv = 70 ∨ env.bv = 80
  loc : ∀ sh x y, loc sh x y → sh.length = (if env.bv ≥ 80 then 2 else 14) ∧ (∀ (tok : Bytes) (c : UInt8) (rest : Bytes),
      sheets3d env.bv env.bk (tok ++ c :: (sh ++ rest)) (tok.length : Int) = .ok ((x : Int), (y : Int)))

theorem shift_num (c : Coord) (base : Int) : c.num + (if c.isRel then base else 0) = c.from base := by
  cases c with
  | abs n => simp [Coord.num, Coord.isRel, Coord.from]
  | rel k => simp only [Coord.num, Coord.isRel, Coord.from, if_true]; omega
theorem shift_num_succ (c : Coord) (base : Int) : c.num + 1 + (if c.isRel then base else 0) = c.from base + 1 := by
  rw [← shift_num]; omega

/-- The operand of a reference without sheets. -/
theorem here_stands {o : Opnd} (r1 r2 c1 c2 : Coord) (hk : o.kind = .relref)
    (hv : o.value = some (.refs [{ shtxlo := 0, shtxhi := 1, rowxlo := r1.num, rowxhi := r2.num + 1, colxlo := c1.num, colxhi := c2.num + 1
                                   relflags := [true, true, r1.isRel, r2.isRel, c1.isRel, c2.isRel] }])) :
    StandsFor o [⟨[true, true, r1.isRel, r2.isRel, c1.isRel, c2.isRel],
      fun sht row col => ⟨sht, sht + 1, r1.from row, r2.from row + 1, c1.from col, c2.from col + 1⟩⟩] := by
  refine ⟨⟨_, hv, .cons ⟨rfl, ?_⟩ .nil⟩, fun _ => hk, fun h => absurd ⟨_, List.mem_singleton.mpr rfl, by simp⟩ h⟩
  intro sht row col
  simp only [resolve, List.getD_cons_zero, List.getD_cons_succ, if_true, shift_num, shift_num_succ]
  simp only [Int.zero_add, Int.add_comm 1 sht]

/-- The operand of a reference with sheets. -/
theorem sheets_stands {o : Opnd} (x y : Nat) (r1 r2 c1 c2 : Coord) (hk : o.kind = if (r1.isRel || c1.isRel || r2.isRel || c2.isRel) = true then .relref else .ref)
    (hv : o.value = some (.refs [mkRef3d ((x : Int), (y : Int)) (addrOf r1 c1) (addrOf r2 c2)])) :
    StandsFor o [⟨[false, false, r1.isRel, r2.isRel, c1.isRel, c2.isRel],
      fun _ row col => ⟨x, y + 1, r1.from row, r2.from row + 1, c1.from col, c2.from col + 1⟩⟩] := by
  refine ⟨⟨_, hv, .cons ⟨rfl, ?_⟩ .nil⟩, ?_, ?_⟩
  · intro sht row col
    simp only [resolve, mkRef3d, addrOf, List.getD_cons_zero, List.getD_cons_succ, if_true, shift_num, shift_num_succ, Bool.false_eq_true, if_false, Int.add_zero]
  · rintro ⟨m, hm, h⟩
    rw [List.mem_singleton] at hm
    subst hm
    rw [hk, if_pos]
    simp only [List.mem_cons, List.not_mem_nil, or_false, Bool.true_eq, Bool.false_eq_true, false_or] at h
    simp only [Bool.or_eq_true]
    rcases h with h | h | h | h <;> simp [h]
  · intro h
    rw [hk, if_neg]
    intro hc
    refine h ⟨_, List.mem_singleton.mpr rfl, ?_⟩
    simp only [Bool.or_eq_true] at hc
    simp only [List.mem_cons, List.not_mem_nil, or_false, Bool.true_eq, Bool.false_eq_true, false_or]
    rcases hc with ((h | h) | h) | h <;> simp [h]

/-- One token of a cell reference without a sheet. -/
theorem evRef_here {env : FEnv} {r c : Coord} (hf : AddrFits env.bv r c) (pre rest : Bytes) (st : EvSt) :
    ∃ o, evRef env (pre ++ ((RelExpr.here r c).tokens env.bv ++ rest)) (pre.length : Int) 1 st = .ok { st with stack := o :: st.stack, anyRel := true } ∧
      StandsFor o [⟨[true, true, r.isRel, r.isRel, c.isRel, c.isRel],
        fun sht row col => ⟨sht, sht + 1, r.from row, r.from row + 1, c.from col, c.from col + 1⟩⟩] := by
  have ha := C47_cell_address env.bv r c hf none none (pre ++ [(0x24 : UInt8)]) rest
  rw [show (((pre ++ [(0x24 : UInt8)]).length : Nat) : Int) = (pre.length : Int) + 1 by simp] at ha
  unfold evRef
  rw [show pre ++ ((RelExpr.here r c).tokens env.bv ++ rest) = pre ++ [0x24] ++ encAddr env.bv r c ++ rest by simp [RelExpr.tokens], ha]
  exact ⟨_, rfl, here_stands r r c c rfl rfl⟩

theorem evArea_here {env : FEnv} {r1 r2 c1 c2 : Coord} (hf1 : AddrFits env.bv r1 c1) (hf2 : AddrFits env.bv r2 c2) (pre rest : Bytes) (st : EvSt) :
    ∃ o, evArea env (pre ++ ((RelExpr.hereArea r1 r2 c1 c2).tokens env.bv ++ rest)) (pre.length : Int) 1 st = .ok { st with stack := o :: st.stack, anyRel := true } ∧
      StandsFor o [⟨[true, true, r1.isRel, r2.isRel, c1.isRel, c2.isRel],
        fun sht row col => ⟨sht, sht + 1, r1.from row, r2.from row + 1, c1.from col, c2.from col + 1⟩⟩] := by
  have ha := C47_area_address env.bv r1 r2 c1 c2 hf1 hf2 none none (pre ++ [(0x25 : UInt8)]) rest
  rw [show (((pre ++ [(0x25 : UInt8)]).length : Nat) : Int) = (pre.length : Int) + 1 by simp] at ha
  unfold evArea
  rw [show pre ++ ((RelExpr.hereArea r1 r2 c1 c2).tokens env.bv ++ rest) = pre ++ [0x25] ++ encArea env.bv r1 r2 c1 c2 ++ rest by simp [RelExpr.tokens], ha]
  exact ⟨_, rfl, here_stands r1 r2 c1 c2 rfl rfl⟩

theorem ref3dOpnd_ok {bk : Book} {r : RelRef} {isRel : Bool} {br bc : Option Int} {r1c1 : Bool} {o : Opnd} (h : ref3dOpnd bk 1 r isRel br bc r1c1 = .ok o) :
    o.kind = (if isRel = true then .relref else .ref) ∧ o.value = some (.refs [r]) := by
  unfold ref3dOpnd at h
  cases isRel with
  | true =>
    simp only [if_true] at h
    obtain ⟨t, _, h⟩ := bind_ok h
    cases h
    exact ⟨rfl, rfl⟩
  | false =>
    simp only [Bool.false_eq_true, if_false] at h
    obtain ⟨t, _, h⟩ := bind_ok h
    cases h
    exact ⟨rfl, rfl⟩

/-- One token of a cell reference with sheets. -/
theorem evRef3d_rel {loc : Bytes → Nat → Nat → Prop} {env : FEnv} (hb : RelBook loc env) {sh : Bytes} {x y : Nat} (hl : loc sh x y) {r c : Coord}
    (hf : AddrFits env.bv r c) (pre rest : Bytes) (st st' : EvSt)
    (h : evRef3d env (pre ++ ((RelExpr.cell sh r c).tokens env.bv ++ rest)) (pre.length : Int) 1 st = .ok st') :
    ∃ o rel, st' = { st with stack := o :: st.stack, anyRel := rel } ∧ StandsFor o [⟨[false, false, r.isRel, r.isRel, c.isRel, c.isRel],
        fun _ row col => ⟨x, y + 1, r.from row, r.from row + 1, c.from col, c.from col + 1⟩⟩] := by
  obtain ⟨hlen, hs⟩ := hb.loc sh x y hl
  have ha := C47_cell_address env.bv r c hf none none (pre ++ 0x3A :: sh) rest
  have hp : (((pre ++ 0x3A :: sh).length : Nat) : Int) = if env.bv ≥ 80 then (pre.length : Int) + 3 else pre.length + 15 := by
    rw [List.length_append, List.length_cons, hlen]
    by_cases h8 : env.bv ≥ 80
    · rw [if_pos h8, if_pos h8]; omega
    · rw [if_neg h8, if_neg h8]; omega
  rw [hp] at ha
  have hs := hs pre 0x3A (encAddr env.bv r c ++ rest)
  unfold evRef3d at h
  rw [show pre ++ ((RelExpr.cell sh r c).tokens env.bv ++ rest) = pre ++ 0x3A :: sh ++ encAddr env.bv r c ++ rest by simp [RelExpr.tokens], ha] at h
  rw [show pre ++ 0x3A :: sh ++ encAddr env.bv r c ++ rest = pre ++ 0x3A :: (sh ++ (encAddr env.bv r c ++ rest)) by simp, hs] at h
  simp only [bind, Except.bind] at h
  obtain ⟨o, ho, h⟩ := bind_ok h
  obtain ⟨hk, hv⟩ := ref3dOpnd_ok ho
  cases h
  refine ⟨o, st.anyRel || (r.isRel || c.isRel), ?_, sheets_stands x y r r c c ?_ hv⟩
  · simp only [Bool.or_false, decide_eq_false (show ¬ ((x : Int) < -1) by omega), addrOf]
  · rw [hk]
    cases r <;> cases c <;> rfl

/-- One token of an area reference with sheets. -/
theorem evArea3d_rel {loc : Bytes → Nat → Nat → Prop} {env : FEnv} (hb : RelBook loc env) {sh : Bytes} {x y : Nat} (hl : loc sh x y) {r1 r2 c1 c2 : Coord}
    (hf1 : AddrFits env.bv r1 c1) (hf2 : AddrFits env.bv r2 c2) (pre rest : Bytes) (st st' : EvSt)
    (h : evArea3d env (pre ++ ((RelExpr.area sh r1 r2 c1 c2).tokens env.bv ++ rest)) (pre.length : Int) 1 st = .ok st') :
    ∃ o rel, st' = { st with stack := o :: st.stack, anyRel := rel } ∧ StandsFor o [⟨[false, false, r1.isRel, r2.isRel, c1.isRel, c2.isRel],
        fun _ row col => ⟨x, y + 1, r1.from row, r2.from row + 1, c1.from col, c2.from col + 1⟩⟩] := by
  obtain ⟨hlen, hs⟩ := hb.loc sh x y hl
  have ha := C47_area_address env.bv r1 r2 c1 c2 hf1 hf2 none none (pre ++ 0x3B :: sh) rest
  have hp : (((pre ++ 0x3B :: sh).length : Nat) : Int) = if env.bv ≥ 80 then (pre.length : Int) + 3 else pre.length + 15 := by
    rw [List.length_append, List.length_cons, hlen]
    by_cases h8 : env.bv ≥ 80
    · rw [if_pos h8, if_pos h8]; omega
    · rw [if_neg h8, if_neg h8]; omega
  rw [hp] at ha
  have hs := hs pre 0x3B (encArea env.bv r1 r2 c1 c2 ++ rest)
  unfold evArea3d at h
  rw [show pre ++ ((RelExpr.area sh r1 r2 c1 c2).tokens env.bv ++ rest) = pre ++ 0x3B :: sh ++ encArea env.bv r1 r2 c1 c2 ++ rest by simp [RelExpr.tokens], ha] at h
  rw [show pre ++ 0x3B :: sh ++ encArea env.bv r1 r2 c1 c2 ++ rest = pre ++ 0x3B :: (sh ++ (encArea env.bv r1 r2 c1 c2 ++ rest)) by simp, hs] at h
  simp only [bind, Except.bind] at h
  obtain ⟨o, ho, h⟩ := bind_ok h
  obtain ⟨hk, hv⟩ := ref3dOpnd_ok ho
  cases h
  refine ⟨o, st.anyRel || (r1.isRel || c1.isRel || r2.isRel || c2.isRel), ?_, sheets_stands x y r1 r2 c1 c2 ?_ hv⟩
  · simp only [Bool.or_false, decide_eq_false (show ¬ ((x : Int) < -1) by omega), addrOf]
  · exact hk

theorem nameRef_rel {bv : Nat} {loc : Bytes → Nat → Nat → Prop} {env : FEnv} {rc : NameTbl → Nat → Int → R NameTbl} {st st' : EvSt} {k : Nat} {e : RelExpr} {l : List MovingArea}
    (hrc : ∀ t i g t', RelTbl bv loc env.bk.nameObjs t → rc t i g = .ok t' → RelTbl bv loc env.bk.nameObjs t') (hg : RelTbl bv loc env.bk.nameObjs st.tbl)
    (hk : RelFormula bv env.bk.nameObjs k e) (hv : RelVal bv loc env.bk.nameObjs e l) (h : nameRef env rc st k = .ok st') :
    ∃ o tbl, StandsFor o l ∧ RelTbl bv loc env.bk.nameObjs tbl ∧ st' = { st with stack := o :: st.stack, tbl := tbl } := by
  obtain ⟨ob, rest, h1, h2, h3, h4, h5⟩ := hk
  unfold nameRef at h
  rw [(idx_ok_nat _ _ _).mpr h1] at h
  simp only [bind, Except.bind] at h
  have hp : pyPos env.bk.nameObjs (k : Int) = k := by unfold pyPos; rw [if_neg (by omega)]; rfl
  rw [hp] at h
  cases h6 : evaluated rc st.tbl k (k : Int) with
  | error e => rw [h6] at h; cases h
  | ok tbl =>
    rw [h6] at h
    have ht : RelTbl bv loc env.bk.nameObjs tbl := by
      unfold evaluated at h6
      split at h6
      · cases h6; exact hg
      · exact hrc _ _ _ _ hg h6
    simp only at h
    split at h
    · rename_i ev hev
      obtain ⟨o, rel, rfl, ho⟩ := ht k ev e l hev ⟨ob, rest, h1, h2, h3, h4, h5⟩ hv
      unfold useName at h
      rw [if_neg (by simp [h2, h3])] at h
      simp only at h
      obtain ⟨t, _, h⟩ := bind_ok h
      cases h
      exact ⟨{ o with rank := LEAF_RANK, text := t }, tbl, ⟨ho.value, ho.rel, ho.abs⟩, ht, rfl⟩
    · cases h

/-! ## The operators -/

theorem someMove_single {m m' : MovingArea} (h : m.moves = m'.moves) : SomeMove [m] ↔ SomeMove [m'] := by
  simp only [SomeMove, List.mem_singleton, exists_eq_left, h]

theorem someMove_append {l : List MovingArea} {y : MovingArea} : SomeMove (l ++ [y]) ↔ SomeMove l ∨ SomeMove [y] := by
  unfold SomeMove
  constructor
  · rintro ⟨m, hm, h⟩
    rcases List.mem_append.mp hm with hm | hm
    · exact .inl ⟨m, hm, h⟩
    · exact .inr ⟨m, hm, h⟩
  · rintro (⟨m, hm, h⟩ | ⟨m, hm, h⟩)
    · exact ⟨m, List.mem_append_left _ hm, h⟩
    · exact ⟨m, List.mem_append_right _ hm, h⟩

theorem follow_box {x y : RelRef} {m n : MovingArea} (hx : Follow x m) (hy : Follow y n) (he : m.moves = n.moves) :
    Follow { toRef3D := boxRange x.toRef3D y.toRef3D, relflags := x.relflags } ⟨m.moves, fun sht row col => hull (m.at sht row col) (n.at sht row col)⟩ ∧
    Follow { toRef3D := boxIsect x.toRef3D y.toRef3D, relflags := x.relflags } ⟨m.moves, fun sht row col => meet (m.at sht row col) (n.at sht row col)⟩ := by
  have hf : y.relflags = x.relflags := by rw [hx.1, hy.1, he]
  refine ⟨⟨hx.1, ?_⟩, ⟨hx.1, ?_⟩⟩
  · intro sht row col
    simp only [← hx.2, ← hy.2]
    simp only [resolve, hull, boxRange, hf, min_add_add_right, max_add_add_right]
  · intro sht row col
    simp only [← hx.2, ← hy.2]
    simp only [resolve, meet, boxIsect, hf, min_add_add_right, max_add_add_right]

theorem one_value {o : Opnd} {m : MovingArea} (h : StandsFor o [m]) : ∃ x, o.value = some (.refs [x]) ∧ Follow x m := by
  obtain ⟨refs, hv, hf⟩ := h.value
  cases hf with
  | cons h1 h2 =>
    cases h2
    exact ⟨_, hv, h1⟩

theorem moves_six {bv : Nat} {loc : Bytes → Nat → Nat → Prop} {names : List NameObj} {e : RelExpr} {l : List MovingArea} (h : RelVal bv loc names e l) :
    l ≠ [] ∧ ∀ m ∈ l, m.moves.length = 6 := by
  induction h with
  | here r c _ => simp
  | hereArea r1 r2 c1 c2 _ _ => simp
  | cell sh r c x y _ _ => simp
  | area sh r1 r2 c1 c2 x y _ _ _ => simp
  | name k unused e l _ _ _ _ ih => exact ih
  | paren e l _ ih => exact ih
  | mem size e l _ _ ih => exact ih
  | range a b x y _ _ _ iha _ => simpa using iha
  | isect a b x y _ _ _ iha _ => simpa using iha
  | union a b l y _ _ iha ihb =>
    refine ⟨by simp, ?_⟩
    intro m hm
    rcases List.mem_append.mp hm with hm | hm
    · exact iha.2 m hm
    · exact ihb.2 m hm

/-- Without a moving bound the flags are the default ones. -/
theorem still_flags {m : MovingArea} (h6 : m.moves.length = 6) (h : ¬ SomeMove [m]) : m.moves = [false, false, false, false, false, false] := by
  have hall : ∀ b ∈ m.moves, b = false := by
    intro b hb
    cases b with
    | false => rfl
    | true => exact absurd ⟨m, List.mem_singleton.mpr rfl, hb⟩ h
  rw [List.eq_replicate_of_mem hall, h6]
  rfl

theorem boxOp_stands {f : Ref3D → Ref3D → Ref3D} {a b : Opnd} {m n k : MovingArea} (ha : StandsFor a [m]) (hb : StandsFor b [n]) (h6 : m.moves.length = 6)
    (he : m.moves = n.moves) (hk : k.moves = m.moves)
    (hf : ∀ x y, Follow x m → Follow y n → Follow { toRef3D := f x.toRef3D y.toRef3D, relflags := x.relflags } k) :
    ∃ kd v, boxOp f a b = .ok (kd, v) ∧ ∀ o : Opnd, o.kind = kd → o.value = v → StandsFor o [k] := by
  obtain ⟨x, hx, fx⟩ := one_value ha
  obtain ⟨y, hy, fy⟩ := one_value hb
  have hfl : x.relflags = y.relflags := by rw [fx.1, fy.1, he]
  by_cases hm : SomeMove [m]
  · have k1 := ha.rel hm
    have k2 := hb.rel ((someMove_single he).mp hm)
    refine ⟨.relref, some (.refs [{ toRef3D := f x.toRef3D y.toRef3D, relflags := x.relflags }]), ?_, ?_⟩
    · simp [boxOp, boxRel, oneRef, refsOf, k1, k2, hx, hy, hfl, bind, Except.bind, pure, Except.pure]
    · intro o h1 h2
      exact ⟨⟨_, h2, .cons (hf x y fx fy) .nil⟩, fun _ => h1, fun h => absurd ((someMove_single hk).mpr hm) h⟩
  · have k1 := ha.abs hm
    have k2 := hb.abs (fun h => hm ((someMove_single he).mpr h))
    have hd : x.relflags = [false, false, false, false, false, false] := by rw [fx.1, still_flags h6 hm]
    refine ⟨.ref, some (.refs [{ toRef3D := f x.toRef3D y.toRef3D }]), ?_, ?_⟩
    · simp [boxOp, boxAbs, oneRef, refsOf, k1, k2, hx, hy, bind, Except.bind, pure, Except.pure]
    · intro o h1 h2
      refine ⟨⟨_, h2, .cons ?_ .nil⟩, fun h => absurd ((someMove_single hk).mp h) hm, fun _ => h1⟩
      have := hf x y fx fy
      rw [hd] at this
      exact this

theorem isect_stands {a b : Opnd} {m n : MovingArea} (ha : StandsFor a [m]) (hb : StandsFor b [n]) (h6 : m.moves.length = 6) (he : m.moves = n.moves) (s : List Opnd) :
    ∃ o, doIsect (b :: a :: s) = .ok (o :: s) ∧ StandsFor o [⟨m.moves, fun sht row col => meet (m.at sht row col) (n.at sht row col)⟩] := by
  obtain ⟨kd, v, h, hs⟩ := boxOp_stands (f := boxIsect) (k := ⟨m.moves, fun sht row col => meet (m.at sht row col) (n.at sht row col)⟩) ha hb h6 he rfl
    (fun x y fx fy => (follow_box fx fy he).2)
  refine ⟨{ kind := kd, value := v, rank := 0, text := binText 80 " ".toList a.rank a.text b.rank b.text }, ?_, hs _ rfl rfl⟩
  simp only [doIsect, h, bind, Except.bind]
  rfl
theorem range_stands {a b : Opnd} {m n : MovingArea} (ha : StandsFor a [m]) (hb : StandsFor b [n]) (h6 : m.moves.length = 6) (he : m.moves = n.moves) (s : List Opnd) :
    ∃ o, doRange (b :: a :: s) = .ok (o :: s) ∧ StandsFor o [⟨m.moves, fun sht row col => hull (m.at sht row col) (n.at sht row col)⟩] := by
  obtain ⟨kd, v, h, hs⟩ := boxOp_stands (f := boxRange) (k := ⟨m.moves, fun sht row col => hull (m.at sht row col) (n.at sht row col)⟩) ha hb h6 he rfl
    (fun x y fx fy => (follow_box fx fy he).1)
  refine ⟨{ kind := kd, value := v, rank := 80, text := binText 80 ":".toList a.rank a.text b.rank b.text }, ?_, hs _ rfl rfl⟩
  simp only [doRange, h, bind, Except.bind]
  rfl

theorem stands_kind {o : Opnd} {l : List MovingArea} (h : StandsFor o l) : o.kind = .ref ∨ o.kind = .relref := by
  by_cases hm : SomeMove l
  · exact .inr (h.rel hm)
  · exact .inl (h.abs hm)

theorem all_append {refs : List RelRef} {l : List MovingArea} {z : RelRef} {y : MovingArea} (h : List.Forall₂ Follow refs l) (hz : Follow z y) :
    List.Forall₂ Follow (refs ++ [z]) (l ++ [y]) := by
  induction h with
  | nil => exact .cons hz .nil
  | cons h1 _ ih => exact .cons h1 ih

theorem union_stands {a b : Opnd} {l : List MovingArea} {y : MovingArea} (hl : l ≠ []) (ha : StandsFor a l) (hb : StandsFor b [y]) (s : List Opnd) :
    ∃ o, doList (b :: a :: s) = .ok (o :: s) ∧ StandsFor o (l ++ [y]) := by
  obtain ⟨refs, hv, hf⟩ := ha.value
  obtain ⟨z, hz, fz⟩ := one_value hb
  have hlen : 1 ≤ refs.length := by rw [hf.length_eq]; exact List.length_pos_iff.mpr hl
  refine ⟨{ kind := if a.kind = .relref ∨ b.kind = .relref then .relref else .ref, value := some (.refs (refs ++ [z])), rank := 80,
            text := binText 80 ",".toList a.rank a.text b.rank b.text }, ?_, ⟨_, rfl, all_append hf fz⟩, ?_, ?_⟩
  · rcases stands_kind ha with k1 | k1 <;> rcases stands_kind hb with k2 | k2 <;>
      simp [doList, unionOp, unionValue, refsOf, k1, k2, hv, hz, bind, Except.bind, pure, Except.pure, pyAssert, hlen]
  · intro hm
    refine if_pos ?_
    rcases someMove_append.mp hm with h | h
    · exact .inl (ha.rel h)
    · exact .inr (hb.rel h)
  · intro hm
    refine if_neg ?_
    rintro (h | h)
    · rw [ha.abs (fun h => hm (someMove_append.mpr (.inl h)))] at h
      cases h
    · rw [hb.abs (fun h => hm (someMove_append.mpr (.inr h)))] at h
      cases h

/-! ## Running -/

/-- Evaluation of the tokens of an expression pushes the areas that it means. -/
theorem run_rel {loc : Bytes → Nat → Nat → Prop} {env : FEnv} (hb : RelBook loc env) {tab : List Int} (htab : szdict env.bv = .ok tab) {rc : NameTbl → Nat → Int → R NameTbl}
    (hrc : ∀ t i g t', RelTbl env.bv loc env.bk.nameObjs t → rc t i g = .ok t' → RelTbl env.bv loc env.bk.nameObjs t') (namex : Int) (data : Bytes) (len : Nat) (st' : EvSt)
    {x : RelExpr} {l : List MovingArea} (hv : RelVal env.bv loc env.bk.nameObjs x l) :
    ∀ (pre rest : Bytes) (fuel : Nat) (st : EvSt), data = pre ++ (x.tokens env.bv ++ rest) → pre.length + (x.tokens env.bv).length ≤ len → RelTbl env.bv loc env.bk.nameObjs st.tbl →
      evLoop env rc tab namex data len fuel st pre.length = .ok st' →
      ∃ f o tbl rel, StandsFor o l ∧ RelTbl env.bv loc env.bk.nameObjs tbl ∧
        evLoop env rc tab namex data len f { st with stack := o :: st.stack, tbl := tbl, anyRel := rel } ((pre.length + (x.tokens env.bv).length : Nat) : Int) = .ok st' := by
  have hsz : (env.bv ≥ 80 ∧ tab = sztab4) ∨ (¬ env.bv ≥ 80 ∧ tab = sztab3) := by
    rcases hb.bv with h | h | h <;> rw [h] at htab <;> rw [h] <;> simp [szdict] at htab <;> subst htab <;> simp
  have t15 : tab.getD 0x15 (-2) = 1 := by rcases hsz with ⟨_, rfl⟩ | ⟨_, rfl⟩ <;> decide
  have t11 : tab.getD 0x11 (-2) = 1 := by rcases hsz with ⟨_, rfl⟩ | ⟨_, rfl⟩ <;> decide
  have t0F : tab.getD 0x0F (-2) = 1 := by rcases hsz with ⟨_, rfl⟩ | ⟨_, rfl⟩ <;> decide
  have t10 : tab.getD 0x10 (-2) = 1 := by rcases hsz with ⟨_, rfl⟩ | ⟨_, rfl⟩ <;> decide
  have t9 : tab.getD (9 + 32) (-2) = 3 := by rcases hsz with ⟨_, rfl⟩ | ⟨_, rfl⟩ <;> decide
  have t3 : tab.getD (3 + 32) (-2) = (1 + 2 + (if env.bv ≥ 80 then 2 else 12 : Nat) : Int) := by rcases hsz with ⟨h, rfl⟩ | ⟨h, rfl⟩ <;> simp [h] <;> decide
  have t4 : ∀ r c, tab.getD (4 + 32) (-2) = (1 + (encAddr env.bv r c).length : Int) := by
    intro r c; rcases hsz with ⟨h, rfl⟩ | ⟨h, rfl⟩ <;> simp [encAddr, encCol, le16_length, h] <;> decide
  have t5 : ∀ r1 r2 c1 c2, tab.getD (5 + 32) (-2) = (1 + (encArea env.bv r1 r2 c1 c2).length : Int) := by
    intro r1 r2 c1 c2; rcases hsz with ⟨h, rfl⟩ | ⟨h, rfl⟩ <;> simp [encArea, encCol, le16_length, h] <;> decide
  have t1A : ∀ r c, tab.getD (0x1A + 32) (-2) = (1 + (if env.bv ≥ 80 then 2 else 14 : Nat) + (encAddr env.bv r c).length : Int) := by
    intro r c; rcases hsz with ⟨h, rfl⟩ | ⟨h, rfl⟩ <;> simp [encAddr, encCol, le16_length, h] <;> decide
  have t1B : ∀ r1 r2 c1 c2, tab.getD (0x1B + 32) (-2) = (1 + (if env.bv ≥ 80 then 2 else 14 : Nat) + (encArea env.bv r1 r2 c1 c2).length : Int) := by
    intro r1 r2 c1 c2; rcases hsz with ⟨h, rfl⟩ | ⟨h, rfl⟩ <;> simp [encArea, encCol, le16_length, h] <;> decide
  clear hsz
  induction hv with
  | here r c hf =>
    intro pre rest fuel st hd hlen hg h
    have hp : pre.length < len := by simp only [RelExpr.tokens, List.length_cons] at hlen; omega
    obtain ⟨f, q, h1, h⟩ := evLoop_ok hp h
    rw [evStep_class st (b := 0x24) (rest := encAddr env.bv r c ++ rest) (by rw [hd, drop_pre]; simp [RelExpr.tokens]) (by decide : _ = 4)
      (by decide : _ = 1) (by decide) (t4 r c) (by omega)] at h1
    obtain ⟨o, ho, hm⟩ := evRef_here hf pre rest st
    have e : evClass env rc namex data (pre.length : Int) 4 1 st = .ok { st with stack := o :: st.stack, anyRel := true } := by rw [hd]; simp [evClass]; exact ho
    rw [e] at h1
    cases h1
    refine ⟨f, o, st.tbl, true, hm, hg, ?_⟩
    rw [show ((pre.length + ((RelExpr.here r c).tokens env.bv).length : Nat) : Int) = (pre.length : Int) + (1 + (encAddr env.bv r c).length) by
      simp [RelExpr.tokens]; omega]
    exact h
  | hereArea r1 r2 c1 c2 hf1 hf2 =>
    intro pre rest fuel st hd hlen hg h
    have hp : pre.length < len := by simp only [RelExpr.tokens, List.length_cons] at hlen; omega
    obtain ⟨f, q, h1, h⟩ := evLoop_ok hp h
    rw [evStep_class st (b := 0x25) (rest := encArea env.bv r1 r2 c1 c2 ++ rest) (by rw [hd, drop_pre]; simp [RelExpr.tokens]) (by decide : _ = 5)
      (by decide : _ = 1) (by decide) (t5 r1 r2 c1 c2) (by omega)] at h1
    obtain ⟨o, ho, hm⟩ := evArea_here hf1 hf2 pre rest st
    have e : evClass env rc namex data (pre.length : Int) 5 1 st = .ok { st with stack := o :: st.stack, anyRel := true } := by rw [hd]; simp [evClass]; exact ho
    rw [e] at h1
    cases h1
    refine ⟨f, o, st.tbl, true, hm, hg, ?_⟩
    rw [show ((pre.length + ((RelExpr.hereArea r1 r2 c1 c2).tokens env.bv).length : Nat) : Int) = (pre.length : Int) + (1 + (encArea env.bv r1 r2 c1 c2).length) by
      simp [RelExpr.tokens]; omega]
    exact h
  | cell sh r c x y hl hf =>
    intro pre rest fuel st hd hlen hg h
    have hp : pre.length < len := by simp only [RelExpr.tokens, List.length_cons] at hlen; omega
    obtain ⟨f, q, h1, h⟩ := evLoop_ok hp h
    rw [evStep_class st (b := 0x3A) (rest := sh ++ encAddr env.bv r c ++ rest) (by rw [hd, drop_pre]; simp [RelExpr.tokens]) (by decide : _ = 0x1A)
      (by decide : _ = 1) (by decide) (t1A r c) (by omega)] at h1
    have e : evClass env rc namex data (pre.length : Int) 0x1A 1 st = evRef3d env (pre ++ ((RelExpr.cell sh r c).tokens env.bv ++ rest)) (pre.length : Int) 1 st := by
      rw [hd]; simp [evClass]
    rw [e] at h1
    cases h2 : evRef3d env (pre ++ ((RelExpr.cell sh r c).tokens env.bv ++ rest)) (pre.length : Int) 1 st with
    | error e => rw [h2] at h1; cases h1
    | ok st1 =>
      rw [h2] at h1
      cases h1
      obtain ⟨o, rel, rfl, hm⟩ := evRef3d_rel hb hl hf pre rest st st1 h2
      refine ⟨f, o, st.tbl, rel, hm, hg, ?_⟩
      rw [show ((pre.length + ((RelExpr.cell sh r c).tokens env.bv).length : Nat) : Int) =
          (pre.length : Int) + (1 + (if env.bv ≥ 80 then 2 else 14 : Nat) + (encAddr env.bv r c).length) by
        simp only [RelExpr.tokens, List.length_cons, List.length_append, (hb.loc sh x y hl).1]; omega]
      exact h
  | area sh r1 r2 c1 c2 x y hl hf1 hf2 =>
    intro pre rest fuel st hd hlen hg h
    have hp : pre.length < len := by simp only [RelExpr.tokens, List.length_cons] at hlen; omega
    obtain ⟨f, q, h1, h⟩ := evLoop_ok hp h
    rw [evStep_class st (b := 0x3B) (rest := sh ++ encArea env.bv r1 r2 c1 c2 ++ rest) (by rw [hd, drop_pre]; simp [RelExpr.tokens]) (by decide : _ = 0x1B)
      (by decide : _ = 1) (by decide) (t1B r1 r2 c1 c2) (by omega)] at h1
    have e : evClass env rc namex data (pre.length : Int) 0x1B 1 st = evArea3d env (pre ++ ((RelExpr.area sh r1 r2 c1 c2).tokens env.bv ++ rest)) (pre.length : Int) 1 st := by
      rw [hd]; simp [evClass]
    rw [e] at h1
    cases h2 : evArea3d env (pre ++ ((RelExpr.area sh r1 r2 c1 c2).tokens env.bv ++ rest)) (pre.length : Int) 1 st with
    | error e => rw [h2] at h1; cases h1
    | ok st1 =>
      rw [h2] at h1
      cases h1
      obtain ⟨o, rel, rfl, hm⟩ := evArea3d_rel hb hl hf1 hf2 pre rest st st1 h2
      refine ⟨f, o, st.tbl, rel, hm, hg, ?_⟩
      rw [show ((pre.length + ((RelExpr.area sh r1 r2 c1 c2).tokens env.bv).length : Nat) : Int) =
          (pre.length : Int) + (1 + (if env.bv ≥ 80 then 2 else 14 : Nat) + (encArea env.bv r1 r2 c1 c2).length) by
        simp only [RelExpr.tokens, List.length_cons, List.length_append, (hb.loc sh x y hl).1]; omega]
      exact h
  | name k unused e l hk hu hn hv _ =>
    intro pre rest fuel st hd hlen hg h
    have hp : pre.length < len := by simp only [RelExpr.tokens, List.length_cons] at hlen; omega
    obtain ⟨f, q, h1, h⟩ := evLoop_ok hp h
    have hd' : data.drop pre.length = 0x23 :: (le16 (k + 1) ++ (unused ++ rest)) := by rw [hd, drop_pre]; simp [RelExpr.tokens]
    rw [evStep_class st hd' (by decide : _ = 3) (by decide : _ = 1) (by decide) t3 (by omega)] at h1
    have hu' := unpackH_at (data := data) (p := pre.length + 1) hk (by rw [← List.drop_drop, hd']; rfl)
    rw [show ((pre.length + 1 : Nat) : Int) + 2 = (pre.length : Int) + 3 by omega, show ((pre.length + 1 : Nat) : Int) = (pre.length : Int) + 1 by omega] at hu'
    have e1 : evClass env rc namex data (pre.length : Int) 3 1 st = nameRef env rc st k := by
      simp [evClass, hu', bind, Except.bind]
    rw [e1] at h1
    cases h2 : nameRef env rc st k with
    | error e => rw [h2] at h1; cases h1
    | ok st1 =>
      rw [h2] at h1
      cases h1
      obtain ⟨o, tbl, hm, ht, rfl⟩ := nameRef_rel hrc hg hn hv h2
      refine ⟨f, o, tbl, st.anyRel, hm, ht, ?_⟩
      rw [show ((pre.length + ((RelExpr.name k unused).tokens env.bv).length : Nat) : Int) = (pre.length : Int) + (1 + 2 + (if env.bv ≥ 80 then 2 else 12 : Nat)) by
        simp only [RelExpr.tokens, List.length_cons, List.length_append, le16_length, hu]; omega]
      exact h
  | paren e l hv ih =>
    intro pre rest fuel st hd hlen hg h
    simp only [RelExpr.tokens, List.length_append, List.length_cons, List.length_nil, List.append_assoc] at hd hlen ⊢
    obtain ⟨f, o, tbl, rel, hm, ht, h1⟩ := ih pre ([0x15] ++ rest) fuel st hd (by omega) hg h
    obtain ⟨f, q, h2, h⟩ := evLoop_ok (by omega) h1
    rw [evStep_plain _ (b := 0x15) (rest := rest) (by rw [hd, ← List.append_assoc, ← List.length_append, drop_pre]; rfl) (by decide : _ = 0x15) (by decide) t15
      (by simp [evPlain]; rfl)] at h2
    cases h2
    exact ⟨f, o, tbl, rel, hm, ht, by rw [show ((pre.length + ((e.tokens env.bv).length + (0 + 1)) : Nat) : Int) = ((pre.length + (e.tokens env.bv).length : Nat) : Int) + 1 by omega]; exact h⟩
  | mem size e l hs hv ih =>
    intro pre rest fuel st hd hlen hg h
    simp only [RelExpr.tokens, List.length_append, List.length_cons, List.cons_append, List.append_assoc, le16_length] at hd hlen ⊢
    obtain ⟨f, q, h1, h⟩ := evLoop_ok (by omega) h
    have hd' : data.drop pre.length = 0x29 :: (le16 size ++ (e.tokens env.bv ++ rest)) := by rw [hd, drop_pre]
    rw [evStep_class st hd' (by decide : _ = 9) (by decide : _ = 1) (by decide) t9 (by decide)] at h1
    have hu := unpackH_at (data := data) (p := pre.length + 1) hs (by rw [← List.drop_drop, hd']; rfl)
    rw [show ((pre.length + 1 : Nat) : Int) + 2 = (pre.length : Int) + 3 by omega, show ((pre.length + 1 : Nat) : Int) = (pre.length : Int) + 1 by omega] at hu
    have e1 : evClass env rc namex data (pre.length : Int) 9 1 st = .ok st := by
      simp [evClass, hu, bind, Except.bind, pure, Except.pure]
    rw [e1] at h1
    cases h1
    have e2 : (pre.length : Int) + 3 = (((pre ++ 0x29 :: le16 size).length : Nat) : Int) := by simp [le16_length]
    simp only [e2] at h
    obtain ⟨f, o, tbl, rel, hm, ht, h1⟩ := ih (pre ++ 0x29 :: le16 size) rest f st (by rw [hd]; simp) (by simp only [List.length_append, List.length_cons, le16_length]; omega) hg h
    refine ⟨f, o, tbl, rel, hm, ht, ?_⟩
    rw [show ((pre.length + (2 + (e.tokens env.bv).length + 1) : Nat) : Int) = (((pre ++ 0x29 :: le16 size).length + (e.tokens env.bv).length : Nat) : Int) by
      simp only [List.length_append, List.length_cons, le16_length]; omega]
    exact h1
  | range a b x y ha _ he iha ihb =>
    intro pre rest fuel st hd hlen hg h
    simp only [RelExpr.tokens, List.length_append, List.length_cons, List.length_nil, List.append_assoc] at hd hlen ⊢
    obtain ⟨f, oa, tbl, rel, hma, ht, h1⟩ := iha pre (b.tokens env.bv ++ ([0x11] ++ rest)) fuel st hd (by omega) hg h
    rw [← List.length_append] at h1
    obtain ⟨f, ob, tbl, rel, hmb, ht, h1⟩ := ihb (pre ++ a.tokens env.bv) ([0x11] ++ rest) f _ (by rw [hd]; simp) (by rw [List.length_append]; omega) ht h1
    simp only at h1
    obtain ⟨f, q, h2, h⟩ := evLoop_ok (by rw [List.length_append]; omega) h1
    obtain ⟨o, ho, hm⟩ := range_stands hma hmb ((moves_six ha).2 x (List.mem_singleton.mpr rfl)) he st.stack
    rw [evStep_plain _ (b := 0x11) (rest := rest) (by rw [hd, ← List.append_assoc, ← List.append_assoc, ← List.length_append, drop_pre]; rfl) (by decide : _ = 0x11) (by decide) t11
      (by simp [evPlain, ho, bind, Except.bind]; rfl)] at h2
    cases h2
    refine ⟨f, o, tbl, rel, hm, ht, ?_⟩
    rw [show ((pre.length + ((a.tokens env.bv).length + ((b.tokens env.bv).length + (0 + 1))) : Nat) : Int) = (((pre ++ a.tokens env.bv).length + (b.tokens env.bv).length : Nat) : Int) + 1 by
      rw [List.length_append]; omega]
    exact h
  | isect a b x y ha _ he iha ihb =>
    intro pre rest fuel st hd hlen hg h
    simp only [RelExpr.tokens, List.length_append, List.length_cons, List.length_nil, List.append_assoc] at hd hlen ⊢
    obtain ⟨f, oa, tbl, rel, hma, ht, h1⟩ := iha pre (b.tokens env.bv ++ ([0x0F] ++ rest)) fuel st hd (by omega) hg h
    rw [← List.length_append] at h1
    obtain ⟨f, ob, tbl, rel, hmb, ht, h1⟩ := ihb (pre ++ a.tokens env.bv) ([0x0F] ++ rest) f _ (by rw [hd]; simp) (by rw [List.length_append]; omega) ht h1
    simp only at h1
    obtain ⟨f, q, h2, h⟩ := evLoop_ok (by rw [List.length_append]; omega) h1
    obtain ⟨o, ho, hm⟩ := isect_stands hma hmb ((moves_six ha).2 x (List.mem_singleton.mpr rfl)) he st.stack
    rw [evStep_plain _ (b := 0x0F) (rest := rest) (by rw [hd, ← List.append_assoc, ← List.append_assoc, ← List.length_append, drop_pre]; rfl) (by decide : _ = 0x0F) (by decide) t0F
      (by simp [evPlain, ho, bind, Except.bind]; rfl)] at h2
    cases h2
    refine ⟨f, o, tbl, rel, hm, ht, ?_⟩
    rw [show ((pre.length + ((a.tokens env.bv).length + ((b.tokens env.bv).length + (0 + 1))) : Nat) : Int) = (((pre ++ a.tokens env.bv).length + (b.tokens env.bv).length : Nat) : Int) + 1 by
      rw [List.length_append]; omega]
    exact h
  | union a b l y hva _ iha ihb =>
    intro pre rest fuel st hd hlen hg h
    simp only [RelExpr.tokens, List.length_append, List.length_cons, List.length_nil, List.append_assoc] at hd hlen ⊢
    obtain ⟨f, oa, tbl, rel, hma, ht, h1⟩ := iha pre (b.tokens env.bv ++ ([0x10] ++ rest)) fuel st hd (by omega) hg h
    rw [← List.length_append] at h1
    obtain ⟨f, ob, tbl, rel, hmb, ht, h1⟩ := ihb (pre ++ a.tokens env.bv) ([0x10] ++ rest) f _ (by rw [hd]; simp) (by rw [List.length_append]; omega) ht h1
    simp only at h1
    obtain ⟨f, q, h2, h⟩ := evLoop_ok (by rw [List.length_append]; omega) h1
    obtain ⟨o, ho, hm⟩ := union_stands (moves_six hva).1 hma hmb st.stack
    rw [evStep_plain _ (b := 0x10) (rest := rest) (by rw [hd, ← List.append_assoc, ← List.append_assoc, ← List.length_append, drop_pre]; rfl) (by decide : _ = 0x10) (by decide) t10
      (by simp [evPlain, ho, bind, Except.bind]; rfl)] at h2
    cases h2
    refine ⟨f, o, tbl, rel, hm, ht, ?_⟩
    rw [show ((pre.length + ((a.tokens env.bv).length + ((b.tokens env.bv).length + (0 + 1))) : Nat) : Int) = (((pre ++ a.tokens env.bv).length + (b.tokens env.bv).length : Nat) : Int) + 1 by
      rw [List.length_append]; omega]
    exact h

theorem rel_tokens_ne (bv : Nat) (x : RelExpr) : (x.tokens bv).length ≠ 0 := by
  induction x <;> simp [RelExpr.tokens, *]

theorem rel_set {loc : Bytes → Nat → Nat → Prop} {env : FEnv} (hb : RelBook loc env) (k : Nat) (t : NameTbl) (i : Nat) (g : Int) (o : NameObj) (tab : List Int) (st : EvSt)
    (hg : RelTbl env.bv loc env.bk.nameObjs t) (ho : env.bk.nameObjs[i]? = some o) (htab : szdict env.bv = .ok tab)
    (hrc : ∀ t i g t', RelTbl env.bv loc env.bk.nameObjs t → evaluateName env k t i g = .ok t' → RelTbl env.bv loc env.bk.nameObjs t')
    (h : evLoop env (evaluateName env k) tab g o.rawFormula o.basicFormulaLen o.basicFormulaLen
        { stack := if o.basicFormulaLen = 0 then [{}] else [], tbl := t } 0 = .ok st) (hst : RelTbl env.bv loc env.bk.nameObjs st.tbl) :
    RelTbl env.bv loc env.bk.nameObjs (st.tbl.set i (some { stack := st.stack, anyRel := st.anyRel, anyErr := st.anyErr })) := by
  intro j e x l hj hn hv
  rcases getElem?_set_cases _ _ _ _ _ hj with ⟨rfl, he⟩ | hj
  · cases he
    obtain ⟨o', rest, h1, h2, h3, h4, h5⟩ := hn
    rw [ho] at h1
    cases h1
    rw [if_neg (by rw [h5]; exact rel_tokens_ne _ x)] at h
    obtain ⟨f, op, tbl, rel, hm, _, h6⟩ := run_rel hb htab hrc g o.rawFormula o.basicFormulaLen st hv [] rest o.basicFormulaLen { stack := [], tbl := t } h4
      (by rw [h5]; simp) hg h
    have h7 : ∀ f s, evLoop env (evaluateName env k) tab g o.rawFormula o.basicFormulaLen f s ((([] : Bytes).length + (x.tokens env.bv).length : Nat) : Int) = .ok s := by
      intro f s
      cases f <;> simp only [evLoop] <;> rw [if_neg (by rw [h5]; simp)]
    rw [h7] at h6
    cases h6
    exact ⟨op, rel, rfl, hm⟩
  · exact hst j e x l hj hn hv

theorem rel_kept {loc : Bytes → Nat → Nat → Prop} {env : FEnv} (hb : RelBook loc env) :
    ∀ (k : Nat) (t : NameTbl) (i : Nat) (g : Int) (t' : NameTbl), RelTbl env.bv loc env.bk.nameObjs t → evaluateName env k t i g = .ok t' →
      RelTbl env.bv loc env.bk.nameObjs t' :=
  evaluateName_inv fun k t i g o tab st hg ho htab hrc h hst => rel_set hb k t i g o tab st hg ho htab hrc h hst

theorem relFormula_mono {bv : Nat} {names names' : List NameObj} (hm : ∀ (i : Nat) o, names[i]? = some o → ∃ s, names'[i]? = some { o with nameIndex := i, scope := some s })
    {k : Nat} {e : RelExpr} (h : RelFormula bv names k e) : RelFormula bv names' k e := by
  obtain ⟨o, rest, h1, h2, h3, h4, h5⟩ := h
  obtain ⟨s, hs⟩ := hm k o h1
  exact ⟨_, rest, hs, h2, h3, h4, h5⟩

theorem relVal_mono {bv : Nat} {loc : Bytes → Nat → Nat → Prop} {names names' : List NameObj}
    (hm : ∀ (i : Nat) o, names[i]? = some o → ∃ s, names'[i]? = some { o with nameIndex := i, scope := some s }) {x : RelExpr} {l : List MovingArea}
    (h : RelVal bv loc names x l) : RelVal bv loc names' x l := by
  induction h with
  | here r c h => exact .here r c h
  | hereArea r1 r2 c1 c2 h1 h2 => exact .hereArea r1 r2 c1 c2 h1 h2
  | cell sh r c x y h1 h2 => exact .cell sh r c x y h1 h2
  | area sh r1 r2 c1 c2 x y h1 h2 h3 => exact .area sh r1 r2 c1 c2 x y h1 h2 h3
  | name k u e l h1 h2 h3 _ ih => exact .name k u e l h1 h2 (relFormula_mono hm h3) ih
  | paren e l _ ih => exact .paren e l ih
  | mem size e l h1 _ ih => exact .mem size e l h1 ih
  | range a b x y _ _ h iha ihb => exact .range a b x y iha ihb h
  | isect a b x y _ _ h iha ihb => exact .isect a b x y iha ihb h
  | union a b l y _ _ iha ihb => exact .union a b l y iha ihb

theorem follows_all {refs : List RelRef} {l : List MovingArea} (h : List.Forall₂ Follow refs l) : RefersTo refs l := by
  induction h with
  | nil => exact ⟨rfl, fun _ _ _ => rfl⟩
  | cons h1 _ ih =>
    refine ⟨by simp only [List.map_cons, h1.1, ih.1], fun sht row col => ?_⟩
    simp only [List.map_cons, h1.2, ih.2]

/-- The result of a name with such a formula. -/
theorem rel_result {loc : Bytes → Nat → Nat → Prop} {names : List NameObj} {fenv : FEnv} (hrb : RelBook loc fenv)
    (hm : ∀ (i : Nat) o, names[i]? = some o → ∃ s, fenv.bk.nameObjs[i]? = some { o with nameIndex := i, scope := some s }) {tbl : NameTbl} (ht : bookNames fenv = .ok tbl)
    {i : Nat} {x : RelExpr} {l : List MovingArea} (hx : RelFormula fenv.bv names i x) (hv : RelVal fenv.bv loc names x l) :
    ∃ e o refs, tbl[i]? = some (some e) ∧ e.result = some o ∧ o.value = some (.refs refs) ∧ RefersTo refs l ∧
      (SomeMove l → o.kind = .relref) ∧ (¬ SomeMove l → o.kind = .ref) := by
  obtain ⟨hg, hf⟩ := bookNames_inv (rel_kept hrb) (by
    intro i e x l hi
    rw [List.getElem?_map] at hi
    cases h1 : fenv.bk.nameObjs[i]? with
    | none => rw [h1] at hi; cases hi
    | some o => rw [h1] at hi; cases hi) ht
  obtain ⟨o, rest, h1, h2, h3, _, _⟩ := relFormula_mono hm hx
  obtain ⟨e, he⟩ := hf.2 i ⟨o, h1, h2, h3⟩
  obtain ⟨op, rel, rfl, hop⟩ := hg i e x l he (relFormula_mono hm hx) (relVal_mono hm hv)
  obtain ⟨refs, hr, hfo⟩ := hop.value
  exact ⟨_, op, refs, he, rfl, hr, follows_all hfo, hop.rel, hop.abs⟩

/-! ## Areas that move in different ways -/

/-- What is left of a range or an intersection of two areas that move in different ways. -/
def Lost (o : Opnd) (x y : MovingArea) : Prop := o.value = none ∧ o.kind = .ref ∨ o.value = none ∧ o.kind = .relref ∧ SomeMove [x] ∧ SomeMove [y]

theorem boxOp_lost {f : Ref3D → Ref3D → Ref3D} {a b : Opnd} {m n : MovingArea} (ha : StandsFor a [m]) (hb : StandsFor b [n]) (hm6 : m.moves.length = 6) (hn6 : n.moves.length = 6)
    (he : m.moves ≠ n.moves) : ∃ kd, boxOp f a b = .ok (kd, none) ∧ (kd = .ref ∨ kd = .relref ∧ SomeMove [m] ∧ SomeMove [n]) := by
  obtain ⟨x, hx, fx⟩ := one_value ha
  obtain ⟨y, hy, fy⟩ := one_value hb
  have hfl : x.relflags ≠ y.relflags := by rw [fx.1, fy.1]; exact he
  by_cases hm : SomeMove [m] <;> by_cases hn : SomeMove [n]
  · refine ⟨.relref, ?_, .inr ⟨rfl, hm, hn⟩⟩
    simp [boxOp, boxRel, oneRef, refsOf, ha.rel hm, hb.rel hn, hx, hy, hfl, bind, Except.bind, pure, Except.pure]
  · exact ⟨.ref, by simp [boxOp, ha.rel hm, hb.abs hn], .inl rfl⟩
  · exact ⟨.ref, by simp [boxOp, ha.abs hm, hb.rel hn], .inl rfl⟩
  · exact absurd (by rw [still_flags hm6 hm, still_flags hn6 hn]) he

/-- The formula of name `i` is a range or an intersection of these two. -/
def PairFormula (bv : Nat) (names : List NameObj) (i : Nat) (a b : RelExpr) : Prop := RelFormula bv names i (.range a b) ∨ RelFormula bv names i (.isect a b)

def LostTbl (bv : Nat) (loc : Bytes → Nat → Nat → Prop) (names : List NameObj) (t : NameTbl) : Prop :=
  ∀ (i : Nat) e a b x y, t[i]? = some (some e) → PairFormula bv names i a b → RelVal bv loc names a [x] → RelVal bv loc names b [y] → x.moves ≠ y.moves →
    ∃ o rel, e = { stack := [o], anyRel := rel, anyErr := false } ∧ Lost o x y

theorem lost_kept {loc : Bytes → Nat → Nat → Prop} {env : FEnv} (hb : RelBook loc env) :
    ∀ (k : Nat) (t : NameTbl) (i : Nat) (g : Int) (t' : NameTbl), (RelTbl env.bv loc env.bk.nameObjs t ∧ LostTbl env.bv loc env.bk.nameObjs t) → evaluateName env k t i g = .ok t' →
      (RelTbl env.bv loc env.bk.nameObjs t' ∧ LostTbl env.bv loc env.bk.nameObjs t') := by
  apply evaluateName_inv
  intro k t i g o tab st hg ho htab _ h hst
  refine ⟨rel_set hb k t i g o tab st hg.1 ho htab (rel_kept hb k) h hst.1, ?_⟩
  intro j e a b x y hj hn hva hvb hne
  rcases getElem?_set_cases _ _ _ _ _ hj with ⟨rfl, he⟩ | hj
  · cases he
    have h6a := (moves_six hva).2 x (List.mem_singleton.mpr rfl)
    have h6b := (moves_six hvb).2 y (List.mem_singleton.mpr rfl)
    have htok : ∃ (c : UInt8) (rest : Bytes), o.rawFormula = a.tokens env.bv ++ (b.tokens env.bv ++ [c]) ++ rest ∧ o.basicFormulaLen = (a.tokens env.bv ++ (b.tokens env.bv ++ [c])).length ∧
        (c = 0x11 ∨ c = 0x0F) := by
      rcases hn with ⟨o', rest, h1, _, _, h4, h5⟩ | ⟨o', rest, h1, _, _, h4, h5⟩ <;> rw [ho] at h1 <;> cases h1
      · exact ⟨0x11, rest, h4, h5, .inl rfl⟩
      · exact ⟨0x0F, rest, h4, h5, .inr rfl⟩
    obtain ⟨c, rest, h4, h5, hc⟩ := htok
    have hlen : o.basicFormulaLen = (a.tokens env.bv).length + (b.tokens env.bv).length + 1 := by
      rw [h5]; simp only [List.length_append, List.length_cons, List.length_nil]; omega
    rw [if_neg (by omega)] at h
    obtain ⟨f, oa, tbl, rel, hma, ht, h1⟩ := run_rel hb htab (rel_kept hb k) g o.rawFormula o.basicFormulaLen st hva [] (b.tokens env.bv ++ ([c] ++ rest)) o.basicFormulaLen
      { stack := [], tbl := t } (by rw [h4]; simp) (by simp only [List.length_nil]; omega) hg.1 h
    have e0 : ([] : Bytes).length + (a.tokens env.bv).length = (a.tokens env.bv).length := by simp
    rw [e0] at h1
    obtain ⟨f, ob, tbl, rel, hmb, ht, h1⟩ := run_rel hb htab (rel_kept hb k) g o.rawFormula o.basicFormulaLen st hvb (a.tokens env.bv) ([c] ++ rest) f
      _ (by rw [h4]; simp) (by omega) ht h1
    simp only at h1
    obtain ⟨f, q, h2, h⟩ := evLoop_ok (by omega) h1
    have hd : o.rawFormula.drop ((a.tokens env.bv).length + (b.tokens env.bv).length) = c :: rest := by
      rw [h4, ← List.append_assoc, List.append_assoc, ← List.length_append, drop_pre]; rfl
    have hend : ∀ f s, evLoop env (evaluateName env k) tab g o.rawFormula o.basicFormulaLen f s
        ((((a.tokens env.bv).length + (b.tokens env.bv).length : Nat) : Int) + 1) = .ok s := by
      intro f s
      cases f <;> simp only [evLoop] <;> rw [if_neg (by omega)]
    have hsz : tab = sztab4 ∨ tab = sztab3 := by
      rcases hb.bv with h | h | h <;> rw [h] at htab <;> simp [szdict] at htab <;> subst htab <;> simp
    rcases hc with rfl | rfl
    · obtain ⟨kd, hbox, hkd⟩ := boxOp_lost (f := boxRange) hma hmb h6a h6b hne
      rw [evStep_plain _ (b := 0x11) (rest := rest) hd (by decide : _ = 0x11) (by decide) (by rcases hsz with rfl | rfl <;> decide)
        (s' := [{ kind := kd, value := none, rank := 80, text := binText 80 ":".toList oa.rank oa.text ob.rank ob.text }])
        (by simp [evPlain, doRange, hbox, bind, Except.bind, pure, Except.pure])] at h2
      cases h2
      rw [hend] at h
      cases h
      refine ⟨_, rel, rfl, ?_⟩
      rcases hkd with rfl | ⟨rfl, h1, h2⟩
      · exact .inl ⟨rfl, rfl⟩
      · exact .inr ⟨rfl, rfl, h1, h2⟩
    · obtain ⟨kd, hbox, hkd⟩ := boxOp_lost (f := boxIsect) hma hmb h6a h6b hne
      rw [evStep_plain _ (b := 0x0F) (rest := rest) hd (by decide : _ = 0x0F) (by decide) (by rcases hsz with rfl | rfl <;> decide)
        (s' := [{ kind := kd, value := none, rank := 0, text := binText 80 " ".toList oa.rank oa.text ob.rank ob.text }])
        (by simp [evPlain, doIsect, hbox, bind, Except.bind, pure, Except.pure])] at h2
      cases h2
      rw [hend] at h
      cases h
      refine ⟨_, rel, rfl, ?_⟩
      rcases hkd with rfl | ⟨rfl, h1, h2⟩
      · exact .inl ⟨rfl, rfl⟩
      · exact .inr ⟨rfl, rfl, h1, h2⟩
  · exact hst.2 j e a b x y hj hn hva hvb hne

theorem lost_result {loc : Bytes → Nat → Nat → Prop} {names : List NameObj} {fenv : FEnv} (hrb : RelBook loc fenv)
    (hm : ∀ (i : Nat) o, names[i]? = some o → ∃ s, fenv.bk.nameObjs[i]? = some { o with nameIndex := i, scope := some s }) {tbl : NameTbl} (ht : bookNames fenv = .ok tbl)
    {i : Nat} {a b : RelExpr} {x y : MovingArea} (hx : PairFormula fenv.bv names i a b) (hva : RelVal fenv.bv loc names a [x]) (hvb : RelVal fenv.bv loc names b [y])
    (hne : x.moves ≠ y.moves) : ∃ e o, tbl[i]? = some (some e) ∧ e.result = some o ∧ Lost o x y := by
  obtain ⟨hg, hf⟩ := bookNames_inv (lost_kept hrb) (by
    have h0 : ∀ (i : Nat) e, (fenv.bk.nameObjs.map fun _ => (none : Option NameEval))[i]? ≠ some (some e) := by
      intro i e hi
      rw [List.getElem?_map] at hi
      cases h1 : fenv.bk.nameObjs[i]? with
      | none => rw [h1] at hi; cases hi
      | some o => rw [h1] at hi; cases hi
    exact ⟨fun i e x l hi => absurd hi (h0 i e), fun i e a b x y hi => absurd hi (h0 i e)⟩) ht
  have hx' : PairFormula fenv.bv fenv.bk.nameObjs i a b := hx.imp (relFormula_mono hm) (relFormula_mono hm)
  obtain ⟨o, h1, h2, h3⟩ : ∃ o, fenv.bk.nameObjs[i]? = some o ∧ o.macroFlag = 0 ∧ o.binary = 0 := by
    rcases hx' with ⟨o, rest, h1, h2, h3, _, _⟩ | ⟨o, rest, h1, h2, h3, _, _⟩ <;> exact ⟨o, h1, h2, h3⟩
  obtain ⟨e, he⟩ := hf.2 i ⟨o, h1, h2, h3⟩
  obtain ⟨op, rel, rfl, hop⟩ := hg.2 i e a b x y he hx' (relVal_mono hm hva) (relVal_mono hm hvb) hne
  exact ⟨_, op, he, rfl, hop⟩

/-- What the tables of a loaded BIFF8 workbook provide. -/
theorem rel_book {env : BookEnv} (h8 : env.bv = 80) {pre post eof : Bytes} (he : eof.length < 65536) {items : List GItem}
    (hok : GlobalsOk env.bv items) {sheets : List SheetRec} (hsh : Sheets env.bv (textAt env) items sheets) {refs : List ExtRef}
    (hr : Externs items refs) {names : List NameObj} (hn : Names env.bv (textAt env) items names) {b : Book} {p : Int}
    (h : parseGlobals env (pre ++ encGlobals items eof ++ post) newBook (pre.length : Int) = .ok (b, p))
    {fenv : FEnv} (hbv : fenv.bv = 80) (hb : SameTables fenv.bk b) :
    RelBook (NewSheets (supbooks items) sheets refs) fenv ∧
      ∀ (i : Nat) o, names[i]? = some o → ∃ s, fenv.bk.nameObjs[i]? = some { o with nameIndex := i, scope := some s } := by
  obtain ⟨hl, hsup, hxx⟩ := tables_loaded env (by omega) pre post eof he items hok sheets hsh refs hr b p h
  obtain ⟨_, hnames⟩ := C44_names env (by omega) pre post eof he items hok names hn sheets hsh b p h
  have hrb' : RefBook (LocalRef (supbooks items) sheets refs) fenv := ⟨hbv, fun refx x y hloc => localRef_range hb hl hsup hxx hloc⟩
  refine ⟨⟨.inr (.inr hbv), ?_⟩, ?_⟩
  · rintro sh x y ⟨refx, h16, rfl, hloc⟩
    exact ⟨by rw [hbv]; rfl, fun tok c rest => sheets3d_at hrb' h16 hloc tok c rest⟩
  · intro i o hi
    obtain ⟨s, hs, _⟩ := hnames i o hi
    exact ⟨s, by rw [hb.names]; exact hs⟩

/-- The same for BIFF5 and BIFF7. -/
theorem rel_book_old {env : BookEnv} (h57 : env.bv = 50 ∨ env.bv = 70) {pre post eof : Bytes} (he : eof.length < 65536) {items : List GItem}
    (hok : GlobalsOk env.bv items) {sheets : List SheetRec} (hsh : Sheets env.bv (textAt env) items sheets)
    {names : List NameObj} (hn : Names env.bv (textAt env) items names) {b : Book} {p : Int}
    (h : parseGlobals env (pre ++ encGlobals items eof ++ post) newBook (pre.length : Int) = .ok (b, p))
    {fenv : FEnv} (hbv : fenv.bv = env.bv) (hb : SameTables fenv.bk b) :
    RelBook (OwnSheets sheets) fenv ∧ ∀ (i : Nat) o, names[i]? = some o → ∃ s, fenv.bk.nameObjs[i]? = some { o with nameIndex := i, scope := some s } := by
  have h50 : 50 ≤ env.bv := by omega
  have hl : SheetLists env.base sheets b := by
    obtain ⟨f, b1, _, h4, h3, _⟩ := parse_ok he hok h
    have hl1 := sheets_items h50 hsh h4
    obtain ⟨os, _, _, _, _, _, rfl⟩ := eof_frame h3
    exact hl1.congr rfl rfl rfl rfl rfl
  obtain ⟨_, hnames⟩ := C44_names env h50 pre post eof he items hok names hn sheets hsh b p h
  refine ⟨⟨by rw [hbv]; omega, ?_⟩, ?_⟩
  · rintro sh x y ⟨o, rfl, hloc⟩
    obtain ⟨h1, h2, _⟩ := oldLocal_range hb hl (bv := fenv.bv) (by omega) hloc
    exact ⟨by rw [if_neg (by omega), oldSheets_length o h1], h2⟩
  · intro i o hi
    obtain ⟨s, hs, _⟩ := hnames i o hi
    exact ⟨s, by rw [hb.names]; exact hs⟩

/-! ## C85 -/

/-- **C85** (BIFF8).  A name of which the formula is an expression of references, some of them relative (`RelExpr`), gives references that mean, in every
cell, exactly the areas that the expression means there.  Of two areas a range or an intersection must be taken only if the same bounds of them are relative. -/
theorem C85_relative_areas_partial (env : BookEnv) (h8 : env.bv = 80) (pre post eof : Bytes) (he : eof.length < 65536) (items : List GItem)
    (hok : GlobalsOk env.bv items) (sheets : List SheetRec) (hsh : Sheets env.bv (textAt env) items sheets) (refs : List ExtRef)
    (hr : Externs items refs) (names : List NameObj) (hn : Names env.bv (textAt env) items names) (b : Book) (p : Int)
    (h : parseGlobals env (pre ++ encGlobals items eof ++ post) newBook (pre.length : Int) = .ok (b, p))
    (fenv : FEnv) (hbv : fenv.bv = 80) (hb : SameTables fenv.bk b) (tbl : NameTbl) (ht : bookNames fenv = .ok tbl)
    (i : Nat) (x : RelExpr) (l : List MovingArea) (hx : RelFormula 80 names i x) (hv : RelVal 80 (NewSheets (supbooks items) sheets refs) names x l) :
    ∃ e o rs, tbl[i]? = some (some e) ∧ e.result = some o ∧ o.value = some (.refs rs) ∧ RefersTo rs l ∧
      (SomeMove l → o.kind = .relref) ∧ (¬ SomeMove l → o.kind = .ref) := by
  obtain ⟨hrb, hm⟩ := rel_book h8 he hok hsh hr hn h hbv hb
  rw [← hbv] at hx hv
  exact rel_result hrb hm ht hx hv

/-- **C85** (BIFF5 and BIFF7). -/
theorem C85_old_relative_areas_partial (env : BookEnv) (h57 : env.bv = 50 ∨ env.bv = 70) (pre post eof : Bytes) (he : eof.length < 65536) (items : List GItem)
    (hok : GlobalsOk env.bv items) (sheets : List SheetRec) (hsh : Sheets env.bv (textAt env) items sheets)
    (names : List NameObj) (hn : Names env.bv (textAt env) items names) (b : Book) (p : Int)
    (h : parseGlobals env (pre ++ encGlobals items eof ++ post) newBook (pre.length : Int) = .ok (b, p))
    (fenv : FEnv) (hbv : fenv.bv = env.bv) (hb : SameTables fenv.bk b) (tbl : NameTbl) (ht : bookNames fenv = .ok tbl)
    (i : Nat) (x : RelExpr) (l : List MovingArea) (hx : RelFormula env.bv names i x) (hv : RelVal env.bv (OwnSheets sheets) names x l) :
    ∃ e o rs, tbl[i]? = some (some e) ∧ e.result = some o ∧ o.value = some (.refs rs) ∧ RefersTo rs l ∧
      (SomeMove l → o.kind = .relref) ∧ (¬ SomeMove l → o.kind = .ref) := by
  obtain ⟨hrb, hm⟩ := rel_book_old h57 he hok hsh hn h hbv hb
  rw [← hbv] at hx hv
  exact rel_result hrb hm ht hx hv

/-- **C85** (what the code does not do).  A name that is a range or an intersection of two areas of which different bounds move has no value; if only one of
them moves, the result even claims to be an absolute reference, and `Name.cell` and `Name.area2d` raise TypeError for it. -/
theorem C85_unlike_areas_lost (env : BookEnv) (h8 : env.bv = 80) (pre post eof : Bytes) (he : eof.length < 65536) (items : List GItem)
    (hok : GlobalsOk env.bv items) (sheets : List SheetRec) (hsh : Sheets env.bv (textAt env) items sheets) (refs : List ExtRef)
    (hr : Externs items refs) (names : List NameObj) (hn : Names env.bv (textAt env) items names) (b : Book) (p : Int)
    (h : parseGlobals env (pre ++ encGlobals items eof ++ post) newBook (pre.length : Int) = .ok (b, p))
    (fenv : FEnv) (hbv : fenv.bv = 80) (hb : SameTables fenv.bk b) (tbl : NameTbl) (ht : bookNames fenv = .ok tbl)
    (i : Nat) (a c : RelExpr) (x y : MovingArea) (hx : RelFormula 80 names i (.range a c) ∨ RelFormula 80 names i (.isect a c))
    (hva : RelVal 80 (NewSheets (supbooks items) sheets refs) names a [x]) (hvc : RelVal 80 (NewSheets (supbooks items) sheets refs) names c [y])
    (hne : x.moves ≠ y.moves) :
    ∃ e o, tbl[i]? = some (some e) ∧ e.result = some o ∧ o.value = none ∧
      (¬ (SomeMove [x] ∧ SomeMove [y]) → o.kind = .ref ∧ opndRefs e.result = .error .type) := by
  obtain ⟨hrb, hm⟩ := rel_book h8 he hok hsh hr hn h hbv hb
  rw [← hbv] at hx hva hvc
  obtain ⟨e, o, h1, h2, h3⟩ := lost_result hrb hm ht hx hva hvc hne
  refine ⟨e, o, h1, h2, ?_, ?_⟩
  · rcases h3 with h | h <;> exact h.1
  · intro hs
    rcases h3 with ⟨hv, hk⟩ | ⟨_, _, hs'⟩
    · refine ⟨hk, ?_⟩
      rw [h2]
      simp only [opndRefs, hk, hv, if_true]
    · exact absurd hs' hs

end Xlrd
