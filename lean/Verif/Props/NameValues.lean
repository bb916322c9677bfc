import Verif.Spec.RefExpr
import Verif.Props.Extern
import Verif.Props.Evaluate
import Verif.Props.Formula
import Verif.Props.Files
import Verif.Props.DefinedNames

/-!
# C70 what names refer to
-/
set_option linter.unusedSimpArgs false
namespace Xlrd
open Spec

/-! ## Only names change the table -/

theorem nameRef_tbl {env : FEnv} {rc : NameTbl → Nat → Int → R NameTbl} {st st' : EvSt} {tgt : Int} {Inv : NameTbl → Prop}
    (hrc : ∀ t i g t', Inv t → rc t i g = .ok t' → Inv t') (hi : Inv st.tbl) (h : nameRef env rc st tgt = .ok st') : Inv st'.tbl := by
  unfold nameRef at h
  obtain ⟨o, _, h⟩ := bind_ok h
  obtain ⟨tbl, h1, h⟩ := bind_ok h
  have ht : Inv tbl := by
    unfold evaluated at h1
    split at h1
    · cases h1; exact hi
    · exact hrc _ _ _ _ hi h1
  split at h
  · unfold useName at h
    split at h
    · obtain ⟨t, _, h⟩ := bind_ok h
      cases h; exact ht
    · split at h
      · obtain ⟨t, _, h⟩ := bind_ok h
        cases h; exact ht
      · cases h
  · cases h

theorem evNameX_tbl {env : FEnv} {rc : NameTbl → Nat → Int → R NameTbl} {namex : Int} {data : Bytes} {pos : Int} {st st' : EvSt}
    {Inv : NameTbl → Prop} (hrc : ∀ t i g t', Inv t → rc t i g = .ok t' → Inv t') (hi : Inv st.tbl)
    (h : evNameX env rc namex data pos st = .ok st') : Inv st'.tbl := by
  unfold evNameX at h
  obtain ⟨⟨orig, refx, tgt, dodgy⟩, _, h⟩ := bind_ok h
  simp only at h
  have ht : Inv (if tgt = namex then { st with anyErr := true } else st : EvSt).tbl := by
    by_cases c : tgt = namex
    · rw [if_pos c]; exact hi
    · rw [if_neg c]; exact hi
  by_cases c : (dodgy || decide (tgt = namex)) = true
  · rw [if_pos c] at h; cases h; exact ht
  · rw [if_neg c] at h
    obtain ⟨s, _, h⟩ := bind_ok h
    by_cases c2 : s.1 < -1
    · rw [if_pos c2] at h; cases h; exact ht
    · rw [if_neg c2] at h; exact nameRef_tbl hrc ht h

theorem evClass_tbl {env : FEnv} {rc : NameTbl → Nat → Int → R NameTbl} {namex : Int} {data : Bytes} {pos : Int} {opcode optype : Nat}
    {st st' : EvSt} {Inv : NameTbl → Prop} (hrc : ∀ t i g t', Inv t → rc t i g = .ok t' → Inv t') (hi : Inv st.tbl)
    (h : evClass env rc namex data pos opcode optype st = .ok st') : Inv st'.tbl := by
  unfold evClass at h
  by_cases c : opcode = 0x00
  · rw [if_pos c] at h; cases h; exact hi
  rw [if_neg c] at h; clear c
  by_cases c : opcode = 0x01
  · rw [if_pos c] at h; obtain ⟨q, _, h⟩ := bind_ok h; cases h; exact hi
  rw [if_neg c] at h; clear c
  by_cases c : opcode = 0x02
  · rw [if_pos c] at h; obtain ⟨q, _, h⟩ := bind_ok h; cases h; exact hi
  rw [if_neg c] at h; clear c
  by_cases c : opcode = 0x03
  · rw [if_pos c] at h; obtain ⟨q, _, h⟩ := bind_ok h; exact nameRef_tbl hrc hi h
  rw [if_neg c] at h; clear c
  by_cases c : opcode = 0x04
  · rw [if_pos c] at h; unfold evRef at h; obtain ⟨q, _, h⟩ := bind_ok h; cases h; exact hi
  rw [if_neg c] at h; clear c
  by_cases c : opcode = 0x05
  · rw [if_pos c] at h; unfold evArea at h; obtain ⟨⟨q, q'⟩, _, h⟩ := bind_ok h; cases h; exact hi
  rw [if_neg c] at h; clear c
  by_cases c : opcode = 0x06 ∨ opcode = 0x0C ∨ opcode = 0x0D
  · rw [if_pos c] at h; cases h
  rw [if_neg c] at h; clear c
  by_cases c : opcode = 0x09
  · rw [if_pos c] at h; obtain ⟨q, _, h⟩ := bind_ok h; cases h; exact hi
  rw [if_neg c] at h; clear c
  by_cases c : opcode = 0x1A
  · rw [if_pos c] at h; unfold evRef3d at h
    obtain ⟨a, _, h⟩ := bind_ok h
    obtain ⟨s, _, h⟩ := bind_ok h
    obtain ⟨o, _, h⟩ := bind_ok h
    cases h; exact hi
  rw [if_neg c] at h; clear c
  by_cases c : opcode = 0x1B
  · rw [if_pos c] at h; unfold evArea3d at h
    obtain ⟨⟨a, z⟩, _, h⟩ := bind_ok h
    obtain ⟨s, _, h⟩ := bind_ok h
    obtain ⟨o, _, h⟩ := bind_ok h
    cases h; exact hi
  rw [if_neg c] at h; clear c
  by_cases c : opcode = 0x19
  · rw [if_pos c] at h; exact evNameX_tbl hrc hi h
  rw [if_neg c] at h; clear c
  by_cases c : opcode ∈ errorOpcodes
  · rw [if_pos c] at h; cases h; exact hi
  · rw [if_neg c] at h; cases h; exact hi

theorem evStep_tbl {env : FEnv} {rc : NameTbl → Nat → Int → R NameTbl} {tab : List Int} {namex : Int} {data : Bytes} {pos : Int} {st : EvSt}
    {r : EvSt × Int} {Inv : NameTbl → Prop} (hrc : ∀ t i g t', Inv t → rc t i g = .ok t' → Inv t') (hi : Inv st.tbl)
    (h : evStep env rc tab namex data pos st = .ok r) : Inv r.1.tbl := by
  unfold evStep at h
  obtain ⟨op, _, h⟩ := bind_ok h
  simp only at h
  by_cases c1 : tab.getD (if op / 32 % 4 = 0 then op % 32 else op % 32 + 32) (-2) = -2
  · rw [if_pos c1] at h; cases h
  rw [if_neg c1] at h
  by_cases c2 : op / 32 % 4 = 0
  · rw [if_pos c2] at h
    obtain ⟨q, _, h⟩ := bind_ok h
    by_cases c3 : q.2 ≤ 0
    · rw [if_pos c3] at h; cases h
    · rw [if_neg c3] at h; cases h; exact hi
  · rw [if_neg c2] at h
    obtain ⟨q, h1, h⟩ := bind_ok h
    by_cases c3 : tab.getD (if op / 32 % 4 = 0 then op % 32 else op % 32 + 32) (-2) ≤ 0
    · rw [if_pos c3] at h; cases h
    · rw [if_neg c3] at h; cases h; exact evClass_tbl hrc hi h1

theorem evLoop_tbl {env : FEnv} {rc : NameTbl → Nat → Int → R NameTbl} {tab : List Int} {namex : Int} {data : Bytes} {len : Nat}
    {Inv : NameTbl → Prop} (hrc : ∀ t i g t', Inv t → rc t i g = .ok t' → Inv t') :
    ∀ (fuel : Nat) (st st' : EvSt) (pos : Int), Inv st.tbl → evLoop env rc tab namex data len fuel st pos = .ok st' → Inv st'.tbl := by
  intro fuel
  induction fuel with
  | zero =>
    intro st st' pos hi h
    simp only [evLoop] at h
    split at h <;> cases h
    exact hi
  | succ fuel ih =>
    intro st st' pos hi h
    simp only [evLoop] at h
    split at h
    · obtain ⟨r, h1, h⟩ := bind_ok h
      exact ih _ _ _ (evStep_tbl hrc hi h1) h
    · cases h; exact hi

/-- A property of tables that is kept when a name gets its entry is kept by evaluation. -/
theorem evaluateName_inv {env : FEnv} {Inv : NameTbl → Prop}
    (hset : ∀ (k : Nat) (t : NameTbl) (i : Nat) (g : Int) (o : NameObj) (tab : List Int) (st : EvSt), Inv t → env.bk.nameObjs[i]? = some o → szdict env.bv = .ok tab →
      (∀ t i g t', Inv t → evaluateName env k t i g = .ok t' → Inv t') →
      evLoop env (evaluateName env k) tab g o.rawFormula o.basicFormulaLen o.basicFormulaLen
        { stack := if o.basicFormulaLen = 0 then [{}] else [], tbl := t } 0 = .ok st → Inv st.tbl →
      Inv (st.tbl.set i (some { stack := st.stack, anyRel := st.anyRel, anyErr := st.anyErr }))) :
    ∀ (k : Nat) (t : NameTbl) (i : Nat) (g : Int) (t' : NameTbl), Inv t → evaluateName env k t i g = .ok t' → Inv t' := by
  intro k
  induction k with
  | zero => intro t i g t' _ h; cases h
  | succ k ih =>
    intro t i g t' hi h
    simp only [evaluateName, evBody] at h
    split at h
    · cases h
    · rename_i o ho
      obtain ⟨tab, h1, h⟩ := bind_ok h
      obtain ⟨st, h2, h⟩ := bind_ok h
      cases h
      exact hset k t i g o tab st hi ho h1 ih h2 (evLoop_tbl ih _ _ _ _ (by exact hi) h2)

/-! ## The value of an expression -/

/-- The operand for a list of areas. -/
def Means (o : Opnd) (l : List Ref3D) : Prop := o.kind = .ref ∧ o.value = some (.refs (l.map fun b => { toRef3D := b }))

/-- The entries of the table are as the formulas say. -/
def GoodTbl (loc : Nat → Nat → Nat → Prop) (names : List NameObj) (t : NameTbl) : Prop :=
  ∀ (i : Nat) e x l, t[i]? = some (some e) → NameFormula names i x → RefVal loc names x l → ∃ o, e = { stack := [o], anyRel := false, anyErr := false } ∧ Means o l

theorem evLoop_ok {env : FEnv} {rc : NameTbl → Nat → Int → R NameTbl} {tab : List Int} {namex : Int} {data : Bytes} {len fuel : Nat} {st st' : EvSt} {pos : Nat}
    (hp : pos < len) (h : evLoop env rc tab namex data len fuel st pos = .ok st') :
    ∃ f r, evStep env rc tab namex data pos st = .ok r ∧ evLoop env rc tab namex data len f r.1 r.2 = .ok st' := by
  cases fuel with
  | zero =>
    simp only [evLoop] at h
    rw [if_pos (by omega)] at h
    cases h
  | succ f =>
    simp only [evLoop] at h
    rw [if_pos (by omega)] at h
    obtain ⟨r, h1, h⟩ := bind_ok h
    exact ⟨f, r, h1, h⟩

/-- What evaluation needs to know of the book. -/
structure RefBook (loc : Nat → Nat → Nat → Prop) (env : FEnv) : Prop where
  bv : env.bv = 80
  loc : ∀ refx x y, loc refx x y → externRange env.bk refx = .ok ((x : Int), (y : Int)) ∧ x < env.bk.sheetNames.length ∧ y < env.bk.sheetNames.length

theorem sheetrange_ok (names : List PyStr) (x y : Nat) (hx : x < names.length) (hy : y < names.length) : ∃ s, sheetrange names x ((y : Int) + 1) = .ok s := by
  have h : ∀ k : Nat, k < names.length → ∃ s, quotedsheetname names k = .ok s := by
    intro k hk
    obtain ⟨s, h, _⟩ := C57_quotedsheetname_reads_back names k hk
    exact ⟨s, h⟩
  obtain ⟨a, ha⟩ := h x hx
  obtain ⟨b, hb⟩ := h y hy
  unfold sheetrange
  rw [show (y : Int) + 1 - 1 = y by omega, ha, hb]
  by_cases hc : (x : Int) ≠ y
  · exact ⟨_, by simp only [bind, Except.bind, if_pos hc]; rfl⟩
  · exact ⟨_, by simp only [bind, Except.bind, if_neg hc]; rfl⟩

theorem rangename3d_ok (names : List PyStr) (x y r1 r2 c1 c2 : Nat) (hx : x < names.length) (hy : y < names.length) (h1 : c1 < 256) (h2 : c2 < 256) :
    ∃ s, rangename3d names x ((y : Int) + 1) r1 ((r2 : Int) + 1) c1 ((c2 : Int) + 1) = .ok s := by
  obtain ⟨a, ha⟩ := sheetrange_ok names x y hx hy
  obtain ⟨s, hs, _, _⟩ := cellnameabs_spec r1 c1 (by omega)
  obtain ⟨t, ht, _, _⟩ := cellnameabs_spec r2 c2 (by omega)
  unfold rangename3d rangename2d
  rw [ha, show (r2 : Int) + 1 - 1 = r2 by omega, show (c2 : Int) + 1 - 1 = c2 by omega, hs, ht]
  simp only [Bool.false_eq_true, if_false]
  by_cases hc : (r2 : Int) + 1 = r1 + 1 ∧ (c2 : Int) + 1 = c1 + 1
  · exact ⟨_, by simp only [bind, Except.bind, if_pos hc]; rfl⟩
  · exact ⟨_, by simp only [bind, Except.bind, if_neg hc]; rfl⟩

theorem sheets3d_at {loc : Nat → Nat → Nat → Prop} {env : FEnv} (hb : RefBook loc env) {refx x y : Nat} (h16 : refx < 65536) (hl : loc refx x y) (pre : Bytes) (c : UInt8) (rest : Bytes) :
    sheets3d env.bv env.bk (pre ++ c :: (le16 refx ++ rest)) (pre.length : Int) = .ok ((x : Int), (y : Int)) := by
  unfold sheets3d
  rw [if_pos (by rw [hb.bv])]
  have e : unpackH (slice (pre ++ c :: (le16 refx ++ rest)) ((pre.length : Int) + 1) ((pre.length : Int) + 3)) = .ok refx := by
    have := unpackH_at (data := pre ++ c :: (le16 refx ++ rest)) (r := rest) (p := pre.length + 1) h16 (by rw [← List.drop_drop, List.drop_left]; rfl)
    rw [show ((pre.length + 1 : Nat) : Int) + 2 = (pre.length : Int) + 3 by omega, show ((pre.length + 1 : Nat) : Int) = (pre.length : Int) + 1 by omega] at this
    exact this
  rw [e]
  exact (hb.loc refx x y hl).1

/-- One token of a cell reference. -/
theorem evRef3d_at {loc : Nat → Nat → Nat → Prop} {env : FEnv} (hb : RefBook loc env) {refx x y r c : Nat} (h16 : refx < 65536) (hl : loc refx x y)
    (hr : r < 65536) (hc : c < 256) (pre rest : Bytes) (st : EvSt) :
    ∃ o, evRef3d env (pre ++ ((RefExpr.cell refx r c).tokens ++ rest)) (pre.length : Int) 1 st = .ok { st with stack := o :: st.stack } ∧
      Means o [⟨x, y + 1, r, r + 1, c, c + 1⟩] := by
  obtain ⟨_, hx, hy⟩ := hb.loc refx x y hl
  obtain ⟨t, ht⟩ := rangename3d_ok env.bk.sheetNames x y r r c c hx hy hc hc
  have ha := C47_cell_address 80 (.abs r) (.abs c) ⟨by simpa [Coord.Fits, rowCount] using hr, by simpa [Coord.Fits] using hc⟩ none none (pre ++ 0x3A :: le16 refx) rest
  rw [show (((pre ++ 0x3A :: le16 refx).length : Nat) : Int) = (pre.length : Int) + 3 by simp [le16_length]] at ha
  have hs := sheets3d_at hb h16 hl pre 0x3A (encAddr 80 (.abs r) (.abs c) ++ rest)
  have e1 : pre ++ ((RefExpr.cell refx r c).tokens ++ rest) = pre ++ 0x3A :: le16 refx ++ encAddr 80 (.abs r) (.abs c) ++ rest := by simp [RefExpr.tokens]
  have e2 : pre ++ ((RefExpr.cell refx r c).tokens ++ rest) = pre ++ 0x3A :: (le16 refx ++ (encAddr 80 (.abs r) (.abs c) ++ rest)) := by simp [RefExpr.tokens]
  refine ⟨{ kind := .ref, value := some (.refs [{ shtxlo := x, shtxhi := y + 1, rowxlo := r, rowxhi := r + 1, colxlo := c, colxhi := c + 1 }]), rank := LEAF_RANK, text := t }, ?_, rfl, rfl⟩
  unfold evRef3d
  rw [if_pos (by rw [hb.bv])]
  conv_lhs => rw [show getCellAddr (pre ++ ((RefExpr.cell refx r c).tokens ++ rest)) ((pre.length : Int) + 3) env.bv true none none = .ok (addrOf (.abs r) (.abs c)) by
    rw [hb.bv, e1]; exact ha]
  conv_lhs => rw [show sheets3d env.bv env.bk (pre ++ ((RefExpr.cell refx r c).tokens ++ rest)) (pre.length : Int) = .ok ((x : Int), (y : Int)) by rw [e2]; exact hs]
  simp only [bind, Except.bind, pure, Except.pure, ref3dOpnd, mkRef3d, addrOf, Coord.num, Coord.isRel, Bool.or_self, Bool.false_eq_true, if_false, if_true, ht]
  simp only [Bool.or_false, decide_eq_false (show ¬ ((x : Int) < -1) by omega)]

/-- One token of an area reference. -/
theorem evArea3d_at {loc : Nat → Nat → Nat → Prop} {env : FEnv} (hb : RefBook loc env) {refx x y r1 r2 c1 c2 : Nat} (h16 : refx < 65536) (hl : loc refx x y)
    (hr1 : r1 < 65536) (hr2 : r2 < 65536) (hc1 : c1 < 256) (hc2 : c2 < 256) (pre rest : Bytes) (st : EvSt) :
    ∃ o, evArea3d env (pre ++ ((RefExpr.area refx r1 r2 c1 c2).tokens ++ rest)) (pre.length : Int) 1 st = .ok { st with stack := o :: st.stack } ∧
      Means o [⟨x, y + 1, r1, r2 + 1, c1, c2 + 1⟩] := by
  obtain ⟨_, hx, hy⟩ := hb.loc refx x y hl
  obtain ⟨t, ht⟩ := rangename3d_ok env.bk.sheetNames x y r1 r2 c1 c2 hx hy hc1 hc2
  have ha := C47_area_address 80 (.abs r1) (.abs r2) (.abs c1) (.abs c2) ⟨by simpa [Coord.Fits, rowCount] using hr1, by simpa [Coord.Fits] using hc1⟩
    ⟨by simpa [Coord.Fits, rowCount] using hr2, by simpa [Coord.Fits] using hc2⟩ none none (pre ++ 0x3B :: le16 refx) rest
  rw [show (((pre ++ 0x3B :: le16 refx).length : Nat) : Int) = (pre.length : Int) + 3 by simp [le16_length]] at ha
  have hs := sheets3d_at hb h16 hl pre 0x3B (encArea 80 (.abs r1) (.abs r2) (.abs c1) (.abs c2) ++ rest)
  have e1 : pre ++ ((RefExpr.area refx r1 r2 c1 c2).tokens ++ rest) = pre ++ 0x3B :: le16 refx ++ encArea 80 (.abs r1) (.abs r2) (.abs c1) (.abs c2) ++ rest := by
    simp [RefExpr.tokens]
  have e2 : pre ++ ((RefExpr.area refx r1 r2 c1 c2).tokens ++ rest) = pre ++ 0x3B :: (le16 refx ++ (encArea 80 (.abs r1) (.abs r2) (.abs c1) (.abs c2) ++ rest)) := by
    simp [RefExpr.tokens]
  refine ⟨{ kind := .ref, value := some (.refs [{ shtxlo := x, shtxhi := y + 1, rowxlo := r1, rowxhi := r2 + 1, colxlo := c1, colxhi := c2 + 1 }]), rank := LEAF_RANK, text := t }, ?_, rfl, rfl⟩
  unfold evArea3d
  rw [if_pos (by rw [hb.bv])]
  conv_lhs => rw [show getCellRangeAddr (pre ++ ((RefExpr.area refx r1 r2 c1 c2).tokens ++ rest)) ((pre.length : Int) + 3) env.bv true none none =
    .ok (addrOf (.abs r1) (.abs c1), addrOf (.abs r2) (.abs c2)) by rw [hb.bv, e1]; exact ha]
  conv_lhs => rw [show sheets3d env.bv env.bk (pre ++ ((RefExpr.area refx r1 r2 c1 c2).tokens ++ rest)) (pre.length : Int) = .ok ((x : Int), (y : Int)) by rw [e2]; exact hs]
  simp only [bind, Except.bind, pure, Except.pure, ref3dOpnd, mkRef3d, addrOf, Coord.num, Coord.isRel, Bool.or_self, Bool.false_eq_true, if_false, if_true, ht]
  simp only [Bool.or_false, decide_eq_false (show ¬ ((x : Int) < -1) by omega)]

theorem evStep_class {env : FEnv} {rc : NameTbl → Nat → Int → R NameTbl} {tab : List Int} {namex : Int} {data rest : Bytes} {p : Nat} {b : UInt8} (st : EvSt)
    (h : data.drop p = b :: rest) {opcode optype : Nat} {sz : Int} (h1 : b.toNat % 32 = opcode) (h2 : b.toNat / 32 % 4 = optype) (h0 : optype ≠ 0)
    (hs : tab.getD (opcode + 32) (-2) = sz) (hp : 0 < sz) :
    evStep env rc tab namex data p st = (evClass env rc namex data p opcode optype st).map fun st => (st, (p : Int) + sz) := by
  unfold evStep
  rw [byteAt_at h]
  simp only [bind, Except.bind, h1, h2, if_neg h0, hs]
  rw [if_neg (by omega)]
  cases evClass env rc namex data p opcode optype st with
  | error e => rfl
  | ok r => simp only [if_neg (show ¬ sz ≤ 0 by omega)]; rfl

theorem evStep_plain {env : FEnv} {rc : NameTbl → Nat → Int → R NameTbl} {tab : List Int} {namex : Int} {data rest : Bytes} {p : Nat} {b : UInt8} (st : EvSt)
    (h : data.drop p = b :: rest) {opcode : Nat} (h1 : b.toNat % 32 = opcode) (h2 : b.toNat / 32 % 4 = 0)
    (hs : tab.getD opcode (-2) = 1) {s' : List Opnd} (he : evPlain env data p opcode 1 st.stack = .ok (s', 1)) :
    evStep env rc tab namex data p st = .ok ({ st with stack := s' }, (p : Int) + 1) := by
  unfold evStep
  rw [byteAt_at h]
  simp only [bind, Except.bind, h1, h2, if_true, hs]
  rw [if_neg (by omega), he]
  simp only [if_neg (show ¬ (1 : Int) ≤ 0 by omega)]; rfl

theorem nameRef_good {loc : Nat → Nat → Nat → Prop} {env : FEnv} {rc : NameTbl → Nat → Int → R NameTbl} {st st' : EvSt} {k : Nat} {e : RefExpr} {l : List Ref3D}
    (hrc : ∀ t i g t', GoodTbl loc env.bk.nameObjs t → rc t i g = .ok t' → GoodTbl loc env.bk.nameObjs t') (hg : GoodTbl loc env.bk.nameObjs st.tbl)
    (hk : NameFormula env.bk.nameObjs k e) (hv : RefVal loc env.bk.nameObjs e l) (h : nameRef env rc st k = .ok st') :
    ∃ o tbl, Means o l ∧ GoodTbl loc env.bk.nameObjs tbl ∧ st' = { st with stack := o :: st.stack, tbl := tbl } := by
  obtain ⟨ob, rest, h1, h2, h3, h4, h5⟩ := hk
  unfold nameRef at h
  rw [(idx_ok_nat _ _ _).mpr h1] at h
  simp only [bind, Except.bind] at h
  have hp : pyPos env.bk.nameObjs (k : Int) = k := by unfold pyPos; rw [if_neg (by omega)]; rfl
  rw [hp] at h
  cases h6 : evaluated rc st.tbl k (k : Int) with
  | error e => rw [h6] at h; cases h
  | ok tbl =>
    rw [h6] at h
    have ht : GoodTbl loc env.bk.nameObjs tbl := by
      unfold evaluated at h6
      split at h6
      · cases h6; exact hg
      · exact hrc _ _ _ _ hg h6
    simp only at h
    split at h
    · rename_i ev hev
      obtain ⟨o, rfl, ho⟩ := ht k ev e l hev ⟨ob, rest, h1, h2, h3, h4, h5⟩ hv
      unfold useName at h
      rw [if_neg (by simp [h2, h3])] at h
      simp only at h
      obtain ⟨t, _, h⟩ := bind_ok h
      cases h
      exact ⟨{ o with rank := LEAF_RANK, text := t }, tbl, ⟨ho.1, ho.2⟩, ht, rfl⟩
    · cases h

theorem drop_pre (pre x : Bytes) : (pre ++ x).drop pre.length = x := List.drop_left

/-- The operators on single areas. -/
theorem isect_means {a b : Opnd} {x y : Ref3D} (ha : Means a [x]) (hb : Means b [y]) (s : List Opnd) : ∃ o, doIsect (b :: a :: s) = .ok (o :: s) ∧ Means o [meet x y] := by
  refine ⟨{ kind := .ref, value := some (.refs [{ toRef3D := boxIsect x y }]), rank := 0, text := binText 80 " ".toList a.rank a.text b.rank b.text }, ?_, rfl, rfl⟩
  simp [doIsect, boxOp, boxAbs, oneRef, refsOf, ha.1, ha.2, hb.1, hb.2, bind, Except.bind, pure, Except.pure]
theorem range_means {a b : Opnd} {x y : Ref3D} (ha : Means a [x]) (hb : Means b [y]) (s : List Opnd) : ∃ o, doRange (b :: a :: s) = .ok (o :: s) ∧ Means o [hull x y] := by
  refine ⟨{ kind := .ref, value := some (.refs [{ toRef3D := boxRange x y }]), rank := 80, text := binText 80 ":".toList a.rank a.text b.rank b.text }, ?_, rfl, rfl⟩
  simp [doRange, boxOp, boxAbs, oneRef, refsOf, ha.1, ha.2, hb.1, hb.2, bind, Except.bind, pure, Except.pure]
theorem union_means {a b : Opnd} {l : List Ref3D} {y : Ref3D} (hl : l ≠ []) (ha : Means a l) (hb : Means b [y]) (s : List Opnd) :
    ∃ o, doList (b :: a :: s) = .ok (o :: s) ∧ Means o (l ++ [y]) := by
  refine ⟨{ kind := .ref, value := some (.refs ((l ++ [y]).map fun b => { toRef3D := b })), rank := 80, text := binText 80 ",".toList a.rank a.text b.rank b.text }, ?_, rfl, rfl⟩
  have : 1 ≤ l.length := List.length_pos_iff.mpr hl
  simp [doList, unionOp, unionValue, refsOf, ha.1, ha.2, hb.1, hb.2, bind, Except.bind, pure, Except.pure, pyAssert, this]

theorem refVal_ne {loc : Nat → Nat → Nat → Prop} {names : List NameObj} {x : RefExpr} {l : List Ref3D} (h : RefVal loc names x l) : l ≠ [] := by
  induction h <;> simp_all

theorem enc80_length (r c : Coord) : (encAddr 80 r c).length = 4 := by simp [encAddr, encCol, le16_length]
theorem encArea80_length (r1 r2 c1 c2 : Coord) : (encArea 80 r1 r2 c1 c2).length = 8 := by simp [encArea, encCol, le16_length]

/-- Evaluation of the tokens of an expression pushes the areas that it means. -/
theorem run_tokens {loc : Nat → Nat → Nat → Prop} {env : FEnv} (hb : RefBook loc env) {rc : NameTbl → Nat → Int → R NameTbl}
    (hrc : ∀ t i g t', GoodTbl loc env.bk.nameObjs t → rc t i g = .ok t' → GoodTbl loc env.bk.nameObjs t') (namex : Int) (data : Bytes) (len : Nat) (st' : EvSt)
    {x : RefExpr} {l : List Ref3D} (hv : RefVal loc env.bk.nameObjs x l) :
    ∀ (pre rest : Bytes) (fuel : Nat) (st : EvSt), data = pre ++ (x.tokens ++ rest) → pre.length + x.tokens.length ≤ len → GoodTbl loc env.bk.nameObjs st.tbl →
      evLoop env rc sztab4 namex data len fuel st pre.length = .ok st' →
      ∃ f o tbl, Means o l ∧ GoodTbl loc env.bk.nameObjs tbl ∧
        evLoop env rc sztab4 namex data len f { st with stack := o :: st.stack, tbl := tbl } ((pre.length + x.tokens.length : Nat) : Int) = .ok st' := by
  induction hv with
  | cell refx r c x y h16 hl hr hc =>
    intro pre rest fuel st hd hlen hg h
    have hp : pre.length < len := by simp only [RefExpr.tokens, List.length_cons] at hlen; omega
    obtain ⟨f, q, h1, h⟩ := evLoop_ok hp h
    rw [evStep_class st (b := 0x3A) (rest := le16 refx ++ encAddr 80 (.abs r) (.abs c) ++ rest) (by rw [hd, drop_pre]; simp [RefExpr.tokens]) (by decide : _ = 0x1A)
      (by decide : _ = 1) (by decide) (sz := 7) (by decide) (by decide)] at h1
    obtain ⟨o, ho, hm⟩ := evRef3d_at hb h16 hl hr hc pre rest st
    have e : evClass env rc namex data (pre.length : Int) 0x1A 1 st = .ok { st with stack := o :: st.stack } := by rw [hd]; simp [evClass]; exact ho
    rw [e] at h1
    cases h1
    refine ⟨f, o, st.tbl, hm, hg, ?_⟩
    rw [show ((pre.length + (RefExpr.cell refx r c).tokens.length : Nat) : Int) = (pre.length : Int) + 7 by simp [RefExpr.tokens, le16_length, enc80_length]]
    exact h
  | area refx r1 r2 c1 c2 x y h16 hl hr1 hr2 hc1 hc2 =>
    intro pre rest fuel st hd hlen hg h
    have hp : pre.length < len := by simp only [RefExpr.tokens, List.length_cons] at hlen; omega
    obtain ⟨f, q, h1, h⟩ := evLoop_ok hp h
    rw [evStep_class st (b := 0x3B) (rest := le16 refx ++ encArea 80 (.abs r1) (.abs r2) (.abs c1) (.abs c2) ++ rest) (by rw [hd, drop_pre]; simp [RefExpr.tokens])
      (by decide : _ = 0x1B) (by decide : _ = 1) (by decide) (sz := 11) (by decide) (by decide)] at h1
    obtain ⟨o, ho, hm⟩ := evArea3d_at hb h16 hl hr1 hr2 hc1 hc2 pre rest st
    have e : evClass env rc namex data (pre.length : Int) 0x1B 1 st = .ok { st with stack := o :: st.stack } := by rw [hd]; simp [evClass]; exact ho
    rw [e] at h1
    cases h1
    refine ⟨f, o, st.tbl, hm, hg, ?_⟩
    rw [show ((pre.length + (RefExpr.area refx r1 r2 c1 c2).tokens.length : Nat) : Int) = (pre.length : Int) + 11 by
      simp [RefExpr.tokens, le16_length, encArea80_length]]
    exact h
  | name k e l hk hn hv _ =>
    intro pre rest fuel st hd hlen hg h
    have hp : pre.length < len := by simp only [RefExpr.tokens, List.length_cons] at hlen; omega
    obtain ⟨f, q, h1, h⟩ := evLoop_ok hp h
    have hd' : data.drop pre.length = 0x23 :: (le16 (k + 1) ++ ([0, 0] ++ rest)) := by rw [hd, drop_pre]; simp [RefExpr.tokens]
    rw [evStep_class st hd' (by decide : _ = 3) (by decide : _ = 1) (by decide) (sz := 5) (by decide) (by decide)] at h1
    have hu := unpackH_at (data := data) (p := pre.length + 1) hk (by rw [← List.drop_drop, hd']; rfl)
    rw [show ((pre.length + 1 : Nat) : Int) + 2 = (pre.length : Int) + 3 by omega, show ((pre.length + 1 : Nat) : Int) = (pre.length : Int) + 1 by omega] at hu
    have e1 : evClass env rc namex data (pre.length : Int) 3 1 st = nameRef env rc st k := by
      simp [evClass, hu, bind, Except.bind]
    rw [e1] at h1
    cases h2 : nameRef env rc st k with
    | error e => rw [h2] at h1; cases h1
    | ok st1 =>
      rw [h2] at h1
      cases h1
      obtain ⟨o, tbl, hm, ht, rfl⟩ := nameRef_good hrc hg hn hv h2
      refine ⟨f, o, tbl, hm, ht, ?_⟩
      rw [show ((pre.length + (RefExpr.name k).tokens.length : Nat) : Int) = (pre.length : Int) + 5 by simp [RefExpr.tokens, le16_length]]
      exact h
  | paren e l hv ih =>
    intro pre rest fuel st hd hlen hg h
    simp only [RefExpr.tokens, List.length_append, List.length_cons, List.length_nil, List.append_assoc] at hd hlen ⊢
    obtain ⟨f, o, tbl, hm, ht, h1⟩ := ih pre ([0x15] ++ rest) fuel st hd (by omega) hg h
    obtain ⟨f, q, h2, h⟩ := evLoop_ok (by omega) h1
    rw [evStep_plain _ (b := 0x15) (rest := rest) (by rw [hd, ← List.append_assoc, ← List.length_append, drop_pre]; rfl) (by decide : _ = 0x15) (by decide) (by decide)
      (by simp [evPlain]; rfl)] at h2
    cases h2
    exact ⟨f, o, tbl, hm, ht, by rw [show ((pre.length + (e.tokens.length + (0 + 1)) : Nat) : Int) = ((pre.length + e.tokens.length : Nat) : Int) + 1 by omega]; exact h⟩
  | mem size e l hs hv ih =>
    intro pre rest fuel st hd hlen hg h
    simp only [RefExpr.tokens, List.length_append, List.length_cons, List.cons_append, List.append_assoc, le16_length] at hd hlen ⊢
    obtain ⟨f, q, h1, h⟩ := evLoop_ok (by omega) h
    have hd' : data.drop pre.length = 0x29 :: (le16 size ++ (e.tokens ++ rest)) := by rw [hd, drop_pre]
    rw [evStep_class st hd' (by decide : _ = 9) (by decide : _ = 1) (by decide) (sz := 3) (by decide) (by decide)] at h1
    have hu := unpackH_at (data := data) (p := pre.length + 1) hs (by rw [← List.drop_drop, hd']; rfl)
    rw [show ((pre.length + 1 : Nat) : Int) + 2 = (pre.length : Int) + 3 by omega, show ((pre.length + 1 : Nat) : Int) = (pre.length : Int) + 1 by omega] at hu
    have e1 : evClass env rc namex data (pre.length : Int) 9 1 st = .ok st := by
      simp [evClass, hu, bind, Except.bind, pure, Except.pure]
    rw [e1] at h1
    cases h1
    have e2 : (pre.length : Int) + 3 = (((pre ++ 0x29 :: le16 size).length : Nat) : Int) := by simp [le16_length]
    simp only [e2] at h
    obtain ⟨f, o, tbl, hm, ht, h1⟩ := ih (pre ++ 0x29 :: le16 size) rest f st (by rw [hd]; simp) (by simp only [List.length_append, List.length_cons, le16_length]; omega) hg h
    refine ⟨f, o, tbl, hm, ht, ?_⟩
    rw [show ((pre.length + (2 + e.tokens.length + 1) : Nat) : Int) = (((pre ++ 0x29 :: le16 size).length + e.tokens.length : Nat) : Int) by
      simp only [List.length_append, List.length_cons, le16_length]; omega]
    exact h1
  | range a b x y _ _ iha ihb =>
    intro pre rest fuel st hd hlen hg h
    simp only [RefExpr.tokens, List.length_append, List.length_cons, List.length_nil, List.append_assoc] at hd hlen ⊢
    obtain ⟨f, oa, tbl, hma, ht, h1⟩ := iha pre (b.tokens ++ ([0x11] ++ rest)) fuel st hd (by omega) hg h
    rw [← List.length_append] at h1
    obtain ⟨f, ob, tbl, hmb, ht, h1⟩ := ihb (pre ++ a.tokens) ([0x11] ++ rest) f _ (by rw [hd]; simp) (by rw [List.length_append]; omega) ht h1
    simp only at h1
    obtain ⟨f, q, h2, h⟩ := evLoop_ok (by rw [List.length_append]; omega) h1
    obtain ⟨o, ho, hm⟩ := range_means hma hmb st.stack
    rw [evStep_plain _ (b := 0x11) (rest := rest) (by rw [hd, ← List.append_assoc, ← List.append_assoc, ← List.length_append, drop_pre]; rfl) (by decide : _ = 0x11) (by decide) (by decide)
      (by simp [evPlain, ho, bind, Except.bind]; rfl)] at h2
    cases h2
    refine ⟨f, o, tbl, hm, ht, ?_⟩
    rw [show ((pre.length + (a.tokens.length + (b.tokens.length + (0 + 1))) : Nat) : Int) = (((pre ++ a.tokens).length + b.tokens.length : Nat) : Int) + 1 by
      rw [List.length_append]; omega]
    exact h
  | isect a b x y _ _ iha ihb =>
    intro pre rest fuel st hd hlen hg h
    simp only [RefExpr.tokens, List.length_append, List.length_cons, List.length_nil, List.append_assoc] at hd hlen ⊢
    obtain ⟨f, oa, tbl, hma, ht, h1⟩ := iha pre (b.tokens ++ ([0x0F] ++ rest)) fuel st hd (by omega) hg h
    rw [← List.length_append] at h1
    obtain ⟨f, ob, tbl, hmb, ht, h1⟩ := ihb (pre ++ a.tokens) ([0x0F] ++ rest) f _ (by rw [hd]; simp) (by rw [List.length_append]; omega) ht h1
    simp only at h1
    obtain ⟨f, q, h2, h⟩ := evLoop_ok (by rw [List.length_append]; omega) h1
    obtain ⟨o, ho, hm⟩ := isect_means hma hmb st.stack
    rw [evStep_plain _ (b := 0x0F) (rest := rest) (by rw [hd, ← List.append_assoc, ← List.append_assoc, ← List.length_append, drop_pre]; rfl) (by decide : _ = 0x0F) (by decide) (by decide)
      (by simp [evPlain, ho, bind, Except.bind]; rfl)] at h2
    cases h2
    refine ⟨f, o, tbl, hm, ht, ?_⟩
    rw [show ((pre.length + (a.tokens.length + (b.tokens.length + (0 + 1))) : Nat) : Int) = (((pre ++ a.tokens).length + b.tokens.length : Nat) : Int) + 1 by
      rw [List.length_append]; omega]
    exact h
  | union a b l y hva _ iha ihb =>
    intro pre rest fuel st hd hlen hg h
    simp only [RefExpr.tokens, List.length_append, List.length_cons, List.length_nil, List.append_assoc] at hd hlen ⊢
    obtain ⟨f, oa, tbl, hma, ht, h1⟩ := iha pre (b.tokens ++ ([0x10] ++ rest)) fuel st hd (by omega) hg h
    rw [← List.length_append] at h1
    obtain ⟨f, ob, tbl, hmb, ht, h1⟩ := ihb (pre ++ a.tokens) ([0x10] ++ rest) f _ (by rw [hd]; simp) (by rw [List.length_append]; omega) ht h1
    simp only at h1
    obtain ⟨f, q, h2, h⟩ := evLoop_ok (by rw [List.length_append]; omega) h1
    obtain ⟨o, ho, hm⟩ := union_means (refVal_ne hva) hma hmb st.stack
    rw [evStep_plain _ (b := 0x10) (rest := rest) (by rw [hd, ← List.append_assoc, ← List.append_assoc, ← List.length_append, drop_pre]; rfl) (by decide : _ = 0x10) (by decide) (by decide)
      (by simp [evPlain, ho, bind, Except.bind]; rfl)] at h2
    cases h2
    refine ⟨f, o, tbl, hm, ht, ?_⟩
    rw [show ((pre.length + (a.tokens.length + (b.tokens.length + (0 + 1))) : Nat) : Int) = (((pre ++ a.tokens).length + b.tokens.length : Nat) : Int) + 1 by
      rw [List.length_append]; omega]
    exact h

theorem tokens_ne (x : RefExpr) : x.tokens.length ≠ 0 := by
  induction x <;> simp [RefExpr.tokens, *]

theorem getElem?_set_cases {α} (t : List α) (i j : Nat) (a e : α) (h : (t.set i a)[j]? = some e) : (i = j ∧ e = a) ∨ t[j]? = some e := by
  by_cases hij : i = j
  · subst hij
    rw [List.getElem?_set_self'] at h
    cases ht : t[i]? with
    | none => rw [ht] at h; cases h
    | some x => rw [ht] at h; cases h; exact .inl ⟨rfl, rfl⟩
  · rw [List.getElem?_set_ne hij] at h
    exact .inr h

theorem good_kept {loc : Nat → Nat → Nat → Prop} {env : FEnv} (hb : RefBook loc env) :
    ∀ (k : Nat) (t : NameTbl) (i : Nat) (g : Int) (t' : NameTbl), GoodTbl loc env.bk.nameObjs t → evaluateName env k t i g = .ok t' →
      GoodTbl loc env.bk.nameObjs t' := by
  apply evaluateName_inv
  intro k t i g o tab st hg ho htab hrc h hst j e x l hj hn hv
  rcases getElem?_set_cases _ _ _ _ _ hj with ⟨rfl, he⟩ | hj
  · cases he
    obtain ⟨o', rest, h1, h2, h3, h4, h5⟩ := hn
    rw [ho] at h1
    cases h1
    have ht : tab = sztab4 := by
      rw [hb.bv] at htab
      simpa [szdict] using htab.symm
    subst ht
    rw [if_neg (by rw [h5]; exact tokens_ne x)] at h
    obtain ⟨f, op, tbl, hm, _, h6⟩ := run_tokens hb hrc g o.rawFormula o.basicFormulaLen st hv [] rest o.basicFormulaLen { stack := [], tbl := t } h4
      (by rw [h5]; simp) hg h
    have h7 : ∀ f s, evLoop env (evaluateName env k) sztab4 g o.rawFormula o.basicFormulaLen f s ((([] : Bytes).length + x.tokens.length : Nat) : Int) = .ok s := by
      intro f s
      cases f <;> simp only [evLoop] <;> rw [if_neg (by rw [h5]; simp)]
    rw [h7] at h6
    cases h6
    exact ⟨op, rfl, hm⟩
  · exact hst j e x l hj hn hv

/-- Entries stay, and the length. -/
def Filled (n : Nat) (P : Nat → Prop) (t : NameTbl) : Prop := t.length = n ∧ ∀ j : Nat, P j → ∃ e, t[j]? = some (some e)

theorem filled_kept {env : FEnv} (n : Nat) (P : Nat → Prop) :
    ∀ (k : Nat) (t : NameTbl) (i : Nat) (g : Int) (t' : NameTbl), Filled n P t → evaluateName env k t i g = .ok t' → Filled n P t' := by
  apply evaluateName_inv
  intro k t i g o tab st _ _ _ _ _ hst
  refine ⟨by rw [List.length_set]; exact hst.1, ?_⟩
  intro j hj
  obtain ⟨e, he⟩ := hst.2 j hj
  by_cases hij : i = j
  · subst hij
    have := (List.getElem?_eq_some_iff.mp he).1
    rw [List.getElem?_set_self this]
    exact ⟨_, rfl⟩
  · rw [List.getElem?_set_ne hij]
    exact ⟨e, he⟩

theorem evaluateName_filled {env : FEnv} {n : Nat} {P : Nat → Prop} {k : Nat} {t : NameTbl} {i : Nat} {g : Int} {t' : NameTbl} (hf : Filled n P t) (hi : i < n)
    (h : evaluateName env k t i g = .ok t') : Filled n (fun j => P j ∨ j = i) t' := by
  cases k with
  | zero => cases h
  | succ k =>
    have h0 := filled_kept n P _ _ _ _ _ hf h
    refine ⟨h0.1, ?_⟩
    rintro j (hj | rfl)
    · exact h0.2 j hj
    · simp only [evaluateName, evBody] at h
      split at h
      · cases h
      · obtain ⟨tab, _, h⟩ := bind_ok h
        obtain ⟨st, h2, h⟩ := bind_ok h
        cases h
        have hl : st.tbl.length = n := (evLoop_tbl (Inv := fun t => Filled n P t) (fun t i g t' hi h => filled_kept n P _ _ _ _ _ hi h) _ _ _ _ (by exact hf) h2).1
        rw [List.getElem?_set_self (by omega)]
        exact ⟨_, rfl⟩

theorem evaluateNames_spec {env : FEnv} {Inv : NameTbl → Prop} (hinv : ∀ (k : Nat) (t : NameTbl) (i : Nat) (g : Int) (t' : NameTbl), Inv t → evaluateName env k t i g = .ok t' → Inv t')
    (n : Nat) (all : List NameObj) (hn : all.length = n) :
    ∀ (os : List NameObj) (i : Nat) (t t' : NameTbl), (∀ k o, os[k]? = some o → all[i + k]? = some o) → i + os.length = n →
      Inv t → Filled n (fun j => j < i ∧ ∃ o, all[j]? = some o ∧ o.macroFlag = 0 ∧ o.binary = 0) t → evaluateNames env os i t = .ok t' →
      Inv t' ∧ Filled n (fun j => ∃ o, all[j]? = some o ∧ o.macroFlag = 0 ∧ o.binary = 0) t' := by
  intro os
  induction os with
  | nil =>
    intro i t t' _ hi hg hf h
    simp only [evaluateNames] at h
    cases h
    refine ⟨hg, hf.1, ?_⟩
    rintro j ⟨o, ho, h⟩
    have := (List.getElem?_eq_some_iff.mp ho).1
    simp only [List.length_nil] at hi
    exact hf.2 j ⟨by omega, o, ho, h⟩
  | cons o os ih =>
    intro i t t' hall hi hg hf h
    simp only [evaluateNames] at h
    obtain ⟨t1, h1, h⟩ := bind_ok h
    simp only [List.length_cons] at hi
    have h0 : all[i]? = some o := by simpa using hall 0 o rfl
    have key : Inv t1 ∧ Filled n (fun j => j < i + 1 ∧ ∃ o, all[j]? = some o ∧ o.macroFlag = 0 ∧ o.binary = 0) t1 := by
      unfold evalTop at h1
      by_cases hc : o.macroFlag ≠ 0 ∨ o.binary ≠ 0
      · rw [if_pos hc] at h1
        cases h1
        refine ⟨hg, hf.1, ?_⟩
        rintro j ⟨hj, o', ho', h2, h3⟩
        by_cases hji : j = i
        · subst hji
          rw [h0] at ho'
          cases ho'
          rcases hc with hc | hc
          · exact absurd h2 hc
          · exact absurd h3 hc
        · exact hf.2 j ⟨by omega, o', ho', h2, h3⟩
      · rw [if_neg hc] at h1
        unfold evaluated at h1
        split at h1
        · rename_i e he
          cases h1
          refine ⟨hg, hf.1, ?_⟩
          rintro j ⟨hj, ho⟩
          by_cases hji : j = i
          · subst hji; exact ⟨e, he⟩
          · exact hf.2 j ⟨by omega, ho⟩
        · refine ⟨hinv _ _ _ _ _ hg h1, ?_⟩
          have := evaluateName_filled hf (by omega) h1
          refine ⟨this.1, ?_⟩
          rintro j ⟨hj, ho⟩
          by_cases hji : j = i
          · exact this.2 j (.inr hji)
          · exact this.2 j (.inl ⟨by omega, ho⟩)
    exact ih (i + 1) t1 t' (fun k o' hk => by have := hall (k + 1) o' hk; rwa [show i + (k + 1) = i + 1 + k by omega] at this) (by omega) key.1 key.2 h

/-- A property of tables that evaluation keeps holds when all names have been evaluated. -/
theorem bookNames_inv {env : FEnv} {Inv : NameTbl → Prop} (hinv : ∀ (k : Nat) (t : NameTbl) (i : Nat) (g : Int) (t' : NameTbl), Inv t → evaluateName env k t i g = .ok t' → Inv t')
    (h0 : Inv (env.bk.nameObjs.map fun _ => none)) {tbl : NameTbl} (h : bookNames env = .ok tbl) :
    Inv tbl ∧ Filled env.bk.nameObjs.length (fun j => ∃ o, env.bk.nameObjs[j]? = some o ∧ o.macroFlag = 0 ∧ o.binary = 0) tbl := by
  refine evaluateNames_spec hinv _ env.bk.nameObjs rfl env.bk.nameObjs 0 _ tbl (fun k o hk => by simpa using hk) (by omega) h0 ⟨by simp, ?_⟩ h
  rintro j ⟨hj, _⟩
  omega

theorem bookNames_spec {loc : Nat → Nat → Nat → Prop} {env : FEnv} (hb : RefBook loc env) {tbl : NameTbl} (h : bookNames env = .ok tbl) :
    GoodTbl loc env.bk.nameObjs tbl ∧ Filled env.bk.nameObjs.length (fun j => ∃ o, env.bk.nameObjs[j]? = some o ∧ o.macroFlag = 0 ∧ o.binary = 0) tbl := by
  refine bookNames_inv (good_kept hb) ?_ h
  intro i e x l hi
  rw [List.getElem?_map] at hi
  cases h1 : env.bk.nameObjs[i]? with
  | none => rw [h1] at hi; cases hi
  | some o => rw [h1] at hi; cases hi

theorem nameFormula_mono {names names' : List NameObj} (hm : ∀ (i : Nat) o, names[i]? = some o → ∃ s, names'[i]? = some { o with nameIndex := i, scope := some s })
    {k : Nat} {e : RefExpr} (h : NameFormula names k e) : NameFormula names' k e := by
  obtain ⟨o, rest, h1, h2, h3, h4, h5⟩ := h
  obtain ⟨s, hs⟩ := hm k o h1
  exact ⟨_, rest, hs, h2, h3, h4, h5⟩

theorem refVal_mono {loc : Nat → Nat → Nat → Prop} {names names' : List NameObj}
    (hm : ∀ (i : Nat) o, names[i]? = some o → ∃ s, names'[i]? = some { o with nameIndex := i, scope := some s }) {x : RefExpr} {l : List Ref3D}
    (h : RefVal loc names x l) : RefVal loc names' x l := by
  induction h with
  | cell refx r c x y h1 h2 h3 h4 => exact .cell refx r c x y h1 h2 h3 h4
  | area refx r1 r2 c1 c2 x y h1 h2 h3 h4 h5 h6 => exact .area refx r1 r2 c1 c2 x y h1 h2 h3 h4 h5 h6
  | name k e l h1 h2 _ ih => exact .name k e l h1 (nameFormula_mono hm h2) ih
  | paren e l _ ih => exact .paren e l ih
  | mem size e l h1 _ ih => exact .mem size e l h1 ih
  | range a b x y _ _ iha ihb => exact .range a b x y iha ihb
  | isect a b x y _ _ iha ihb => exact .isect a b x y iha ihb
  | union a b l y _ _ iha ihb => exact .union a b l y iha ihb

/-! ## C70 -/

/-- Two states of a book with the same sheets, references and names. -/
structure SameTables (b b' : Book) : Prop where
  names : b.nameObjs = b'.nameObjs
  sheetNames : b.sheetNames = b'.sheetNames
  sheetsMap : b.allSheetsMap = b'.allSheetsMap
  externs : b.externsheetInfo = b'.externsheetInfo
  locals : b.supbookLocalsInx = b'.supbookLocalsInx
  addins : b.supbookAddinsInx = b'.supbookAddinsInx

theorem map_ok_arg {α β : Type} {x : R α} {f : α → β} {u : β} (h : x.map f = .ok u) : ∃ a, x = .ok a := by
  cases x with
  | error e => cases h
  | ok a => exact ⟨a, rfl⟩

/-- C70: when a workbook loads, its names have been evaluated. -/
theorem C70_names_evaluated (ops : PyOps) (env : BookEnv) (hev : EvaluatesNames ops env) (pre post eof : Bytes) (he : eof.length < 65536) (items : List GItem)
    (hok : GlobalsOk env.bv items) (b : Book) (p : Int)
    (h : parseGlobals env (pre ++ encGlobals items eof ++ post) newBook (pre.length : Int) = .ok (b, p)) :
    ∃ b0 tbl, SameTables b0 b ∧ bookNames (nameEnv ops env b0) = .ok tbl := by
  obtain ⟨f, b1, _, _, h3, _⟩ := parse_ok he hok h
  unfold globalsEof namesEpilogue at h3
  obtain ⟨b2, h4, h3⟩ := bind_ok h3
  obtain ⟨os, h5, h4⟩ := bind_ok h4
  obtain ⟨u, h6, h4⟩ := bind_ok h4
  cases h4
  rw [hev] at h6
  obtain ⟨tbl, h7⟩ := map_ok_arg h6
  obtain ⟨_, _, _, _, hb⟩ := ensure_frame h3
  refine ⟨_, tbl, ?_, h7⟩
  subst hb
  exact ⟨rfl, rfl, rfl, rfl, rfl, rfl⟩

theorem localRef_range {b b' : Book} (hb : SameTables b b') {base : Int} {items : List GItem} {sheets : List SheetRec} {refs : List ExtRef}
    (hl : SheetLists base sheets b') (hsup : SupInv (supbooks items) b') (hx : b'.externsheetInfo = refs.map fun r => (r.book, r.first, r.last))
    {refx x y : Nat} (h : LocalRef (supbooks items) sheets refs refx x y) :
    externRange b refx = .ok ((x : Int), (y : Int)) ∧ x < b.sheetNames.length ∧ y < b.sheetNames.length := by
  obtain ⟨r, s1, s2, href, hlast, h1, h2, hle, hsmall, w1, w2, rfl, rfl⟩ := h
  have hna : some r.book ≠ b'.supbookAddinsInx := by
    intro hc
    have h3 := ((hsup.addins r.book).mp hc.symm).1
    rw [hlast.1] at h3
    cases h3
  have hlo : b'.supbookLocalsInx = some r.book := (hsup.locals r.book).mpr hlast
  have lt : ∀ (i : Nat) (s : SheetRec), sheets[i]? = some s → s.isWorksheet = true → worksheetNo sheets i < b.sheetNames.length := by
    intro i s hi hw
    have hlt := (List.getElem?_eq_some_iff.mp hi).1
    have e : sheets = sheets.take i ++ s :: sheets.drop (i + 1) := by
      conv_lhs => rw [← List.take_append_drop i sheets]
      rw [List.drop_eq_getElem_cons hlt, (List.getElem?_eq_some_iff.mp hi).2]
    rw [hb.sheetNames, hl.names, List.length_map]
    conv_rhs => rw [e, List.filter_append, List.filter_cons, if_pos hw, List.length_append, List.length_cons]
    unfold worksheetNo
    omega
  refine ⟨?_, lt _ _ h1 w1, lt _ _ h2 w2⟩
  have hloc : localRange b (-102) r.first r.last = localRange b' (-102) r.first r.last := by
    unfold localRange; rw [hb.sheetsMap]
  unfold externRange
  rw [hb.externs, hx, List.getElem?_map, href]
  simp only [Option.map_some]
  unfold externInfoRange
  simp only
  rw [hb.addins, hb.locals, if_neg hna, if_neg (by rw [hlo]; simp), if_neg (by omega), if_neg (by omega), hloc, localRange_ok hl _ h1 h2 hle, if_pos ⟨w1, w2⟩]
  rfl

/-- **C70**.  In a BIFF8 workbook every ordinary name of which the formula is an expression of references (`RefExpr`) has been evaluated to a reference
to exactly the areas that the expression means. -/
theorem C70_name_areas (env : BookEnv) (h8 : env.bv = 80) (pre post eof : Bytes) (he : eof.length < 65536) (items : List GItem)
    (hok : GlobalsOk env.bv items) (sheets : List SheetRec) (hsh : Sheets env.bv (textAt env) items sheets) (refs : List ExtRef)
    (hr : Externs items refs) (names : List NameObj) (hn : Names env.bv (textAt env) items names) (b : Book) (p : Int)
    (h : parseGlobals env (pre ++ encGlobals items eof ++ post) newBook (pre.length : Int) = .ok (b, p))
    (fenv : FEnv) (hbv : fenv.bv = 80) (hb : SameTables fenv.bk b) (tbl : NameTbl) (ht : bookNames fenv = .ok tbl)
    (i : Nat) (x : RefExpr) (l : List Ref3D) (hx : NameFormula names i x) (hv : RefVal (LocalRef (supbooks items) sheets refs) names x l) :
    ∃ e o, tbl[i]? = some (some e) ∧ e.result = some o ∧ o.kind = .ref ∧ o.value = some (.refs (l.map fun a => { toRef3D := a })) ∧
      opndRefs e.result = .ok (some l) := by
  obtain ⟨hl, hsup, hxx⟩ := tables_loaded env (by omega) pre post eof he items hok sheets hsh refs hr b p h
  obtain ⟨_, hnames⟩ := C44_names env (by omega) pre post eof he items hok names hn sheets hsh b p h
  have hm : ∀ (i : Nat) o, names[i]? = some o → ∃ s, fenv.bk.nameObjs[i]? = some { o with nameIndex := i, scope := some s } := by
    intro i o hi
    obtain ⟨s, hs, _⟩ := hnames i o hi
    exact ⟨s, by rw [hb.names]; exact hs⟩
  have hrb : RefBook (LocalRef (supbooks items) sheets refs) fenv := ⟨hbv, fun refx x y hloc => localRef_range hb hl hsup hxx hloc⟩
  obtain ⟨hg, hf⟩ := bookNames_spec hrb ht
  have hx' := nameFormula_mono hm hx
  obtain ⟨o, rest, h1, h2, h3, _, _⟩ := hx'
  obtain ⟨e, he⟩ := hf.2 i ⟨o, h1, h2, h3⟩
  obtain ⟨op, rfl, hop⟩ := hg i e x l he (nameFormula_mono hm hx) (refVal_mono hm hv)
  refine ⟨_, op, he, rfl, hop.1, hop.2, ?_⟩
  simp only [NameEval.result, opndRefs, hop.1, hop.2, if_true, List.map_map]
  refine congrArg Except.ok (congrArg some ?_)
  conv_rhs => rw [← List.map_id l]
  rfl

/-- **C70** (`Name.cell`).  A name that means one cell of one sheet: `cell` goes to that sheet, row and column. -/
theorem C70_cell (env : BookEnv) (h8 : env.bv = 80) (pre post eof : Bytes) (he : eof.length < 65536) (items : List GItem)
    (hok : GlobalsOk env.bv items) (sheets : List SheetRec) (hsh : Sheets env.bv (textAt env) items sheets) (refs : List ExtRef)
    (hr : Externs items refs) (names : List NameObj) (hn : Names env.bv (textAt env) items names) (b : Book) (p : Int)
    (h : parseGlobals env (pre ++ encGlobals items eof ++ post) newBook (pre.length : Int) = .ok (b, p))
    (fenv : FEnv) (hbv : fenv.bv = 80) (hb : SameTables fenv.bk b) (tbl : NameTbl) (ht : bookNames fenv = .ok tbl)
    (i : Nat) (x : RefExpr) (hx : NameFormula names i x) (s row col : Nat)
    (hv : RefVal (LocalRef (supbooks items) sheets refs) names x [⟨s, s + 1, row, row + 1, col, col + 1⟩]) (oenv : OpenEnv) (lib : Lib) :
    ∃ e res, tbl[i]? = some (some e) ∧ opndRefs e.result = .ok res ∧
      (nameCell oenv lib res).1 = (sheetByIndex oenv lib s).1.map fun sh => (sh, (row : Int), (col : Int)) := by
  obtain ⟨e, _, h1, _, _, _, h2⟩ := C70_name_areas env h8 pre post eof he items hok sheets hsh refs hr names hn b p h fenv hbv hb tbl ht i x _ hx hv
  exact ⟨e, _, h1, h2, (C45_cell oenv lib _).1 s row col (by omega) rfl⟩

/-- **C70** (`Name.area2d`).  A name that means one area of one sheet: `area2d` goes to that sheet and gives the area. -/
theorem C70_area2d (env : BookEnv) (h8 : env.bv = 80) (pre post eof : Bytes) (he : eof.length < 65536) (items : List GItem)
    (hok : GlobalsOk env.bv items) (sheets : List SheetRec) (hsh : Sheets env.bv (textAt env) items sheets) (refs : List ExtRef)
    (hr : Externs items refs) (names : List NameObj) (hn : Names env.bv (textAt env) items names) (b : Book) (p : Int)
    (h : parseGlobals env (pre ++ encGlobals items eof ++ post) newBook (pre.length : Int) = .ok (b, p))
    (fenv : FEnv) (hbv : fenv.bv = 80) (hb : SameTables fenv.bk b) (tbl : NameTbl) (ht : bookNames fenv = .ok tbl)
    (i : Nat) (x : RefExpr) (hx : NameFormula names i x) (s r1 r2 c1 c2 : Nat)
    (hv : RefVal (LocalRef (supbooks items) sheets refs) names x [⟨s, s + 1, r1, r2, c1, c2⟩]) (oenv : OpenEnv) (lib : Lib) :
    ∃ e res, tbl[i]? = some (some e) ∧ opndRefs e.result = .ok res ∧
      (∀ e', (sheetByIndex oenv lib s).1 = .error e' → (nameArea2d oenv lib res false).1 = .error e') ∧
      ∀ sh, (sheetByIndex oenv lib s).1 = .ok sh → (nameArea2d oenv lib res false).1 = .ok (sh, (r1 : Int), (r2 : Int), (c1 : Int), (c2 : Int)) := by
  obtain ⟨e, _, h1, _, _, _, h2⟩ := C70_name_areas env h8 pre post eof he items hok sheets hsh refs hr names hn b p h fenv hbv hb tbl ht i x _ hx hv
  refine ⟨e, _, h1, h2, ?_⟩
  have := (C45_area2d oenv lib (some [⟨s, s + 1, r1, r2, c1, c2⟩]) false).1 _ rfl (by simp) rfl (by simp) (by simp)
  exact ⟨this.1, fun sh hs => (this.2 sh hs).1 rfl⟩

end Xlrd
