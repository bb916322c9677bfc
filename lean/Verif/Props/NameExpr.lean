import Verif.Spec.NameExpr
import Verif.Props.NameValues
import Verif.Props.FormulaLeaves

/-!
# C78: the values of defined names
-/
set_option linter.unusedSimpArgs false
set_option linter.unusedVariables false

namespace Xlrd
open Spec

/-! ## Values as Python objects -/

def Spec.Number.pval : Number → PVal
  | .float x => .num x
  | .int n => .int n

/-- The value of a number or text. -/
def Spec.Value.scalar : Value → Option PVal
  | .num n => some n.pval
  | .text s => some (.str s)
  | _ => none

/-- The operand for a value. -/
def Holds (o : Opnd) : Value → Prop
  | .num n => o.kind = .num ∧ o.value = some n.pval
  | .text s => o.kind = .strg ∧ o.value = some (.str s)
  | .bool b => o.kind = .bool ∧ o.value = some (.int (if b then 1 else 0))
  | .err c => o.kind = .err ∧ o.value = some (.int c)
  | .areas l => Means o l
  | .empty => o.kind = .msng ∧ o.value = none

/-- `C` is the arithmetic of Python: where Python has a result, it is that of `C`. -/
structure PyCalc (ops : PyOps) (C : Calc) : Prop where
  arith : ∀ (o : Op2) (x y : Number) (r : PVal), o.isCalc = true → ops.arith o.code.toNat x.pval y.pval = .ok r → r = (C.arith o x y).pval
  cat : ∀ (s t : PyStr) (r : PVal), ops.arith 0x08 (.str s) (.str t) = .ok r → r = .str (s ++ t)
  compare : ∀ (o : Op2) (v w : Value) (p q : PVal) (r : Bool), o.isCompare = true → v.scalar = some p → w.scalar = some q → ops.cmp o.code.toNat p q = .ok r →
    r = C.compare o v w
  parse : ∀ (s : PyStr) (r : PVal), ops.toFloat (.str s) = .ok r → r = (C.parse s).pval
  write : ∀ n : Number, ops.str n.pval = C.write n
  negate : ∀ (n : Number) (r : PVal), ops.neg n.pval = .ok r → r = (C.negate n).pval
  percent : ∀ (n : Number) (r : PVal), ops.percent n.pval = .ok r → r = (C.percent n).pval

/-- What an operand says is what the expression means: it has the value if there is one, and no other. -/
def Agree (C : Calc) (loc : Nat → Nat → Nat → Prop) (fs : Nat → Option VExpr) (x : VExpr) (o : Opnd) : Prop :=
  (∀ v, HasVal C loc fs x v → Holds o v) ∧ (o.value ≠ none ∨ o.kind = .msng → ∃ v, HasVal C loc fs x v ∧ Holds o v)

theorem number_pval_inj {n m : Number} (h : n.pval = m.pval) : n = m := by
  cases n <;> cases m <;> simp_all [Spec.Number.pval]

theorem holds_kind {o : Opnd} {v : Value} (h : Holds o v) :
    o.kind = (match v with | .num _ => OKind.num | .text _ => .strg | .bool _ => .bool | .err _ => .err | .areas _ => .ref | .empty => .msng) := by
  cases v <;> exact h.1

/-- The operand for a value with other rank and text. -/
theorem holds_same {o o' : Opnd} {v : Value} (h : Holds o v) (hk : o'.kind = o.kind) (hv : o'.value = o.value) : Holds o' v := by
  cases v <;> exact ⟨by rw [hk]; exact h.1, by rw [hv]; exact h.2⟩

theorem agree_same {C : Calc} {loc : Nat → Nat → Nat → Prop} {fs : Nat → Option VExpr} {x : VExpr} {o o' : Opnd} (h : Agree C loc fs x o)
    (hk : o'.kind = o.kind) (hv : o'.value = o.value) : Agree C loc fs x o' := by
  refine ⟨fun v hx => holds_same (h.1 v hx) hk hv, ?_⟩
  rw [hk, hv]
  intro hh
  obtain ⟨v, h1, h2⟩ := h.2 hh
  exact ⟨v, h1, holds_same h2 hk hv⟩

/-! ## Operators -/

/-- A value as an operand. -/
def Spec.Value.as (C : Calc) : ArgConv → Value → Option PVal
  | .arith, v => (v.number C).map Spec.Number.pval
  | .strg, v => (v.string C).map PVal.str
  | .cmp, v => v.scalar

theorem num2strg_text {ops : PyOps} {C : Calc} (hC : PyCalc ops C) (n : Number) : num2strg ops n.pval = .str (C.text n) := by
  unfold num2strg Calc.text
  simp only [hC.write]
  refine congrArg PVal.str ?_
  generalize C.write n = s
  by_cases h : s.drop (s.length - 2) = ".0".toList
  · rw [if_pos h]
    have e : s = s.take (s.length - 2) ++ ['.', '0'] := by
      conv_lhs => rw [← List.take_append_drop (s.length - 2) s, h]
      rfl
    generalize s.take (s.length - 2) = t at e ⊢
    subst e
    simp
  · rw [if_neg h]
    split
    · rename_i r hr
      exfalso
      apply h
      have : s = r.reverse ++ ['.', '0'] := by
        have := congrArg List.reverse hr
        simpa using this
      subst this
      simp
    · rfl

theorem arg_of {ops : PyOps} {C : Calc} (hC : PyCalc ops C) {o : Opnd} {v : Value} {c : ArgConv} {q : PVal} (h : Holds o v) (ha : v.as C c = some q) :
    ∃ f p, argConv ops c o.kind = some f ∧ o.value = some p ∧ ∀ r, f p = .ok r → r = q := by
  cases c with
  | arith =>
    cases v with
    | num n => cases ha; exact ⟨_, _, by rw [h.1]; rfl, h.2, fun r hr => by cases hr; rfl⟩
    | text s => cases ha; exact ⟨_, _, by rw [h.1]; rfl, h.2, fun r hr => hC.parse s r hr⟩
    | _ => cases ha
  | strg =>
    cases v with
    | num n => cases ha; exact ⟨_, _, by rw [h.1]; rfl, h.2, fun r hr => by cases hr; exact num2strg_text hC n⟩
    | text s => cases ha; exact ⟨_, _, by rw [h.1]; rfl, h.2, fun r hr => by cases hr; rfl⟩
    | _ => cases ha
  | cmp =>
    cases v with
    | num n => cases ha; exact ⟨_, _, by rw [h.1]; rfl, h.2, fun r hr => by cases hr; rfl⟩
    | text s => cases ha; exact ⟨_, _, by rw [h.1]; rfl, h.2, fun r hr => by cases hr; rfl⟩
    | _ => cases ha

theorem of_arg {ops : PyOps} {C : Calc} (hC : PyCalc ops C) {loc : Nat → Nat → Nat → Prop} {fs : Nat → Option VExpr} {a : VExpr} {o : Opnd} {c : ArgConv}
    {f : PVal → R PVal} {p : PVal} (h : Agree C loc fs a o) (hf : argConv ops c o.kind = some f) (hp : o.value = some p) :
    ∃ v q, HasVal C loc fs a v ∧ v.as C c = some q ∧ ∀ r, f p = .ok r → r = q := by
  obtain ⟨v, h1, h2⟩ := h.2 (.inl (by rw [hp]; simp))
  have hk : (o.kind = .num ∧ ∃ n, v = .num n) ∨ (o.kind = .strg ∧ ∃ s, v = .text s) := by
    have := holds_kind h2
    cases v with
    | num n => exact .inl ⟨this, n, rfl⟩
    | text s => exact .inr ⟨this, s, rfl⟩
    | _ => simp only at this; rw [this] at hf; cases c <;> cases hf
  have ⟨q, hq⟩ : ∃ q, v.as C c = some q := by
    rcases hk with ⟨_, n, rfl⟩ | ⟨_, s, rfl⟩ <;> cases c <;> exact ⟨_, rfl⟩
  obtain ⟨f', p', e1, e2, e3⟩ := arg_of hC h2 hq
  rw [hf] at e1
  rw [hp] at e2
  cases e1
  cases e2
  exact ⟨v, q, h1, hq, e3⟩

/-- How an operator takes its operands, and the kind of its result. -/
def opConv (o : Op2) : ArgConv := if o.isCalc then .arith else if o.isCompare then .cmp else .strg
def opKind (o : Op2) : OKind := if o.isCalc then .num else if o.isCompare then .bool else .strg

theorem binRule_kinds (o : Op2) : ∃ rank sym, binRule o.code.toNat = .ok (opConv o, opKind o, rank, sym) := by
  cases o <;> exact ⟨_, _, rfl⟩

/-- The value of an operation on values. -/
def opValue (C : Calc) (o : Op2) (v w : Value) : Option Value :=
  if o.isCalc then match v.number C, w.number C with
    | some x, some y => some (.num (C.arith o x y))
    | _, _ => none
  else if o.isCompare then (if v.plain ∧ w.plain then some (.bool (C.compare o v w)) else none)
  else match v.string C, w.string C with
    | some s, some t => some (.text (s ++ t))
    | _, _ => none

theorem hasVal_bin {C : Calc} {loc : Nat → Nat → Nat → Prop} {fs : Nat → Option VExpr} (o : Op2) (a b : VExpr) (r : Value) :
    HasVal C loc fs (.bin o a b) r ↔ ∃ v w, HasVal C loc fs a v ∧ HasVal C loc fs b w ∧ opValue C o v w = some r := by
  constructor
  · intro h
    cases h with
    | arith _ _ _ v w x y ho ha hb hx hy => exact ⟨v, w, ha, hb, by simp [opValue, ho, hx, hy]⟩
    | concat _ _ v w s t ha hb hs ht => exact ⟨v, w, ha, hb, by simp [opValue, Op2.isCalc, Op2.isCompare, hs, ht]⟩
    | compare _ _ _ v w ho ha hb hv hw =>
      refine ⟨v, w, ha, hb, ?_⟩
      have : o.isCalc = false := by cases o <;> simp_all [Op2.isCompare, Op2.isCalc]
      simp [opValue, ho, this, hv, hw]
  · rintro ⟨v, w, ha, hb, h⟩
    unfold opValue at h
    by_cases h1 : o.isCalc = true
    · rw [if_pos h1] at h
      cases hx : v.number C with
      | none => rw [hx] at h; cases h
      | some x =>
        cases hy : w.number C with
        | none => rw [hx, hy] at h; cases h
        | some y => rw [hx, hy] at h; cases h; exact .arith o a b v w x y h1 ha hb hx hy
    · rw [if_neg h1] at h
      by_cases h2 : o.isCompare = true
      · rw [if_pos h2] at h
        by_cases h3 : v.plain = true ∧ w.plain = true
        · rw [if_pos h3] at h; cases h; exact .compare o a b v w h2 ha hb h3.1 h3.2
        · rw [if_neg h3] at h; cases h
      · rw [if_neg h2] at h
        have ho : o = .cat := by cases o <;> simp_all [Op2.isCompare, Op2.isCalc]
        subst ho
        cases hx : v.string C with
        | none => rw [hx] at h; cases h
        | some x =>
          cases hy : w.string C with
          | none => rw [hx, hy] at h; cases h
          | some y => rw [hx, hy] at h; cases h; exact .concat a b v w x y ha hb hx hy

theorem opValue_some {C : Calc} {o : Op2} {v w : Value} : (∃ r, opValue C o v w = some r) ↔ (∃ p, v.as C (opConv o) = some p) ∧ ∃ q, w.as C (opConv o) = some q := by
  cases o <;> cases v <;> cases w <;>
    simp [opValue, opConv, Op2.isCalc, Op2.isCompare, Spec.Value.as, Spec.Value.number, Spec.Value.string, Spec.Value.scalar, Spec.Value.plain]

/-- The function of the operator on converted operands. -/
theorem binApply_value {ops : PyOps} {C : Calc} (hC : PyCalc ops C) {o : Op2} {v w r : Value} {p q s : PVal} (hp : v.as C (opConv o) = some p)
    (hq : w.as C (opConv o) = some q) (hr : opValue C o v w = some r) (h : binApply ops o.code.toNat (opKind o) p q = .ok s) (rank : Nat) (text : PyStr) :
    Holds { kind := opKind o, value := some s, rank := rank, text := text } r := by
  unfold opValue at hr
  by_cases h1 : o.isCalc = true
  · have e1 : opConv o = .arith := by simp [opConv, h1]
    have e2 : opKind o = .num := by simp [opKind, h1]
    rw [e1] at hp hq
    rw [e2] at h ⊢
    rw [if_pos h1] at hr
    simp only [Spec.Value.as, Option.map_eq_some_iff] at hp hq
    obtain ⟨x, hx, rfl⟩ := hp
    obtain ⟨y, hy, rfl⟩ := hq
    rw [hx, hy] at hr
    cases hr
    unfold binApply at h
    rw [if_neg (by decide)] at h
    by_cases hz : o.code.toNat = 0x06 ∧ x.pval.isNumber = true ∧ y.pval.isZero = true
    · rw [if_pos hz] at h; cases h
    · rw [if_neg hz] at h
      exact ⟨rfl, congrArg some (hC.arith o x y s h1 h)⟩
  · rw [if_neg h1] at hr
    by_cases h2 : o.isCompare = true
    · have e1 : opConv o = .cmp := by simp [opConv, h1, h2]
      have e2 : opKind o = .bool := by simp [opKind, h1, h2]
      rw [e1] at hp hq
      rw [e2] at h ⊢
      rw [if_pos h2] at hr
      by_cases h3 : v.plain = true ∧ w.plain = true
      · rw [if_pos h3] at hr
        cases hr
        unfold binApply at h
        rw [if_pos rfl] at h
        obtain ⟨b, hb, h⟩ := bind_ok h
        cases h
        rw [hC.compare o v w p q b h2 hp hq hb]
        exact ⟨rfl, rfl⟩
      · rw [if_neg h3] at hr; cases hr
    · have ho : o = .cat := by cases o <;> simp_all [Op2.isCompare, Op2.isCalc]
      subst ho
      simp only [opConv, Op2.isCalc, Op2.isCompare, Bool.false_eq_true, if_false, Spec.Value.as, Option.map_eq_some_iff] at hp hq
      obtain ⟨x, hx, rfl⟩ := hp
      obtain ⟨y, hy, rfl⟩ := hq
      rw [if_neg h2, hx, hy] at hr
      cases hr
      unfold binApply at h
      rw [if_neg (by decide), if_neg (by rintro ⟨hc, _⟩; revert hc; decide)] at h
      exact ⟨rfl, congrArg some (hC.cat x y s h)⟩

theorem bin_agree {ops : PyOps} {C : Calc} (hC : PyCalc ops C) {loc : Nat → Nat → Nat → Prop} {fs : Nat → Option VExpr} (o : Op2) {a b : VExpr} {oa ob : Opnd}
    (ha : Agree C loc fs a oa) (hb : Agree C loc fs b ob) {stk s : List Opnd} (h : doBinop ops o.code.toNat (ob :: oa :: stk) = .ok s) :
    ∃ r, s = r :: stk ∧ Agree C loc fs (.bin o a b) r := by
  obtain ⟨rank, sym, hr⟩ := binRule_kinds o
  unfold doBinop at h
  rw [hr] at h
  obtain ⟨_, h0, h⟩ := bind_ok h
  cases h0
  obtain ⟨val, h1, h⟩ := bind_ok h
  cases h
  refine ⟨_, rfl, ?_, ?_⟩
  · intro v hv
    obtain ⟨va, vb, hva, hvb, ho⟩ := (hasVal_bin o a b v).mp hv
    obtain ⟨⟨p, hp⟩, q, hq⟩ := opValue_some.mp ⟨v, ho⟩
    obtain ⟨f, pa, f1, f2, f3⟩ := arg_of hC (ha.1 va hva) hp
    obtain ⟨g, pb, g1, g2, g3⟩ := arg_of hC (hb.1 vb hvb) hq
    unfold binValue at h1
    rw [f1, g1, f2, g2] at h1
    obtain ⟨y, y1, h1⟩ := bind_ok h1
    obtain ⟨x, x1, h1⟩ := bind_ok h1
    obtain ⟨r, r1, h1⟩ := bind_ok h1
    cases h1
    rw [f3 _ x1, g3 _ y1] at r1
    exact binApply_value hC hp hq ho r1 _ _
  · intro hval
    have hv0 : val ≠ none := by
      rcases hval with h | h
      · exact h
      · exfalso; revert h; cases o <;> simp [opKind, Op2.isCalc, Op2.isCompare]
    unfold binValue at h1
    cases f1 : argConv ops (opConv o) oa.kind with
    | none =>
      cases g1 : argConv ops (opConv o) ob.kind with
      | none => rw [f1, g1] at h1; cases h1; exact absurd rfl hv0
      | some g => rw [f1, g1] at h1; cases h1; exact absurd rfl hv0
    | some f =>
      cases g1 : argConv ops (opConv o) ob.kind with
      | none => rw [f1, g1] at h1; cases h1; exact absurd rfl hv0
      | some g =>
        rw [f1, g1] at h1
        cases f2 : oa.value with
        | none => cases g2 : ob.value <;> rw [f2, g2] at h1 <;> cases h1 <;> exact absurd rfl hv0
        | some pa =>
          cases g2 : ob.value with
          | none => rw [f2, g2] at h1; cases h1; exact absurd rfl hv0
          | some pb =>
            rw [f2, g2] at h1
            obtain ⟨va, p, hva, hp, f3⟩ := of_arg hC ha f1 f2
            obtain ⟨vb, q, hvb, hq, g3⟩ := of_arg hC hb g1 g2
            obtain ⟨y, y1, h1⟩ := bind_ok h1
            obtain ⟨x, x1, h1⟩ := bind_ok h1
            obtain ⟨r, r1, h1⟩ := bind_ok h1
            cases h1
            rw [f3 _ x1, g3 _ y1] at r1
            obtain ⟨v, ho⟩ := opValue_some.mpr ⟨⟨p, hp⟩, q, hq⟩
            exact ⟨v, (hasVal_bin o a b v).mpr ⟨va, vb, hva, hvb, ho⟩, binApply_value hC hp hq ho r1 _ _⟩

theorem un_agree {ops : PyOps} {C : Calc} (hC : PyCalc ops C) {loc : Nat → Nat → Nat → Prop} {fs : Nat → Option VExpr} (o : Op1) {a : VExpr} {oa : Opnd}
    (ha : Agree C loc fs a oa) (hn : ∀ v, HasVal C loc fs a v → ∃ n, v = .num n) {stk s : List Opnd} (h : doUnaryop ops o.code.toNat (oa :: stk) = .ok s) :
    ∃ r, s = r :: stk ∧ Agree C loc fs (.un o a) r := by
  unfold doUnaryop at h
  rw [unRule_ok] at h
  obtain ⟨_, h0, h⟩ := bind_ok h
  cases h0
  obtain ⟨val, h1, h⟩ := bind_ok h
  cases h
  have key : ∀ n : Number, oa.value = some n.pval → val = some (o.apply C n).pval := by
    intro n hv
    rw [hv] at h1
    obtain ⟨r, r1, h1⟩ := bind_ok h1
    cases h1
    refine congrArg some ?_
    cases o with
    | plus =>
      have e : unApply ops Op1.plus.code.toNat n.pval = .ok n.pval := rfl
      rw [e] at r1
      cases r1
      rfl
    | minus =>
      have e : unApply ops Op1.minus.code.toNat n.pval = ops.neg n.pval := rfl
      rw [e] at r1
      exact hC.negate n r r1
    | percent =>
      have e : unApply ops Op1.percent.code.toNat n.pval = ops.percent n.pval := rfl
      rw [e] at r1
      exact hC.percent n r r1
  refine ⟨_, rfl, ?_, ?_⟩
  · intro v hv
    cases hv with
    | sign _ _ n hv => exact ⟨rfl, key n (ha.1 _ hv).2⟩
  · intro hval
    have hv0 : oa.value ≠ none := by
      rcases hval with h | h
      · intro hc
        rw [hc] at h1
        cases h1
        exact h rfl
      · cases h
    obtain ⟨v, h2, h3⟩ := ha.2 (.inl hv0)
    obtain ⟨n, rfl⟩ := hn v h2
    exact ⟨_, .sign o a n h2, rfl, key n h3.2⟩

/-! ## Operators on references -/

theorem oneRef_areas {l : List Ref3D} {x : RelRef} (h : oneRef (.refs (l.map fun b => { toRef3D := b })) = .ok x) : ∃ b, l = [b] ∧ x = { toRef3D := b } := by
  unfold oneRef refsOf at h
  cases l with
  | nil => cases h
  | cons b l =>
    cases l with
    | nil => cases h; exact ⟨b, rfl, rfl⟩
    | cons c l => cases h

/-- An operand with a value that is a reference stands for areas. -/
theorem agree_areas {C : Calc} {loc : Nat → Nat → Nat → Prop} {fs : Nat → Option VExpr} {a : VExpr} {o : Opnd} (ha : Agree C loc fs a o) (hk : o.kind = .ref)
    {p : PVal} (hv : o.value = some p) : ∃ l, HasVal C loc fs a (.areas l) ∧ Means o l := by
  obtain ⟨v, h1, h2⟩ := ha.2 (.inl (by rw [hv]; simp))
  have := holds_kind h2
  rw [hk] at this
  cases v with
  | areas l => exact ⟨l, h1, h2⟩
  | _ => cases this

theorem agree_norel {C : Calc} {loc : Nat → Nat → Nat → Prop} {fs : Nat → Option VExpr} {a : VExpr} {o : Opnd} (ha : Agree C loc fs a o) (hk : o.kind = .relref) :
    o.value = none := by
  by_contra hc
  obtain ⟨v, h1, h2⟩ := ha.2 (.inl hc)
  have := holds_kind h2
  rw [hk] at this
  cases v <;> cases this

theorem hasVal_areas_ne {C : Calc} {loc : Nat → Nat → Nat → Prop} {fs : Nat → Option VExpr} {x : VExpr} {v : Value} (h : HasVal C loc fs x v) : v ≠ .areas [] := by
  have key : ∀ v : Value, v ≠ .areas [] → v.orZero ≠ .areas [] := by
    intro v hv
    cases v <;> simp_all [Value.orZero]
  induction h with
  | ifTrue _ _ _ _ _ _ _ _ _ _ ih => exact key _ ih
  | ifFalse _ _ _ _ _ _ _ _ _ _ ih => exact key _ ih
  | choose _ _ _ _ _ _ _ _ _ _ _ _ ih => exact key _ ih
  | _ => simp_all

theorem box_value {C : Calc} {loc : Nat → Nat → Nat → Prop} {fs : Nat → Option VExpr} {a b : VExpr} {oa ob : Opnd} (ha : Agree C loc fs a oa) (hb : Agree C loc fs b ob)
    {f : Ref3D → Ref3D → Ref3D} {k : OKind} {val : Option PVal} (h : boxOp f oa ob = .ok (k, val)) :
    (k = .err ∨ k = .ref ∨ k = .relref) ∧
      (val ≠ none → ∃ x y, HasVal C loc fs a (.areas [x]) ∧ HasVal C loc fs b (.areas [y]) ∧ k = .ref ∧ val = some (.refs [{ toRef3D := f x y }])) ∧
      ∀ x y, HasVal C loc fs a (.areas [x]) → HasVal C loc fs b (.areas [y]) → k = .ref ∧ val = some (.refs [{ toRef3D := f x y }]) := by
  unfold boxOp at h
  refine ⟨?_, ?_, ?_⟩
  · by_cases c1 : ob.kind = .err ∨ oa.kind = .err
    · rw [if_pos c1] at h; cases h; exact .inl rfl
    rw [if_neg c1] at h
    by_cases c2 : ob.kind = .ref ∧ oa.kind = .ref
    · rw [if_pos c2] at h
      obtain ⟨v, _, h⟩ := bind_ok h
      cases h; exact .inr (.inl rfl)
    rw [if_neg c2] at h
    by_cases c3 : ob.kind = .relref ∧ oa.kind = .relref
    · rw [if_pos c3] at h
      obtain ⟨v, _, h⟩ := bind_ok h
      cases h; exact .inr (.inr rfl)
    rw [if_neg c3] at h
    cases h; exact .inr (.inl rfl)
  · intro hv
    by_cases c1 : ob.kind = .err ∨ oa.kind = .err
    · rw [if_pos c1] at h; cases h; exact absurd rfl hv
    rw [if_neg c1] at h
    by_cases c2 : ob.kind = .ref ∧ oa.kind = .ref
    · rw [if_pos c2] at h
      obtain ⟨v, h1, h⟩ := bind_ok h
      cases h
      unfold boxAbs at h1
      cases e1 : oa.value with
      | none => rw [e1] at h1; cases h1; exact absurd rfl hv
      | some p =>
        cases e2 : ob.value with
        | none => rw [e1, e2] at h1; cases h1; exact absurd rfl hv
        | some q =>
          obtain ⟨l, hl, ml⟩ := agree_areas ha c2.2 e1
          obtain ⟨m, hm, mm⟩ := agree_areas hb c2.1 e2
          rw [ml.2, mm.2] at h1
          obtain ⟨x, x1, h1⟩ := bind_ok h1
          obtain ⟨y, y1, h1⟩ := bind_ok h1
          obtain ⟨x', rfl, rfl⟩ := oneRef_areas x1
          obtain ⟨y', rfl, rfl⟩ := oneRef_areas y1
          cases h1
          exact ⟨x', y', hl, hm, rfl, rfl⟩
    rw [if_neg c2] at h
    by_cases c3 : ob.kind = .relref ∧ oa.kind = .relref
    · rw [if_pos c3] at h
      obtain ⟨v, h1, h⟩ := bind_ok h
      cases h
      unfold boxRel at h1
      rw [agree_norel ha c3.2] at h1
      cases h1
      exact absurd rfl hv
    rw [if_neg c3] at h
    cases h; exact absurd rfl hv
  · intro x y hx hy
    have mx := ha.1 _ hx
    have my := hb.1 _ hy
    have kx : oa.kind = .ref := mx.1
    have ky : ob.kind = .ref := my.1
    rw [if_neg (by rw [kx, ky]; decide), if_pos ⟨ky, kx⟩, mx.2, my.2] at h
    cases h
    exact ⟨rfl, rfl⟩

theorem refs_agree {C : Calc} {loc : Nat → Nat → Nat → Prop} {fs : Nat → Option VExpr} (o : RefOp) {a b : VExpr} {oa ob : Opnd} (ha : Agree C loc fs a oa)
    (hb : Agree C loc fs b ob) {stk s : List Opnd} (f : List Opnd → R (List Opnd)) (hf : f = match o with | .isect => doIsect | .union => doList | .range => doRange)
    (h : f (ob :: oa :: stk) = .ok s) : ∃ r, s = r :: stk ∧ Agree C loc fs (.refs o a b) r := by
  subst hf
  cases o with
  | isect =>
    simp only [doIsect] at h
    obtain ⟨⟨k, val⟩, h1, h⟩ := bind_ok h
    cases h
    obtain ⟨hk, h2, h3⟩ := box_value ha hb h1
    refine ⟨_, rfl, ?_, ?_⟩
    · intro v hv
      cases hv with
      | isect _ _ x y hx hy => exact h3 x y hx hy
    · intro hv
      rcases hv with hv | hv
      · obtain ⟨x, y, hx, hy, e1, e2⟩ := h2 hv
        exact ⟨_, .isect a b x y hx hy, e1, e2⟩
      · simp only at hv; subst hv; simp at hk
  | range =>
    simp only [doRange] at h
    obtain ⟨⟨k, val⟩, h1, h⟩ := bind_ok h
    cases h
    obtain ⟨hk, h2, h3⟩ := box_value ha hb h1
    refine ⟨_, rfl, ?_, ?_⟩
    · intro v hv
      cases hv with
      | range _ _ x y hx hy => exact h3 x y hx hy
    · intro hv
      rcases hv with hv | hv
      · obtain ⟨x, y, hx, hy, e1, e2⟩ := h2 hv
        exact ⟨_, .range a b x y hx hy, e1, e2⟩
      · simp only at hv; subst hv; simp at hk
  | union =>
    simp only [doList] at h
    obtain ⟨⟨k, val⟩, h1, h⟩ := bind_ok h
    cases h
    unfold unionOp at h1
    refine ⟨_, rfl, ?_, ?_⟩
    · intro v hv
      cases hv with
      | union _ _ l y hx hy =>
        have mx := ha.1 _ hx
        have my := hb.1 _ hy
        have kx : oa.kind = .ref := mx.1
        have ky : ob.kind = .ref := my.1
        rw [if_neg (by rw [kx, ky]; decide), if_pos ⟨.inl ky, .inl kx⟩, mx.2, my.2] at h1
        obtain ⟨w, w1, h1⟩ := bind_ok h1
        rw [if_neg (by rw [kx, ky]; decide)] at h1
        cases h1
        unfold unionValue refsOf at w1
        obtain ⟨p, p1, w1⟩ := bind_ok w1
        cases p1
        obtain ⟨q, q1, w1⟩ := bind_ok w1
        cases q1
        obtain ⟨_, _, w1⟩ := bind_ok w1
        obtain ⟨_, _, w1⟩ := bind_ok w1
        cases w1
        exact ⟨rfl, by simp⟩
    · intro hv
      by_cases c1 : ob.kind = .err ∨ oa.kind = .err
      · rw [if_pos c1] at h1; cases h1
        rcases hv with hv | hv
        · exact absurd rfl hv
        · cases hv
      rw [if_neg c1] at h1
      by_cases c2 : (ob.kind = .ref ∨ ob.kind = .relref) ∧ (oa.kind = .ref ∨ oa.kind = .relref)
      · rw [if_pos c2] at h1
        obtain ⟨w, w1, h1⟩ := bind_ok h1
        have hw : w ≠ none := by
          rcases hv with hv | hv
          · cases h1; exact hv
          · exfalso
            cases h1
            by_cases c3 : oa.kind = .relref ∨ ob.kind = .relref
            · simp only [if_pos c3] at hv; cases hv
            · simp only [if_neg c3] at hv; cases hv
        unfold unionValue at w1
        cases e1 : oa.value with
        | none => rw [e1] at w1; cases w1; exact absurd rfl hw
        | some p =>
          cases e2 : ob.value with
          | none => rw [e1, e2] at w1; cases w1; exact absurd rfl hw
          | some q =>
            have ka : oa.kind = .ref := by
              rcases c2.2 with h | h
              · exact h
              · rw [agree_norel ha h] at e1; cases e1
            have kb : ob.kind = .ref := by
              rcases c2.1 with h | h
              · exact h
              · rw [agree_norel hb h] at e2; cases e2
            obtain ⟨l, hl, ml⟩ := agree_areas ha ka e1
            obtain ⟨m, hm, mm⟩ := agree_areas hb kb e2
            rw [ml.2, mm.2] at w1
            unfold refsOf at w1
            obtain ⟨p, p1, w1⟩ := bind_ok w1
            cases p1
            obtain ⟨q, q1, w1⟩ := bind_ok w1
            cases q1
            obtain ⟨_, _, w1⟩ := bind_ok w1
            obtain ⟨_, a2, w1⟩ := bind_ok w1
            have hlen : m.length = 1 := by
              unfold pyAssert at a2
              by_contra hc
              simp [hc] at a2
            obtain ⟨y, rfl⟩ := List.length_eq_one_iff.mp hlen
            rw [if_neg (by rw [ka, kb]; decide)] at h1
            cases w1
            cases h1
            exact ⟨_, .union a b l y hl hm, rfl, by simp⟩
      · rw [if_neg c2] at h1; cases h1
        rcases hv with hv | hv
        · exact absurd rfl hv
        · cases hv

/-! ## Functions -/

theorem truth_zeroOne {o : Opnd} {v : Value} (h : Holds o v) (t : Bool) : v.truth = some t ↔ (o.kind = .num ∨ o.kind = .bool) ∧ zeroOne o.value = some t := by
  cases v with
  | num n => rw [h.1, h.2]; cases n with
    | float x => cases x <;> simp [Value.truth, zeroOne, Spec.Number.pval]
    | int k => simp [Value.truth, zeroOne, Spec.Number.pval]
  | bool b => rw [h.1, h.2]; cases b <;> simp [Value.truth, zeroOne]
  | text s => rw [h.1]; simp [Value.truth]
  | err c => rw [h.1]; simp [Value.truth]
  | areas l => rw [h.1]; simp [Value.truth]
  | empty => rw [h.1]; simp [Value.truth]

theorem chooseArg_agree {C : Calc} {loc : Nat → Nat → Nat → Prop} {fs : Nat → Option VExpr} {a : VExpr} {oa res : Opnd} (ha : Agree C loc fs a oa) :
    (∀ v, HasVal C loc fs a v → Holds (chooseArg res oa) v.orZero) ∧
      ((chooseArg res oa).value ≠ none ∨ (chooseArg res oa).kind = .msng → ∃ v, HasVal C loc fs a v ∧ Holds (chooseArg res oa) v.orZero) := by
  have key : ∀ v, HasVal C loc fs a v → Holds (chooseArg res oa) v.orZero := by
    intro v hv
    have h := ha.1 v hv
    have hk := holds_kind h
    unfold chooseArg
    cases v with
    | empty => rw [if_pos h.1]; exact ⟨rfl, rfl⟩
    | _ => rw [if_neg (by rw [hk]; simp)]; exact holds_same h rfl rfl
  refine ⟨key, ?_⟩
  intro hv
  have : oa.value ≠ none ∨ oa.kind = .msng := by
    by_cases hc : oa.kind = .msng
    · exact .inr hc
    · unfold chooseArg at hv
      rw [if_neg hc] at hv
      exact hv
  obtain ⟨v, h1, _⟩ := ha.2 this
  exact ⟨v, h1, key v h1⟩

theorem stackAt_args (os stk : List Opnd) (k : Nat) (h1 : 1 ≤ k) (h2 : k ≤ os.length) (o : Opnd) (ho : os[os.length - k]? = some o) :
    stackAt (os.reverse ++ stk) k = .ok o := by
  unfold stackAt
  rw [List.getElem?_append_left (by rw [List.length_reverse]; omega), List.getElem?_reverse (by omega), show os.length - 1 - (k - 1) = os.length - k by omega, ho]

theorem zero_none {o : Opnd} {t : Bool} (h : zeroOne o.value = some t) : o.value ≠ none := by
  intro hc
  rw [hc] at h
  cases h

theorem if_agree {C : Calc} {loc : Nat → Nat → Nat → Prop} {fs : Nat → Option VExpr} (cls : Cls) {args : List VExpr} {os : List Opnd}
    (ha : List.Forall₂ (Agree C loc fs) args os) (h2 : 2 ≤ args.length) (h3 : args.length ≤ 3) {stk : List Opnd} {rank : Nat} {text : PyStr} {res : Opnd}
    (h : evalIf args.length (os.reverse ++ stk) { rank := rank, text := text } = .ok res) : Agree C loc fs (.varying cls 1 args) res := by
  have hlen := ha.length_eq
  cases ha with
  | nil => simp at h2
  | @cons c oc args os hc ha =>
  cases ha with
  | nil => simp at h2
  | @cons a oa args os haa ha =>
  unfold evalIf at h
  rw [stackAt_args (oc :: oa :: os) stk (c :: a :: args).length (by simp) (by omega) oc (by rw [hlen, Nat.sub_self]; rfl)] at h
  obtain ⟨test, ht, h⟩ := bind_ok h
  cases ht
  -- the condition is not known
  have unknown : (∀ t, HasVal C loc fs c t → t.truth = none) → res = { rank := rank, text := text } → Agree C loc fs (.varying cls 1 (c :: a :: args)) res := by
    rintro hu rfl
    refine ⟨?_, ?_⟩
    · intro v hv
      cases hv with
      | ifTrue _ _ _ _ t _ g1 g2 => rw [hu _ g1] at g2; cases g2
      | ifFalse _ _ _ _ t _ g1 g2 => rw [hu _ g1] at g2; cases g2
      | ifElse _ _ _ t g1 g2 => rw [hu _ g1] at g2; cases g2
    · rintro (hv | hv)
      · exact absurd rfl hv
      · cases hv
  by_cases hk : oc.kind = .num ∨ oc.kind = .bool
  swap
  · rw [if_pos hk] at h
    cases h
    refine unknown (fun t ht => ?_) rfl
    cases e : t.truth with
    | none => rfl
    | some b => exact absurd ((truth_zeroOne (hc.1 t ht) b).mp e).1 hk
  rw [if_neg (not_not.mpr hk)] at h
  cases hz : zeroOne oc.value with
  | none =>
    rw [hz] at h
    cases h
    refine unknown (fun t ht => ?_) rfl
    cases e : t.truth with
    | none => rfl
    | some b => rw [((truth_zeroOne (hc.1 t ht) b).mp e).2] at hz; cases hz
  | some b =>
    rw [hz] at h
    simp only at h
    obtain ⟨t, ht, hht⟩ := hc.2 (.inl (zero_none hz))
    have htr : t.truth = some b := (truth_zeroOne hht b).mpr ⟨hk, hz⟩
    have all : ∀ t', HasVal C loc fs c t' → t'.truth = some b := fun t' ht' => (truth_zeroOne (hc.1 t' ht') b).mpr ⟨hk, hz⟩
    cases b with
    | true =>
      rw [if_neg (by simp)] at h
      simp only [if_true] at h
      rw [stackAt_args (oc :: oa :: os) stk ((c :: a :: args).length - 1) (by simp) (by omega) oa (by
        rw [hlen]; simp only [List.length_cons]; rw [show os.length + 1 + 1 - (os.length + 1 + 1 - 1) = 1 by omega]; rfl)] at h
      cases h
      obtain ⟨k1, k2⟩ := chooseArg_agree (res := { rank := rank, text := text }) haa
      refine ⟨?_, ?_⟩
      · intro v hv
        cases hv with
        | ifTrue _ _ _ _ t' w g1 g2 g3 => exact k1 w g3
        | ifFalse _ _ _ _ t' _ g1 g2 => rw [all _ g1] at g2; cases g2
        | ifElse _ _ _ t' g1 g2 => rw [all _ g1] at g2; cases g2
      · intro hv
        obtain ⟨v, h1, h2⟩ := k2 hv
        exact ⟨_, .ifTrue cls c a args t v ht htr h1, h2⟩
    | false =>
      cases ha with
      | nil =>
        rw [if_pos ⟨rfl, by simp⟩] at h
        cases h
        refine ⟨?_, fun _ => ⟨_, .ifElse cls c a t ht htr, rfl, rfl⟩⟩
        intro v hv
        cases hv with
        | ifTrue _ _ _ _ t' w g1 g2 g3 => rw [all _ g1] at g2; cases g2
        | ifElse _ _ _ t' g1 g2 => exact ⟨rfl, rfl⟩
      | @cons b ob args os hb ha =>
        cases ha with
        | cons _ _ => simp at h3
        | nil =>
          rw [if_neg (by simp)] at h
          simp only [Bool.false_eq_true, if_false] at h
          rw [stackAt_args [oc, oa, ob] stk ([c, a, b].length - 2) (by simp) (by simp) ob (by simp)] at h
          cases h
          obtain ⟨k1, k2⟩ := chooseArg_agree (res := { rank := rank, text := text }) hb
          refine ⟨?_, ?_⟩
          · intro v hv
            cases hv with
            | ifTrue _ _ _ _ t' w g1 g2 g3 => rw [all _ g1] at g2; cases g2
            | ifFalse _ _ _ _ t' w g1 g2 g3 => exact k1 w g3
          · intro hv
            obtain ⟨v, h1, h2⟩ := k2 hv
            exact ⟨_, .ifFalse cls c a b t v ht htr h1, h2⟩

theorem choose_index {n : Number} {m : Nat} : ∃ r, chooseIndex m (some n.pval) = .ok r ∧ ∀ i, r = some i ↔ n.whole = some i ∧ 1 ≤ i ∧ i < m := by
  cases n with
  | float x =>
    cases x with
    | fin q =>
      refine ⟨_, rfl, ?_⟩
      intro i
      by_cases h1 : 1 ≤ q
      · have hf : (1 : ℤ) ≤ ⌊q⌋ := Int.le_floor.mpr (by exact_mod_cast h1)
        have ht : truncQ q = ⌊q⌋ := by unfold truncQ; rw [if_neg (by linarith)]
        simp only [Number.whole, if_pos h1, ht, Option.some.injEq]
        by_cases h2 : q < (m : ℚ)
        · rw [if_pos ⟨h1, h2⟩]
          have : ⌊q⌋ < (m : ℤ) := Int.floor_lt.mpr (by exact_mod_cast h2)
          constructor
          · rintro h; cases h; exact ⟨rfl, by omega, by omega⟩
          · rintro ⟨h, _⟩; rw [h]
        · rw [if_neg (by tauto)]
          have : (m : ℤ) ≤ ⌊q⌋ := Int.le_floor.mpr (by push_cast; linarith)
          constructor
          · intro h; cases h
          · rintro ⟨h, _, h3⟩; omega
      · rw [if_neg (by tauto)]
        simp [Number.whole, h1]
    | inf b => exact ⟨_, rfl, fun i => by simp [Number.whole]⟩
    | nan => exact ⟨_, rfl, fun i => by simp [Number.whole]⟩
  | int k =>
    refine ⟨_, rfl, ?_⟩
    intro i
    simp only [Number.whole]
    by_cases h1 : 1 ≤ k
    · by_cases h2 : k < (m : ℤ)
      · rw [if_pos ⟨h1, h2⟩, if_pos h1]
        constructor
        · intro h; cases h; exact ⟨rfl, by omega, by omega⟩
        · rintro ⟨h, _⟩; exact h
      · rw [if_neg (by tauto), if_pos h1]
        constructor
        · intro h; cases h
        · rintro ⟨h, _, h3⟩; cases h; omega
    · rw [if_neg (by tauto), if_neg h1]
      simp

theorem forall₂_get {α β} {P : α → β → Prop} {l : List α} {m : List β} (h : List.Forall₂ P l m) (i : Nat) (a : α) (ha : l[i]? = some a) : ∃ b, m[i]? = some b ∧ P a b := by
  induction h generalizing i with
  | nil => simp at ha
  | cons hp _ ih =>
    cases i with
    | zero => simp only [List.getElem?_cons_zero, Option.some.injEq] at ha ⊢; subst ha; exact ⟨_, rfl, hp⟩
    | succ i => simp only [List.getElem?_cons_succ] at ha ⊢; exact ih i ha

theorem choose_agree {C : Calc} {loc : Nat → Nat → Nat → Prop} {fs : Nat → Option VExpr} (cls : Cls) {args : List VExpr} {os : List Opnd}
    (ha : List.Forall₂ (Agree C loc fs) args os) (h1 : args ≠ []) {stk : List Opnd} {rank : Nat} {text : PyStr} {res : Opnd}
    (h : evalChoose args.length (os.reverse ++ stk) { rank := rank, text := text } = .ok res) : Agree C loc fs (.varying cls 100 args) res := by
  have hlen := ha.length_eq
  cases ha with
  | nil => exact absurd rfl h1
  | @cons c oc args os hc ha =>
  unfold evalChoose at h
  rw [stackAt_args (oc :: os) stk (c :: args).length (by simp) (by omega) oc (by rw [hlen, Nat.sub_self]; rfl)] at h
  obtain ⟨test, ht, h⟩ := bind_ok h
  cases ht
  have unknown : (∀ n i, HasVal C loc fs c (.num n) → n.whole = some i → args[i - 1]? = none) → res = { rank := rank, text := text } →
      Agree C loc fs (.varying cls 100 (c :: args)) res := by
    rintro hu rfl
    refine ⟨?_, ?_⟩
    · intro v hv
      cases hv with
      | choose _ _ a _ n i w e1 e2 e3 => rw [hu n i e1 e2] at e3; cases e3
    · rintro (hv | hv)
      · exact absurd rfl hv
      · cases hv
  by_cases hk : oc.kind = .num
  swap
  · rw [if_neg hk] at h
    cases h
    exact unknown (fun n i hn _ => absurd (hc.1 _ hn).1 hk) rfl
  rw [if_pos hk] at h
  cases hv : oc.value with
  | none => rw [hv] at h; cases h
  | some p =>
    obtain ⟨v, v1, v2⟩ := hc.2 (.inl (by rw [hv]; simp))
    have hkv := holds_kind v2
    rw [hk] at hkv
    cases v with
    | num n =>
      obtain ⟨r, r1, r2⟩ := @choose_index n (c :: args).length
      rw [v2.2, r1] at h
      obtain ⟨_, e0, h⟩ := bind_ok h
      cases e0
      have same : ∀ n', HasVal C loc fs c (.num n') → n' = n := by
        intro n' hn'
        have := (hc.1 _ hn').2
        rw [v2.2] at this
        exact (number_pval_inj (Option.some.inj this)).symm
      cases r with
      | none =>
        cases h
        refine unknown (fun n' i hn' hi => ?_) rfl
        rw [same n' hn'] at hi
        have hni : ¬ (n.whole = some i ∧ 1 ≤ i ∧ i < (c :: args).length) := fun hcc => by cases (r2 i).mpr hcc
        have h1i : 1 ≤ i := by
          cases n with
          | float x =>
            cases x with
            | fin q =>
              simp only [Number.whole] at hi
              by_cases hq : 1 ≤ q
              · rw [if_pos hq] at hi; cases hi
                have : (1 : ℤ) ≤ ⌊q⌋ := Int.le_floor.mpr (by exact_mod_cast hq)
                omega
              · rw [if_neg hq] at hi; cases hi
            | inf b => cases hi
            | nan => cases hi
          | int k =>
            simp only [Number.whole] at hi
            by_cases hq : 1 ≤ k
            · rw [if_pos hq] at hi; cases hi; omega
            · rw [if_neg hq] at hi; cases hi
        rw [List.getElem?_eq_none]
        simp only [List.length_cons] at hni
        by_contra hcc
        exact hni ⟨hi, h1i, by omega⟩
      | some i =>
        obtain ⟨w1, w2, w3⟩ := (r2 i).mp rfl
        simp only [List.length_cons] at w3
        obtain ⟨a, haa⟩ : ∃ a, args[i - 1]? = some a := ⟨_, List.getElem?_eq_getElem (by omega)⟩
        obtain ⟨oa, hoa, hag⟩ := forall₂_get ha (i - 1) a haa
        simp only at h
        simp only [List.length_cons] at hlen
        rw [stackAt_args (oc :: os) stk ((c :: args).length - i) (by simp only [List.length_cons]; omega) (by simp only [List.length_cons]; omega) oa (by
          simp only [List.length_cons]
          rw [show os.length + 1 - (args.length + 1 - i) = (i - 1) + 1 by omega, List.getElem?_cons_succ, hoa])] at h
        cases h
        obtain ⟨k1, k2⟩ := chooseArg_agree (res := { rank := rank, text := text }) hag
        refine ⟨?_, ?_⟩
        · intro v hv
          cases hv with
          | choose _ _ a' _ n' i' w e1 e2 e3 e4 =>
            rw [same n' e1, w1] at e2
            cases e2
            rw [haa] at e3
            cases e3
            exact k1 w e4
        · intro hv
          obtain ⟨v, h1, h2⟩ := k2 hv
          exact ⟨_, .choose cls c a args n i v v1 w1 haa h1, h2⟩
    | _ => cases hkv

end Xlrd
