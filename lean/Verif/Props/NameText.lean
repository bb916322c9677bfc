import Verif.Props.NameValues
import Verif.Props.FormulaText

/-!
# The texts of names

`evaluate_name_formula` makes a text for the result of a name, `decompile_formula` a text for any formula: a simulation of one by the other.
-/
namespace Xlrd
open Spec

set_option linter.unusedSimpArgs false

/-- `decompile_formula` for the formula of a name (`FMLA_TYPE_NAME`: references are offsets, there is no base cell). -/
def FEnv.texts (env : FEnv) (r1c1 : Bool) : DEnv :=
  { str := env.ops.str, bv := env.bv, bk := env.bk, dec := env.dec, reldelta := true, browx := none, bcolx := none, r1c1 := r1c1 }

/-- An operand of the evaluation and one of the decompilation with the same text. -/
def SameText (o : Opnd) (d : Option DOpnd) : Prop := ∀ x, d = some x → o.rank = x.rank ∧ o.text = x.text

abbrev SameTexts : List Opnd → List (Option DOpnd) → Prop := List.Forall₂ SameText

theorem ditem_same {o : Opnd} {d : Option DOpnd} {x : DOpnd} (h : SameText o d) (hx : ditem d = .ok x) : o.rank = x.rank ∧ o.text = x.text := by
  cases d with
  | none => cases hx
  | some y => cases hx; exact h _ rfl

theorem same_some {o : Opnd} {x : DOpnd} (h1 : o.rank = x.rank) (h2 : o.text = x.text) : SameText o (some x) := by
  intro y hy; cases hy; exact ⟨h1, h2⟩

theorem binop_same {ops : PyOps} {opcode : Nat} {s s' : List Opnd} {d d' : List (Option DOpnd)} (hs : SameTexts s d)
    (h1 : doBinop ops opcode s = .ok s') (h2 : dBinop opcode d = .ok d') : SameTexts s' d' := by
  cases hs with
  | nil => cases h1
  | cons hb hs =>
    cases hs with
    | nil => cases h1
    | cons ha hs =>
      unfold doBinop at h1
      unfold dBinop at h2
      obtain ⟨⟨c, k, rank, sym⟩, hr, h1⟩ := bind_ok h1
      obtain ⟨v, _, h1⟩ := bind_ok h1
      obtain ⟨q, hq, h2⟩ := bind_ok h2
      rw [hr] at hq
      cases hq
      obtain ⟨a, ea, h2⟩ := bind_ok h2
      obtain ⟨b, eb, h2⟩ := bind_ok h2
      cases h1
      cases h2
      obtain ⟨a1, a2⟩ := ditem_same ha ea
      obtain ⟨b1, b2⟩ := ditem_same hb eb
      exact .cons (same_some rfl (by simp only [a1, a2, b1, b2])) hs

theorem unop_same {ops : PyOps} {opcode : Nat} {s s' : List Opnd} {d d' : List (Option DOpnd)} (hs : SameTexts s d)
    (h1 : doUnaryop ops opcode s = .ok s') (h2 : dUnaryop opcode d = .ok d') : SameTexts s' d' := by
  cases hs with
  | nil => cases h1
  | cons ha hs =>
    unfold doUnaryop at h1
    unfold dUnaryop at h2
    obtain ⟨⟨rank, s1, s2⟩, hr, h1⟩ := bind_ok h1
    obtain ⟨v, _, h1⟩ := bind_ok h1
    obtain ⟨q, hq, h2⟩ := bind_ok h2
    rw [hr] at hq
    cases hq
    obtain ⟨a, ea, h2⟩ := bind_ok h2
    cases h1
    cases h2
    obtain ⟨a1, a2⟩ := ditem_same ha ea
    exact .cons (same_some rfl (by simp only [a1, a2])) hs

theorem isect_same {s s' : List Opnd} {d d' : List (Option DOpnd)} (hs : SameTexts s d)
    (h1 : doIsect s = .ok s') (h2 : dIsect d = .ok d') : SameTexts s' d' := by
  cases hs with
  | nil => cases h1
  | cons hb hs =>
    cases hs with
    | nil => cases h1
    | cons ha hs =>
      unfold doIsect at h1
      unfold dIsect at h2
      obtain ⟨⟨k, v⟩, _, h1⟩ := bind_ok h1
      obtain ⟨a, ea, h2⟩ := bind_ok h2
      obtain ⟨b, eb, h2⟩ := bind_ok h2
      cases h1
      cases h2
      obtain ⟨a1, a2⟩ := ditem_same ha ea
      obtain ⟨b1, b2⟩ := ditem_same hb eb
      exact .cons (same_some rfl (by simp only [a1, a2, b1, b2])) hs

theorem list_same {s s' : List Opnd} {d d' : List (Option DOpnd)} (hs : SameTexts s d)
    (h1 : doList s = .ok s') (h2 : dList d = .ok d') : SameTexts s' d' := by
  cases hs with
  | nil => cases h1
  | cons hb hs =>
    cases hs with
    | nil => cases h1
    | cons ha hs =>
      unfold doList at h1
      unfold dList at h2
      obtain ⟨⟨k, v⟩, _, h1⟩ := bind_ok h1
      obtain ⟨a, ea, h2⟩ := bind_ok h2
      obtain ⟨b, eb, h2⟩ := bind_ok h2
      cases h1
      cases h2
      obtain ⟨a1, a2⟩ := ditem_same ha ea
      obtain ⟨b1, b2⟩ := ditem_same hb eb
      exact .cons (same_some rfl (by simp only [a1, a2, b1, b2])) hs

theorem range_same {s s' : List Opnd} {d d' : List (Option DOpnd)} (hs : SameTexts s d)
    (h1 : doRange s = .ok s') (h2 : dRange d = .ok d') : SameTexts s' d' := by
  cases hs with
  | nil => cases h1
  | cons hb hs =>
    cases hs with
    | nil => cases h1
    | cons ha hs =>
      unfold doRange at h1
      unfold dRange at h2
      obtain ⟨⟨k, v⟩, _, h1⟩ := bind_ok h1
      obtain ⟨a, ea, h2⟩ := bind_ok h2
      obtain ⟨b, eb, h2⟩ := bind_ok h2
      cases h1
      cases h2
      obtain ⟨a1, a2⟩ := ditem_same ha ea
      obtain ⟨b1, b2⟩ := ditem_same hb eb
      refine .cons ?_ hs
      by_cases c : b.kind = .err ∨ a.kind = .err
      · rw [if_pos c]; intro x hx; cases hx
      · rw [if_neg c]; exact same_some rfl (by simp only [a1, a2, b1, b2])

theorem attr_same {data : Bytes} {pos : Int} {s : List Opnd} {r : List Opnd × Int} {d : List (Option DOpnd)} {q : List (Option DOpnd) × Int}
    (hs : SameTexts s d) (h1 : attrTok data pos s = .ok r) (h2 : dAttr data pos d = .ok q) : SameTexts r.1 q.1 ∧ r.2 = q.2 := by
  unfold attrTok at h1
  unfold dAttr at h2
  obtain ⟨⟨subop, nc⟩, hf, h1⟩ := bind_ok h1
  rw [hf] at h2
  simp only [bind, Except.bind] at h1 h2
  by_cases c : subop = 0x04
  · rw [if_pos c] at h1 h2; cases h1; cases h2; exact ⟨hs, rfl⟩
  rw [if_neg c] at h1 h2
  by_cases c : subop = 0x10
  · rw [if_pos c] at h1 h2
    cases hs with
    | nil => cases h1
    | cons ha hs =>
      simp only [attrSum] at h1
      unfold dAttrSum at h2
      cases h1
      simp only [bind, Except.bind] at h2
      rename_i o x _ _
      cases x with
      | none => cases h2
      | some x =>
        cases h2
        obtain ⟨_, a2⟩ := ha _ rfl
        exact ⟨.cons (same_some rfl (by simp only [a2])) hs, rfl⟩
  · rw [if_neg c] at h1 h2; cases h1; cases h2; exact ⟨hs, rfl⟩

theorem plain_same {env : FEnv} {rc : Bool} {data : Bytes} {len : Nat} {pos : Int} {opcode : Nat} {sz : Int} {s : List Opnd} {r : List Opnd × Int}
    {d : List (Option DOpnd)} {q : List (Option DOpnd) × Int} (hs : SameTexts s d) (h1 : evPlain env data pos opcode sz s = .ok r)
    (h2 : dPlain (env.texts rc) data len pos opcode sz d = .ok q) : SameTexts r.1 q.1 ∧ r.2 = q.2 := by
  unfold evPlain at h1
  unfold dPlain at h2
  by_cases c : opcode ≤ 0x02
  · rw [if_pos c] at h1; cases h1
  rw [if_neg c] at h1
  rw [if_neg (by omega), if_neg (by omega)] at h2
  clear c
  by_cases c : opcode ≤ 0x0E
  · rw [if_pos c] at h1 h2
    obtain ⟨a, e1, h1⟩ := bind_ok h1
    obtain ⟨b, e2, h2⟩ := bind_ok h2
    cases h1; cases h2
    exact ⟨binop_same hs e1 e2, rfl⟩
  rw [if_neg c] at h1 h2; clear c
  by_cases c : opcode = 0x0F
  · rw [if_pos c] at h1 h2
    obtain ⟨a, e1, h1⟩ := bind_ok h1
    obtain ⟨b, e2, h2⟩ := bind_ok h2
    cases h1; cases h2
    exact ⟨isect_same hs e1 e2, rfl⟩
  rw [if_neg c] at h1 h2; clear c
  by_cases c : opcode = 0x10
  · rw [if_pos c] at h1 h2
    obtain ⟨a, e1, h1⟩ := bind_ok h1
    obtain ⟨b, e2, h2⟩ := bind_ok h2
    cases h1; cases h2
    exact ⟨list_same hs e1 e2, rfl⟩
  rw [if_neg c] at h1 h2; clear c
  by_cases c : opcode = 0x11
  · rw [if_pos c] at h1 h2
    obtain ⟨a, e1, h1⟩ := bind_ok h1
    obtain ⟨b, e2, h2⟩ := bind_ok h2
    cases h1; cases h2
    exact ⟨range_same hs e1 e2, rfl⟩
  rw [if_neg c] at h1 h2; clear c
  by_cases c : opcode ≤ 0x14
  · rw [if_pos c] at h1 h2
    obtain ⟨a, e1, h1⟩ := bind_ok h1
    obtain ⟨b, e2, h2⟩ := bind_ok h2
    cases h1; cases h2
    exact ⟨unop_same hs e1 e2, rfl⟩
  rw [if_neg c] at h1 h2; clear c
  by_cases c : opcode = 0x15
  · rw [if_pos c] at h1 h2; cases h1; cases h2; exact ⟨hs, rfl⟩
  rw [if_neg c] at h1 h2; clear c
  by_cases c : opcode = 0x16
  · rw [if_pos c] at h1 h2; cases h1; cases h2; exact ⟨.cons (same_some rfl rfl) hs, rfl⟩
  rw [if_neg c] at h1 h2; clear c
  by_cases c : opcode = 0x17
  · rw [if_pos c] at h1 h2
    obtain ⟨⟨a, n⟩, e1, h1⟩ := bind_ok h1
    rw [show tStr (env.texts rc).bv (env.texts rc).dec data pos = .ok (a, n) from e1] at h2
    cases h1; cases h2
    exact ⟨.cons (same_some rfl rfl) hs, rfl⟩
  rw [if_neg c] at h1 h2; clear c
  by_cases c : opcode = 0x18
  · rw [if_pos c] at h1
    obtain ⟨_, _, h1⟩ := bind_ok h1
    cases h1
  rw [if_neg c] at h1 h2; clear c
  by_cases c : opcode = 0x19
  · rw [if_pos c] at h1 h2
    exact attr_same hs h1 h2
  rw [if_neg c] at h1 h2; clear c
  by_cases c : opcode ≤ 0x1B
  · rw [if_pos c] at h1
    obtain ⟨_, _, h1⟩ := bind_ok h1
    cases h1
  rw [if_neg c] at h1 h2; clear c
  obtain ⟨⟨k, v, t⟩, e1, h1⟩ := bind_ok h1
  rw [show constTok (env.texts rc).str opcode data pos = .ok (k, v, t) from e1] at h2
  cases h1; cases h2
  exact ⟨.cons (same_some rfl rfl) hs, rfl⟩

/-! ## Functions -/

theorem texts_same {s : List Opnd} {d : List (Option DOpnd)} (hs : SameTexts s d) {ts : List PyStr} (h : dTexts d = .ok ts) :
    ts = s.reverse.map Opnd.text := by
  have key : ∀ {s : List Opnd} {d : List (Option DOpnd)}, SameTexts s d → ∀ ts, (d.mapM fun o => do let o ← ditem o; pure o.text) = Except.ok ts →
      ts = s.map Opnd.text := by
    intro s d hs
    induction hs with
    | nil => intro ts h; cases h; rfl
    | cons ha _ ih =>
      intro ts h
      rw [List.mapM_cons] at h
      obtain ⟨t, h1, h⟩ := bind_ok h
      obtain ⟨us, h2, h⟩ := bind_ok h
      obtain ⟨x, h3, h1⟩ := bind_ok h1
      cases h1
      cases h
      rw [List.map_cons, ih _ h2, (ditem_same ha h3).2]
  exact key (List.rel_reverse hs) ts h

theorem take_same {s : List Opnd} {d : List (Option DOpnd)} (hs : SameTexts s d) (n : Nat) : SameTexts (s.take n) (d.take n) := List.forall₂_take n hs

theorem drop_same {s : List Opnd} {d : List (Option DOpnd)} (hs : SameTexts s d) (n : Nat) : SameTexts (s.drop n) (d.drop n) := List.forall₂_drop n hs

theorem func_same {bv : Nat} {data : Bytes} {pos : Int} {s s' : List Opnd} {d d' : List (Option DOpnd)} (hs : SameTexts s d)
    (h1 : funcTok bv data pos s = .ok s') (h2 : dFunc bv data pos d = .ok d') : SameTexts s' d' := by
  unfold funcTok at h1
  unfold dFunc at h2
  obtain ⟨funcx, hf, h1⟩ := bind_ok h1
  rw [hf] at h2
  simp only [bind, Except.bind] at h2
  cases hd : funcDef funcx with
  | none =>
    rw [hd] at h1 h2
    cases h1; cases h2
    exact .cons (same_some rfl rfl) hs
  | some t =>
    obtain ⟨name, nargs, m⟩ := t
    rw [hd] at h1 h2
    simp only at h1 h2
    obtain ⟨_, _, h1⟩ := bind_ok h1
    obtain ⟨_, _, h2⟩ := bind_ok h2
    by_cases c : nargs = 0
    · rw [if_pos c] at h1 h2
      cases h1; cases h2
      exact .cons (same_some rfl rfl) hs
    · rw [if_neg c] at h1 h2
      obtain ⟨ts, ht, h2⟩ := bind_ok h2
      cases h1; cases h2
      exact .cons (same_some rfl (by rw [texts_same (take_same hs nargs) ht])) (drop_same hs nargs)

theorem chooseArg_text (r c : Opnd) : (chooseArg r c).rank = r.rank ∧ (chooseArg r c).text = r.text := by
  unfold chooseArg
  by_cases h : c.kind = .msng
  · rw [if_pos h]; exact ⟨rfl, rfl⟩
  · rw [if_neg h]; exact ⟨rfl, rfl⟩

theorem varResult_text {f n : Nat} {s : List Opnd} {o r : Opnd} (h : varResult f n s o = .ok r) : r.rank = o.rank ∧ r.text = o.text := by
  unfold varResult at h
  by_cases c : f = 1
  · rw [if_pos c] at h
    unfold evalIf at h
    obtain ⟨t, _, h⟩ := bind_ok h
    by_cases c2 : ¬ (t.kind = .num ∨ t.kind = .bool)
    · rw [if_pos c2] at h; cases h; exact ⟨rfl, rfl⟩
    · rw [if_neg c2] at h
      split at h
      · cases h; exact ⟨rfl, rfl⟩
      · rename_i b _
        by_cases c3 : n = 2 ∧ ¬ b
        · rw [if_pos c3] at h; cases h; exact ⟨rfl, rfl⟩
        · rw [if_neg c3] at h
          obtain ⟨x, _, h⟩ := bind_ok h
          cases h
          exact chooseArg_text _ _
  · rw [if_neg c] at h
    by_cases c : f = 100
    · rw [if_pos c] at h
      unfold evalChoose at h
      obtain ⟨t, _, h⟩ := bind_ok h
      by_cases c2 : t.kind = .num
      · rw [if_pos c2] at h
        obtain ⟨x, _, h⟩ := bind_ok h
        split at h
        · cases h; exact ⟨rfl, rfl⟩
        · obtain ⟨x, _, h⟩ := bind_ok h
          cases h
          exact chooseArg_text _ _
      · rw [if_neg c2] at h; cases h; exact ⟨rfl, rfl⟩
    · rw [if_neg c] at h; cases h; exact ⟨rfl, rfl⟩

theorem topArgs_same {s : List Opnd} {d : List (Option DOpnd)} (hs : SameTexts s d) (n : Nat) : SameTexts (topArgs s n) (topArgs d n) := by
  unfold topArgs
  by_cases c : n = 0
  · rw [if_pos c, if_pos c]; exact hs
  · rw [if_neg c, if_neg c]; exact take_same hs n

theorem dropArgs_same {s : List Opnd} {d : List (Option DOpnd)} (hs : SameTexts s d) (n : Nat) : SameTexts (dropArgs s n) (dropArgs d n) := by
  unfold dropArgs
  by_cases c : n = 0
  · rw [if_pos c, if_pos c]; exact .nil
  · rw [if_neg c, if_neg c]; exact drop_same hs n

theorem funcVar_same {bv : Nat} {data : Bytes} {pos : Int} {s s' : List Opnd} {d d' : List (Option DOpnd)} (hs : SameTexts s d)
    (hu : ∀ n, funcVarFields bv data pos ≠ .ok (n, 255))
    (h1 : funcVarTok bv data pos s = .ok s') (h2 : dFuncVar bv data pos d = .ok d') : SameTexts s' d' := by
  unfold funcVarTok at h1
  unfold dFuncVar at h2
  obtain ⟨⟨nargs, funcx⟩, hf, h1⟩ := bind_ok h1
  rw [hf] at h2
  simp only [bind, Except.bind] at h2
  have hd' : dFuncDef funcx = funcDef funcx := by
    unfold dFuncDef
    rw [if_neg]
    rintro rfl
    exact hu _ hf
  rw [hd'] at h2
  simp only at h1
  cases hd : funcDef funcx with
  | none =>
    rw [hd] at h1 h2
    cases h1; cases h2
    exact .cons (same_some rfl rfl) hs
  | some t =>
    obtain ⟨name, lo, hi⟩ := t
    rw [hd] at h1 h2
    simp only at h1 h2
    obtain ⟨_, _, h1⟩ := bind_ok h1
    obtain ⟨_, _, h1⟩ := bind_ok h1
    obtain ⟨_, _, h2⟩ := bind_ok h2
    obtain ⟨_, _, h2⟩ := bind_ok h2
    obtain ⟨r, hr, h1⟩ := bind_ok h1
    obtain ⟨ts, ht, h2⟩ := bind_ok h2
    cases h1; cases h2
    obtain ⟨e1, e2⟩ := varResult_text hr
    exact .cons (same_some e1 (by rw [e2, texts_same (topArgs_same hs nargs) ht])) (dropArgs_same hs nargs)

/-! ## References and names -/

theorem ref3d_same {bk : Book} {t t' : Nat} {r : RelRef} {i b : Bool} {o o' : Opnd} (hi : b = true ∨ i = false)
    (h1 : ref3dOpnd bk t r i none none true = .ok o) (h2 : ref3dOpnd bk t' r i none none b = .ok o') : o.rank = o'.rank ∧ o.text = o'.text := by
  unfold ref3dOpnd at h1 h2
  cases i with
  | true =>
    rcases hi with rfl | hi
    · simp only [if_true] at h1 h2
      obtain ⟨x, e1, h1⟩ := bind_ok h1
      obtain ⟨y, e2, h2⟩ := bind_ok h2
      rw [e1] at e2
      cases e2
      cases h1; cases h2
      exact ⟨rfl, rfl⟩
    · cases hi
  | false =>
    simp only [Bool.false_eq_true, if_false] at h1 h2
    obtain ⟨x, e1, h1⟩ := bind_ok h1
    obtain ⟨y, e2, h2⟩ := bind_ok h2
    rw [e1] at e2
    cases e2
    cases h1; cases h2
    exact ⟨rfl, rfl⟩

theorem useName_text {env : FEnv} {o : NameObj} {e : NameEval} {st st' : EvSt} (h : useName env o e st = .ok st') :
    ∃ x : Opnd, st'.stack = x :: st.stack ∧ x.rank = LEAF_RANK ∧ nameShown env.bk o = .ok x.text := by
  unfold useName at h
  by_cases c : o.macroFlag ≠ 0 ∨ o.binary ≠ 0 ∨ e.anyErr
  · rw [if_pos c] at h
    obtain ⟨t, ht, h⟩ := bind_ok h
    cases h
    exact ⟨_, rfl, rfl, ht⟩
  · rw [if_neg c] at h
    split at h
    · obtain ⟨t, ht, h⟩ := bind_ok h
      cases h
      exact ⟨_, rfl, rfl, ht⟩
    · cases h

theorem nameRef_text {env : FEnv} {rc : NameTbl → Nat → Int → R NameTbl} {st st' : EvSt} {tgt : Int} (h : nameRef env rc st tgt = .ok st') :
    ∃ (x : Opnd) (o : NameObj), st'.stack = x :: st.stack ∧ x.rank = LEAF_RANK ∧ idx env.bk.nameObjs tgt = .ok o ∧ nameShown env.bk o = .ok x.text := by
  unfold nameRef at h
  obtain ⟨o, ho, h⟩ := bind_ok h
  obtain ⟨tbl, _, h⟩ := bind_ok h
  split at h
  · obtain ⟨x, h1, h2, h3⟩ := useName_text h
    exact ⟨x, o, h1, h2, ho, h3⟩
  · cases h

theorem localRange_no5 {b : Book} {bad x y : Int} {s : Int × Int} (hb : bad ≠ -5) (h : localRange b bad x y = .ok s) : s.1 ≠ -5 := by
  unfold localRange at h
  by_cases c : ¬ (0 ≤ x ∧ x ≤ y ∧ y < b.allSheetsMap.length)
  · rw [if_pos c] at h; cases h; exact hb
  · rw [if_neg c] at h
    obtain ⟨x1, _, h⟩ := bind_ok h
    obtain ⟨x2, _, h⟩ := bind_ok h
    by_cases c : ¬ (0 ≤ x1 ∧ x1 ≤ x2)
    · rw [if_pos c] at h; cases h; decide
    · rw [if_neg c] at h; cases h; show x1 ≠ -5; omega

theorem nameXRange_no5 {bv : Nat} {b : Book} (ha : b.supbookAddinsInx = none) {orig refx : Int} {s : Int × Int} (h : nameXRange bv b orig refx = .ok s) :
    s.1 ≠ -5 := by
  unfold nameXRange at h
  by_cases c : bv ≥ 80
  · rw [if_pos c] at h
    unfold externRange at h
    split at h
    · cases h; decide
    · rename_i info _
      unfold externInfoRange at h
      rw [ha, if_neg (by simp)] at h
      by_cases c : some info.1 ≠ b.supbookLocalsInx
      · rw [if_pos c] at h; cases h; decide
      rw [if_neg c] at h
      by_cases c : info.2.1 = 0xFFFE ∧ 0xFFFE = info.2.2
      · rw [if_pos c] at h; cases h; decide
      rw [if_neg c] at h
      by_cases c : info.2.1 = 0xFFFF ∧ 0xFFFF = info.2.2
      · rw [if_pos c] at h; cases h; decide
      rw [if_neg c] at h
      exact localRange_no5 (by decide) h
  · rw [if_neg c] at h
    by_cases c : orig > 0
    · rw [if_pos c] at h; cases h; decide
    · rw [if_neg c] at h
      obtain ⟨ty, _, h⟩ := bind_ok h
      cases h
      by_cases c : ty = 4
      · rw [if_pos c]; decide
      · rw [if_neg c]; decide

theorem nameX_same {env : FEnv} {r : Bool} {rc : NameTbl → Nat → Int → R NameTbl} {namex : Int} {data : Bytes} {pos : Int} {st st' : EvSt} {x : DOpnd}
    (ha : ∀ f s, nameXFields env.bv data pos = .ok f → nameXRange env.bv env.bk f.1 f.2.1 = .ok s → s.1 ≠ -5) (he : st'.anyErr = false)
    (h1 : evNameX env rc namex data pos st = .ok st') (h2 : dNameX (env.texts r) data pos = .ok x) :
    ∃ o : Opnd, st'.stack = o :: st.stack ∧ o.rank = x.rank ∧ o.text = x.text := by
  unfold evNameX at h1
  unfold dNameX at h2
  obtain ⟨⟨orig, refx, tgt, dodgy⟩, hf, h1⟩ := bind_ok h1
  obtain ⟨q, hq, h2⟩ := bind_ok h2
  rw [show nameXFields (env.texts r).bv data pos = .ok (orig, refx, tgt, dodgy) from hf] at hq
  cases hq
  simp only at h1 h2
  cases dodgy with
  | true => cases h2
  | false =>
    simp only [Bool.false_or, Bool.false_eq_true, if_false] at h1 h2
    by_cases c : tgt = namex
    · simp only [if_pos c, decide_eq_true c, if_true] at h1
      cases h1
      cases he
    · simp only [if_neg c, decide_eq_false c, Bool.false_eq_true, if_false] at h1
      obtain ⟨s, hs, h1⟩ := bind_ok h1
      obtain ⟨q, hq, h2⟩ := bind_ok h2
      rw [show nameXRange (env.texts r).bv (env.texts r).bk orig refx = .ok s from hs] at hq
      cases hq
      rw [if_neg (ha _ _ hf hs)] at h2
      by_cases c : s.1 < -1
      · rw [if_pos c] at h1 h2
        cases h1; cases h2
        exact ⟨_, rfl, rfl, rfl⟩
      · rw [if_neg c] at h1 h2
        obtain ⟨o, n, g1, g2, g3, g4⟩ := nameRef_text h1
        obtain ⟨n', e1, h2⟩ := bind_ok h2
        rw [show idx (env.texts r).bk.nameObjs tgt = .ok n from g3] at e1
        cases e1
        obtain ⟨t, e2, h2⟩ := bind_ok h2
        rw [show nameShown (env.texts r).bk n = .ok o.text from g4] at e2
        cases e2
        cases h2
        exact ⟨o, g1, g2, rfl⟩

theorem class_same {env : FEnv} {r : Bool} {rc : NameTbl → Nat → Int → R NameTbl} {namex : Int} {data : Bytes} {pos : Int} {opcode optype : Nat} {st st' : EvSt}
    {d d' : List (Option DOpnd)}
    (ha : opcode = 0x19 → ∀ f s, nameXFields env.bv data pos = .ok f → nameXRange env.bv env.bk f.1 f.2.1 = .ok s → s.1 ≠ -5)
    (hu : opcode = 2 → ∀ n, funcVarFields env.bv data pos ≠ .ok (n, 255))
    (hr : (r = true ∧ opcode ≠ 4 ∧ opcode ≠ 5) ∨ st'.anyRel = false) (he : st'.anyErr = false) (hs : SameTexts st.stack d)
    (h1 : evClass env rc namex data pos opcode optype st = .ok st') (h2 : dClass (env.texts r) data pos opcode d = .ok d') : SameTexts st'.stack d' := by
  unfold evClass at h1
  unfold dClass at h2
  by_cases c : opcode = 0x00
  · rw [if_pos c] at h1 h2; cases h1; cases h2; exact .cons (same_some rfl rfl) hs
  rw [if_neg c] at h1 h2; clear c
  by_cases c : opcode = 0x01
  · rw [if_pos c] at h1 h2
    obtain ⟨s, e, h1⟩ := bind_ok h1
    cases h1
    exact func_same hs e h2
  rw [if_neg c] at h1 h2; clear c
  by_cases c : opcode = 0x02
  · rw [if_pos c] at h1 h2
    obtain ⟨s, e, h1⟩ := bind_ok h1
    cases h1
    exact funcVar_same hs (hu c) e h2
  rw [if_neg c] at h1 h2; clear c
  by_cases c : opcode = 0x03
  · rw [if_pos c] at h1 h2
    obtain ⟨n, e, h1⟩ := bind_ok h1
    obtain ⟨x, e2, h2⟩ := bind_ok h2
    cases h2
    unfold dName at e2
    rw [e] at e2
    obtain ⟨o, n', g1, g2, g3, g4⟩ := nameRef_text h1
    obtain ⟨n'', e1, e2⟩ := bind_ok e2
    cases e1
    obtain ⟨n'', e1, e2⟩ := bind_ok e2
    rw [show idx (env.texts r).bk.nameObjs ((n : Int) - 1) = .ok n' from g3] at e1
    cases e1
    obtain ⟨t, e1, e2⟩ := bind_ok e2
    rw [show nameShown (env.texts r).bk n' = .ok o.text from g4] at e1
    cases e1
    cases e2
    rw [g1]
    exact .cons (same_some g2 rfl) hs
  rw [if_neg c] at h1 h2; clear c
  by_cases c : opcode = 0x04
  · rw [if_pos c] at h1
    unfold evRef at h1
    obtain ⟨a, _, h1⟩ := bind_ok h1
    cases h1
    rcases hr with hr | hr
    · exact absurd c hr.2.1
    · cases hr
  rw [if_neg c] at h1
  by_cases c' : opcode = 0x05
  · rw [if_pos c'] at h1
    unfold evArea at h1
    obtain ⟨a, _, h1⟩ := bind_ok h1
    cases h1
    rcases hr with hr | hr
    · exact absurd c' hr.2.2
    · cases hr
  rw [if_neg c'] at h1
  by_cases c'' : opcode = 0x06 ∨ opcode = 0x0C ∨ opcode = 0x0D
  · rw [if_pos c''] at h1; cases h1
  rw [if_neg c''] at h1
  rw [if_neg (by omega), if_neg (by omega), if_neg (by omega)] at h2
  clear c c' c''
  by_cases c : opcode = 0x09
  · rw [if_pos c] at h1 h2
    obtain ⟨_, _, h1⟩ := bind_ok h1
    obtain ⟨_, _, h2⟩ := bind_ok h2
    cases h1; cases h2
    exact hs
  rw [if_neg c] at h1 h2; clear c
  by_cases c : opcode = 0x1A
  · rw [if_pos c] at h1 h2
    obtain ⟨x, e2, h2⟩ := bind_ok h2
    cases h2
    unfold evRef3d at h1
    unfold dRef3d at e2
    obtain ⟨a, ea, h1⟩ := bind_ok h1
    obtain ⟨s, es, h1⟩ := bind_ok h1
    obtain ⟨o, eo, h1⟩ := bind_ok h1
    cases h1
    obtain ⟨a', ea', e2⟩ := bind_ok e2
    obtain ⟨s', es', e2⟩ := bind_ok e2
    obtain ⟨o', eo', e2⟩ := bind_ok e2
    cases e2
    cases (show Except.ok a = Except.ok a' from ea.symm.trans ea')
    cases (show Except.ok s = Except.ok s' from es.symm.trans es')
    obtain ⟨g1, g2⟩ := ref3d_same (hr.imp (fun x => x.1) (fun x => (Bool.or_eq_false_iff.mp x).2)) eo eo'
    exact .cons (same_some g1 g2) hs
  rw [if_neg c] at h1 h2; clear c
  by_cases c : opcode = 0x1B
  · rw [if_pos c] at h1 h2
    obtain ⟨x, e2, h2⟩ := bind_ok h2
    cases h2
    unfold evArea3d at h1
    unfold dArea3d at e2
    obtain ⟨⟨a, z⟩, ea, h1⟩ := bind_ok h1
    obtain ⟨s, es, h1⟩ := bind_ok h1
    obtain ⟨o, eo, h1⟩ := bind_ok h1
    cases h1
    obtain ⟨a', ea', e2⟩ := bind_ok e2
    obtain ⟨s', es', e2⟩ := bind_ok e2
    obtain ⟨o', eo', e2⟩ := bind_ok e2
    cases e2
    cases (show Except.ok (a, z) = Except.ok a' from ea.symm.trans ea')
    cases (show Except.ok s = Except.ok s' from es.symm.trans es')
    obtain ⟨g1, g2⟩ := ref3d_same (hr.imp (fun x => x.1) (fun x => (Bool.or_eq_false_iff.mp x).2)) eo eo'
    exact .cons (same_some g1 g2) hs
  rw [if_neg c] at h1 h2; clear c
  by_cases c : opcode = 0x19
  · rw [if_pos c] at h1 h2
    obtain ⟨x, e2, h2⟩ := bind_ok h2
    cases h2
    obtain ⟨o, g1, g2, g3⟩ := nameX_same (ha c) he h1 e2
    rw [g1]
    exact .cons (same_some g2 g3) hs
  rw [if_neg c] at h1 h2; clear c
  by_cases c : opcode ∈ errorOpcodes
  · rw [if_pos c] at h1 h2; cases h1; cases h2; cases he
  · rw [if_neg c] at h1 h2; cases h1; cases h2; exact hs

/-! ## Flags once set stay -/

/-- What is set before is set after. -/
def FlagsKept (st st' : EvSt) : Prop := (st.anyRel = true → st'.anyRel = true) ∧ (st.anyErr = true → st'.anyErr = true)

theorem useName_flags {env : FEnv} {o : NameObj} {e : NameEval} {st st' : EvSt} (h : useName env o e st = .ok st') : FlagsKept st st' := by
  unfold useName at h
  by_cases c : o.macroFlag ≠ 0 ∨ o.binary ≠ 0 ∨ e.anyErr
  · rw [if_pos c] at h
    obtain ⟨t, ht, h⟩ := bind_ok h
    cases h
    exact ⟨fun h => by simp [h], fun _ => rfl⟩
  · rw [if_neg c] at h
    split at h
    · obtain ⟨t, ht, h⟩ := bind_ok h
      cases h
      exact ⟨id, id⟩
    · cases h

theorem nameRef_flags {env : FEnv} {rc : NameTbl → Nat → Int → R NameTbl} {st st' : EvSt} {tgt : Int} (h : nameRef env rc st tgt = .ok st') : FlagsKept st st' := by
  unfold nameRef at h
  obtain ⟨o, ho, h⟩ := bind_ok h
  obtain ⟨tbl, _, h⟩ := bind_ok h
  split at h
  · exact useName_flags (st := { st with tbl := tbl }) h
  · cases h

theorem nameX_flags {env : FEnv} {rc : NameTbl → Nat → Int → R NameTbl} {namex : Int} {data : Bytes} {pos : Int} {st st' : EvSt}
    (h : evNameX env rc namex data pos st = .ok st') : FlagsKept st st' := by
  unfold evNameX at h
  obtain ⟨⟨orig, refx, tgt, dodgy⟩, _, h⟩ := bind_ok h
  simp only at h
  have hk : FlagsKept st (if tgt = namex then { st with anyErr := true } else st : EvSt) := by
    by_cases c : tgt = namex
    · rw [if_pos c]; exact ⟨id, fun _ => rfl⟩
    · rw [if_neg c]; exact ⟨id, id⟩
  generalize (if tgt = namex then { st with anyErr := true } else st : EvSt) = st1 at h hk
  by_cases c : (dodgy || decide (tgt = namex)) = true
  · rw [if_pos c] at h; cases h; exact hk
  · rw [if_neg c] at h
    obtain ⟨s, _, h⟩ := bind_ok h
    by_cases c : s.1 < -1
    · rw [if_pos c] at h; cases h; exact hk
    · rw [if_neg c] at h
      exact ⟨fun x => (nameRef_flags h).1 (hk.1 x), fun x => (nameRef_flags h).2 (hk.2 x)⟩

theorem class_flags {env : FEnv} {rc : NameTbl → Nat → Int → R NameTbl} {namex : Int} {data : Bytes} {pos : Int} {opcode optype : Nat} {st st' : EvSt}
    (h : evClass env rc namex data pos opcode optype st = .ok st') : FlagsKept st st' := by
  unfold evClass at h
  by_cases c : opcode = 0x00
  · rw [if_pos c] at h; cases h; exact ⟨id, id⟩
  rw [if_neg c] at h; clear c
  by_cases c : opcode = 0x01
  · rw [if_pos c] at h; obtain ⟨_, _, h⟩ := bind_ok h; cases h; exact ⟨id, id⟩
  rw [if_neg c] at h; clear c
  by_cases c : opcode = 0x02
  · rw [if_pos c] at h; obtain ⟨_, _, h⟩ := bind_ok h; cases h; exact ⟨id, id⟩
  rw [if_neg c] at h; clear c
  by_cases c : opcode = 0x03
  · rw [if_pos c] at h; obtain ⟨_, _, h⟩ := bind_ok h; exact nameRef_flags h
  rw [if_neg c] at h; clear c
  by_cases c : opcode = 0x04
  · rw [if_pos c] at h; unfold evRef at h; obtain ⟨_, _, h⟩ := bind_ok h; cases h; exact ⟨fun _ => rfl, id⟩
  rw [if_neg c] at h; clear c
  by_cases c : opcode = 0x05
  · rw [if_pos c] at h; unfold evArea at h; obtain ⟨_, _, h⟩ := bind_ok h; cases h; exact ⟨fun _ => rfl, id⟩
  rw [if_neg c] at h; clear c
  by_cases c : opcode = 0x06 ∨ opcode = 0x0C ∨ opcode = 0x0D
  · rw [if_pos c] at h; cases h
  rw [if_neg c] at h; clear c
  by_cases c : opcode = 0x09
  · rw [if_pos c] at h; obtain ⟨_, _, h⟩ := bind_ok h; cases h; exact ⟨id, id⟩
  rw [if_neg c] at h; clear c
  by_cases c : opcode = 0x1A
  · rw [if_pos c] at h
    unfold evRef3d at h
    obtain ⟨_, _, h⟩ := bind_ok h
    obtain ⟨_, _, h⟩ := bind_ok h
    obtain ⟨_, _, h⟩ := bind_ok h
    cases h
    exact ⟨fun h => by simp [h], fun h => by simp [h]⟩
  rw [if_neg c] at h; clear c
  by_cases c : opcode = 0x1B
  · rw [if_pos c] at h
    unfold evArea3d at h
    obtain ⟨_, _, h⟩ := bind_ok h
    obtain ⟨_, _, h⟩ := bind_ok h
    obtain ⟨_, _, h⟩ := bind_ok h
    cases h
    exact ⟨fun h => by simp [h], fun h => by simp [h]⟩
  rw [if_neg c] at h; clear c
  by_cases c : opcode = 0x19
  · rw [if_pos c] at h; exact nameX_flags h
  rw [if_neg c] at h; clear c
  by_cases c : opcode ∈ errorOpcodes
  · rw [if_pos c] at h; cases h; exact ⟨id, fun _ => rfl⟩
  · rw [if_neg c] at h; cases h; exact ⟨id, fun _ => rfl⟩

theorem step_flags {env : FEnv} {rc : NameTbl → Nat → Int → R NameTbl} {tab : List Int} {namex : Int} {data : Bytes} {pos : Int} {st : EvSt} {r : EvSt × Int}
    (h : evStep env rc tab namex data pos st = .ok r) : FlagsKept st r.1 := by
  unfold evStep at h
  obtain ⟨op, _, h⟩ := bind_ok h
  simp only at h
  by_cases c1 : tab.getD (if op / 32 % 4 = 0 then op % 32 else op % 32 + 32) (-2) = -2
  · rw [if_pos c1] at h; cases h
  rw [if_neg c1] at h
  by_cases c2 : op / 32 % 4 = 0
  · rw [if_pos c2] at h
    obtain ⟨q, _, h⟩ := bind_ok h
    by_cases c3 : q.2 ≤ 0
    · rw [if_pos c3] at h; cases h
    · rw [if_neg c3] at h; cases h; exact ⟨id, id⟩
  · rw [if_neg c2] at h
    obtain ⟨q, h1, h⟩ := bind_ok h
    by_cases c3 : tab.getD (if op / 32 % 4 = 0 then op % 32 else op % 32 + 32) (-2) ≤ 0
    · rw [if_pos c3] at h; cases h
    · rw [if_neg c3] at h; cases h; exact class_flags h1

theorem loop_flags {env : FEnv} {rc : NameTbl → Nat → Int → R NameTbl} {tab : List Int} {namex : Int} {data : Bytes} {len : Nat} :
    ∀ (fuel : Nat) (st st' : EvSt) (pos : Int), evLoop env rc tab namex data len fuel st pos = .ok st' → FlagsKept st st' := by
  intro fuel
  induction fuel with
  | zero =>
    intro st st' pos h
    simp only [evLoop] at h
    split at h <;> cases h
    exact ⟨id, id⟩
  | succ fuel ih =>
    intro st st' pos h
    simp only [evLoop] at h
    split at h
    · obtain ⟨r, h1, h⟩ := bind_ok h
      have a := step_flags h1
      have b := ih _ _ _ h
      exact ⟨fun x => b.1 (a.1 x), fun x => b.2 (a.2 x)⟩
    · cases h; exact ⟨id, id⟩

/-! ## Runs -/

/-- The positions at which `decompile_formula` finds tokens. -/
def tokensFrom (env : DEnv) (tab : List Int) (data : Bytes) (len : Nat) : Nat → List (Option DOpnd) → Int → List Int
  | 0, _, _ => []
  | fuel + 1, stk, pos =>
    if 0 ≤ pos ∧ pos < len then
      pos :: (match dStep env tab data len pos stk with
        | .ok r => tokensFrom env tab data len fuel r.1 r.2
        | .error _ => [])
    else []

/-- The positions of the tokens of a formula. -/
def formulaTokens (env : DEnv) (data : Bytes) (len : Nat) : List Int :=
  match szdict env.bv with
  | .ok tab => tokensFrom env tab data len len (if len = 0 then [some {}] else []) 0
  | .error _ => []

/-- The token at a position does not call a function of an add-in or of a macro (number 255), or name one. -/
structure OwnFunction (env : FEnv) (data : Bytes) (pos : Int) : Prop where
  calls : ∀ (op n : Nat), byteAt data pos = .ok op → op % 32 = 0x02 → op / 32 % 4 ≠ 0 → funcVarFields env.bv data pos ≠ .ok (n, 255)
  names : ∀ (op : Nat) (f : Int × Int × Int × Bool) (s : Int × Int), byteAt data pos = .ok op → op % 32 = 0x19 → op / 32 % 4 ≠ 0 →
    nameXFields env.bv data pos = .ok f → nameXRange env.bv env.bk f.1 f.2.1 = .ok s → s.1 ≠ -5

/-- The token at a position is not a reference without a sheet (`tRef` and `tArea`). -/
def WithSheet (data : Bytes) (pos : Int) : Prop := ∀ (op : Nat), byteAt data pos = .ok op → op / 32 % 4 ≠ 0 → op % 32 ≠ 0x04 ∧ op % 32 ≠ 0x05

/-- No token of the formula calls or names a function of an add-in or of a macro. -/
def OwnFunctions (env : FEnv) (r1c1 : Bool) (data : Bytes) (len : Nat) : Prop := ∀ pos ∈ formulaTokens (env.texts r1c1) data len, OwnFunction env data pos

/-- All references of the formula have a sheet. -/
def WithSheets (env : FEnv) (r1c1 : Bool) (data : Bytes) (len : Nat) : Prop := ∀ pos ∈ formulaTokens (env.texts r1c1) data len, WithSheet data pos

theorem step_same {env : FEnv} {r1c1 : Bool} {rc : NameTbl → Nat → Int → R NameTbl} {tab : List Int} {namex : Int} {data : Bytes} {len : Nat} {pos : Int} {st : EvSt}
    {r : EvSt × Int} {d : List (Option DOpnd)} {q : List (Option DOpnd) × Int} (ho : OwnFunction env data pos)
    (hr : (r1c1 = true ∧ WithSheet data pos) ∨ r.1.anyRel = false) (he : r.1.anyErr = false) (hs : SameTexts st.stack d)
    (h1 : evStep env rc tab namex data pos st = .ok r) (h2 : dStep (env.texts r1c1) tab data len pos d = .ok q) : SameTexts r.1.stack q.1 ∧ r.2 = q.2 := by
  unfold evStep at h1
  unfold dStep at h2
  obtain ⟨op, hop, h1⟩ := bind_ok h1
  obtain ⟨op', hop', h2⟩ := bind_ok h2
  rw [hop] at hop'
  cases hop'
  simp only at h1 h2
  by_cases c1 : tab.getD (if op / 32 % 4 = 0 then op % 32 else op % 32 + 32) (-2) = -2
  · rw [if_pos c1] at h1; cases h1
  rw [if_neg c1] at h1 h2
  by_cases c2 : op / 32 % 4 = 0
  · rw [if_pos c2] at h1 h2
    obtain ⟨x, e1, h1⟩ := bind_ok h1
    obtain ⟨y, e2, h2⟩ := bind_ok h2
    obtain ⟨g1, g2⟩ := plain_same hs e1 e2
    by_cases c3 : x.2 ≤ 0
    · rw [if_pos c3] at h1; cases h1
    · rw [if_neg c3] at h1
      rw [if_neg (by rw [← g2]; exact c3)] at h2
      cases h1; cases h2
      exact ⟨g1, by show pos + x.2 = pos + y.2; rw [g2]⟩
  · rw [if_neg c2] at h1 h2
    obtain ⟨x, e1, h1⟩ := bind_ok h1
    obtain ⟨y, e2, h2⟩ := bind_ok h2
    by_cases c3 : tab.getD (if op / 32 % 4 = 0 then op % 32 else op % 32 + 32) (-2) ≤ 0
    · rw [if_pos c3] at h1; cases h1
    · rw [if_neg c3] at h1 h2
      cases h1; cases h2
      exact ⟨class_same (fun c f s => ho.names op f s hop c c2) (fun c n => ho.calls op n hop c c2) (hr.imp (fun x => ⟨x.1, x.2 op hop c2⟩) id) he hs e1 e2, rfl⟩

theorem rel_of_keeps {st st' : EvSt} (h : FlagsKept st st') (hr : st'.anyRel = false) : st.anyRel = false := by
  cases hc : st.anyRel with
  | false => rfl
  | true => rw [h.1 hc] at hr; cases hr

theorem err_of_keeps {st st' : EvSt} (h : FlagsKept st st') (he : st'.anyErr = false) : st.anyErr = false := by
  cases hc : st.anyErr with
  | false => rfl
  | true => rw [h.2 hc] at he; cases he

theorem loop_same {env : FEnv} {r1c1 : Bool} {rc : NameTbl → Nat → Int → R NameTbl} {tab : List Int} {namex : Int} {data : Bytes} {len : Nat} :
    ∀ (fuel : Nat) (st st' : EvSt) (pos : Int) (d d' : List (Option DOpnd)), (∀ p ∈ tokensFrom (env.texts r1c1) tab data len fuel d pos, OwnFunction env data p) →
      ((r1c1 = true ∧ ∀ p ∈ tokensFrom (env.texts r1c1) tab data len fuel d pos, WithSheet data p) ∨ st'.anyRel = false) → st'.anyErr = false → SameTexts st.stack d →
      evLoop env rc tab namex data len fuel st pos = .ok st' → dLoop (env.texts r1c1) tab data len fuel d pos = .ok d' → SameTexts st'.stack d' := by
  intro fuel
  induction fuel with
  | zero =>
    intro st st' pos d d' ho hr he hs h1 h2
    simp only [evLoop] at h1
    simp only [dLoop] at h2
    by_cases c : 0 ≤ pos ∧ pos < len
    · rw [if_pos c] at h1; cases h1
    · rw [if_neg c] at h1 h2; cases h1; cases h2; exact hs
  | succ fuel ih =>
    intro st st' pos d d' ho hr he hs h1 h2
    simp only [evLoop] at h1
    simp only [dLoop] at h2
    by_cases c : 0 ≤ pos ∧ pos < len
    · rw [if_pos c] at h1 h2
      obtain ⟨r, e1, h1⟩ := bind_ok h1
      obtain ⟨q, e2, h2⟩ := bind_ok h2
      have htok : tokensFrom (env.texts r1c1) tab data len (fuel + 1) d pos = pos :: tokensFrom (env.texts r1c1) tab data len fuel q.1 q.2 := by
        simp only [tokensFrom]
        rw [if_pos c, e2]
      rw [htok] at ho hr
      have hk := loop_flags _ _ _ _ h1
      obtain ⟨g1, g2⟩ := step_same (ho pos List.mem_cons_self) (hr.imp (fun x => ⟨x.1, x.2 pos List.mem_cons_self⟩) (rel_of_keeps hk)) (err_of_keeps hk he) hs e1 e2
      rw [g2] at h1
      exact ih _ _ _ _ _ (fun p hp => ho p (List.mem_cons_of_mem _ hp)) (hr.imp (fun x => ⟨x.1, fun p hp => x.2 p (List.mem_cons_of_mem _ hp)⟩) id) he g1 h1 h2
    · rw [if_neg c] at h1 h2; cases h1; cases h2; exact hs

/-- The text of the result of a name is the text of its formula. -/
def TextsAgree (env : FEnv) (r1c1 : Bool) (t : NameTbl) : Prop :=
  ∀ (i : Nat) (o : NameObj) (e : NameEval) (text : PyStr), env.bk.nameObjs[i]? = some o → t[i]? = some (some e) → OwnFunctions env r1c1 o.rawFormula o.basicFormulaLen →
    ((r1c1 = true ∧ WithSheets env r1c1 o.rawFormula o.basicFormulaLen) ∨ e.anyRel = false) → e.anyErr = false → decompile (env.texts r1c1) o.rawFormula o.basicFormulaLen = .ok (some text) →
    ∃ x, e.result = some x ∧ x.text = text

theorem texts_kept {env : FEnv} (r1c1 : Bool) : ∀ (k : Nat) (t : NameTbl) (i : Nat) (g : Int) (t' : NameTbl), TextsAgree env r1c1 t →
    evaluateName env k t i g = .ok t' → TextsAgree env r1c1 t' := by
  refine evaluateName_inv ?_
  intro k t i g o tab st _ ho htab _ hl hst j o' e text hj hget hu hr he hd
  by_cases hij : i = j
  · subst hij
    rw [ho] at hj
    cases hj
    rw [List.getElem?_set_self'] at hget
    cases hs : st.tbl[i]? with
    | none => rw [hs] at hget; cases hget
    | some y =>
      rw [hs] at hget
      cases hget
      unfold decompile at hd
      obtain ⟨tab', ht', hd⟩ := bind_ok hd
      rw [show szdict (env.texts r1c1).bv = .ok tab from htab] at ht'
      cases ht'
      obtain ⟨d, hdl, hd⟩ := bind_ok hd
      have hsame : SameTexts st.stack d := by
        have ht : formulaTokens (env.texts r1c1) o.rawFormula o.basicFormulaLen = tokensFrom (env.texts r1c1) tab o.rawFormula o.basicFormulaLen o.basicFormulaLen
            (if o.basicFormulaLen = 0 then [some {}] else []) 0 := by
          unfold formulaTokens
          rw [show szdict (env.texts r1c1).bv = .ok tab from htab]
        unfold OwnFunctions at hu
        unfold WithSheets at hr
        rw [ht] at hu hr
        refine loop_same _ _ _ _ _ _ hu hr he ?_ hl hdl
        by_cases c : o.basicFormulaLen = 0
        · rw [if_pos c, if_pos c]; exact .cons (same_some rfl rfl) .nil
        · rw [if_neg c, if_neg c]; exact .nil
      unfold NameEval.result
      simp only
      split at hd
      · rename_i z
        obtain ⟨w, hw, hd⟩ := bind_ok hd
        cases hd
        generalize st.stack = stk at hsame
        cases hsame with
        | cons hx hn =>
          cases hn
          exact ⟨_, rfl, (ditem_same hx hw).2⟩
      · cases hd
  · rw [List.getElem?_set_ne hij] at hget
    exact hst j o' e text hj hget hu hr he hd

/-- **C89** (any formula).  When the names of a book have been evaluated, the result of a name has the text that `decompile_formula` makes of its formula,
whenever that makes one (in the R1C1 style if there are relative references).  Missing: references without a sheet (see `C89_relative_lost`), errors and names that refer to
themselves, which set `any_err`, and functions of add-ins and macros (see `C89_macro_lost`). -/
theorem C89_decompiled_partial (env : FEnv) (tbl : NameTbl) (h : bookNames env = .ok tbl) (i : Nat) (o : NameObj) (hi : env.bk.nameObjs[i]? = some o)
    (hm : o.macroFlag = 0) (hb : o.binary = 0) (r1c1 : Bool) (hu : OwnFunctions env r1c1 o.rawFormula o.basicFormulaLen) (text : PyStr)
    (hd : decompile (env.texts r1c1) o.rawFormula o.basicFormulaLen = .ok (some text)) :
    ∃ e, tbl[i]? = some (some e) ∧ ((r1c1 = true ∧ WithSheets env r1c1 o.rawFormula o.basicFormulaLen) ∨ e.anyRel = false → e.anyErr = false →
      ∃ x, e.result = some x ∧ x.text = text) := by
  obtain ⟨ht, hf⟩ := bookNames_inv (texts_kept r1c1) (by
    intro i o e text _ hget
    rw [List.getElem?_map] at hget
    cases hc : env.bk.nameObjs[i]? with
    | none => rw [hc] at hget; cases hget
    | some _ => rw [hc] at hget; cases hget) h
  obtain ⟨e, he⟩ := hf.2 i ⟨o, hi, hm, hb⟩
  exact ⟨e, he, fun hr hx => ht i o e text hi he hu hr hx hd⟩

/-- **C89**.  The text of the result of a name denotes, by the grammar of formulas, exactly the expression that is stored as the formula of the name.
Missing: what `C50_text_partial` and `C89_decompiled_partial` do not have. -/
theorem C89_result_text_partial (env : FEnv) (tab : List Int) (htab : szdict env.bv = .ok tab) (tbl : NameTbl) (h : bookNames env = .ok tbl) (i : Nat) (o : NameObj)
    (hi : env.bk.nameObjs[i]? = some o) (hm : o.macroFlag = 0) (hb : o.binary = 0) (r1c1 : Bool) (s : Stored) (hs : Stored.Ok (env.texts r1c1) tab s)
    (hmis : s.tree ≠ .missing) (hg : s.tree.LeftGrouped) (rest : Bytes) (hraw : o.rawFormula = s.enc env.bv ++ rest)
    (hlen : o.basicFormulaLen = (s.enc env.bv).length) (hu : OwnFunctions env r1c1 o.rawFormula o.basicFormulaLen) :
    ∃ e, tbl[i]? = some (some e) ∧
      ((r1c1 = true ∧ WithSheets env r1c1 o.rawFormula o.basicFormulaLen) ∨ e.anyRel = false → e.anyErr = false →
        ∃ x, e.result = some x ∧ ∀ t, FormulaDenotes x.text t ↔ t = s.tree) := by
  obtain ⟨text, h1, h2⟩ := C50_text_partial (env.texts r1c1) tab htab s hs hmis hg rest
  obtain ⟨e, he, hx⟩ := C89_decompiled_partial env tbl h i o hi hm hb r1c1 hu text (by rw [hraw, hlen]; exact h1)
  refine ⟨e, he, fun hr her => ?_⟩
  obtain ⟨x, hx1, hx2⟩ := hx hr her
  exact ⟨x, hx1, by rw [hx2]; exact h2⟩

/-- **C89** (workbooks).  The same from the records of a workbook (BIFF5 to BIFF8) to the text. -/
theorem C89_workbook_partial (env : BookEnv) (h50 : 50 ≤ env.bv) (pre post eof : Bytes) (he : eof.length < 65536) (items : List GItem)
    (hok : GlobalsOk env.bv items) (sheets : List SheetRec) (hsh : Sheets env.bv (textAt env) items sheets) (names : List NameObj)
    (hn : Names env.bv (textAt env) items names) (b : Book) (p : Int)
    (h : parseGlobals env (pre ++ encGlobals items eof ++ post) newBook (pre.length : Int) = .ok (b, p))
    (fenv : FEnv) (hbv : fenv.bv = env.bv) (hb : SameTables fenv.bk b) (tbl : NameTbl) (ht : bookNames fenv = .ok tbl)
    (tab : List Int) (htab : szdict env.bv = .ok tab) (i : Nat) (o : NameObj) (hi : names[i]? = some o) (hm : o.macroFlag = 0) (hbin : o.binary = 0)
    (r1c1 : Bool) (s : Stored) (hs : Stored.Ok (fenv.texts r1c1) tab s) (hmis : s.tree ≠ .missing) (hg : s.tree.LeftGrouped) (rest : Bytes)
    (hraw : o.rawFormula = s.enc env.bv ++ rest) (hlen : o.basicFormulaLen = (s.enc env.bv).length) (hu : OwnFunctions fenv r1c1 o.rawFormula o.basicFormulaLen) :
    ∃ e, tbl[i]? = some (some e) ∧
      ((r1c1 = true ∧ WithSheets fenv r1c1 o.rawFormula o.basicFormulaLen) ∨ e.anyRel = false → e.anyErr = false →
        ∃ x, e.result = some x ∧ ∀ t, FormulaDenotes x.text t ↔ t = s.tree) := by
  obtain ⟨_, hnames⟩ := C44_names env h50 pre post eof he items hok names hn sheets hsh b p h
  obtain ⟨sc, hsc, _⟩ := hnames i o hi
  rw [← hb.names] at hsc
  exact C89_result_text_partial fenv tab (by rw [hbv]; exact htab) tbl ht i _ hsc hm hbin r1c1 s hs hmis hg rest (by rw [hbv]; exact hraw) (by rw [hbv]; exact hlen) hu

end Xlrd
