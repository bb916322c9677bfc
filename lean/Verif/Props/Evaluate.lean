import Verif.Props.Extern

/-!
# Running token strings (C48, C49)
-/
set_option linter.unusedSimpArgs false

namespace Xlrd
open Spec

/-! ## C48: the operators on the stack -/

/-- **C48** (intersection of absolute references).  The operator takes the two references from the stack and leaves one, with exactly the
common cells. -/
theorem C48_isect_operator (aop bop : Opnd) (a b : RelRef) (stk : List Opnd) (ka : aop.kind = .ref) (kb : bop.kind = .ref)
    (va : aop.value = some (.refs [a])) (vb : bop.value = some (.refs [b])) :
    ∃ o c, doIsect (bop :: aop :: stk) = .ok (o :: stk) ∧ o.kind = .ref ∧ o.value = some (.refs [c]) ∧
      ∀ p, InBox p c.toRef3D ↔ InBox p a.toRef3D ∧ InBox p b.toRef3D := by
  refine ⟨{ kind := .ref, value := some (.refs [{ toRef3D := boxIsect a.toRef3D b.toRef3D }]), rank := 0, text := binText 80 " ".toList aop.rank aop.text bop.rank bop.text },
    { toRef3D := boxIsect a.toRef3D b.toRef3D }, ?_, rfl, rfl, fun p => C48_intersection a.toRef3D b.toRef3D p⟩
  simp [doIsect, boxOp, boxAbs, oneRef, refsOf, ka, kb, va, vb, bind, Except.bind, pure, Except.pure]

/-- **C48** (range of absolute references).  The same for the range operator, which leaves the smallest box with both. -/
theorem C48_range_operator (aop bop : Opnd) (a b : RelRef) (stk : List Opnd) (ka : aop.kind = .ref) (kb : bop.kind = .ref)
    (va : aop.value = some (.refs [a])) (vb : bop.value = some (.refs [b])) (na : BoxNonempty a.toRef3D) (nb : BoxNonempty b.toRef3D) :
    ∃ o c, doRange (bop :: aop :: stk) = .ok (o :: stk) ∧ o.kind = .ref ∧ o.value = some (.refs [c]) ∧
      BoxLe a.toRef3D c.toRef3D ∧ BoxLe b.toRef3D c.toRef3D ∧ ∀ d, BoxLe a.toRef3D d → BoxLe b.toRef3D d → BoxLe c.toRef3D d := by
  refine ⟨{ kind := .ref, value := some (.refs [{ toRef3D := boxRange a.toRef3D b.toRef3D }]), rank := 80, text := binText 80 ":".toList aop.rank aop.text bop.rank bop.text },
    { toRef3D := boxRange a.toRef3D b.toRef3D }, ?_, rfl, rfl, C48_range a.toRef3D b.toRef3D na nb⟩
  simp [doRange, boxOp, boxAbs, oneRef, refsOf, ka, kb, va, vb, bind, Except.bind, pure, Except.pure]

/-- **C48** (relative references).  With relative references the operators work on the offsets if the same coordinates are relative in
both; otherwise the value is unknown. -/
theorem C48_relative_operands (aop bop : Opnd) (a b : RelRef) (stk : List Opnd) (ka : aop.kind = .relref) (kb : bop.kind = .relref)
    (va : aop.value = some (.refs [a])) (vb : bop.value = some (.refs [b])) :
    ∃ o o', doIsect (bop :: aop :: stk) = .ok (o :: stk) ∧ doRange (bop :: aop :: stk) = .ok (o' :: stk) ∧ o.kind = .relref ∧ o'.kind = .relref ∧
      (a.relflags ≠ b.relflags → o.value = none ∧ o'.value = none) ∧
      (a.relflags = b.relflags → ∃ c c', o.value = some (.refs [c]) ∧ o'.value = some (.refs [c']) ∧ c.relflags = a.relflags ∧
        c'.relflags = a.relflags ∧ c.toRef3D = boxIsect a.toRef3D b.toRef3D ∧ c'.toRef3D = boxRange a.toRef3D b.toRef3D) := by
  by_cases hr : a.relflags = b.relflags
  · refine ⟨{ kind := .relref, value := some (.refs [{ toRef3D := boxIsect a.toRef3D b.toRef3D, relflags := a.relflags }]), rank := 0, text := binText 80 " ".toList aop.rank aop.text bop.rank bop.text },
      { kind := .relref, value := some (.refs [{ toRef3D := boxRange a.toRef3D b.toRef3D, relflags := a.relflags }]), rank := 80, text := binText 80 ":".toList aop.rank aop.text bop.rank bop.text },
      ?_, ?_, rfl, rfl, fun h => absurd hr h, fun _ => ⟨_, _, rfl, rfl, rfl, rfl, rfl, rfl⟩⟩
    · simp [doIsect, boxOp, boxRel, oneRef, refsOf, ka, kb, va, vb, hr, bind, Except.bind, pure, Except.pure]
    · simp [doRange, boxOp, boxRel, oneRef, refsOf, ka, kb, va, vb, hr, bind, Except.bind, pure, Except.pure]
  · refine ⟨{ kind := .relref, value := none, rank := 0, text := binText 80 " ".toList aop.rank aop.text bop.rank bop.text },
      { kind := .relref, value := none, rank := 80, text := binText 80 ":".toList aop.rank aop.text bop.rank bop.text },
      ?_, ?_, rfl, rfl, fun _ => ⟨rfl, rfl⟩, fun h => absurd h hr⟩
    · simp [doIsect, boxOp, boxRel, oneRef, refsOf, ka, kb, va, vb, hr, bind, Except.bind, pure, Except.pure]
    · simp [doRange, boxOp, boxRel, oneRef, refsOf, ka, kb, va, vb, hr, bind, Except.bind, pure, Except.pure]

/-- `Sheet1!A1:B2 Sheet1!B2:C3`, and the range of the two. -/
example : boxIsect ⟨0, 1, 0, 2, 0, 2⟩ ⟨0, 1, 1, 3, 1, 3⟩ = ⟨0, 1, 1, 2, 1, 2⟩ ∧ boxRange ⟨0, 1, 0, 2, 0, 2⟩ ⟨0, 1, 1, 3, 1, 3⟩ = ⟨0, 1, 0, 3, 0, 3⟩ := by
  decide
example : BoxNonempty ⟨0, 1, 0, 2, 0, 2⟩ := ⟨(0, 0, 0), by simp [InBox]⟩

/-! ## C49: the loop -/

/-- Every step that succeeds moves on. -/
theorem evStep_moves {env : FEnv} {rc : NameTbl → Nat → Int → R NameTbl} {tab : List Int} {namex : Int} {data : Bytes} {pos : Int} {st : EvSt}
    {r : EvSt × Int} (h : evStep env rc tab namex data pos st = .ok r) : pos < r.2 := by
  unfold evStep at h
  obtain ⟨op, _, h⟩ := bind_ok h
  simp only at h
  by_cases c1 : tab.getD (if op / 32 % 4 = 0 then op % 32 else op % 32 + 32) (-2) = -2
  · rw [if_pos c1] at h; cases h
  · rw [if_neg c1] at h
    by_cases c2 : op / 32 % 4 = 0
    · rw [if_pos c2] at h
      obtain ⟨q, _, h⟩ := bind_ok h
      by_cases c3 : q.2 ≤ 0
      · rw [if_pos c3] at h; cases h
      · rw [if_neg c3] at h; cases h; simp only; omega
    · rw [if_neg c2] at h
      obtain ⟨q, _, h⟩ := bind_ok h
      by_cases c3 : tab.getD (if op / 32 % 4 = 0 then op % 32 else op % 32 + 32) (-2) ≤ 0
      · rw [if_pos c3] at h; cases h
      · rw [if_neg c3] at h; cases h; simp only; omega

theorem dStep_moves {env : DEnv} {tab : List Int} {data : Bytes} {fmlalen : Nat} {pos : Int} {st : List (Option DOpnd)}
    {r : List (Option DOpnd) × Int} (h : dStep env tab data fmlalen pos st = .ok r) : pos < r.2 := by
  unfold dStep at h
  obtain ⟨op, _, h⟩ := bind_ok h
  simp only at h
  by_cases c1 : tab.getD (if op / 32 % 4 = 0 then op % 32 else op % 32 + 32) (-2) = -2
  · rw [if_pos c1] at h; cases h
  · rw [if_neg c1] at h
    by_cases c2 : op / 32 % 4 = 0
    · rw [if_pos c2] at h
      obtain ⟨q, _, h⟩ := bind_ok h
      by_cases c3 : q.2 ≤ 0
      · rw [if_pos c3] at h; cases h
      · rw [if_neg c3] at h; cases h; simp only; omega
    · rw [if_neg c2] at h
      obtain ⟨q, _, h⟩ := bind_ok h
      by_cases c3 : tab.getD (if op / 32 % 4 = 0 then op % 32 else op % 32 + 32) (-2) ≤ 0
      · rw [if_pos c3] at h; cases h
      · rw [if_neg c3] at h; cases h; simp only; omega

theorem evLoop_while (env : FEnv) (rc : NameTbl → Nat → Int → R NameTbl) (tab : List Int) (namex : Int) (data : Bytes) (fmlalen : Nat) :
    ∀ (fuel : Nat) (st : EvSt) (pos : Int), (fmlalen : Int) ≤ pos + fuel →
      ∃ n r, n ≤ fuel ∧ (While (fun s : EvSt × Int => 0 ≤ s.2 ∧ s.2 < fmlalen) (fun s => evStep env rc tab namex data s.2 s.1) n (st, pos) r) ∧
        r.map Prod.fst = evLoop env rc tab namex data fmlalen fuel st pos := by
  intro fuel
  induction fuel with
  | zero =>
    intro st pos hf
    refine ⟨0, .ok (st, pos), Nat.le_refl _, .stop (by simp only; omega), ?_⟩
    simp only [evLoop]
    rw [if_neg (by omega)]
    rfl
  | succ fuel ih =>
    intro st pos hf
    simp only [evLoop]
    by_cases hc : 0 ≤ pos ∧ pos < fmlalen
    · rw [if_pos hc]
      cases hs : evStep env rc tab namex data pos st with
      | error e => exact ⟨1, .error e, by omega, .fail hc hs, rfl⟩
      | ok r =>
        have hm := evStep_moves hs
        obtain ⟨n, r', hn, hw, hr⟩ := ih r.1 r.2 (by omega)
        exact ⟨n + 1, r', by omega, .next hc hs hw, hr⟩
    · rw [if_neg hc]
      exact ⟨0, .ok (st, pos), by omega, .stop hc, rfl⟩

theorem dLoop_while (env : DEnv) (tab : List Int) (data : Bytes) (fmlalen : Nat) :
    ∀ (fuel : Nat) (st : List (Option DOpnd)) (pos : Int), (fmlalen : Int) ≤ pos + fuel →
      ∃ n r, n ≤ fuel ∧ (While (fun s : List (Option DOpnd) × Int => 0 ≤ s.2 ∧ s.2 < fmlalen) (fun s => dStep env tab data fmlalen s.2 s.1) n (st, pos) r) ∧
        r.map Prod.fst = dLoop env tab data fmlalen fuel st pos := by
  intro fuel
  induction fuel with
  | zero =>
    intro st pos hf
    refine ⟨0, .ok (st, pos), Nat.le_refl _, .stop (by simp only; omega), ?_⟩
    simp only [dLoop]
    rw [if_neg (by omega)]
    rfl
  | succ fuel ih =>
    intro st pos hf
    simp only [dLoop]
    by_cases hc : 0 ≤ pos ∧ pos < fmlalen
    · rw [if_pos hc]
      cases hs : dStep env tab data fmlalen pos st with
      | error e => exact ⟨1, .error e, by omega, .fail hc hs, rfl⟩
      | ok r =>
        have hm := dStep_moves hs
        obtain ⟨n, r', hn, hw, hr⟩ := ih r.1 r.2 (by omega)
        exact ⟨n + 1, r', by omega, .next hc hs hw, hr⟩
    · rw [if_neg hc]
      exact ⟨0, .ok (st, pos), by omega, .stop hc, rfl⟩

/-- **C49** (termination of evaluation).  Whatever the token string, however nested names are evaluated, and whatever is on the stack, the
loop over the tokens ends, with a result or an exception, after at most as many rounds as the formula has bytes. -/
theorem C49_evaluation_ends (env : FEnv) (rc : NameTbl → Nat → Int → R NameTbl) (tab : List Int) (namex : Int) (data : Bytes) (fmlalen : Nat)
    (st : EvSt) :
    ∃ n r, n ≤ fmlalen ∧ While (fun s : EvSt × Int => 0 ≤ s.2 ∧ s.2 < fmlalen) (fun s => evStep env rc tab namex data s.2 s.1) n (st, 0) r ∧
      r.map Prod.fst = evLoop env rc tab namex data fmlalen fmlalen st 0 :=
  evLoop_while env rc tab namex data fmlalen fmlalen st 0 (by omega)

/-- **C49** (termination of decompilation). -/
theorem C49_decompilation_ends (env : DEnv) (tab : List Int) (data : Bytes) (fmlalen : Nat) (st : List (Option DOpnd)) :
    ∃ n r, n ≤ fmlalen ∧
      While (fun s : List (Option DOpnd) × Int => 0 ≤ s.2 ∧ s.2 < fmlalen) (fun s => dStep env tab data fmlalen s.2 s.1) n (st, 0) r ∧
      r.map Prod.fst = dLoop env tab data fmlalen fmlalen st 0 :=
  dLoop_while env tab data fmlalen fmlalen st 0 (by omega)

/-! ## C49: the depth of nested names -/

/-- **C49** (depth).  Evaluating a name from which a chain of `n` references to names that have not been evaluated starts is given up
with XLRDError if `n` levels are too many, and in particular for names that refer to themselves, directly or not.  The evaluation of the names
of a workbook starts with 11 levels. -/
theorem C49_deep_names (env : FEnv) (hv : env.bv = 50 ∨ env.bv = 70 ∨ env.bv = 80) (tbl : NameTbl)
    (ht : ∀ j : Nat, j < env.bk.nameObjs.length → tbl[j]? = some none) :
    ∀ (k n i : Nat) (namex : Int), k ≤ n → RefChain env.bk.nameObjs n i → evaluateName env k tbl i namex = .error .xlrd := by
  intro k
  induction k with
  | zero => intros; rfl
  | succ k ih =>
    intro n i namex hk hc
    cases hc with
    | zero => omega
    | @succ n _ j o c rest ho hc hj hf hl hn hlt =>
      have hrec := ih n j (((j + 1 : Nat) : Int) - 1) (by omega) hn
      simp only [evaluateName, evBody, ho]
      have hname : nameRef env (evaluateName env k) { stack := if o.basicFormulaLen = 0 then [{}] else [], tbl := tbl } (((j + 1 : Nat) : Int) - 1) =
          .error .xlrd := by
        have ej : ((j + 1 : Nat) : Int) - 1 = (j : Int) := by push_cast; ring
        unfold nameRef
        have e1 : pyPos env.bk.nameObjs (((j + 1 : Nat) : Int) - 1) = j := by
          rw [ej]; unfold pyPos; rw [if_neg (by omega)]; rfl
        have e2 : idx env.bk.nameObjs (((j + 1 : Nat) : Int) - 1) = .ok (env.bk.nameObjs[j]'hlt) := by
          rw [ej]; exact (idx_ok_nat _ _ _).mpr (List.getElem?_eq_getElem hlt)
        rw [e2, e1]
        simp only [bind, Except.bind, evaluated, ht j hlt, hrec]
      have hstep : ∀ tab : List Int, tab.getD 0x23 (-2) ≠ -2 →
          evStep env (evaluateName env k) tab namex o.rawFormula 0 { stack := if o.basicFormulaLen = 0 then [{}] else [], tbl := tbl } = .error .xlrd := by
        intro tab htab
        unfold evStep
        have hb : byteAt o.rawFormula 0 = .ok c.toNat := by
          rw [hf]
          simp [byteAt, idx, bind, Except.bind, pure, Except.pure]
        have hu : unpackH (slice o.rawFormula ((0 : Int) + 1) ((0 : Int) + 3)) = .ok (j + 1) := by
          have := unpackH_at (data := o.rawFormula) (p := 1) (r := rest) hj (by rw [hf]; rfl)
          exact this
        have hop : c.toNat % 32 = 3 ∧ c.toNat / 32 % 4 ≠ 0 := by
          rcases hc with rfl | rfl | rfl <;> decide
        rw [hb]
        simp only [bind, Except.bind]
        rw [if_neg hop.2, hop.1, if_neg htab, if_neg hop.2]
        simp only [evClass]
        norm_num
        simp only [bind, Except.bind]
        rw [show slice o.rawFormula 1 3 = slice o.rawFormula ((0 : Int) + 1) ((0 : Int) + 3) by norm_num, hu]
        simp only
        rw [hname]
      have hloop : ∀ tab : List Int, tab.getD 0x23 (-2) ≠ -2 →
          evLoop env (evaluateName env k) tab namex o.rawFormula o.basicFormulaLen o.basicFormulaLen
            { stack := if o.basicFormulaLen = 0 then [{}] else [], tbl := tbl } 0 = .error .xlrd := by
        intro tab htab
        obtain ⟨m, hm⟩ : ∃ m, o.basicFormulaLen = m + 1 := ⟨o.basicFormulaLen - 1, by omega⟩
        conv_lhs => arg 7; rw [hm]
        simp only [evLoop]
        rw [if_pos (by omega), hstep tab htab]
        rfl
      have htab : ∃ tab, szdict env.bv = .ok tab ∧ tab.getD 0x23 (-2) ≠ -2 := by
        rcases hv with hv | hv | hv <;> rw [hv]
        · exact ⟨sztab3, rfl, by decide⟩
        · exact ⟨sztab3, rfl, by decide⟩
        · exact ⟨sztab4, rfl, by decide⟩
      obtain ⟨tab, h1, h2⟩ := htab
      rw [h1]
      simp only [bind, Except.bind]
      rw [hloop _ h2]

/-- A name that refers to itself. -/
theorem selfChain (o : NameObj) (rest : Bytes) (hf : o.rawFormula = 0x23 :: le16 1 ++ rest) (hl : 0 < o.basicFormulaLen) (names : List NameObj) :
    ∀ n, RefChain (o :: names) n 0
  | 0 => .zero 0
  | n + 1 => .succ (j := 0) rfl (Or.inl rfl) (by omega) hf hl (selfChain o rest hf hl names n) (by simp)

/-- **C49** (self-reference).  A workbook whose first defined name is not a macro and refers to itself cannot be opened: XLRDError. -/
theorem C49_self_reference (env : FEnv) (hv : env.bv = 50 ∨ env.bv = 70 ∨ env.bv = 80) (o : NameObj) (names : List NameObj) (rest : Bytes)
    (hb : env.bk.nameObjs = o :: names) (hf : o.rawFormula = 0x23 :: le16 1 ++ rest) (hl : 0 < o.basicFormulaLen) (hm : o.macroFlag = 0)
    (hbin : o.binary = 0) : bookNames env = .error .xlrd := by
  unfold bookNames
  rw [hb]
  simp only [List.map_cons, evaluateNames]
  have := C49_deep_names env hv (env.bk.nameObjs.map fun _ => none) (by
    intro j hj
    rw [List.getElem?_map, List.getElem?_eq_getElem hj]
    rfl) 11 11 0 0 (Nat.le_refl _) (by rw [hb]; exact selfChain o rest hf hl names 11)
  rw [hb] at this
  simp only [List.map_cons] at this
  unfold evalTop evaluated
  rw [if_neg (by simp [hm, hbin])]
  simp only [List.getElem?_cons_zero, bind, Except.bind]
  rw [show ((0 : Nat) : Int) = 0 from rfl, this]

/-! ## C49: the stack -/

/-- The token at `pos` is a call of a function with a variable number of arguments, with none. -/
def NullaryCall (bv : Nat) (data : Bytes) (pos : Int) : Prop :=
  ∃ op f, byteAt data pos = .ok op ∧ op % 32 = 2 ∧ op / 32 % 4 ≠ 0 ∧ funcVarFields bv data pos = .ok (0, f)

theorem doBinop_frame {ops : PyOps} {opcode : Nat} {s s' : List Opnd} (B : List Opnd) (h : doBinop ops opcode s = .ok s') :
    doBinop ops opcode (s ++ B) = .ok (s' ++ B) := by
  match s, h with
  | b :: a :: stk, h =>
    simp only [doBinop, List.cons_append] at h ⊢
    obtain ⟨r, h1, h⟩ := bind_ok h
    obtain ⟨v, h2, h⟩ := bind_ok h
    cases h
    simp only [h1, h2, bind, Except.bind]
    rfl

theorem doUnaryop_frame {ops : PyOps} {opcode : Nat} {s s' : List Opnd} (B : List Opnd) (h : doUnaryop ops opcode s = .ok s') :
    doUnaryop ops opcode (s ++ B) = .ok (s' ++ B) := by
  match s, h with
  | a :: stk, h =>
    simp only [doUnaryop, List.cons_append] at h ⊢
    obtain ⟨r, h1, h⟩ := bind_ok h
    obtain ⟨v, h2, h⟩ := bind_ok h
    cases h
    simp only [h1, h2, bind, Except.bind]
    rfl

theorem doIsect_frame {s s' : List Opnd} (B : List Opnd) (h : doIsect s = .ok s') : doIsect (s ++ B) = .ok (s' ++ B) := by
  match s, h with
  | b :: a :: stk, h =>
    simp only [doIsect, List.cons_append] at h ⊢
    obtain ⟨r, h1, h⟩ := bind_ok h
    cases h
    simp only [h1, bind, Except.bind]
    rfl

theorem doRange_frame {s s' : List Opnd} (B : List Opnd) (h : doRange s = .ok s') : doRange (s ++ B) = .ok (s' ++ B) := by
  match s, h with
  | b :: a :: stk, h =>
    simp only [doRange, List.cons_append] at h ⊢
    obtain ⟨r, h1, h⟩ := bind_ok h
    cases h
    simp only [h1, bind, Except.bind]
    rfl

theorem doList_frame {s s' : List Opnd} (B : List Opnd) (h : doList s = .ok s') : doList (s ++ B) = .ok (s' ++ B) := by
  match s, h with
  | b :: a :: stk, h =>
    simp only [doList, List.cons_append] at h ⊢
    obtain ⟨r, h1, h⟩ := bind_ok h
    cases h
    simp only [h1, bind, Except.bind]
    rfl

theorem attrTok_frame {data : Bytes} {pos : Int} {s : List Opnd} {r : List Opnd × Int} (B : List Opnd) (h : attrTok data pos s = .ok r) :
    attrTok data pos (s ++ B) = .ok (r.1 ++ B, r.2) := by
  unfold attrTok at h ⊢
  obtain ⟨f, h1, h⟩ := bind_ok h
  simp only [h1, bind, Except.bind]
  simp only at h
  by_cases c1 : f.1 = 0x04
  · rw [if_pos c1] at h ⊢; cases h; rfl
  · rw [if_neg c1] at h ⊢
    by_cases c2 : f.1 = 0x10
    · rw [if_pos c2] at h ⊢
      match s, h with
      | a :: stk, h => cases h; rfl
    · rw [if_neg c2] at h ⊢; cases h; rfl

theorem evPlain_frame {env : FEnv} {data : Bytes} {pos : Int} {opcode : Nat} {sz : Int} {s : List Opnd} {r : List Opnd × Int} (B : List Opnd)
    (h : evPlain env data pos opcode sz s = .ok r) : evPlain env data pos opcode sz (s ++ B) = .ok (r.1 ++ B, r.2) := by
  unfold evPlain at h ⊢
  by_cases c : opcode ≤ 0x02
  · rw [if_pos c] at h; cases h
  rw [if_neg c] at h ⊢
  clear c
  by_cases c : opcode ≤ 0x0E
  · rw [if_pos c] at h ⊢
    obtain ⟨q, h1, h⟩ := bind_ok h
    cases h
    rw [doBinop_frame B h1]
    rfl
  rw [if_neg c] at h ⊢
  clear c
  by_cases c : opcode = 0x0F
  · rw [if_pos c] at h ⊢
    obtain ⟨q, h1, h⟩ := bind_ok h
    cases h
    rw [doIsect_frame B h1]
    rfl
  rw [if_neg c] at h ⊢
  clear c
  by_cases c : opcode = 0x10
  · rw [if_pos c] at h ⊢
    obtain ⟨q, h1, h⟩ := bind_ok h
    cases h
    rw [doList_frame B h1]
    rfl
  rw [if_neg c] at h ⊢
  clear c
  by_cases c : opcode = 0x11
  · rw [if_pos c] at h ⊢
    obtain ⟨q, h1, h⟩ := bind_ok h
    cases h
    rw [doRange_frame B h1]
    rfl
  rw [if_neg c] at h ⊢
  clear c
  by_cases c : opcode ≤ 0x14
  · rw [if_pos c] at h ⊢
    obtain ⟨q, h1, h⟩ := bind_ok h
    cases h
    rw [doUnaryop_frame B h1]
    rfl
  rw [if_neg c] at h ⊢
  clear c
  by_cases c : opcode = 0x15
  · rw [if_pos c] at h ⊢; cases h; rfl
  rw [if_neg c] at h ⊢
  clear c
  by_cases c : opcode = 0x16
  · rw [if_pos c] at h ⊢; cases h; rfl
  rw [if_neg c] at h ⊢
  clear c
  by_cases c : opcode = 0x17
  · rw [if_pos c] at h ⊢
    obtain ⟨q, h1, h⟩ := bind_ok h
    cases h
    rw [h1]
    rfl
  rw [if_neg c] at h ⊢
  clear c
  by_cases c : opcode = 0x18
  · rw [if_pos c] at h
    obtain ⟨q, h1, h⟩ := bind_ok h
    cases h
  rw [if_neg c] at h ⊢
  clear c
  by_cases c : opcode = 0x19
  · rw [if_pos c] at h ⊢
    exact attrTok_frame B h
  rw [if_neg c] at h ⊢
  clear c
  by_cases c : opcode ≤ 0x1B
  · rw [if_pos c] at h
    obtain ⟨q, h1, h⟩ := bind_ok h
    cases h
  rw [if_neg c] at h ⊢
  obtain ⟨q, h1, h⟩ := bind_ok h
  cases h
  rw [h1]
  rfl

theorem funcTok_frame {bv : Nat} {data : Bytes} {pos : Int} {s s' : List Opnd} (B : List Opnd) (h : funcTok bv data pos s = .ok s') :
    funcTok bv data pos (s ++ B) = .ok (s' ++ B) := by
  unfold funcTok at h ⊢
  obtain ⟨f, h1, h⟩ := bind_ok h
  simp only [h1, bind, Except.bind]
  cases hf : funcDef f with
  | none => rw [hf] at h; cases h; rfl
  | some d =>
    rw [hf] at h
    simp only at h ⊢
    obtain ⟨_, h2, h⟩ := bind_ok h
    have hl : s.length ≥ d.2.1 := by
      by_contra hc
      rw [show decide (s.length ≥ d.2.1) = false from decide_eq_false hc] at h2
      cases h2
    rw [show decide ((s ++ B).length ≥ d.2.1) = true from decide_eq_true (by rw [List.length_append]; omega)]
    simp only [pyAssert]
    by_cases c : d.2.1 = 0
    · rw [if_pos c] at h ⊢; cases h; rfl
    · rw [if_neg c] at h ⊢
      cases h
      rw [List.take_append_of_le_length hl, List.drop_append_of_le_length hl]
      rfl

theorem stackAt_frame {s : List Opnd} {k : Nat} {o : Opnd} (B : List Opnd) (h : stackAt s k = .ok o) : stackAt (s ++ B) k = .ok o := by
  unfold stackAt at h ⊢
  cases hs : s[k - 1]? with
  | none => rw [hs] at h; cases h
  | some x =>
    rw [hs] at h
    have := (List.getElem?_eq_some_iff.mp hs).1
    rw [List.getElem?_append_left this, hs]
    exact h

theorem evalIf_frame {n : Nat} {s : List Opnd} {o r : Opnd} (B : List Opnd) (h : evalIf n s o = .ok r) : evalIf n (s ++ B) o = .ok r := by
  unfold evalIf at h ⊢
  obtain ⟨t, h1, h⟩ := bind_ok h
  rw [stackAt_frame B h1]
  simp only [bind, Except.bind]
  by_cases c : ¬ (t.kind = .num ∨ t.kind = .bool)
  · rw [if_pos c] at h ⊢; exact h
  · rw [if_neg c] at h ⊢
    cases hz : zeroOne t.value with
    | none => rw [hz] at h; exact h
    | some z =>
      rw [hz] at h
      simp only at h ⊢
      by_cases c2 : n = 2 ∧ ¬ z = true
      · rw [if_pos c2] at h ⊢; exact h
      · rw [if_neg c2] at h ⊢
        obtain ⟨q, h2, h⟩ := bind_ok h
        rw [stackAt_frame B h2]
        exact h

theorem evalChoose_frame {n : Nat} {s : List Opnd} {o r : Opnd} (B : List Opnd) (h : evalChoose n s o = .ok r) :
    evalChoose n (s ++ B) o = .ok r := by
  unfold evalChoose at h ⊢
  obtain ⟨t, h1, h⟩ := bind_ok h
  rw [stackAt_frame B h1]
  simp only [bind, Except.bind]
  by_cases c : t.kind = .num
  · rw [if_pos c] at h ⊢
    obtain ⟨i, h2, h⟩ := bind_ok h
    rw [h2]
    cases i with
    | none => exact h
    | some i =>
      simp only at h ⊢
      obtain ⟨q, h3, h⟩ := bind_ok h
      rw [stackAt_frame B h3]
      exact h
  · rw [if_neg c] at h ⊢; exact h

theorem varResult_frame {f n : Nat} {s : List Opnd} {o r : Opnd} (B : List Opnd) (h : varResult f n s o = .ok r) :
    varResult f n (s ++ B) o = .ok r := by
  unfold varResult at h ⊢
  by_cases c1 : f = 1
  · rw [if_pos c1] at h ⊢; exact evalIf_frame B h
  · rw [if_neg c1] at h ⊢
    by_cases c2 : f = 100
    · rw [if_pos c2] at h ⊢; exact evalChoose_frame B h
    · rw [if_neg c2] at h ⊢; exact h

theorem funcVarTok_frame {bv : Nat} {data : Bytes} {pos : Int} {s s' : List Opnd} (B : List Opnd) (hn : ∀ f, funcVarFields bv data pos ≠ .ok (0, f))
    (h : funcVarTok bv data pos s = .ok s') : funcVarTok bv data pos (s ++ B) = .ok (s' ++ B) := by
  unfold funcVarTok at h ⊢
  obtain ⟨f, h1, h⟩ := bind_ok h
  simp only [h1, bind, Except.bind]
  have h0 : f.1 ≠ 0 := by
    intro hz
    refine hn f.2 ?_
    rw [h1, ← hz]
  simp only at h
  cases hf : funcDef f.2 with
  | none => rw [hf] at h; cases h; rfl
  | some d =>
    rw [hf] at h
    simp only at h ⊢
    obtain ⟨_, h2, h⟩ := bind_ok h
    obtain ⟨_, h3, h⟩ := bind_ok h
    rw [h2]
    have hl : s.length ≥ f.1 := by
      by_contra hc
      rw [show decide (s.length ≥ f.1) = false from decide_eq_false hc] at h3
      cases h3
    rw [show decide ((s ++ B).length ≥ f.1) = true from decide_eq_true (by rw [List.length_append]; omega)]
    simp only [pyAssert]
    unfold topArgs dropArgs at h ⊢
    rw [if_neg h0] at h ⊢
    rw [if_neg h0] at h ⊢
    rw [List.take_append_of_le_length hl, List.drop_append_of_le_length hl]
    obtain ⟨r, h4, h⟩ := bind_ok h
    cases h
    rw [varResult_frame B h4]
    rfl

/-- A state with more operands under those of the stack. -/
def EvSt.over (st : EvSt) (B : List Opnd) : EvSt := { st with stack := st.stack ++ B }

theorem useName_frame {env : FEnv} {o : NameObj} {e : NameEval} {st st' : EvSt} (B : List Opnd) (h : useName env o e st = .ok st') :
    useName env o e (st.over B) = .ok (st'.over B) := by
  unfold useName at h ⊢
  by_cases c : o.macroFlag ≠ 0 ∨ o.binary ≠ 0 ∨ e.anyErr = true
  · rw [if_pos c] at h ⊢
    obtain ⟨t, h3, h⟩ := bind_ok h
    cases h
    rw [h3]
    rfl
  · rw [if_neg c] at h ⊢
    match he : e.stack, h with
    | [r], h =>
      simp only [he] at h
      obtain ⟨t, h3, h⟩ := bind_ok h
      cases h
      simp only [he, h3, bind, Except.bind]
      rfl
    | [], h => simp only [he] at h; cases h
    | _ :: _ :: _, h => simp only [he] at h; cases h

theorem nameRef_frame {env : FEnv} {rc : NameTbl → Nat → Int → R NameTbl} {st st' : EvSt} {tgt : Int} (B : List Opnd)
    (h : nameRef env rc st tgt = .ok st') : nameRef env rc (st.over B) tgt = .ok (st'.over B) := by
  unfold nameRef at h ⊢
  obtain ⟨o, h1, h⟩ := bind_ok h
  obtain ⟨tbl, h2, h⟩ := bind_ok h
  have e : evaluated rc (st.over B).tbl (pyPos env.bk.nameObjs tgt) tgt = .ok tbl := h2
  simp only [h1, e, bind, Except.bind]
  cases ht : tbl[pyPos env.bk.nameObjs tgt]? with
  | none => simp only [ht] at h; cases h
  | some x =>
    cases x with
    | none => simp only [ht] at h; cases h
    | some e => simp only [ht] at h; exact useName_frame B h

theorem evClass_frame {env : FEnv} {rc : NameTbl → Nat → Int → R NameTbl} {namex : Int} {data : Bytes} {pos : Int} {opcode optype : Nat}
    {st st' : EvSt} (B : List Opnd) (hn : opcode = 2 → ∀ f, funcVarFields env.bv data pos ≠ .ok (0, f))
    (h : evClass env rc namex data pos opcode optype st = .ok st') :
    evClass env rc namex data pos opcode optype (st.over B) = .ok (st'.over B) := by
  unfold evClass at h ⊢
  by_cases c : opcode = 0x00
  · rw [if_pos c] at h ⊢; cases h; rfl
  rw [if_neg c] at h ⊢
  clear c
  by_cases c : opcode = 0x01
  · rw [if_pos c] at h ⊢
    obtain ⟨q, h1, h⟩ := bind_ok h
    cases h
    simp only [EvSt.over]
    rw [funcTok_frame B h1]
    rfl
  rw [if_neg c] at h ⊢
  clear c
  by_cases c : opcode = 0x02
  · rw [if_pos c] at h ⊢
    obtain ⟨q, h1, h⟩ := bind_ok h
    cases h
    simp only [EvSt.over]
    rw [funcVarTok_frame B (hn c) h1]
    rfl
  rw [if_neg c] at h ⊢
  clear c
  by_cases c : opcode = 0x03
  · rw [if_pos c] at h ⊢
    obtain ⟨q, h1, h⟩ := bind_ok h
    rw [h1]
    exact nameRef_frame B h
  rw [if_neg c] at h ⊢
  clear c
  by_cases c : opcode = 0x04
  · rw [if_pos c] at h ⊢
    unfold evRef at h ⊢
    obtain ⟨q, h1, h⟩ := bind_ok h
    cases h
    rw [h1]
    rfl
  rw [if_neg c] at h ⊢
  clear c
  by_cases c : opcode = 0x05
  · rw [if_pos c] at h ⊢
    unfold evArea at h ⊢
    obtain ⟨q, h1, h⟩ := bind_ok h
    cases h
    rw [h1]
    rfl
  rw [if_neg c] at h ⊢
  clear c
  by_cases c : opcode = 0x06 ∨ opcode = 0x0C ∨ opcode = 0x0D
  · rw [if_pos c] at h; cases h
  rw [if_neg c] at h ⊢
  clear c
  by_cases c : opcode = 0x09
  · rw [if_pos c] at h ⊢
    obtain ⟨q, h1, h⟩ := bind_ok h
    cases h
    rw [h1]
    rfl
  rw [if_neg c] at h ⊢
  clear c
  by_cases c : opcode = 0x1A
  · rw [if_pos c] at h ⊢
    unfold evRef3d at h ⊢
    obtain ⟨q, h1, h⟩ := bind_ok h
    obtain ⟨q2, h2, h⟩ := bind_ok h
    obtain ⟨q3, h3, h⟩ := bind_ok h
    cases h
    simp only [h1, h2, h3, bind, Except.bind]
    rfl
  rw [if_neg c] at h ⊢
  clear c
  by_cases c : opcode = 0x1B
  · rw [if_pos c] at h ⊢
    unfold evArea3d at h ⊢
    obtain ⟨q, h1, h⟩ := bind_ok h
    obtain ⟨q2, h2, h⟩ := bind_ok h
    obtain ⟨q3, h3, h⟩ := bind_ok h
    cases h
    simp only [h1, h2, h3, bind, Except.bind]
    rfl
  rw [if_neg c] at h ⊢
  clear c
  by_cases c : opcode = 0x19
  · rw [if_pos c] at h ⊢
    unfold evNameX at h ⊢
    obtain ⟨q, h1, h⟩ := bind_ok h
    simp only [h1, bind, Except.bind]
    simp only at h
    have e : (if q.2.2.1 = namex then { st.over B with anyErr := true } else st.over B) =
        (if q.2.2.1 = namex then { st with anyErr := true } else st).over B := by
      by_cases c2 : q.2.2.1 = namex
      · rw [if_pos c2, if_pos c2]; rfl
      · rw [if_neg c2, if_neg c2]
    rw [e]
    generalize (if q.2.2.1 = namex then { st with anyErr := true } else st) = st1 at h
    by_cases c2 : (q.2.2.2 || decide (q.2.2.1 = namex)) = true
    · rw [if_pos c2] at h ⊢; cases h; rfl
    · rw [if_neg c2] at h ⊢
      obtain ⟨s, h2, h⟩ := bind_ok h
      rw [h2]
      simp only
      by_cases c3 : s.1 < -1
      · rw [if_pos c3] at h ⊢; cases h; rfl
      · rw [if_neg c3] at h ⊢
        exact nameRef_frame B h
  rw [if_neg c] at h ⊢
  clear c
  by_cases c : opcode ∈ errorOpcodes
  · rw [if_pos c] at h ⊢; cases h; rfl
  · rw [if_neg c] at h ⊢; cases h; rfl

theorem evStep_frame {env : FEnv} {rc : NameTbl → Nat → Int → R NameTbl} {tab : List Int} {namex : Int} {data : Bytes} {pos : Int} {st : EvSt}
    {r : EvSt × Int} (B : List Opnd) (hn : ¬ NullaryCall env.bv data pos) (h : evStep env rc tab namex data pos st = .ok r) :
    evStep env rc tab namex data pos (st.over B) = .ok (r.1.over B, r.2) := by
  unfold evStep at h ⊢
  obtain ⟨op, h1, h⟩ := bind_ok h
  simp only [h1, bind, Except.bind]
  simp only at h
  by_cases c1 : tab.getD (if op / 32 % 4 = 0 then op % 32 else op % 32 + 32) (-2) = -2
  · rw [if_pos c1] at h; cases h
  · rw [if_neg c1] at h ⊢
    by_cases c2 : op / 32 % 4 = 0
    · rw [if_pos c2, if_pos c2] at h
      simp only [if_pos c2]
      obtain ⟨q, h2, h⟩ := bind_ok h
      have := evPlain_frame B h2
      simp only [EvSt.over]
      rw [this]
      simp only at h ⊢
      by_cases c3 : q.2 ≤ 0
      · rw [if_pos c3] at h; cases h
      · rw [if_neg c3] at h ⊢; cases h; rfl
    · rw [if_neg c2, if_neg c2] at h
      simp only [if_neg c2]
      obtain ⟨q, h2, h⟩ := bind_ok h
      rw [evClass_frame B (fun h0 f hf => hn ⟨op, f, h1, h0, c2, hf⟩) h2]
      simp only
      by_cases c3 : tab.getD (op % 32 + 32) (-2) ≤ 0
      · rw [if_pos c3] at h; cases h
      · rw [if_neg c3] at h ⊢; cases h; rfl

/-- **C49** (operands, evaluation).  A token that can be evaluated with the operands on the stack finds all it needs there: whatever lies below
them is neither read nor changed, and the outcome is the same.  Not so for a call of a function with a variable number of arguments
that has none. -/
theorem C49_evaluation_operands_partial (env : FEnv) (rc : NameTbl → Nat → Int → R NameTbl) (tab : List Int) (namex : Int) (data : Bytes)
    (pos pos' : Int) (st st' : EvSt) (B : List Opnd) (hn : ¬ NullaryCall env.bv data pos)
    (h : evStep env rc tab namex data pos st = .ok (st', pos')) :
    evStep env rc tab namex data pos { st with stack := st.stack ++ B } = .ok ({ st' with stack := st'.stack ++ B }, pos') :=
  evStep_frame B hn h

theorem mapM_ok_append {α β : Type} (f : α → R β) (l : List α) : ∀ r, l.mapM f = .ok r → r.length = l.length := by
  induction l with
  | nil => intro r h; cases h; rfl
  | cons a l ih =>
    intro r h
    rw [List.mapM_cons] at h
    obtain ⟨b, h1, h⟩ := bind_ok h
    obtain ⟨bs, h2, h⟩ := bind_ok h
    cases h
    simp [ih _ h2]

theorem dPlain_frame {env : DEnv} {data : Bytes} {fmlalen : Nat} {pos : Int} {opcode : Nat} {sz : Int} {s : List (Option DOpnd)}
    {r : List (Option DOpnd) × Int} (B : List (Option DOpnd)) (h1 : ¬ opcode ≤ 1) (h : dPlain env data fmlalen pos opcode sz s = .ok r) :
    dPlain env data fmlalen pos opcode sz (s ++ B) = .ok (r.1 ++ B, r.2) := by
  unfold dPlain at h ⊢
  rw [if_neg h1] at h ⊢
  by_cases c : opcode = 0x02
  · rw [if_pos c] at h; cases h
  rw [if_neg c] at h ⊢
  clear c
  by_cases c : opcode ≤ 0x0E
  · rw [if_pos c] at h ⊢
    obtain ⟨q, h2, h⟩ := bind_ok h
    cases h
    match s, h2 with
    | b :: a :: stk, h2 =>
      simp only [dBinop, List.cons_append] at h2 ⊢
      obtain ⟨r, e1, h2⟩ := bind_ok h2
      obtain ⟨r2, e2, h2⟩ := bind_ok h2
      obtain ⟨r3, e3, h2⟩ := bind_ok h2
      cases h2
      simp only [e1, e2, e3, bind, Except.bind]
      rfl
  rw [if_neg c] at h ⊢
  clear c
  by_cases c : opcode = 0x0F
  · rw [if_pos c] at h ⊢
    obtain ⟨q, h2, h⟩ := bind_ok h
    cases h
    match s, h2 with
    | b :: a :: stk, h2 =>
      simp only [dIsect, List.cons_append] at h2 ⊢
      obtain ⟨r2, e2, h2⟩ := bind_ok h2
      obtain ⟨r3, e3, h2⟩ := bind_ok h2
      cases h2
      simp only [e2, e3, bind, Except.bind]
      rfl
  rw [if_neg c] at h ⊢
  clear c
  by_cases c : opcode = 0x10
  · rw [if_pos c] at h ⊢
    obtain ⟨q, h2, h⟩ := bind_ok h
    cases h
    match s, h2 with
    | b :: a :: stk, h2 =>
      simp only [dList, List.cons_append] at h2 ⊢
      obtain ⟨r2, e2, h2⟩ := bind_ok h2
      obtain ⟨r3, e3, h2⟩ := bind_ok h2
      cases h2
      simp only [e2, e3, bind, Except.bind]
      rfl
  rw [if_neg c] at h ⊢
  clear c
  by_cases c : opcode = 0x11
  · rw [if_pos c] at h ⊢
    obtain ⟨q, h2, h⟩ := bind_ok h
    cases h
    match s, h2 with
    | b :: a :: stk, h2 =>
      simp only [dRange, List.cons_append] at h2 ⊢
      obtain ⟨r2, e2, h2⟩ := bind_ok h2
      obtain ⟨r3, e3, h2⟩ := bind_ok h2
      cases h2
      simp only [e2, e3, bind, Except.bind]
      rfl
  rw [if_neg c] at h ⊢
  clear c
  by_cases c : opcode ≤ 0x14
  · rw [if_pos c] at h ⊢
    obtain ⟨q, h2, h⟩ := bind_ok h
    cases h
    match s, h2 with
    | a :: stk, h2 =>
      simp only [dUnaryop, List.cons_append] at h2 ⊢
      obtain ⟨r2, e2, h2⟩ := bind_ok h2
      obtain ⟨r3, e3, h2⟩ := bind_ok h2
      cases h2
      simp only [e2, e3, bind, Except.bind]
      rfl
  rw [if_neg c] at h ⊢
  clear c
  by_cases c : opcode = 0x15
  · rw [if_pos c] at h ⊢; cases h; rfl
  rw [if_neg c] at h ⊢
  clear c
  by_cases c : opcode = 0x16
  · rw [if_pos c] at h ⊢; cases h; rfl
  rw [if_neg c] at h ⊢
  clear c
  by_cases c : opcode = 0x17
  · rw [if_pos c] at h ⊢
    obtain ⟨q, h1, h⟩ := bind_ok h
    cases h
    rw [h1]
    rfl
  rw [if_neg c] at h ⊢
  clear c
  by_cases c : opcode = 0x18
  · rw [if_pos c] at h
    obtain ⟨q, h1, h⟩ := bind_ok h
    cases h
  rw [if_neg c] at h ⊢
  clear c
  by_cases c : opcode = 0x19
  · rw [if_pos c] at h ⊢
    unfold dAttr at h ⊢
    obtain ⟨f, e1, h⟩ := bind_ok h
    simp only [e1, bind, Except.bind]
    simp only at h
    by_cases c1 : f.1 = 0x04
    · rw [if_pos c1] at h ⊢; cases h; rfl
    · rw [if_neg c1] at h ⊢
      by_cases c2 : f.1 = 0x10
      · rw [if_pos c2] at h ⊢
        match s, h with
        | a :: stk, h =>
          obtain ⟨q, h2, h⟩ := bind_ok h
          cases h
          simp only [dAttrSum] at h2
          obtain ⟨q3, h3, h2⟩ := bind_ok h2
          cases h2
          simp only [dAttrSum, List.cons_append, h3, bind, Except.bind]
          rfl
      · rw [if_neg c2] at h ⊢; cases h; rfl
  rw [if_neg c] at h ⊢
  clear c
  by_cases c : opcode ≤ 0x1B
  · rw [if_pos c] at h
    obtain ⟨q, h1, h⟩ := bind_ok h
    cases h
  rw [if_neg c] at h ⊢
  obtain ⟨q, h1, h⟩ := bind_ok h
  cases h
  rw [h1]
  rfl

theorem dFunc_frame {bv : Nat} {data : Bytes} {pos : Int} {s s' : List (Option DOpnd)} (B : List (Option DOpnd)) (h : dFunc bv data pos s = .ok s') :
    dFunc bv data pos (s ++ B) = .ok (s' ++ B) := by
  unfold dFunc at h ⊢
  obtain ⟨f, h1, h⟩ := bind_ok h
  simp only [h1, bind, Except.bind]
  cases hf : funcDef f with
  | none => rw [hf] at h; cases h; rfl
  | some d =>
    rw [hf] at h
    simp only at h ⊢
    obtain ⟨_, h2, h⟩ := bind_ok h
    have hl : s.length ≥ d.2.1 := by
      by_contra hc
      rw [show decide (s.length ≥ d.2.1) = false from decide_eq_false hc] at h2
      cases h2
    rw [show decide ((s ++ B).length ≥ d.2.1) = true from decide_eq_true (by rw [List.length_append]; omega)]
    simp only [pyAssert]
    by_cases c : d.2.1 = 0
    · rw [if_pos c] at h ⊢; cases h; rfl
    · rw [if_neg c] at h ⊢
      rw [List.take_append_of_le_length hl, List.drop_append_of_le_length hl]
      obtain ⟨q, h3, h⟩ := bind_ok h
      cases h
      rw [h3]
      rfl

theorem dFuncVar_frame {bv : Nat} {data : Bytes} {pos : Int} {s s' : List (Option DOpnd)} (B : List (Option DOpnd))
    (hn : ∀ f, funcVarFields bv data pos ≠ .ok (0, f)) (h : dFuncVar bv data pos s = .ok s') : dFuncVar bv data pos (s ++ B) = .ok (s' ++ B) := by
  unfold dFuncVar at h ⊢
  obtain ⟨f, h1, h⟩ := bind_ok h
  simp only [h1, bind, Except.bind]
  have h0 : f.1 ≠ 0 := by
    intro hz
    refine hn f.2 ?_
    rw [h1, ← hz]
  simp only at h
  cases hf : dFuncDef f.2 with
  | none => rw [hf] at h; cases h; rfl
  | some d =>
    rw [hf] at h
    simp only at h ⊢
    obtain ⟨_, h2, h⟩ := bind_ok h
    obtain ⟨_, h3, h⟩ := bind_ok h
    rw [h2]
    have hl : s.length ≥ f.1 := by
      by_contra hc
      rw [show decide (s.length ≥ f.1) = false from decide_eq_false hc] at h3
      cases h3
    rw [show decide ((s ++ B).length ≥ f.1) = true from decide_eq_true (by rw [List.length_append]; omega)]
    simp only [pyAssert]
    unfold topArgs dropArgs at h ⊢
    rw [if_neg h0] at h ⊢
    rw [if_neg h0] at h ⊢
    rw [List.take_append_of_le_length hl, List.drop_append_of_le_length hl]
    obtain ⟨r, h4, h⟩ := bind_ok h
    cases h
    rw [h4]
    rfl

theorem dClass_frame {env : DEnv} {data : Bytes} {pos : Int} {opcode : Nat} {s s' : List (Option DOpnd)} (B : List (Option DOpnd))
    (hn : opcode = 2 → ∀ f, funcVarFields env.bv data pos ≠ .ok (0, f)) (h : dClass env data pos opcode s = .ok s') :
    dClass env data pos opcode (s ++ B) = .ok (s' ++ B) := by
  unfold dClass at h ⊢
  by_cases c : opcode = 0x00
  · rw [if_pos c] at h ⊢; cases h; rfl
  rw [if_neg c] at h ⊢
  clear c
  by_cases c : opcode = 0x01
  · rw [if_pos c] at h ⊢; exact dFunc_frame B h
  rw [if_neg c] at h ⊢
  clear c
  by_cases c : opcode = 0x02
  · rw [if_pos c] at h ⊢; exact dFuncVar_frame B (hn c) h
  rw [if_neg c] at h ⊢
  clear c
  by_cases c : opcode = 0x03
  · rw [if_pos c] at h ⊢
    obtain ⟨q, h1, h⟩ := bind_ok h
    cases h; rw [h1]; rfl
  rw [if_neg c] at h ⊢
  clear c
  by_cases c : opcode = 0x04 ∨ opcode = 0x0C
  · rw [if_pos c] at h ⊢
    obtain ⟨q, h1, h⟩ := bind_ok h
    cases h; rw [h1]; rfl
  rw [if_neg c] at h ⊢
  clear c
  by_cases c : opcode = 0x05 ∨ opcode = 0x0D
  · rw [if_pos c] at h ⊢
    obtain ⟨q, h1, h⟩ := bind_ok h
    cases h; rw [h1]; rfl
  rw [if_neg c] at h ⊢
  clear c
  by_cases c : opcode = 0x06
  · rw [if_pos c] at h; cases h
  rw [if_neg c] at h ⊢
  clear c
  by_cases c : opcode = 0x09
  · rw [if_pos c] at h ⊢
    obtain ⟨q, h1, h⟩ := bind_ok h
    cases h; rw [h1]; rfl
  rw [if_neg c] at h ⊢
  clear c
  by_cases c : opcode = 0x1A
  · rw [if_pos c] at h ⊢
    obtain ⟨q, h1, h⟩ := bind_ok h
    cases h; rw [h1]; rfl
  rw [if_neg c] at h ⊢
  clear c
  by_cases c : opcode = 0x1B
  · rw [if_pos c] at h ⊢
    obtain ⟨q, h1, h⟩ := bind_ok h
    cases h; rw [h1]; rfl
  rw [if_neg c] at h ⊢
  clear c
  by_cases c : opcode = 0x19
  · rw [if_pos c] at h ⊢
    obtain ⟨q, h1, h⟩ := bind_ok h
    cases h; rw [h1]; rfl
  rw [if_neg c] at h ⊢
  clear c
  by_cases c : opcode ∈ errorOpcodes
  · rw [if_pos c] at h ⊢; cases h; rfl
  · rw [if_neg c] at h ⊢; cases h; rfl

/-- **C49** (operands, decompilation).  The same for the text of a formula; the token that stands for a whole shared formula (tExp, tTbl) has to
be alone anyway. -/
theorem C49_decompilation_operands_partial (env : DEnv) (tab : List Int) (data : Bytes) (fmlalen : Nat) (pos pos' : Int) (s s' B : List (Option DOpnd))
    (hn : ¬ NullaryCall env.bv data pos) (hx : ∀ op, byteAt data pos = .ok op → 1 < op % 32 ∨ op / 32 % 4 ≠ 0)
    (h : dStep env tab data fmlalen pos s = .ok (s', pos')) : dStep env tab data fmlalen pos (s ++ B) = .ok (s' ++ B, pos') := by
  unfold dStep at h ⊢
  obtain ⟨op, h1, h⟩ := bind_ok h
  simp only [h1, bind, Except.bind]
  simp only at h
  by_cases c1 : tab.getD (if op / 32 % 4 = 0 then op % 32 else op % 32 + 32) (-2) = -2
  · rw [if_pos c1] at h; cases h
  · rw [if_neg c1] at h ⊢
    by_cases c2 : op / 32 % 4 = 0
    · rw [if_pos c2, if_pos c2] at h
      simp only [if_pos c2]
      obtain ⟨q, h2, h⟩ := bind_ok h
      rw [dPlain_frame B (by rcases hx op h1 with h | h <;> omega) h2]
      simp only at h ⊢
      by_cases c3 : q.2 ≤ 0
      · rw [if_pos c3] at h; cases h
      · rw [if_neg c3] at h ⊢; cases h; rfl
    · rw [if_neg c2, if_neg c2] at h
      simp only [if_neg c2]
      obtain ⟨q, h2, h⟩ := bind_ok h
      rw [dClass_frame B (fun h0 f hf => hn ⟨op, f, h1, h0, c2, hf⟩) h2]
      simp only
      by_cases c3 : tab.getD (op % 32 + 32) (-2) ≤ 0
      · rw [if_pos c3] at h; cases h
      · rw [if_neg c3] at h ⊢; cases h; rfl

/-- What is missing: ROW() has no arguments, but takes every operand that happens to be on the stack, here the 5 of `5+ROW()`; the
addition then lacks an operand. -/
theorem C49_nullary_call_takes_all (env : DEnv) (h8 : env.bv = 80) :
    dFuncVar env.bv [0x42, 0x00, 0x08, 0x00] 0 [some { rank := 90, text := "5".toList }] = .ok [some { rank := 90, text := "ROW(5)".toList }] ∧
    decompile env [0x1E, 0x05, 0x00, 0x42, 0x00, 0x08, 0x00, 0x03] 8 = .error .assertion := by
  obtain ⟨str, bv, bk, dec, rd, br, bc, r1⟩ := env
  subst h8
  exact ⟨rfl, rfl⟩

end Xlrd
