import Verif.Lemmas.NameSteps

/-!
# Names with safe expressions are evaluated
-/
set_option linter.unusedSimpArgs false
set_option linter.unusedVariables false

namespace Xlrd
open Spec

/-- What evaluation of the names that an expression uses does. -/
structure UseOk (C : Calc) (loc : Nat → Nat → Nat → Prop) (fs : Nat → Option VExpr) (env : FEnv) (rc : NameTbl → Nat → Int → R NameTbl) (n : Nat) (use : Nat → Prop) : Prop where
  good : ∀ t i g t', VGood C loc fs t → rc t i g = .ok t' → VGood C loc fs t'
  len : ∀ t i g t', t.length = n → rc t i g = .ok t' → t'.length = n
  names : ∀ k, use k → ∀ e, fs k = some e → Fine C loc fs IsFunc e → ∀ st : EvSt, VGood C loc fs st.tbl → st.tbl.length = n → ∃ st', nameRef env rc st k = .ok st'

/-- Evaluation of the tokens of a safe expression. -/
theorem vsteps {C : Calc} {D : Can} {loc : Nat → Nat → Nat → Prop} {fs : Nat → Option VExpr} {env : FEnv} (hC : PyCalc env.ops C) (hD : PyCan env.ops D) (hb : RefBook loc env)
    (hfs : ∀ k x, fs k = some x → StoredAs env.bk.nameObjs k x) {rc : NameTbl → Nat → Int → R NameTbl} {n : Nat} {use : Nat → Prop} (hu : UseOk C loc fs env rc n use)
    (namex : Int) (data : Bytes) {x : VExpr} (hx : Fine C loc fs IsFunc x) : Safe C D loc fs IsFunc use x → VSteps C loc fs env rc sztab4 namex data n x x.tokens := by
  have ht : NewTab sztab4 := .inr rfl
  have hv : 40 ≤ env.bv := by rw [hb.bv]; decide
  have hr : ∀ {x}, Fine C loc fs IsFunc x → ∀ len st', VRuns C loc fs env rc sztab4 namex data len st' x x.tokens :=
    fun hx len st' => vruns hC hb hfs hu.good namex data len st' hx
  induction hx with
  | int k hk => intro _; refine vsteps_of (hr (.int k hk)) ?_; simp only [VExpr.tokens]; exact weak_int ht k hk
  | num x hx => intro _; refine vsteps_of (hr (.num x hx)) ?_; simp only [VExpr.tokens]; exact weak_num ht x hx
  | bool b => intro _; refine vsteps_of (hr (.bool b)) ?_; simp only [VExpr.tokens]; exact weak_bool ht b
  | text u h1 h2 => intro _; refine vsteps_of (hr (.text u h1 h2)) ?_; simp only [VExpr.tokens]; exact weak_text hb.bv ht u h1 h2
  | err c hc => intro _; refine vsteps_of (hr (.err c hc)) ?_; simp only [VExpr.tokens]; exact weak_err ht c hc
  | missing => intro _; refine vsteps_of (hr .missing) ?_; simp only [VExpr.tokens]; exact weak_missing ht
  | cell cls refx r c x y h1 h2 h3 h4 => intro _; exact vsteps_of (hr (.cell cls refx r c x y h1 h2 h3 h4)) (weak_cell hb cls h1 h2 h3 h4)
  | area cls refx r1 r2 c1 c2 x y h1 h2 h3 h4 h5 h6 =>
    intro _; exact vsteps_of (hr (.area cls refx r1 r2 c1 c2 x y h1 h2 h3 h4 h5 h6)) (weak_area hb cls h1 h2 h3 h4 h5 h6)
  | name cls k x h1 h2 h3 _ =>
    intro hs
    cases hs with
    | name _ _ hk =>
    refine vsteps_of (hr (.name cls k x h1 h2 h3)) ?_
    simp only [VExpr.tokens]
    exact weak_name cls h1 (unused := [0, 0]) (by decide) (hu.names k hk x h2 h3) hu.len
  | un o e h1 hn ih =>
    intro hs
    cases hs with
    | un _ _ hs =>
    refine vsteps_of (hr (.un o e h1 hn)) ?_
    simp only [VExpr.tokens]
    exact weak_un hC hD ht o (ih hs) hn
  | bin o a b h1 h2 iha ihb =>
    intro hs
    cases hs with
    | bin _ _ _ s1 s2 s3 =>
    refine vsteps_of (hr (.bin o a b h1 h2)) ?_
    simp only [VExpr.tokens]
    exact weak_bin hC hD ht o (iha s1) (ihb s2) s3
  | refs o a b h1 h2 iha ihb =>
    intro hs
    cases hs with
    | refs _ _ _ s1 s2 s3 =>
    refine vsteps_of (hr (.refs o a b h1 h2)) ?_
    simp only [VExpr.tokens]
    exact weak_refs ht o (iha s1) (ihb s2) s3
  | quiet before after e h1 h2 h3 ih =>
    intro hs
    cases hs with
    | quiet _ _ _ hs =>
    refine vsteps_of (hr (.quiet before after e h1 h2 h3)) ?_
    simp only [VExpr.tokens]
    exact weak_quiet ht h1 h2 (ih hs)
  | mem cls size e h1 h2 ih =>
    intro hs
    cases hs with
    | mem _ _ _ hs =>
    refine vsteps_of (hr (.mem cls size e h1 h2)) ?_
    simp only [VExpr.tokens]
    exact weak_mem ht cls h1 (ih hs)
  | fixed cls k hi args h1 h2 h3 ih =>
    intro hs
    cases hs with
    | fixed _ _ _ hs =>
    refine vsteps_of (hr (.fixed cls k hi args h1 h2 h3)) ?_
    simp only [VExpr.tokens]
    exact weak_fixed hv ht cls h1 h2 (forall₂_map fun a ha => ih a ha (hs a ha))
  | varying cls k lo hi args h1 h2 h3 h4 h5 ih =>
    intro hs
    cases hs with
    | varying _ _ _ hs s1 s2 =>
    refine vsteps_of (hr (.varying cls k lo hi args h1 h2 h3 h4 h5)) ?_
    simp only [VExpr.tokens]
    exact weak_varying hv ht cls h1 h2 h3 h4 (forall₂_map fun a ha => ih a ha (hs a ha)) (s1 lo hi h2) s2
  | sum d e h1 h2 ih =>
    intro hs
    cases hs with
    | sum _ _ hs =>
    refine vsteps_of (hr (.sum d e h1 h2)) ?_
    simp only [VExpr.tokens]
    exact weak_sum ht h1 (ih hs)

theorem forall₂_safe {P : VExpr → Bytes → Prop} {S : VExpr → Prop} {Q : VExpr → Bytes → Prop} {l : List VExpr} {m : List Bytes} (h : List.Forall₂ P l m) (hs : ∀ a ∈ l, S a)
    (hq : ∀ a ∈ l, S a → ∀ b, P a b → Q a b) : List.Forall₂ Q l m := forall₂_of h fun a ha b hb => hq a ha (hs a ha) b hb

/-- As `vsteps`, in BIFF5 and BIFF7. -/
theorem old_vsteps {C : Calc} {D : Can} {place : Nat → Option OldSheets} {loc : OldSheets → Nat → Nat → Prop} {fs : Nat → Option VExpr} {env : FEnv} (hC : PyCalc env.ops C)
    (hD : PyCan env.ops D) (hb : OldRefBook loc env) (hfs : ∀ k x, fs k = some x → OldStoredAs env.dec place env.bk.nameObjs k x) {rc : NameTbl → Nat → Int → R NameTbl}
    {n : Nat} {use : Nat → Prop} (hu : UseOk C (Placed place loc) fs env rc n use) (namex : Int) (data : Bytes) {x : VExpr} (hx : Fine C (Placed place loc) fs IsFunc x) :
    Safe C D (Placed place loc) fs IsFunc use x → ∀ toks, OldTokens env.dec place x toks → VSteps C (Placed place loc) fs env rc sztab3 namex data n x toks := by
  have ht : NewTab sztab3 := .inl rfl
  have hv : 40 ≤ env.bv := by rcases hb.bv with h | h <;> omega
  have hv' : env.bv ≤ 70 := by rcases hb.bv with h | h <;> omega
  have hr : ∀ {x toks}, Fine C (Placed place loc) fs IsFunc x → OldTokens env.dec place x toks → ∀ len st', VRuns C (Placed place loc) fs env rc sztab3 namex data len st' x toks :=
    fun hx h len st' => old_vruns hC hb hfs hu.good namex data len st' hx _ h
  induction hx with
  | int k hk => intro _ toks h; refine vsteps_of (hr (.int k hk) h) ?_; cases h; exact weak_int ht k hk
  | num x hx => intro _ toks h; refine vsteps_of (hr (.num x hx) h) ?_; cases h; exact weak_num ht x hx
  | bool b => intro _ toks h; refine vsteps_of (hr (.bool b) h) ?_; cases h; exact weak_bool ht b
  | text u h1 h2 => intro _ toks h; refine vsteps_of (hr (.text u h1 h2) h) ?_; cases h with | text _ t h1 h2 => exact old_weak_text hv' ht u t h1 h2
  | err c hc => intro _ toks h; refine vsteps_of (hr (.err c hc) h) ?_; cases h; exact weak_err ht c hc
  | missing => intro _ toks h; refine vsteps_of (hr .missing h) ?_; cases h; exact weak_missing ht
  | cell cls refx r c x y h1 h2 h3 h4 =>
    intro _ toks h
    refine vsteps_of (hr (.cell cls refx r c x y h1 h2 h3 h4) h) ?_
    cases h with
    | cell _ _ _ _ sh g1 g2 =>
      obtain ⟨sh', g3, g4⟩ := h2
      rw [g1] at g3; cases g3
      exact old_weak_cell hb cls g4 g2 h4
  | area cls refx r1 r2 c1 c2 x y h1 h2 h3 h4 h5 h6 =>
    intro _ toks h
    refine vsteps_of (hr (.area cls refx r1 r2 c1 c2 x y h1 h2 h3 h4 h5 h6) h) ?_
    cases h with
    | area _ _ _ _ _ _ sh g1 g2 g2' =>
      obtain ⟨sh', g3, g4⟩ := h2
      rw [g1] at g3; cases g3
      exact old_weak_area hb cls g4 g2 g2' h5 h6
  | name cls k x h1 h2 h3 _ =>
    intro hs toks h
    refine vsteps_of (hr (.name cls k x h1 h2 h3) h) ?_
    cases hs with
    | name _ _ hk =>
    cases h with
    | name _ _ unused hl => exact weak_name cls h1 (by rw [hl]; decide) (hu.names k hk x h2 h3) hu.len
  | un o e h1 hn ih =>
    intro hs toks h
    refine vsteps_of (hr (.un o e h1 hn) h) ?_
    cases hs with
    | un _ _ hs =>
    cases h with | un _ _ t h1 => exact weak_un hC hD ht o (ih hs t h1) hn
  | bin o a b h1 h2 iha ihb =>
    intro hs toks h
    refine vsteps_of (hr (.bin o a b h1 h2) h) ?_
    cases hs with
    | bin _ _ _ s1 s2 s3 =>
    cases h with | bin _ _ _ s t h1 h2 => exact weak_bin hC hD ht o (iha s1 s h1) (ihb s2 t h2) s3
  | refs o a b h1 h2 iha ihb =>
    intro hs toks h
    refine vsteps_of (hr (.refs o a b h1 h2) h) ?_
    cases hs with
    | refs _ _ _ s1 s2 s3 =>
    cases h with | refs _ _ _ s t h1 h2 => exact weak_refs ht o (iha s1 s h1) (ihb s2 t h2) s3
  | quiet before after e h1 h2 h3 ih =>
    intro hs toks h
    refine vsteps_of (hr (.quiet before after e h1 h2 h3) h) ?_
    cases hs with
    | quiet _ _ _ hs =>
    cases h with | quiet _ _ _ t h3 => exact weak_quiet ht h1 h2 (ih hs t h3)
  | mem cls size e h1 h2 ih =>
    intro hs toks h
    refine vsteps_of (hr (.mem cls size e h1 h2) h) ?_
    cases hs with
    | mem _ _ _ hs =>
    cases h with | mem _ _ _ t h2 => exact weak_mem ht cls h1 (ih hs t h2)
  | fixed cls k hi args h1 h2 h3 ih =>
    intro hs toks h
    refine vsteps_of (hr (.fixed cls k hi args h1 h2 h3) h) ?_
    cases hs with
    | fixed _ _ _ hs =>
    cases h with | fixed _ _ _ ts h3 => exact weak_fixed hv ht cls h1 h2 (forall₂_safe h3 hs ih)
  | varying cls k lo hi args h1 h2 h3 h4 h5 ih =>
    intro hs toks h
    refine vsteps_of (hr (.varying cls k lo hi args h1 h2 h3 h4 h5) h) ?_
    cases hs with
    | varying _ _ _ hs s1 s2 =>
    cases h with | varying _ _ _ ts h5 => exact weak_varying hv ht cls h1 h2 h3 h4 (forall₂_safe h5 hs ih) (s1 lo hi h2) s2
  | sum d e h1 h2 ih =>
    intro hs toks h
    refine vsteps_of (hr (.sum d e h1 h2) h) ?_
    cases hs with
    | sum _ _ hs =>
    cases h with | sum _ _ t h2 => exact weak_sum ht h1 (ih hs t h2)

/-- Names that can be computed, in terms of the book. -/
structure Computable (C : Calc) (loc : Nat → Nat → Nat → Prop) (fs : Nat → Option VExpr) (env : FEnv) (tab : List Int) (level : Nat → Nat) : Prop where
  size : szdict env.bv = .ok tab
  ordinary : ∀ k x, fs k = some x → Ordinary env.bk.nameObjs k
  kept : ∀ (k : Nat) (t : NameTbl) (i : Nat) (g : Int) (t' : NameTbl), VGood C loc fs t → evaluateName env k t i g = .ok t' → VGood C loc fs t'
  formula : ∀ (i : Nat) x o, fs i = some x → env.bk.nameObjs[i]? = some o →
    ∃ toks rest, o.rawFormula = toks ++ rest ∧ o.basicFormulaLen = toks.length ∧ toks.length ≠ 0 ∧
      ∀ rc (g : Int) n, UseOk C loc fs env rc n (fun k => level k < level i ∧ ∀ o, env.bk.nameObjs[k]? = some o → ∃ s, nameShown env.bk o = .ok s) →
        VSteps C loc fs env rc tab g o.rawFormula n x toks

theorem compute_ok {C : Calc} {loc : Nat → Nat → Nat → Prop} {fs : Nat → Option VExpr} {env : FEnv} {tab : List Int} {level : Nat → Nat} (he : Computable C loc fs env tab level) :
    ∀ (k : Nat) (t : NameTbl) (i : Nat) (g : Int) (x : VExpr), VGood C loc fs t → t.length = env.bk.nameObjs.length →
      fs i = some x → level i < k → ∃ t', evaluateName env k t i g = .ok t' := by
  intro k
  induction k with
  | zero => intro t i g x _ _ _ h; omega
  | succ k ih =>
    intro t i g x hg hl hx hk
    obtain ⟨o, hi, h1, h2⟩ := he.ordinary i x hx
    have hrl : ∀ t i g t', t.length = env.bk.nameObjs.length → evaluateName env k t i g = .ok t' → t'.length = env.bk.nameObjs.length :=
      fun t i g t' h h' => (filled_kept _ (fun _ => False) k t i g t' ⟨h, fun _ h => h.elim⟩ h').1
    simp only [evaluateName, evBody, hi, he.size, bind, Except.bind]
    suffices hs : ∃ st, evLoop env (evaluateName env k) tab g o.rawFormula o.basicFormulaLen o.basicFormulaLen
        { stack := if o.basicFormulaLen = 0 then [{}] else [], tbl := t } 0 = .ok st by
      obtain ⟨st, hs⟩ := hs
      rw [hs]
      exact ⟨_, rfl⟩
    obtain ⟨toks, rest, f4, f5, f6, hv⟩ := he.formula i x o hx hi
    have hsteps := hv (evaluateName env k) g env.bk.nameObjs.length ⟨he.kept k, hrl, by
      rintro j ⟨u1, u2⟩ e hj hfine st hg' hl'
      obtain ⟨oj, j1, j2, j3⟩ := he.ordinary j e hj
      obtain ⟨s, hs⟩ := u2 oj j1
      have hp : pyPos env.bk.nameObjs (j : Int) = j := by unfold pyPos; rw [if_neg (by omega)]; rfl
      have hjl := (List.getElem?_eq_some_iff.mp j1).1
      unfold nameRef
      rw [(idx_ok_nat _ _ _).mpr j1]
      simp only [bind, Except.bind, hp]
      have hev : ∃ t', evaluated (evaluateName env k) st.tbl j (j : Int) = .ok t' ∧ VGood C loc fs t' ∧ ∃ ev, t'[j]? = some (some ev) := by
        unfold evaluated
        cases hc : st.tbl[j]? with
        | none => rw [List.getElem?_eq_none_iff] at hc; omega
        | some ev =>
          cases ev with
          | some ev => exact ⟨st.tbl, rfl, hg', ev, hc⟩
          | none =>
            obtain ⟨t', ht'⟩ := ih st.tbl j j e hg' hl' hj (by omega)
            have hfill := evaluateName_filled (P := fun _ => False) (n := env.bk.nameObjs.length) ⟨hl', fun _ h => h.elim⟩ hjl ht'
            exact ⟨t', ht', he.kept k _ _ _ _ hg' ht', hfill.2 j (Or.inr rfl)⟩
      obtain ⟨t', e1, e2, ev, e3⟩ := hev
      rw [e1]
      simp only [e3]
      obtain ⟨o'', rfl, _⟩ := e2 j ev e e3 hj hfine
      unfold useName
      rw [if_neg (by simp [j2, j3])]
      simp only [hs, bind, Except.bind]
      exact ⟨_, rfl⟩⟩
    obtain ⟨f, op, tbl, _, _, _, _, _, h6⟩ := hsteps 0 rest o.basicFormulaLen { stack := [], tbl := t } (by simpa using f4) hg hl (by omega)
    rw [if_neg (by rw [f5]; exact f6)]
    refine ⟨{ stack := [op], tbl := tbl }, Eq.trans (h6 o.basicFormulaLen (by omega)) ?_⟩
    cases f <;> simp only [evLoop] <;> rw [if_neg (by rw [f5]; simp)]

/-- If every name can be evaluated by itself, all of them are. -/
theorem names_one_by_one {Inv : NameTbl → Prop} {env : FEnv} (hk : ∀ (t : NameTbl) (i : Nat) (g : Int) (t' : NameTbl), Inv t → evaluateName env 11 t i g = .ok t' → Inv t')
    (hone : ∀ (i : Nat) o (t : NameTbl), env.bk.nameObjs[i]? = some o → o.macroFlag = 0 → o.binary = 0 → Inv t → t.length = env.bk.nameObjs.length →
      ∃ t', evaluateName env 11 t i i = .ok t') (h0 : Inv (env.bk.nameObjs.map fun _ => none)) : ∃ tbl, bookNames env = .ok tbl := by
  suffices key : ∀ (os : List NameObj) (i : Nat) (t : NameTbl), (∀ (k : Nat) o, os[k]? = some o → env.bk.nameObjs[i + k]? = some o) → Inv t →
      t.length = env.bk.nameObjs.length → ∃ t', evaluateNames env os i t = .ok t' from
    key env.bk.nameObjs 0 _ (fun k o hk => by simpa using hk) h0 (by simp)
  intro os
  induction os with
  | nil => intro i t _ _ _; exact ⟨t, rfl⟩
  | cons o os ih =>
    intro i t hall hg hl
    have h0 : env.bk.nameObjs[i]? = some o := by simpa using hall 0 o rfl
    have key : ∃ t1, evalTop env o t i = .ok t1 ∧ Inv t1 ∧ t1.length = env.bk.nameObjs.length := by
      unfold evalTop
      by_cases hc : o.macroFlag ≠ 0 ∨ o.binary ≠ 0
      · rw [if_pos hc]; exact ⟨t, rfl, hg, hl⟩
      · rw [if_neg hc]
        rw [not_or, not_not, not_not] at hc
        have : (∃ ev, t[i]? = some (some ev)) ∨ evaluated (evaluateName env 11) t i (i : Int) = evaluateName env 11 t i (i : Int) := by
          unfold evaluated
          cases h : t[i]? with
          | none => exact Or.inr rfl
          | some ev =>
            cases ev with
            | none => exact Or.inr rfl
            | some ev => exact Or.inl ⟨ev, rfl⟩
        rcases this with ⟨ev, h⟩ | h
        · exact ⟨t, by unfold evaluated; rw [h], hg, hl⟩
        · obtain ⟨t1, h1⟩ := hone i o t h0 hc.1 hc.2 hg hl
          exact ⟨t1, by rw [h]; exact h1, hk _ _ _ _ hg h1, (filled_kept _ (fun _ => False) 11 _ _ _ _ ⟨hl, fun _ h => h.elim⟩ h1).1⟩
    obtain ⟨t1, h1, h2, h3⟩ := key
    obtain ⟨t2, h4⟩ := ih (i + 1) t1 (fun k o' hk => by have := hall (k + 1) o' hk; rwa [show i + (k + 1) = i + 1 + k by omega] at this) h2 h3
    exact ⟨t2, by simp only [evaluateNames, h1, bind, Except.bind, h4]⟩

/-- A monotone change of the names that may be used. -/
theorem UseOk.mono {C : Calc} {loc : Nat → Nat → Nat → Prop} {fs : Nat → Option VExpr} {env : FEnv} {rc : NameTbl → Nat → Int → R NameTbl} {n : Nat} {use use' : Nat → Prop}
    (h : UseOk C loc fs env rc n use) (hu : ∀ k, use' k → use k) : UseOk C loc fs env rc n use' := ⟨h.good, h.len, fun k hk => h.names k (hu k hk)⟩

/-- The names of a BIFF8 book. -/
theorem computable_new {C : Calc} {D : Can} {loc : Nat → Nat → Nat → Prop} {fs : Nat → Option VExpr} {env : FEnv} (hC : PyCalc env.ops C) (hD : PyCan env.ops D) (hb : RefBook loc env)
    {level : Nat → Nat} {use : Nat → Nat → Prop}
    (hu : ∀ i k, use i k → level k < level i ∧ ∀ o, env.bk.nameObjs[k]? = some o → ∃ s, nameShown env.bk o = .ok s)
    (hfs : ∀ k x, fs k = some x → StoredAs env.bk.nameObjs k x)
    (hall : ∀ k x, fs k = some x → Fine C loc fs IsFunc x ∧ Safe C D loc fs IsFunc (use k) x) : Computable C loc fs env sztab4 level := by
  refine ⟨by rw [hb.bv]; simp [szdict], fun k x h => storedAs_ordinary (hfs k x h), vgood_kept hC hb hfs, fun i x o hx hi => ?_⟩
  obtain ⟨hf, hs⟩ := hall i x hx
  obtain ⟨o', rest, g1, _, _, g4, g5⟩ := hfs i x hx
  rw [hi] at g1
  cases g1
  exact ⟨x.tokens, rest, g4, g5, vtokens_ne hf, fun rc g n h => vsteps hC hD hb hfs (h.mono (hu i)) g _ hf hs⟩

/-- The names of a BIFF5 or BIFF7 book. -/
theorem computable_old {C : Calc} {D : Can} {place : Nat → Option OldSheets} {loc : OldSheets → Nat → Nat → Prop} {fs : Nat → Option VExpr} {env : FEnv} (hC : PyCalc env.ops C)
    (hD : PyCan env.ops D) (hb : OldRefBook loc env) {level : Nat → Nat} {use : Nat → Nat → Prop}
    (hu : ∀ i k, use i k → level k < level i ∧ ∀ o, env.bk.nameObjs[k]? = some o → ∃ s, nameShown env.bk o = .ok s)
    (hfs : ∀ k x, fs k = some x → OldStoredAs env.dec place env.bk.nameObjs k x)
    (hall : ∀ k x, fs k = some x → Fine C (Placed place loc) fs IsFunc x ∧ Safe C D (Placed place loc) fs IsFunc (use k) x) :
    Computable C (Placed place loc) fs env sztab3 level := by
  refine ⟨by rcases hb.bv with h | h <;> rw [h] <;> simp [szdict], fun k x h => oldStored_ordinary (hfs k x h), old_vgood_kept hC hb hfs, fun i x o hx hi => ?_⟩
  obtain ⟨hf, hs⟩ := hall i x hx
  obtain ⟨o', toks, rest, g1, _, _, g6, g4, g5⟩ := hfs i x hx
  rw [hi] at g1
  cases g1
  exact ⟨toks, rest, g4, g5, old_vtokens_ne hf toks g6, fun rc g n h => old_vsteps hC hD hb hfs (h.mono (hu i)) g _ hf hs toks g6⟩

end Xlrd
