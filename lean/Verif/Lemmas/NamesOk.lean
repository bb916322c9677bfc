import Verif.Spec.Openable
import Verif.Props.NameValues

/-!
# Formulas of names that can be evaluated are evaluated
-/
set_option linter.unusedSimpArgs false
namespace Xlrd
open Spec

theorem evLoop_next {env : FEnv} {rc : NameTbl → Nat → Int → R NameTbl} {tab : List Int} {namex : Int} {data : Bytes} {len fuel : Nat} {st : EvSt} {pos : Nat} {r : EvSt × Int}
    (hp : pos < len) (h : evStep env rc tab namex data pos st = .ok r) :
    evLoop env rc tab namex data len (fuel + 1) st pos = evLoop env rc tab namex data len fuel r.1 r.2 := by
  simp only [evLoop]
  rw [if_pos (by omega), h]
  rfl

/-- The tokens of an expression are evaluated, if the names that it uses are. -/
theorem run_ok {loc : Nat → Nat → Nat → Prop} {env : FEnv} (hb : RefBook loc env) {rc : NameTbl → Nat → Int → R NameTbl} {n : Nat}
    (hrc : ∀ t i g t', GoodTbl loc env.bk.nameObjs t → rc t i g = .ok t' → GoodTbl loc env.bk.nameObjs t')
    (hrl : ∀ t i g t', t.length = n → rc t i g = .ok t' → t'.length = n) (namex : Int) (data : Bytes) (len : Nat)
    {x : RefExpr} {l : List Ref3D} (hv : RefVal loc env.bk.nameObjs x l)
    (huse : ∀ k ∈ x.uses, ∀ e l, NameFormula env.bk.nameObjs k e → RefVal loc env.bk.nameObjs e l → ∀ st : EvSt, GoodTbl loc env.bk.nameObjs st.tbl →
      st.tbl.length = n → ∃ st', nameRef env rc st k = .ok st') :
    ∀ (pre rest : Bytes) (fuel : Nat) (st : EvSt), data = pre ++ (x.tokens ++ rest) → pre.length + x.tokens.length ≤ len → GoodTbl loc env.bk.nameObjs st.tbl →
      st.tbl.length = n → x.tokens.length ≤ fuel →
      ∃ f o tbl, Means o l ∧ GoodTbl loc env.bk.nameObjs tbl ∧ tbl.length = n ∧ fuel ≤ f + x.tokens.length ∧
        evLoop env rc sztab4 namex data len fuel st pre.length =
          evLoop env rc sztab4 namex data len f { st with stack := o :: st.stack, tbl := tbl } ((pre.length + x.tokens.length : Nat) : Int) := by
  induction hv with
  | cell refx r c x y h16 hl hr hc =>
    intro pre rest fuel st hd hlen hg hn hfu
    have hp : pre.length < len := by simp only [RefExpr.tokens, List.length_cons] at hlen; omega
    obtain ⟨o, ho, hm⟩ := evRef3d_at hb h16 hl hr hc pre rest st
    have e : evClass env rc namex data (pre.length : Int) 0x1A 1 st = .ok { st with stack := o :: st.stack } := by rw [hd]; simp [evClass]; exact ho
    have h1 := evStep_class (tab := sztab4) (env := env) (rc := rc) (namex := namex) st (b := 0x3A) (rest := le16 refx ++ encAddr 80 (.abs r) (.abs c) ++ rest)
      (p := pre.length) (data := data) (by rw [hd, drop_pre]; simp [RefExpr.tokens]) (by decide : _ = 0x1A) (by decide : _ = 1) (by decide) (sz := 7) (by decide) (by decide)
    rw [e] at h1
    have ht : (RefExpr.cell refx r c).tokens.length = 7 := by simp [RefExpr.tokens, le16_length, enc80_length]
    obtain ⟨f, rfl⟩ : ∃ f, fuel = f + 1 := ⟨fuel - 1, by omega⟩
    refine ⟨f, o, st.tbl, hm, hg, hn, by omega, ?_⟩
    rw [evLoop_next hp h1, ht]
    rfl
  | area refx r1 r2 c1 c2 x y h16 hl hr1 hr2 hc1 hc2 =>
    intro pre rest fuel st hd hlen hg hn hfu
    have hp : pre.length < len := by simp only [RefExpr.tokens, List.length_cons] at hlen; omega
    obtain ⟨o, ho, hm⟩ := evArea3d_at hb h16 hl hr1 hr2 hc1 hc2 pre rest st
    have e : evClass env rc namex data (pre.length : Int) 0x1B 1 st = .ok { st with stack := o :: st.stack } := by rw [hd]; simp [evClass]; exact ho
    have h1 := evStep_class (tab := sztab4) (env := env) (rc := rc) (namex := namex) st (b := 0x3B) (rest := le16 refx ++ encArea 80 (.abs r1) (.abs r2) (.abs c1) (.abs c2) ++ rest)
      (p := pre.length) (data := data) (by rw [hd, drop_pre]; simp [RefExpr.tokens]) (by decide : _ = 0x1B) (by decide : _ = 1) (by decide) (sz := 11) (by decide) (by decide)
    rw [e] at h1
    have ht : (RefExpr.area refx r1 r2 c1 c2).tokens.length = 11 := by simp [RefExpr.tokens, le16_length, encArea80_length]
    obtain ⟨f, rfl⟩ : ∃ f, fuel = f + 1 := ⟨fuel - 1, by omega⟩
    refine ⟨f, o, st.tbl, hm, hg, hn, by omega, ?_⟩
    rw [evLoop_next hp h1, ht]
    rfl
  | name k e l hk hnf hv _ =>
    intro pre rest fuel st hd hlen hg hn hfu
    have hp : pre.length < len := by simp only [RefExpr.tokens, List.length_cons] at hlen; omega
    have hd' : data.drop pre.length = 0x23 :: (le16 (k + 1) ++ ([0, 0] ++ rest)) := by rw [hd, drop_pre]; simp [RefExpr.tokens]
    have h1 := evStep_class (tab := sztab4) (env := env) (rc := rc) (namex := namex) st hd' (by decide : _ = 3) (by decide : _ = 1) (by decide) (sz := 5) (by decide) (by decide)
    have hu := unpackH_at (data := data) (p := pre.length + 1) hk (by rw [← List.drop_drop, hd']; rfl)
    rw [show ((pre.length + 1 : Nat) : Int) + 2 = (pre.length : Int) + 3 by omega, show ((pre.length + 1 : Nat) : Int) = (pre.length : Int) + 1 by omega] at hu
    have e1 : evClass env rc namex data (pre.length : Int) 3 1 st = nameRef env rc st k := by
      simp [evClass, hu, bind, Except.bind]
    obtain ⟨st1, h2⟩ := huse k (by simp [RefExpr.uses]) e l hnf hv st hg hn
    have hl := nameRef_tbl (Inv := fun t => t.length = n) hrl hn h2
    obtain ⟨o, tbl, hm, ht, rfl⟩ := nameRef_good hrc hg hnf hv h2
    rw [e1, h2] at h1
    have htk : (RefExpr.name k).tokens.length = 5 := by simp [RefExpr.tokens, le16_length]
    obtain ⟨f, rfl⟩ : ∃ f, fuel = f + 1 := ⟨fuel - 1, by omega⟩
    refine ⟨f, o, tbl, hm, ht, hl, by omega, ?_⟩
    rw [evLoop_next hp h1, htk]
    rfl
  | paren e l hv ih =>
    intro pre rest fuel st hd hlen hg hn hfu
    simp only [RefExpr.tokens, List.length_append, List.length_cons, List.length_nil, List.append_assoc] at hd hlen hfu ⊢
    obtain ⟨f, o, tbl, hm, ht, hl, hf, h1⟩ := ih (fun k hk => huse k (by simpa [RefExpr.uses] using hk)) pre ([0x15] ++ rest) fuel st hd (by omega) hg hn (by omega)
    have h2 := evStep_plain (tab := sztab4) (env := env) (rc := rc) (namex := namex) { st with stack := o :: st.stack, tbl := tbl } (b := 0x15) (rest := rest) (data := data) (p := pre.length + e.tokens.length)
      (by rw [hd, ← List.append_assoc, ← List.length_append, drop_pre]; rfl) (by decide : _ = 0x15) (by decide) (by decide) (by simp [evPlain]; rfl)
    obtain ⟨f, rfl⟩ : ∃ g, f = g + 1 := ⟨f - 1, by omega⟩
    refine ⟨f, o, tbl, hm, ht, hl, by omega, ?_⟩
    rw [h1, evLoop_next (by omega) h2]
    simp only [show ((pre.length + (e.tokens.length + (0 + 1)) : Nat) : Int) = ((pre.length + e.tokens.length : Nat) : Int) + 1 by omega]
  | mem size e l hs hv ih =>
    intro pre rest fuel st hd hlen hg hn hfu
    simp only [RefExpr.tokens, List.length_append, List.length_cons, List.cons_append, List.append_assoc, le16_length] at hd hlen hfu ⊢
    have hd' : data.drop pre.length = 0x29 :: (le16 size ++ (e.tokens ++ rest)) := by rw [hd, drop_pre]
    have h1 := evStep_class (tab := sztab4) (env := env) (rc := rc) (namex := namex) st hd' (by decide : _ = 9) (by decide : _ = 1) (by decide) (sz := 3) (by decide) (by decide)
    have hu := unpackH_at (data := data) (p := pre.length + 1) hs (by rw [← List.drop_drop, hd']; rfl)
    rw [show ((pre.length + 1 : Nat) : Int) + 2 = (pre.length : Int) + 3 by omega, show ((pre.length + 1 : Nat) : Int) = (pre.length : Int) + 1 by omega] at hu
    have e1 : evClass env rc namex data (pre.length : Int) 9 1 st = .ok st := by
      simp [evClass, hu, bind, Except.bind, pure, Except.pure]
    rw [e1] at h1
    obtain ⟨g, rfl⟩ : ∃ g, fuel = g + 1 := ⟨fuel - 1, by omega⟩
    have e2 : (pre.length : Int) + 3 = (((pre ++ 0x29 :: le16 size).length : Nat) : Int) := by simp [le16_length]
    obtain ⟨f, o, tbl, hm, ht, hl, hf, h2⟩ := ih (fun k hk => huse k (by simpa [RefExpr.uses] using hk)) (pre ++ 0x29 :: le16 size) rest g st (by rw [hd]; simp)
      (by simp only [List.length_append, List.length_cons, le16_length]; omega) hg hn (by omega)
    refine ⟨f, o, tbl, hm, ht, hl, by omega, ?_⟩
    rw [evLoop_next (by omega) h1]
    simp only [e2]
    rw [h2, show ((pre.length + (2 + e.tokens.length + 1) : Nat) : Int) = (((pre ++ 0x29 :: le16 size).length + e.tokens.length : Nat) : Int) by
      simp only [List.length_append, List.length_cons, le16_length]; omega]
  | range a b x y _ _ iha ihb =>
    intro pre rest fuel st hd hlen hg hn hfu
    simp only [RefExpr.tokens, List.length_append, List.length_cons, List.length_nil, List.append_assoc] at hd hlen hfu ⊢
    obtain ⟨f, oa, tbl, hma, ht, hl, hf, h1⟩ := iha (fun k hk => huse k (by simp [RefExpr.uses, hk])) pre (b.tokens ++ ([0x11] ++ rest)) fuel st hd (by omega) hg hn (by omega)
    rw [← List.length_append] at h1
    obtain ⟨f', ob, tbl', hmb, ht', hl', hf', h2⟩ := ihb (fun k hk => huse k (by simp [RefExpr.uses, hk])) (pre ++ a.tokens) ([0x11] ++ rest) f
      { st with stack := oa :: st.stack, tbl := tbl } (by rw [hd]; simp) (by rw [List.length_append]; omega) ht hl (by omega)
    simp only at h2
    obtain ⟨o, ho, hm⟩ := range_means hma hmb st.stack
    have h3 := evStep_plain (tab := sztab4) (env := env) (rc := rc) (namex := namex) { st with stack := ob :: oa :: st.stack, tbl := tbl' } (b := 0x11) (rest := rest) (data := data)
      (p := (pre ++ a.tokens).length + b.tokens.length) (s' := o :: st.stack)
      (by rw [hd, ← List.append_assoc, ← List.append_assoc, ← List.length_append, drop_pre]; rfl) (by decide : _ = 0x11) (by decide) (by decide)
      (by simp [evPlain, ho, bind, Except.bind]; rfl)
    obtain ⟨g, rfl⟩ : ∃ g, f' = g + 1 := ⟨f' - 1, by omega⟩
    refine ⟨g, o, tbl', hm, ht', hl', by omega, ?_⟩
    rw [h1, h2, evLoop_next (by rw [List.length_append]; omega) h3]
    simp only [show ((pre.length + (a.tokens.length + (b.tokens.length + (0 + 1))) : Nat) : Int) = (((pre ++ a.tokens).length + b.tokens.length : Nat) : Int) + 1 by
      rw [List.length_append]; omega]
  | isect a b x y _ _ iha ihb =>
    intro pre rest fuel st hd hlen hg hn hfu
    simp only [RefExpr.tokens, List.length_append, List.length_cons, List.length_nil, List.append_assoc] at hd hlen hfu ⊢
    obtain ⟨f, oa, tbl, hma, ht, hl, hf, h1⟩ := iha (fun k hk => huse k (by simp [RefExpr.uses, hk])) pre (b.tokens ++ ([0x0F] ++ rest)) fuel st hd (by omega) hg hn (by omega)
    rw [← List.length_append] at h1
    obtain ⟨f', ob, tbl', hmb, ht', hl', hf', h2⟩ := ihb (fun k hk => huse k (by simp [RefExpr.uses, hk])) (pre ++ a.tokens) ([0x0F] ++ rest) f
      { st with stack := oa :: st.stack, tbl := tbl } (by rw [hd]; simp) (by rw [List.length_append]; omega) ht hl (by omega)
    simp only at h2
    obtain ⟨o, ho, hm⟩ := isect_means hma hmb st.stack
    have h3 := evStep_plain (tab := sztab4) (env := env) (rc := rc) (namex := namex) { st with stack := ob :: oa :: st.stack, tbl := tbl' } (b := 0x0F) (rest := rest) (data := data)
      (p := (pre ++ a.tokens).length + b.tokens.length) (s' := o :: st.stack)
      (by rw [hd, ← List.append_assoc, ← List.append_assoc, ← List.length_append, drop_pre]; rfl) (by decide : _ = 0x0F) (by decide) (by decide)
      (by simp [evPlain, ho, bind, Except.bind]; rfl)
    obtain ⟨g, rfl⟩ : ∃ g, f' = g + 1 := ⟨f' - 1, by omega⟩
    refine ⟨g, o, tbl', hm, ht', hl', by omega, ?_⟩
    rw [h1, h2, evLoop_next (by rw [List.length_append]; omega) h3]
    simp only [show ((pre.length + (a.tokens.length + (b.tokens.length + (0 + 1))) : Nat) : Int) = (((pre ++ a.tokens).length + b.tokens.length : Nat) : Int) + 1 by
      rw [List.length_append]; omega]
  | union a b l y hva _ iha ihb =>
    intro pre rest fuel st hd hlen hg hn hfu
    simp only [RefExpr.tokens, List.length_append, List.length_cons, List.length_nil, List.append_assoc] at hd hlen hfu ⊢
    obtain ⟨f, oa, tbl, hma, ht, hl, hf, h1⟩ := iha (fun k hk => huse k (by simp [RefExpr.uses, hk])) pre (b.tokens ++ ([0x10] ++ rest)) fuel st hd (by omega) hg hn (by omega)
    rw [← List.length_append] at h1
    obtain ⟨f', ob, tbl', hmb, ht', hl', hf', h2⟩ := ihb (fun k hk => huse k (by simp [RefExpr.uses, hk])) (pre ++ a.tokens) ([0x10] ++ rest) f
      { st with stack := oa :: st.stack, tbl := tbl } (by rw [hd]; simp) (by rw [List.length_append]; omega) ht hl (by omega)
    simp only at h2
    obtain ⟨o, ho, hm⟩ := union_means (refVal_ne hva) hma hmb st.stack
    have h3 := evStep_plain (tab := sztab4) (env := env) (rc := rc) (namex := namex) { st with stack := ob :: oa :: st.stack, tbl := tbl' } (b := 0x10) (rest := rest) (data := data)
      (p := (pre ++ a.tokens).length + b.tokens.length) (s' := o :: st.stack)
      (by rw [hd, ← List.append_assoc, ← List.append_assoc, ← List.length_append, drop_pre]; rfl) (by decide : _ = 0x10) (by decide) (by decide)
      (by simp [evPlain, ho, bind, Except.bind]; rfl)
    obtain ⟨g, rfl⟩ : ∃ g, f' = g + 1 := ⟨f' - 1, by omega⟩
    refine ⟨g, o, tbl', hm, ht', hl', by omega, ?_⟩
    rw [h1, h2, evLoop_next (by rw [List.length_append]; omega) h3]
    simp only [show ((pre.length + (a.tokens.length + (b.tokens.length + (0 + 1))) : Nat) : Int) = (((pre ++ a.tokens).length + b.tokens.length : Nat) : Int) + 1 by
      rw [List.length_append]; omega]

/-- Names that can be evaluated, in terms of the book. -/
structure Evaluable (loc : Nat → Nat → Nat → Prop) (env : FEnv) (level : Nat → Nat) : Prop where
  formula : ∀ (i : Nat) o, env.bk.nameObjs[i]? = some o → o.macroFlag = 0 → o.binary = 0 →
    o.basicFormulaLen = 0 ∨ ∃ x l, NameFormula env.bk.nameObjs i x ∧ RefVal loc env.bk.nameObjs x l ∧
      ∀ k ∈ x.uses, level k < level i ∧ ∀ o, env.bk.nameObjs[k]? = some o → ∃ s, nameShown env.bk o = .ok s

theorem evaluate_ok {loc : Nat → Nat → Nat → Prop} {env : FEnv} (hb : RefBook loc env) {level : Nat → Nat} (he : Evaluable loc env level) :
    ∀ (k : Nat) (t : NameTbl) (i : Nat) (g : Int) (o : NameObj), GoodTbl loc env.bk.nameObjs t → t.length = env.bk.nameObjs.length →
      env.bk.nameObjs[i]? = some o → o.macroFlag = 0 → o.binary = 0 → level i < k → ∃ t', evaluateName env k t i g = .ok t' := by
  intro k
  induction k with
  | zero => intro t i g o _ _ _ _ _ h; omega
  | succ k ih =>
    intro t i g o hg hl hi h1 h2 hk
    have htab : szdict env.bv = .ok sztab4 := by rw [hb.bv]; simp [szdict]
    have hrl : ∀ t i g t', t.length = env.bk.nameObjs.length → evaluateName env k t i g = .ok t' → t'.length = env.bk.nameObjs.length :=
      fun t i g t' h h' => (filled_kept _ (fun _ => False) k t i g t' ⟨h, fun _ h => h.elim⟩ h').1
    simp only [evaluateName, evBody, hi, htab, bind, Except.bind]
    suffices hs : ∃ st, evLoop env (evaluateName env k) sztab4 g o.rawFormula o.basicFormulaLen o.basicFormulaLen
        { stack := if o.basicFormulaLen = 0 then [{}] else [], tbl := t } 0 = .ok st by
      obtain ⟨st, hs⟩ := hs
      rw [hs]
      exact ⟨_, rfl⟩
    rcases he.formula i o hi h1 h2 with h0 | ⟨x, l, hf, hv, hu⟩
    · rw [h0]
      exact ⟨_, rfl⟩
    · obtain ⟨o', rest, f1, _, _, f4, f5⟩ := hf
      rw [hi] at f1
      cases f1
      obtain ⟨f, op, tbl, _, _, _, _, h6⟩ := run_ok hb (good_kept hb k) hrl g o.rawFormula o.basicFormulaLen hv (by
        intro j hj e' l' hn' hv' st hg' hl'
        obtain ⟨u1, u2⟩ := hu j hj
        obtain ⟨oj, rj, j1, j2, j3, j4, j5⟩ := hn'
        obtain ⟨s, hs⟩ := u2 oj j1
        have hp : pyPos env.bk.nameObjs (j : Int) = j := by unfold pyPos; rw [if_neg (by omega)]; rfl
        have hjl := (List.getElem?_eq_some_iff.mp j1).1
        unfold nameRef
        rw [(idx_ok_nat _ _ _).mpr j1]
        simp only [bind, Except.bind, hp]
        have hev : ∃ t', evaluated (evaluateName env k) st.tbl j (j : Int) = .ok t' ∧ GoodTbl loc env.bk.nameObjs t' ∧ ∃ ev, t'[j]? = some (some ev) := by
          unfold evaluated
          cases hc : st.tbl[j]? with
          | none => rw [List.getElem?_eq_none_iff] at hc; omega
          | some ev =>
            cases ev with
            | some ev => exact ⟨st.tbl, rfl, hg', ev, hc⟩
            | none =>
              obtain ⟨t', ht'⟩ := ih st.tbl j j oj hg' hl' j1 j2 j3 (by omega)
              have hfill := evaluateName_filled (P := fun _ => False) (n := env.bk.nameObjs.length) ⟨hl', fun _ h => h.elim⟩ hjl ht'
              exact ⟨t', ht', good_kept hb k _ _ _ _ hg' ht', hfill.2 j (Or.inr rfl)⟩
        obtain ⟨t', e1, e2, ev, e3⟩ := hev
        rw [e1]
        simp only [e3]
        obtain ⟨o'', rfl, _⟩ := e2 j ev e' l' e3 ⟨oj, rj, j1, j2, j3, j4, j5⟩ hv'
        unfold useName
        rw [if_neg (by simp [j2, j3])]
        simp only [hs, bind, Except.bind]
        exact ⟨_, rfl⟩) [] rest o.basicFormulaLen { stack := [], tbl := t } (by simpa using f4) (by simp [f5]) hg hl (by omega)
      rw [if_neg (by rw [f5]; exact tokens_ne x)]
      refine ⟨{ stack := [op], tbl := tbl }, Eq.trans h6 ?_⟩
      cases f <;> simp only [evLoop] <;> rw [if_neg (by rw [f5]; simp)]

theorem evaluateNames_ok {loc : Nat → Nat → Nat → Prop} {env : FEnv} (hb : RefBook loc env) {level : Nat → Nat} (he : Evaluable loc env level) (h10 : ∀ i, level i ≤ 10) :
    ∀ (os : List NameObj) (i : Nat) (t : NameTbl), (∀ (k : Nat) o, os[k]? = some o → env.bk.nameObjs[i + k]? = some o) → GoodTbl loc env.bk.nameObjs t →
      t.length = env.bk.nameObjs.length → ∃ t', evaluateNames env os i t = .ok t' := by
  intro os
  induction os with
  | nil => intro i t _ _ _; exact ⟨t, rfl⟩
  | cons o os ih =>
    intro i t hall hg hl
    have h0 : env.bk.nameObjs[i]? = some o := by simpa using hall 0 o rfl
    have key : ∃ t1, evalTop env o t i = .ok t1 ∧ GoodTbl loc env.bk.nameObjs t1 ∧ t1.length = env.bk.nameObjs.length := by
      unfold evalTop
      by_cases hc : o.macroFlag ≠ 0 ∨ o.binary ≠ 0
      · rw [if_pos hc]; exact ⟨t, rfl, hg, hl⟩
      · rw [if_neg hc]
        rw [not_or, not_not, not_not] at hc
        have : (∃ ev, t[i]? = some (some ev)) ∨ evaluated (evaluateName env 11) t i (i : Int) = evaluateName env 11 t i (i : Int) := by
          unfold evaluated
          cases h : t[i]? with
          | none => exact Or.inr rfl
          | some ev =>
            cases ev with
            | none => exact Or.inr rfl
            | some ev => exact Or.inl ⟨ev, rfl⟩
        rcases this with ⟨ev, h⟩ | h
        · exact ⟨t, by unfold evaluated; rw [h], hg, hl⟩
        · obtain ⟨t1, h1⟩ := evaluate_ok hb he 11 t i i o hg hl h0 hc.1 hc.2 (by have := h10 i; omega)
          exact ⟨t1, by rw [h]; exact h1, good_kept hb 11 _ _ _ _ hg h1, (filled_kept _ (fun _ => False) 11 _ _ _ _ ⟨hl, fun _ h => h.elim⟩ h1).1⟩
    obtain ⟨t1, h1, h2, h3⟩ := key
    obtain ⟨t2, h4⟩ := ih (i + 1) t1 (fun k o' hk => by have := hall (k + 1) o' hk; rwa [show i + (k + 1) = i + 1 + k by omega] at this) h2 h3
    exact ⟨t2, by simp only [evaluateNames, h1, bind, Except.bind, h4]⟩

theorem bookNames_ok {loc : Nat → Nat → Nat → Prop} {env : FEnv} (hb : RefBook loc env) {level : Nat → Nat} (he : Evaluable loc env level) (h10 : ∀ i, level i ≤ 10) :
    ∃ tbl, bookNames env = .ok tbl := by
  refine evaluateNames_ok hb he h10 env.bk.nameObjs 0 _ (fun k o hk => by simpa using hk) ?_ (by simp)
  intro i e x l hi
  rw [List.getElem?_map] at hi
  cases h1 : env.bk.nameObjs[i]? with
  | none => rw [h1] at hi; cases hi
  | some o => rw [h1] at hi; cases hi

end Xlrd
