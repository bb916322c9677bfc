import Verif.Props.RelNames
import Verif.Lemmas.NameProgress

/-!
# Names with relative references are evaluated
-/
set_option linter.unusedSimpArgs false
set_option linter.unusedVariables false
namespace Xlrd
open Spec

/-- Like `RelBook`, with the sheets in range, so that references can be shown. -/
structure RelBookFull (loc' : Bytes → Nat → Nat → Prop) (env : FEnv) : Prop extends RelBook loc' env where
  range : ∀ (sh : Bytes) (x y : Nat), loc' sh x y → x < env.bk.sheetNames.length ∧ y < env.bk.sheetNames.length

theorem cellnamerel_ok (r c : Int) (a b : Bool) : ∃ s, cellnamerel r c a b none none true = .ok s := by
  unfold cellnamerel cellnameabs colnamerel
  by_cases h : c = 0 <;> cases a <;> cases b <;> simp [bind, Except.bind, pure, Except.pure, h]

theorem rangename3drel_ok (names : List PyStr) (x y : Nat) (hx : x < names.length) (hy : y < names.length) (r1 r2 c1 c2 : Int) (a b c d : Bool) :
    ∃ s, rangename3drel names x ((y : Int) + 1) r1 r2 c1 c2 false false a b c d none none true = .ok s := by
  obtain ⟨s, hs⟩ := sheetrange_ok names x y hx hy
  obtain ⟨t, ht⟩ := cellnamerel_ok r1 c1 a c
  obtain ⟨u, hu⟩ := cellnamerel_ok (r2 - 1) (c2 - 1) b d
  unfold rangename3drel sheetrangerel rangename2drel
  simp only [Bool.not_false, Bool.and_self, if_true, hs, Bool.true_or, ht, hu, bind, Except.bind, pure, Except.pure]
  by_cases h : s = []
  · exact ⟨_, if_pos h⟩
  · exact ⟨_, if_neg h⟩

theorem ref3dOpnd_some {bk : Book} {x y : Nat} (hx : x < bk.sheetNames.length) (hy : y < bk.sheetNames.length) {bv : Nat} {r1 r2 c1 c2 : Coord}
    (hf1 : AddrFits bv r1 c1) (hf2 : AddrFits bv r2 c2) :
    ∃ o, ref3dOpnd bk 1 (mkRef3d ((x : Int), (y : Int)) (addrOf r1 c1) (addrOf r2 c2)) (r1.isRel || c1.isRel || r2.isRel || c2.isRel) none none true = .ok o := by
  unfold ref3dOpnd
  by_cases h : (r1.isRel || c1.isRel || r2.isRel || c2.isRel) = true
  · rw [if_pos h]
    obtain ⟨s, hs⟩ := rangename3drel_ok bk.sheetNames x y hx hy r1.num (r2.num + 1) c1.num (c2.num + 1) r1.isRel r2.isRel c1.isRel c2.isRel
    simp only [mkRef3d, addrOf, List.getD_cons_zero, List.getD_cons_succ, hs, bind, Except.bind]
    exact ⟨_, rfl⟩
  · rw [if_neg h]
    simp only [Bool.or_eq_true, not_or, Bool.not_eq_true] at h
    obtain ⟨⟨⟨h1, h2⟩, h3⟩, h4⟩ := h
    cases r1 with
    | rel _ => cases h1
    | abs r1 =>
    cases r2 with
    | rel _ => cases h3
    | abs r2 =>
    cases c1 with
    | rel _ => cases h2
    | abs c1 =>
    cases c2 with
    | rel _ => cases h4
    | abs c2 =>
    obtain ⟨s, hs⟩ := rangename3d_ok bk.sheetNames x y r1 r2 c1 c2 hx hy hf1.2 hf2.2
    simp only [mkRef3d, addrOf, Coord.num, hs, bind, Except.bind]
    exact ⟨_, rfl⟩

theorem evRef3d_some {loc : Bytes → Nat → Nat → Prop} {env : FEnv} (hb : RelBookFull loc env) {sh : Bytes} {x y : Nat} (hl : loc sh x y) {r c : Coord}
    (hf : AddrFits env.bv r c) (pre rest : Bytes) (st : EvSt) :
    ∃ st', evRef3d env (pre ++ ((RelExpr.cell sh r c).tokens env.bv ++ rest)) (pre.length : Int) 1 st = .ok st' := by
  obtain ⟨hlen, hs⟩ := hb.loc sh x y hl
  have ha := C47_cell_address env.bv r c hf none none (pre ++ 0x3A :: sh) rest
  have hp : (((pre ++ 0x3A :: sh).length : Nat) : Int) = if env.bv ≥ 80 then (pre.length : Int) + 3 else pre.length + 15 := by
    rw [List.length_append, List.length_cons, hlen]
    by_cases h8 : env.bv ≥ 80
    · rw [if_pos h8, if_pos h8]; omega
    · rw [if_neg h8, if_neg h8]; omega
  rw [hp] at ha
  have hs := hs pre 0x3A (encAddr env.bv r c ++ rest)
  unfold evRef3d
  rw [show pre ++ ((RelExpr.cell sh r c).tokens env.bv ++ rest) = pre ++ 0x3A :: sh ++ encAddr env.bv r c ++ rest by simp [RelExpr.tokens], ha]
  rw [show pre ++ 0x3A :: sh ++ encAddr env.bv r c ++ rest = pre ++ 0x3A :: (sh ++ (encAddr env.bv r c ++ rest)) by simp, hs]
  simp only [bind, Except.bind]
  obtain ⟨o, ho⟩ := ref3dOpnd_some (hb.range sh x y hl).1 (hb.range sh x y hl).2 hf hf
  rw [show (r.isRel || c.isRel || r.isRel || c.isRel) = ((addrOf r c).rowRel || (addrOf r c).colRel) by cases r <;> cases c <;> rfl] at ho
  rw [ho]
  exact ⟨_, rfl⟩

theorem evArea3d_some {loc : Bytes → Nat → Nat → Prop} {env : FEnv} (hb : RelBookFull loc env) {sh : Bytes} {x y : Nat} (hl : loc sh x y) {r1 r2 c1 c2 : Coord}
    (hf1 : AddrFits env.bv r1 c1) (hf2 : AddrFits env.bv r2 c2) (pre rest : Bytes) (st : EvSt) :
    ∃ st', evArea3d env (pre ++ ((RelExpr.area sh r1 r2 c1 c2).tokens env.bv ++ rest)) (pre.length : Int) 1 st = .ok st' := by
  obtain ⟨hlen, hs⟩ := hb.loc sh x y hl
  have ha := C47_area_address env.bv r1 r2 c1 c2 hf1 hf2 none none (pre ++ 0x3B :: sh) rest
  have hp : (((pre ++ 0x3B :: sh).length : Nat) : Int) = if env.bv ≥ 80 then (pre.length : Int) + 3 else pre.length + 15 := by
    rw [List.length_append, List.length_cons, hlen]
    by_cases h8 : env.bv ≥ 80
    · rw [if_pos h8, if_pos h8]; omega
    · rw [if_neg h8, if_neg h8]; omega
  rw [hp] at ha
  have hs := hs pre 0x3B (encArea env.bv r1 r2 c1 c2 ++ rest)
  unfold evArea3d
  rw [show pre ++ ((RelExpr.area sh r1 r2 c1 c2).tokens env.bv ++ rest) = pre ++ 0x3B :: sh ++ encArea env.bv r1 r2 c1 c2 ++ rest by simp [RelExpr.tokens], ha]
  rw [show pre ++ 0x3B :: sh ++ encArea env.bv r1 r2 c1 c2 ++ rest = pre ++ 0x3B :: (sh ++ (encArea env.bv r1 r2 c1 c2 ++ rest)) by simp, hs]
  simp only [bind, Except.bind]
  obtain ⟨o, ho⟩ := ref3dOpnd_some (hb.range sh x y hl).1 (hb.range sh x y hl).2 hf1 hf2
  rw [show (r1.isRel || c1.isRel || r2.isRel || c2.isRel) = ((addrOf r1 c1).rowRel || (addrOf r1 c1).colRel || (addrOf r2 c2).rowRel || (addrOf r2 c2).colRel) by rfl] at ho
  rw [ho]
  exact ⟨_, rfl⟩

/-- Evaluation of the tokens of an expression goes on after them, if the names that it uses can be evaluated. -/
theorem rel_steps {loc : Bytes → Nat → Nat → Prop} {env : FEnv} (hb : RelBookFull loc env) {tab : List Int} (htab : szdict env.bv = .ok tab) {rc : NameTbl → Nat → Int → R NameTbl} {n : Nat}
    (hrc : ∀ t i g t', RelTbl env.bv loc env.bk.nameObjs t → rc t i g = .ok t' → RelTbl env.bv loc env.bk.nameObjs t')
    (hrl : ∀ t i g t', t.length = n → rc t i g = .ok t' → t'.length = n) {shown : Nat → Prop} {d : Nat}
    (huse : ∀ d' < d, ∀ k e l, shown k → RelFormula env.bv env.bk.nameObjs k e → RelVal env.bv loc env.bk.nameObjs e l → RelNest env.bv loc env.bk.nameObjs shown d' e →
      ∀ st : EvSt, RelTbl env.bv loc env.bk.nameObjs st.tbl → st.tbl.length = n → ∃ st', nameRef env rc st k = .ok st') (namex : Int) (data : Bytes) (len : Nat)
    {x : RelExpr} {l : List MovingArea} (hv : RelVal env.bv loc env.bk.nameObjs x l) : RelNest env.bv loc env.bk.nameObjs shown d x →
    ∀ (pre rest : Bytes) (fuel : Nat) (st : EvSt), data = pre ++ (x.tokens env.bv ++ rest) → pre.length + (x.tokens env.bv).length ≤ len → RelTbl env.bv loc env.bk.nameObjs st.tbl →
      st.tbl.length = n → (x.tokens env.bv).length ≤ fuel →
      ∃ f o tbl rel, StandsFor o l ∧ RelTbl env.bv loc env.bk.nameObjs tbl ∧ tbl.length = n ∧ fuel ≤ f + (x.tokens env.bv).length ∧
        evLoop env rc tab namex data len fuel st pre.length =
          evLoop env rc tab namex data len f { st with stack := o :: st.stack, tbl := tbl, anyRel := rel } ((pre.length + (x.tokens env.bv).length : Nat) : Int) := by
  have hsz : (env.bv ≥ 80 ∧ tab = sztab4) ∨ (¬ env.bv ≥ 80 ∧ tab = sztab3) := by
    rcases hb.bv with h | h | h <;> rw [h] at htab <;> rw [h] <;> simp [szdict] at htab <;> subst htab <;> simp
  have t15 : tab.getD 0x15 (-2) = 1 := by rcases hsz with ⟨_, rfl⟩ | ⟨_, rfl⟩ <;> decide
  have t11 : tab.getD 0x11 (-2) = 1 := by rcases hsz with ⟨_, rfl⟩ | ⟨_, rfl⟩ <;> decide
  have t0F : tab.getD 0x0F (-2) = 1 := by rcases hsz with ⟨_, rfl⟩ | ⟨_, rfl⟩ <;> decide
  have t10 : tab.getD 0x10 (-2) = 1 := by rcases hsz with ⟨_, rfl⟩ | ⟨_, rfl⟩ <;> decide
  have t9 : tab.getD (9 + 32) (-2) = 3 := by rcases hsz with ⟨_, rfl⟩ | ⟨_, rfl⟩ <;> decide
  have t3 : tab.getD (3 + 32) (-2) = (1 + 2 + (if env.bv ≥ 80 then 2 else 12 : Nat) : Int) := by rcases hsz with ⟨h, rfl⟩ | ⟨h, rfl⟩ <;> simp [h] <;> decide
  have t4 : ∀ r c, tab.getD (4 + 32) (-2) = (1 + (encAddr env.bv r c).length : Int) := by
    intro r c; rcases hsz with ⟨h, rfl⟩ | ⟨h, rfl⟩ <;> simp [encAddr, encCol, le16_length, h] <;> decide
  have t5 : ∀ r1 r2 c1 c2, tab.getD (5 + 32) (-2) = (1 + (encArea env.bv r1 r2 c1 c2).length : Int) := by
    intro r1 r2 c1 c2; rcases hsz with ⟨h, rfl⟩ | ⟨h, rfl⟩ <;> simp [encArea, encCol, le16_length, h] <;> decide
  have t1A : ∀ r c, tab.getD (0x1A + 32) (-2) = (1 + (if env.bv ≥ 80 then 2 else 14 : Nat) + (encAddr env.bv r c).length : Int) := by
    intro r c; rcases hsz with ⟨h, rfl⟩ | ⟨h, rfl⟩ <;> simp [encAddr, encCol, le16_length, h] <;> decide
  have t1B : ∀ r1 r2 c1 c2, tab.getD (0x1B + 32) (-2) = (1 + (if env.bv ≥ 80 then 2 else 14 : Nat) + (encArea env.bv r1 r2 c1 c2).length : Int) := by
    intro r1 r2 c1 c2; rcases hsz with ⟨h, rfl⟩ | ⟨h, rfl⟩ <;> simp [encArea, encCol, le16_length, h] <;> decide
  clear hsz
  induction hv with
  | here r c hf =>
    intro _ pre rest fuel st hd hlen hg hn hfu
    have hp : pre.length < len := by simp only [RelExpr.tokens, List.length_cons] at hlen; omega
    have h1 := evStep_class (env := env) (rc := rc) (namex := namex) (tab := tab) (data := data) (p := pre.length) st (b := 0x24) (rest := encAddr env.bv r c ++ rest)
      (by rw [hd, drop_pre]; simp [RelExpr.tokens]) (by decide : _ = 4) (by decide : _ = 1) (by decide) (t4 r c) (by omega)
    obtain ⟨o, ho, hm⟩ := evRef_here hf pre rest st
    have e : evClass env rc namex data (pre.length : Int) 4 1 st = .ok { st with stack := o :: st.stack, anyRel := true } := by rw [hd]; simp [evClass]; exact ho
    rw [e] at h1
    obtain ⟨f, rfl⟩ : ∃ f, fuel = f + 1 := ⟨fuel - 1, by simp only [RelExpr.tokens, List.length_cons] at hfu; omega⟩
    refine ⟨f, o, st.tbl, true, hm, hg, hn, by simp only [RelExpr.tokens, List.length_cons]; omega, ?_⟩
    rw [evLoop_next hp h1, show ((pre.length + ((RelExpr.here r c).tokens env.bv).length : Nat) : Int) = (pre.length : Int) + (1 + (encAddr env.bv r c).length) by
      simp [RelExpr.tokens]; omega]
  | hereArea r1 r2 c1 c2 hf1 hf2 =>
    intro _ pre rest fuel st hd hlen hg hn hfu
    have hp : pre.length < len := by simp only [RelExpr.tokens, List.length_cons] at hlen; omega
    have h1 := evStep_class (env := env) (rc := rc) (namex := namex) (tab := tab) (data := data) (p := pre.length) st (b := 0x25) (rest := encArea env.bv r1 r2 c1 c2 ++ rest)
      (by rw [hd, drop_pre]; simp [RelExpr.tokens]) (by decide : _ = 5) (by decide : _ = 1) (by decide) (t5 r1 r2 c1 c2) (by omega)
    obtain ⟨o, ho, hm⟩ := evArea_here hf1 hf2 pre rest st
    have e : evClass env rc namex data (pre.length : Int) 5 1 st = .ok { st with stack := o :: st.stack, anyRel := true } := by rw [hd]; simp [evClass]; exact ho
    rw [e] at h1
    obtain ⟨f, rfl⟩ : ∃ f, fuel = f + 1 := ⟨fuel - 1, by simp only [RelExpr.tokens, List.length_cons] at hfu; omega⟩
    refine ⟨f, o, st.tbl, true, hm, hg, hn, by simp only [RelExpr.tokens, List.length_cons]; omega, ?_⟩
    rw [evLoop_next hp h1, show ((pre.length + ((RelExpr.hereArea r1 r2 c1 c2).tokens env.bv).length : Nat) : Int) = (pre.length : Int) + (1 + (encArea env.bv r1 r2 c1 c2).length) by
      simp [RelExpr.tokens]; omega]
  | cell sh r c x y hl hf =>
    intro _ pre rest fuel st hd hlen hg hn hfu
    have hp : pre.length < len := by simp only [RelExpr.tokens, List.length_cons] at hlen; omega
    have h1 := evStep_class (env := env) (rc := rc) (namex := namex) (tab := tab) (data := data) (p := pre.length) st (b := 0x3A) (rest := sh ++ encAddr env.bv r c ++ rest)
      (by rw [hd, drop_pre]; simp [RelExpr.tokens]) (by decide : _ = 0x1A) (by decide : _ = 1) (by decide) (t1A r c) (by omega)
    have e : evClass env rc namex data (pre.length : Int) 0x1A 1 st = evRef3d env (pre ++ ((RelExpr.cell sh r c).tokens env.bv ++ rest)) (pre.length : Int) 1 st := by
      rw [hd]; simp [evClass]
    obtain ⟨st1, h2⟩ := evRef3d_some hb hl hf pre rest st
    rw [e, h2] at h1
    obtain ⟨o, rel, rfl, hm⟩ := evRef3d_rel hb.toRelBook hl hf pre rest st st1 h2
    obtain ⟨f, rfl⟩ : ∃ f, fuel = f + 1 := ⟨fuel - 1, by simp only [RelExpr.tokens, List.length_cons] at hfu; omega⟩
    refine ⟨f, o, st.tbl, rel, hm, hg, hn, by simp only [RelExpr.tokens, List.length_cons]; omega, ?_⟩
    rw [evLoop_next hp h1, show ((pre.length + ((RelExpr.cell sh r c).tokens env.bv).length : Nat) : Int) =
          (pre.length : Int) + (1 + (if env.bv ≥ 80 then 2 else 14 : Nat) + (encAddr env.bv r c).length) by
        simp only [RelExpr.tokens, List.length_cons, List.length_append, (hb.loc sh x y hl).1]; omega]
  | area sh r1 r2 c1 c2 x y hl hf1 hf2 =>
    intro _ pre rest fuel st hd hlen hg hn hfu
    have hp : pre.length < len := by simp only [RelExpr.tokens, List.length_cons] at hlen; omega
    have h1 := evStep_class (env := env) (rc := rc) (namex := namex) (tab := tab) (data := data) (p := pre.length) st (b := 0x3B) (rest := sh ++ encArea env.bv r1 r2 c1 c2 ++ rest)
      (by rw [hd, drop_pre]; simp [RelExpr.tokens]) (by decide : _ = 0x1B) (by decide : _ = 1) (by decide) (t1B r1 r2 c1 c2) (by omega)
    have e : evClass env rc namex data (pre.length : Int) 0x1B 1 st = evArea3d env (pre ++ ((RelExpr.area sh r1 r2 c1 c2).tokens env.bv ++ rest)) (pre.length : Int) 1 st := by
      rw [hd]; simp [evClass]
    obtain ⟨st1, h2⟩ := evArea3d_some hb hl hf1 hf2 pre rest st
    rw [e, h2] at h1
    obtain ⟨o, rel, rfl, hm⟩ := evArea3d_rel hb.toRelBook hl hf1 hf2 pre rest st st1 h2
    obtain ⟨f, rfl⟩ : ∃ f, fuel = f + 1 := ⟨fuel - 1, by simp only [RelExpr.tokens, List.length_cons] at hfu; omega⟩
    refine ⟨f, o, st.tbl, rel, hm, hg, hn, by simp only [RelExpr.tokens, List.length_cons]; omega, ?_⟩
    rw [evLoop_next hp h1, show ((pre.length + ((RelExpr.area sh r1 r2 c1 c2).tokens env.bv).length : Nat) : Int) =
          (pre.length : Int) + (1 + (if env.bv ≥ 80 then 2 else 14 : Nat) + (encArea env.bv r1 r2 c1 c2).length) by
        simp only [RelExpr.tokens, List.length_cons, List.length_append, (hb.loc sh x y hl).1]; omega]
  | name k unused e l hk hu hf hv _ =>
    intro hnest pre rest fuel st hd hlen hg hn hfu
    cases hnest with
    | name d k unused e' l' n1 n2 n3 n4 =>
    have hp : pre.length < len := by simp only [RelExpr.tokens, List.length_cons] at hlen; omega
    have hd' : data.drop pre.length = 0x23 :: (le16 (k + 1) ++ (unused ++ rest)) := by rw [hd, drop_pre]; simp [RelExpr.tokens]
    have h1 := evStep_class (env := env) (rc := rc) (namex := namex) (tab := tab) st hd' (by decide : _ = 3) (by decide : _ = 1) (by decide) t3 (by omega)
    have hu' := unpackH_at (data := data) (p := pre.length + 1) hk (by rw [← List.drop_drop, hd']; rfl)
    rw [show ((pre.length + 1 : Nat) : Int) + 2 = (pre.length : Int) + 3 by omega, show ((pre.length + 1 : Nat) : Int) = (pre.length : Int) + 1 by omega] at hu'
    have e1 : evClass env rc namex data (pre.length : Int) 3 1 st = nameRef env rc st k := by
      simp [evClass, hu', bind, Except.bind]
    obtain ⟨st1, h2⟩ := huse d (by omega) k e' l' n1 n2 n3 n4 st hg hn
    have hn1 : st1.tbl.length = n := nameRef_tbl (Inv := fun t => t.length = n) hrl hn h2
    rw [e1, h2] at h1
    obtain ⟨o, tbl, hm, ht, rfl⟩ := nameRef_rel hrc hg hf hv h2
    obtain ⟨f, rfl⟩ : ∃ f, fuel = f + 1 := ⟨fuel - 1, by simp only [RelExpr.tokens, List.length_cons] at hfu; omega⟩
    refine ⟨f, o, tbl, st.anyRel, hm, ht, hn1, by simp only [RelExpr.tokens, List.length_cons]; omega, ?_⟩
    rw [evLoop_next hp h1, show ((pre.length + ((RelExpr.name k unused).tokens env.bv).length : Nat) : Int) = (pre.length : Int) + (1 + 2 + (if env.bv ≥ 80 then 2 else 12 : Nat)) by
        simp only [RelExpr.tokens, List.length_cons, List.length_append, le16_length, hu]; omega]
  | paren e l hv ih =>
    intro hnest pre rest fuel st hd hlen hg hn hfu
    cases hnest with
    | paren _ _ hnest =>
    simp only [RelExpr.tokens, List.length_append, List.length_cons, List.length_nil, List.append_assoc] at hd hlen hfu ⊢
    obtain ⟨f, o, tbl, rel, hm, ht, hn1, hf, h1⟩ := ih hnest pre ([0x15] ++ rest) fuel st hd (by omega) hg hn (by omega)
    have h2 := evStep_plain (env := env) (rc := rc) (namex := namex) (tab := tab) (data := data) (p := pre.length + (e.tokens env.bv).length)
      { st with stack := o :: st.stack, tbl := tbl, anyRel := rel } (b := 0x15) (rest := rest) (s' := o :: st.stack)
      (by rw [hd, ← List.append_assoc, ← List.length_append, drop_pre]; rfl) (by decide : _ = 0x15) (by decide) t15
      (by simp [evPlain])
    obtain ⟨g, rfl⟩ : ∃ g, f = g + 1 := ⟨f - 1, by omega⟩
    refine ⟨g, o, tbl, rel, hm, ht, hn1, by omega, ?_⟩
    rw [h1, evLoop_next (by omega) h2, show ((pre.length + ((e.tokens env.bv).length + (0 + 1)) : Nat) : Int) = ((pre.length + (e.tokens env.bv).length : Nat) : Int) + 1 by omega]
  | mem size e l hs hv ih =>
    intro hnest pre rest fuel st hd hlen hg hn hfu
    cases hnest with
    | mem _ _ _ hnest =>
    simp only [RelExpr.tokens, List.length_append, List.length_cons, List.cons_append, List.append_assoc, le16_length] at hd hlen hfu ⊢
    have hd' : data.drop pre.length = 0x29 :: (le16 size ++ (e.tokens env.bv ++ rest)) := by rw [hd, drop_pre]
    have h1 := evStep_class (env := env) (rc := rc) (namex := namex) (tab := tab) st hd' (by decide : _ = 9) (by decide : _ = 1) (by decide) t9 (by decide)
    have hu := unpackH_at (data := data) (p := pre.length + 1) hs (by rw [← List.drop_drop, hd']; rfl)
    rw [show ((pre.length + 1 : Nat) : Int) + 2 = (pre.length : Int) + 3 by omega, show ((pre.length + 1 : Nat) : Int) = (pre.length : Int) + 1 by omega] at hu
    have e1 : evClass env rc namex data (pre.length : Int) 9 1 st = .ok st := by
      simp [evClass, hu, bind, Except.bind, pure, Except.pure]
    rw [e1] at h1
    have e2 : (pre.length : Int) + 3 = (((pre ++ 0x29 :: le16 size).length : Nat) : Int) := by simp [le16_length]
    obtain ⟨f, rfl⟩ : ∃ f, fuel = f + 1 := ⟨fuel - 1, by omega⟩
    obtain ⟨g, o, tbl, rel, hm, ht, hn1, hf, h2⟩ := ih hnest (pre ++ 0x29 :: le16 size) rest f st (by rw [hd]; simp)
      (by simp only [List.length_append, List.length_cons, le16_length]; omega) hg hn (by omega)
    refine ⟨g, o, tbl, rel, hm, ht, hn1, by omega, ?_⟩
    rw [evLoop_next (by omega) h1]
    simp only [e2]
    rw [h2, show ((pre.length + (2 + (e.tokens env.bv).length + 1) : Nat) : Int) = (((pre ++ 0x29 :: le16 size).length + (e.tokens env.bv).length : Nat) : Int) by
      simp only [List.length_append, List.length_cons, le16_length]; omega]
  | range a b x y ha _ he iha ihb =>
    intro hnest pre rest fuel st hd hlen hg hn hfu
    cases hnest with
    | range _ _ _ hna hnb =>
    simp only [RelExpr.tokens, List.length_append, List.length_cons, List.length_nil, List.append_assoc] at hd hlen hfu ⊢
    obtain ⟨f, oa, tbl, rel, hma, ht, hn1, hf1, h1⟩ := iha hna pre (b.tokens env.bv ++ ([0x11] ++ rest)) fuel st hd (by omega) hg hn (by omega)
    obtain ⟨f', ob, tbl', rel', hmb, ht', hn2, hf2, h2⟩ := ihb hnb (pre ++ a.tokens env.bv) ([0x11] ++ rest) f
      { st with stack := oa :: st.stack, tbl := tbl, anyRel := rel } (by rw [hd]; simp) (by rw [List.length_append]; omega) ht hn1 (by omega)
    obtain ⟨o, ho, hm⟩ := range_stands hma hmb ((moves_six ha).2 x (List.mem_singleton.mpr rfl)) he st.stack
    have h3 := evStep_plain (env := env) (rc := rc) (namex := namex) (tab := tab) (data := data) (p := (pre ++ a.tokens env.bv).length + (b.tokens env.bv).length)
      { st with stack := ob :: oa :: st.stack, tbl := tbl', anyRel := rel' } (b := 0x11) (rest := rest) (s' := o :: st.stack)
      (by rw [hd, ← List.append_assoc, ← List.append_assoc, ← List.length_append, drop_pre]; rfl) (by decide : _ = 0x11) (by decide) t11
      (by simp [evPlain, ho, bind, Except.bind]; rfl)
    obtain ⟨g, rfl⟩ : ∃ g, f' = g + 1 := ⟨f' - 1, by omega⟩
    refine ⟨g, o, tbl', rel', hm, ht', hn2, by omega, ?_⟩
    rw [h1, ← List.length_append, h2, evLoop_next (by rw [List.length_append]; omega) h3,
      show ((pre.length + ((a.tokens env.bv).length + ((b.tokens env.bv).length + (0 + 1))) : Nat) : Int) = (((pre ++ a.tokens env.bv).length + (b.tokens env.bv).length : Nat) : Int) + 1 by
        rw [List.length_append]; omega]
  | isect a b x y ha _ he iha ihb =>
    intro hnest pre rest fuel st hd hlen hg hn hfu
    cases hnest with
    | isect _ _ _ hna hnb =>
    simp only [RelExpr.tokens, List.length_append, List.length_cons, List.length_nil, List.append_assoc] at hd hlen hfu ⊢
    obtain ⟨f, oa, tbl, rel, hma, ht, hn1, hf1, h1⟩ := iha hna pre (b.tokens env.bv ++ ([0x0F] ++ rest)) fuel st hd (by omega) hg hn (by omega)
    obtain ⟨f', ob, tbl', rel', hmb, ht', hn2, hf2, h2⟩ := ihb hnb (pre ++ a.tokens env.bv) ([0x0F] ++ rest) f
      { st with stack := oa :: st.stack, tbl := tbl, anyRel := rel } (by rw [hd]; simp) (by rw [List.length_append]; omega) ht hn1 (by omega)
    obtain ⟨o, ho, hm⟩ := isect_stands hma hmb ((moves_six ha).2 x (List.mem_singleton.mpr rfl)) he st.stack
    have h3 := evStep_plain (env := env) (rc := rc) (namex := namex) (tab := tab) (data := data) (p := (pre ++ a.tokens env.bv).length + (b.tokens env.bv).length)
      { st with stack := ob :: oa :: st.stack, tbl := tbl', anyRel := rel' } (b := 0x0F) (rest := rest) (s' := o :: st.stack)
      (by rw [hd, ← List.append_assoc, ← List.append_assoc, ← List.length_append, drop_pre]; rfl) (by decide : _ = 0x0F) (by decide) t0F
      (by simp [evPlain, ho, bind, Except.bind]; rfl)
    obtain ⟨g, rfl⟩ : ∃ g, f' = g + 1 := ⟨f' - 1, by omega⟩
    refine ⟨g, o, tbl', rel', hm, ht', hn2, by omega, ?_⟩
    rw [h1, ← List.length_append, h2, evLoop_next (by rw [List.length_append]; omega) h3,
      show ((pre.length + ((a.tokens env.bv).length + ((b.tokens env.bv).length + (0 + 1))) : Nat) : Int) = (((pre ++ a.tokens env.bv).length + (b.tokens env.bv).length : Nat) : Int) + 1 by
        rw [List.length_append]; omega]
  | union a b l y hva _ iha ihb =>
    intro hnest pre rest fuel st hd hlen hg hn hfu
    cases hnest with
    | union _ _ _ hna hnb =>
    simp only [RelExpr.tokens, List.length_append, List.length_cons, List.length_nil, List.append_assoc] at hd hlen hfu ⊢
    obtain ⟨f, oa, tbl, rel, hma, ht, hn1, hf1, h1⟩ := iha hna pre (b.tokens env.bv ++ ([0x10] ++ rest)) fuel st hd (by omega) hg hn (by omega)
    obtain ⟨f', ob, tbl', rel', hmb, ht', hn2, hf2, h2⟩ := ihb hnb (pre ++ a.tokens env.bv) ([0x10] ++ rest) f
      { st with stack := oa :: st.stack, tbl := tbl, anyRel := rel } (by rw [hd]; simp) (by rw [List.length_append]; omega) ht hn1 (by omega)
    obtain ⟨o, ho, hm⟩ := union_stands (moves_six hva).1 hma hmb st.stack
    have h3 := evStep_plain (env := env) (rc := rc) (namex := namex) (tab := tab) (data := data) (p := (pre ++ a.tokens env.bv).length + (b.tokens env.bv).length)
      { st with stack := ob :: oa :: st.stack, tbl := tbl', anyRel := rel' } (b := 0x10) (rest := rest) (s' := o :: st.stack)
      (by rw [hd, ← List.append_assoc, ← List.append_assoc, ← List.length_append, drop_pre]; rfl) (by decide : _ = 0x10) (by decide) t10
      (by simp [evPlain, ho, bind, Except.bind]; rfl)
    obtain ⟨g, rfl⟩ : ∃ g, f' = g + 1 := ⟨f' - 1, by omega⟩
    refine ⟨g, o, tbl', rel', hm, ht', hn2, by omega, ?_⟩
    rw [h1, ← List.length_append, h2, evLoop_next (by rw [List.length_append]; omega) h3,
      show ((pre.length + ((a.tokens env.bv).length + ((b.tokens env.bv).length + (0 + 1))) : Nat) : Int) = (((pre ++ a.tokens env.bv).length + (b.tokens env.bv).length : Nat) : Int) + 1 by
        rw [List.length_append]; omega]

theorem RelNest.mono {bv : Nat} {loc : Bytes → Nat → Nat → Prop} {names : List NameObj} {shown : Nat → Prop} {d : Nat} {x : RelExpr} (h : RelNest bv loc names shown d x) :
    ∀ {d' : Nat}, d ≤ d' → RelNest bv loc names shown d' x := by
  induction h with
  | here d r c => intro d' _; exact .here d' r c
  | hereArea d r1 r2 c1 c2 => intro d' _; exact .hereArea d' r1 r2 c1 c2
  | cell d sh r c => intro d' _; exact .cell d' sh r c
  | area d sh r1 r2 c1 c2 => intro d' _; exact .area d' sh r1 r2 c1 c2
  | name d k u e l h1 h2 h3 _ ih =>
    intro d' hd
    obtain ⟨d', rfl⟩ : ∃ m, d' = m + 1 := ⟨d' - 1, by omega⟩
    exact .name d' k u e l h1 h2 h3 (ih (by omega))
  | paren d e _ ih => intro d' hd; exact .paren d' e (ih hd)
  | mem d size e _ ih => intro d' hd; exact .mem d' size e (ih hd)
  | range d a b _ _ iha ihb => intro d' hd; exact .range d' a b (iha hd) (ihb hd)
  | isect d a b _ _ iha ihb => intro d' hd; exact .isect d' a b (iha hd) (ihb hd)
  | union d a b _ _ iha ihb => intro d' hd; exact .union d' a b (iha hd) (ihb hd)

/-- The state in which the loop of a name ends. -/
theorem evaluateName_of {env : FEnv} {tab : List Int} (htab : szdict env.bv = .ok tab) {k : Nat} {t : NameTbl} {i : Nat} {g : Int} {o : NameObj} (hi : env.bk.nameObjs[i]? = some o)
    (h : ∃ st, evLoop env (evaluateName env k) tab g o.rawFormula o.basicFormulaLen o.basicFormulaLen { stack := if o.basicFormulaLen = 0 then [{}] else [], tbl := t } 0 = .ok st) :
    ∃ t', evaluateName env (k + 1) t i g = .ok t' := by
  obtain ⟨st, hs⟩ := h
  simp only [evaluateName, evBody, hi, htab, bind, Except.bind, hs]
  exact ⟨_, rfl⟩

section
variable {loc : Bytes → Nat → Nat → Prop} {env : FEnv} {tab : List Int} {shown : Nat → Prop}

theorem rel_len {env : FEnv} (k : Nat) : ∀ (t : NameTbl) (i : Nat) (g : Int) (t' : NameTbl), t.length = env.bk.nameObjs.length → evaluateName env k t i g = .ok t' →
    t'.length = env.bk.nameObjs.length := fun t i g t' h h' => (filled_kept _ (fun _ => False) k t i g t' ⟨h, fun _ h => h.elim⟩ h').1

/-- A name that can be evaluated can be used. -/
theorem rel_use (hb : RelBookFull loc env) {k : Nat} {j : Nat} {e : RelExpr} {l : List MovingArea}
    (hev : ∀ (t : NameTbl), RelTbl env.bv loc env.bk.nameObjs t → t.length = env.bk.nameObjs.length → ∃ t', evaluateName env k t j j = .ok t')
    (hs : ∀ o, env.bk.nameObjs[j]? = some o → ∃ s, nameShown env.bk o = .ok s)
    (hj : RelFormula env.bv env.bk.nameObjs j e) (hv : RelVal env.bv loc env.bk.nameObjs e l) (st : EvSt) (hg : RelTbl env.bv loc env.bk.nameObjs st.tbl)
    (hl : st.tbl.length = env.bk.nameObjs.length) : ∃ st', nameRef env (evaluateName env k) st j = .ok st' := by
  obtain ⟨oj, rest, j1, j2, j3, j4, j5⟩ := hj
  obtain ⟨s, hs⟩ := hs oj j1
  have hp : pyPos env.bk.nameObjs (j : Int) = j := by unfold pyPos; rw [if_neg (by omega)]; rfl
  have hjl := (List.getElem?_eq_some_iff.mp j1).1
  unfold nameRef
  rw [(idx_ok_nat _ _ _).mpr j1]
  simp only [bind, Except.bind, hp]
  have he : ∃ t', evaluated (evaluateName env k) st.tbl j (j : Int) = .ok t' ∧ RelTbl env.bv loc env.bk.nameObjs t' ∧ ∃ ev, t'[j]? = some (some ev) := by
    unfold evaluated
    cases hc : st.tbl[j]? with
    | none => rw [List.getElem?_eq_none_iff] at hc; omega
    | some ev =>
      cases ev with
      | some ev => exact ⟨st.tbl, rfl, hg, ev, hc⟩
      | none =>
        obtain ⟨t', ht'⟩ := hev st.tbl hg hl
        have hfill := evaluateName_filled (P := fun _ => False) (n := env.bk.nameObjs.length) ⟨hl, fun _ h => h.elim⟩ hjl ht'
        exact ⟨t', ht', rel_kept hb.toRelBook k _ _ _ _ hg ht', hfill.2 j (Or.inr rfl)⟩
  obtain ⟨t', e1, e2, ev, e3⟩ := he
  rw [e1]
  simp only [e3]
  obtain ⟨o'', rel, rfl, _⟩ := e2 j ev e l e3 ⟨oj, rest, j1, j2, j3, j4, j5⟩ hv
  unfold useName
  rw [if_neg (by simp [j2, j3])]
  simp only [hs, bind, Except.bind]
  exact ⟨_, rfl⟩

/-- Names with values are evaluated. -/
theorem rel_eval (hb : RelBookFull loc env) (htab : szdict env.bv = .ok tab) (hshown : ∀ k, shown k → ∀ o, env.bk.nameObjs[k]? = some o → ∃ s, nameShown env.bk o = .ok s) :
    ∀ (k d : Nat) (t : NameTbl) (i : Nat) (g : Int) (x : RelExpr) (l : List MovingArea), RelTbl env.bv loc env.bk.nameObjs t → t.length = env.bk.nameObjs.length →
      RelFormula env.bv env.bk.nameObjs i x → RelVal env.bv loc env.bk.nameObjs x l → RelNest env.bv loc env.bk.nameObjs shown d x → d < k →
      ∃ t', evaluateName env k t i g = .ok t' := by
  intro k
  induction k with
  | zero => intro d t i g x l _ _ _ _ _ h; omega
  | succ k ih =>
    intro d t i g x l hg hl hx hv hn hk
    obtain ⟨o, rest, f1, _, _, f4, f5⟩ := hx
    refine evaluateName_of htab f1 ?_
    obtain ⟨f, op, tbl, rel, _, _, _, _, h6⟩ := rel_steps hb htab (rel_kept hb.toRelBook k) (rel_len k) (shown := shown) (d := d)
      (fun d' hd j e l' hs hj hv' hn' st hg' hl' => rel_use hb (fun t ht hl => ih d' t j j e l' ht hl hj hv' hn' (by omega)) (hshown j hs) hj hv' st hg' hl')
      g o.rawFormula o.basicFormulaLen hv hn [] rest o.basicFormulaLen { stack := [], tbl := t } (by simpa using f4) (by simp [f5]) hg hl (by omega)
    rw [if_neg (by rw [f5]; exact rel_tokens_ne _ x)]
    refine ⟨{ stack := [op], anyRel := rel, tbl := tbl }, Eq.trans h6 ?_⟩
    cases f <;> simp only [evLoop] <;> rw [if_neg (by rw [f5]; simp)]

/-- So is a range or an intersection of two areas. -/
theorem rel_pair (hb : RelBookFull loc env) (htab : szdict env.bv = .ok tab) (hshown : ∀ k, shown k → ∀ o, env.bk.nameObjs[k]? = some o → ∃ s, nameShown env.bk o = .ok s)
    (k d : Nat) (t : NameTbl) (i : Nat) (g : Int) (x a b : RelExpr) (m n : MovingArea) (hg : RelTbl env.bv loc env.bk.nameObjs t) (hl : t.length = env.bk.nameObjs.length)
    (hx : RelFormula env.bv env.bk.nameObjs i x) (hab : x = .range a b ∨ x = .isect a b) (hva : RelVal env.bv loc env.bk.nameObjs a [m]) (hvb : RelVal env.bv loc env.bk.nameObjs b [n])
    (hn : RelNest env.bv loc env.bk.nameObjs shown d x) (hk : d < k + 1) : ∃ t', evaluateName env (k + 1) t i g = .ok t' := by
  by_cases he : m.moves = n.moves
  · rcases hab with rfl | rfl
    · exact rel_eval hb htab hshown (k + 1) d t i g _ _ hg hl hx (.range a b m n hva hvb he) hn hk
    · exact rel_eval hb htab hshown (k + 1) d t i g _ _ hg hl hx (.isect a b m n hva hvb he) hn hk
  · have hnab : RelNest env.bv loc env.bk.nameObjs shown d a ∧ RelNest env.bv loc env.bk.nameObjs shown d b := by
      rcases hab with rfl | rfl
      · cases hn with | range _ _ _ h1 h2 => exact ⟨h1, h2⟩
      · cases hn with | isect _ _ _ h1 h2 => exact ⟨h1, h2⟩
    have h6a := (moves_six hva).2 m (List.mem_singleton.mpr rfl)
    have h6b := (moves_six hvb).2 n (List.mem_singleton.mpr rfl)
    have htok : ∃ (c : UInt8), x.tokens env.bv = a.tokens env.bv ++ (b.tokens env.bv ++ [c]) ∧ (c = 0x11 ∨ c = 0x0F) := by
      rcases hab with rfl | rfl
      · exact ⟨0x11, rfl, .inl rfl⟩
      · exact ⟨0x0F, rfl, .inr rfl⟩
    obtain ⟨c, hc, hcc⟩ := htok
    obtain ⟨o, rest, f1, _, _, f4, f5⟩ := hx
    refine evaluateName_of htab f1 ?_
    rw [hc] at f4 f5
    have hlen : o.basicFormulaLen = (a.tokens env.bv).length + (b.tokens env.bv).length + 1 := by
      rw [f5]; simp only [List.length_append, List.length_cons, List.length_nil]; omega
    have huse : ∀ d' < d, ∀ j e l, shown j → RelFormula env.bv env.bk.nameObjs j e → RelVal env.bv loc env.bk.nameObjs e l → RelNest env.bv loc env.bk.nameObjs shown d' e →
        ∀ st : EvSt, RelTbl env.bv loc env.bk.nameObjs st.tbl → st.tbl.length = env.bk.nameObjs.length → ∃ st', nameRef env (evaluateName env k) st j = .ok st' :=
      fun d' hd j e l' hs hj hv' hn' st hg' hl' => rel_use hb (fun t ht hl => rel_eval hb htab hshown k d' t j j e l' ht hl hj hv' hn' (by omega)) (hshown j hs) hj hv' st hg' hl'
    obtain ⟨f, oa, tbl, rel, hma, ht, hn1, hf1, h1⟩ := rel_steps hb htab (rel_kept hb.toRelBook k) (rel_len k) huse
      g o.rawFormula o.basicFormulaLen hva hnab.1 [] (b.tokens env.bv ++ ([c] ++ rest)) o.basicFormulaLen { stack := [], tbl := t } (by rw [f4]; simp) (by simp only [List.length_nil]; omega) hg hl (by omega)
    have e0 : ([] : Bytes).length + (a.tokens env.bv).length = (a.tokens env.bv).length := by simp
    rw [e0] at h1
    obtain ⟨f', ob, tbl', rel', hmb, ht', hn2, hf2, h2⟩ := rel_steps hb htab (rel_kept hb.toRelBook k) (rel_len k) huse
      g o.rawFormula o.basicFormulaLen hvb hnab.2 (a.tokens env.bv) ([c] ++ rest) f { stack := [oa], tbl := tbl, anyRel := rel } (by rw [f4]; simp) (by omega) ht hn1 (by omega)
    have hd : o.rawFormula.drop ((a.tokens env.bv).length + (b.tokens env.bv).length) = c :: rest := by
      rw [f4, ← List.append_assoc, List.append_assoc, ← List.length_append, drop_pre]; rfl
    have hend : ∀ f s, evLoop env (evaluateName env k) tab g o.rawFormula o.basicFormulaLen f s
        ((((a.tokens env.bv).length + (b.tokens env.bv).length : Nat) : Int) + 1) = .ok s := by
      intro f s
      cases f <;> simp only [evLoop] <;> rw [if_neg (by omega)]
    have hsz : tab = sztab4 ∨ tab = sztab3 := by
      rcases hb.bv with h | h | h <;> rw [h] at htab <;> simp [szdict] at htab <;> subst htab <;> simp
    obtain ⟨f', rfl⟩ : ∃ g, f' = g + 1 := ⟨f' - 1, by omega⟩
    rw [if_neg (by omega)]
    have h12 := h1.trans h2
    rcases hcc with rfl | rfl
    · obtain ⟨kd, hbox, hkd⟩ := boxOp_lost (f := boxRange) hma hmb h6a h6b he
      have h3 := evStep_plain (env := env) (rc := evaluateName env k) (namex := g) (tab := tab) { stack := [ob, oa], tbl := tbl', anyRel := rel' } (b := 0x11) (rest := rest) hd
        (by decide : _ = 0x11) (by decide) (by rcases hsz with rfl | rfl <;> decide)
        (s' := [{ kind := kd, value := none, rank := 80, text := binText 80 ":".toList oa.rank oa.text ob.rank ob.text }])
        (by simp [evPlain, doRange, hbox, bind, Except.bind, pure, Except.pure])
      exact ⟨_, h12.trans ((evLoop_next (by omega) h3).trans (hend _ _))⟩
    · obtain ⟨kd, hbox, hkd⟩ := boxOp_lost (f := boxIsect) hma hmb h6a h6b he
      have h3 := evStep_plain (env := env) (rc := evaluateName env k) (namex := g) (tab := tab) { stack := [ob, oa], tbl := tbl', anyRel := rel' } (b := 0x0F) (rest := rest) hd
        (by decide : _ = 0x0F) (by decide) (by rcases hsz with rfl | rfl <;> decide)
        (s' := [{ kind := kd, value := none, rank := 0, text := binText 80 " ".toList oa.rank oa.text ob.rank ob.text }])
        (by simp [evPlain, doIsect, hbox, bind, Except.bind, pure, Except.pure])
      exact ⟨_, h12.trans ((evLoop_next (by omega) h3).trans (hend _ _))⟩

/-- Names of both kinds are evaluated. -/
theorem mixed_ok {C : Calc} {loc' : Nat → Nat → Nat → Prop} {fs : Nat → Option VExpr} {level : Nat → Nat} (hb : RelBookFull loc env) (he : Computable C loc' fs env tab level)
    (h10 : ∀ i, level i ≤ 10) (hshown : ∀ k, shown k → ∀ o, env.bk.nameObjs[k]? = some o → ∃ s, nameShown env.bk o = .ok s)
    (hall : ∀ (i : Nat) o, env.bk.nameObjs[i]? = some o → o.macroFlag = 0 → o.binary = 0 →
      o.basicFormulaLen = 0 ∨ (∃ x, fs i = some x) ∨ RelEvaluable env.bv loc env.bk.nameObjs shown i) : ∃ tbl, bookNames env = .ok tbl := by
  refine names_one_by_one (Inv := fun t => VGood C loc' fs t ∧ RelTbl env.bv loc env.bk.nameObjs t)
    (fun t i g t' h h' => ⟨he.kept 11 t i g t' h.1 h', rel_kept hb.toRelBook 11 t i g t' h.2 h'⟩) ?_ ?_
  · intro i o t hi m1 m2 hg hl
    rcases hall i o hi m1 m2 with h0 | ⟨x, hx⟩ | ⟨x, hx, hn, ⟨l, hv⟩ | ⟨a, b, m, n, hab, ha, hb'⟩⟩
    · refine evaluateName_of he.size hi ?_
      rw [h0]
      exact ⟨_, rfl⟩
    · exact compute_ok he 11 t i i x hg.1 hl hx (by have := h10 i; omega)
    · exact rel_eval hb he.size hshown 11 10 t i i x l hg.2 hl hx hv hn (by omega)
    · exact rel_pair hb he.size hshown 10 10 t i i x a b m n hg.2 hl hx hab ha hb' hn (by omega)
  · have h0 : ∀ (i : Nat) e, (env.bk.nameObjs.map fun _ => (none : Option NameEval))[i]? ≠ some (some e) := by
      intro i e hi
      rw [List.getElem?_map] at hi
      cases h1 : env.bk.nameObjs[i]? with
      | none => rw [h1] at hi; cases hi
      | some o => rw [h1] at hi; cases hi
    exact ⟨fun i e x hi => absurd hi (h0 i e), fun i e x l hi => absurd hi (h0 i e)⟩

end

theorem relNest_mono {bv : Nat} {loc : Bytes → Nat → Nat → Prop} {names names' : List NameObj} {shown : Nat → Prop}
    (hm : ∀ (i : Nat) o, names[i]? = some o → ∃ s, names'[i]? = some { o with nameIndex := i, scope := some s }) {d : Nat} {x : RelExpr}
    (h : RelNest bv loc names shown d x) : RelNest bv loc names' shown d x := by
  induction h with
  | here d r c => exact .here d r c
  | hereArea d r1 r2 c1 c2 => exact .hereArea d r1 r2 c1 c2
  | cell d sh r c => exact .cell d sh r c
  | area d sh r1 r2 c1 c2 => exact .area d sh r1 r2 c1 c2
  | name d k u e l h1 h2 h3 _ ih => exact .name d k u e l h1 (relFormula_mono hm h2) (relVal_mono hm h3) ih
  | paren d e _ ih => exact .paren d e ih
  | mem d size e _ ih => exact .mem d size e ih
  | range d a b _ _ iha ihb => exact .range d a b iha ihb
  | isect d a b _ _ iha ihb => exact .isect d a b iha ihb
  | union d a b _ _ iha ihb => exact .union d a b iha ihb

theorem relEvaluable_mono {bv : Nat} {loc : Bytes → Nat → Nat → Prop} {names names' : List NameObj} {shown : Nat → Prop}
    (hm : ∀ (i : Nat) o, names[i]? = some o → ∃ s, names'[i]? = some { o with nameIndex := i, scope := some s }) {i : Nat}
    (h : RelEvaluable bv loc names shown i) : RelEvaluable bv loc names' shown i := by
  obtain ⟨x, h1, h2, h3⟩ := h
  refine ⟨x, relFormula_mono hm h1, relNest_mono hm h2, ?_⟩
  rcases h3 with ⟨l, h⟩ | ⟨a, b, m, n, h, ha, hb⟩
  · exact .inl ⟨l, relVal_mono hm h⟩
  · exact .inr ⟨a, b, m, n, h, relVal_mono hm ha, relVal_mono hm hb⟩

end Xlrd
