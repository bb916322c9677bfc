import Verif.Props.Evaluate
import Verif.Lemmas.FormulaText

/-!
# C50: the texts of formulas
-/
set_option linter.unusedSimpArgs false

namespace Xlrd
open Spec

/-! ## The text of a tree and its symbols -/

def Op2.text : Op2 → PyStr
  | .add => "+".toList | .sub => "-".toList | .mul => "*".toList | .div => "/".toList | .pow => "^".toList | .cat => "&".toList
  | .lt => "<".toList | .le => "<=".toList | .eq => "=".toList | .ge => ">=".toList | .gt => ">".toList | .ne => "<>".toList

def Op1.before : Op1 → PyStr
  | .plus => "+".toList | .minus => "-".toList | .percent => []

def Op1.after : Op1 → PyStr
  | .percent => "%".toList
  | _ => []

/-- The text that the rules of the code make of a tree. -/
def Tree.text : Tree → PyStr
  | .leaf w => w
  | .un o e => unText (Op1.rank o) (Op1.before o) (Op1.after o) (Tree.rank e) (Tree.text e)
  | .bin o a b => binText o.prec (Op2.text o) (Tree.rank a) (Tree.text a) (Tree.rank b) (Tree.text b)
  | .range a b => binText 80 ":".toList (Tree.rank a) (Tree.text a) (Tree.rank b) (Tree.text b)
  | .isect a b => binText 80 " ".toList (Tree.rank a) (Tree.text a) (Tree.rank b) (Tree.text b)
  | .call f args => callText f (args.map Tree.text)
  | .missing => []

/-- Leaves and names of functions are words. -/
def Tree.Words : Tree → Prop
  | .leaf w => IsWord w
  | .un _ e => Tree.Words e
  | .bin _ a b => Tree.Words a ∧ Tree.Words b
  | .range a b => Tree.Words a ∧ Tree.Words b
  | .isect a b => Tree.Words a ∧ Tree.Words b
  | .call f args => IsWord f ∧ ∀ a ∈ args, Tree.Words a
  | .missing => True

theorem plainly_append {s t : PyStr} (h : Plainly s) : Plainly (s ++ t) := by
  obtain ⟨c, cs, rfl, h⟩ := h
  exact ⟨c, cs ++ t, rfl, h⟩

theorem plainly_parens {r p : Nat} {s : PyStr} (h : Plainly s) : Plainly (parens r p s) := by
  unfold parens
  by_cases hr : r < p
  · rw [if_pos hr]; exact ⟨'(', _, rfl, by decide, by decide⟩
  · rw [if_neg hr]; exact h

theorem text_plainly : ∀ t : Tree, Tree.Words t → Tree.Proper t → t ≠ .missing → Plainly (Tree.text t) := by
  intro t
  induction t using Tree.ind with
  | hl w => intro h _ _; simp only [Tree.Words] at h; simp only [Tree.text]; exact IsWord.plainly h
  | hu o e ih =>
    intro h hp _
    simp only [Tree.Proper] at hp
    simp only [Tree.Words] at h
    simp only [Tree.text, unText]
    cases o with
    | plus => exact ⟨'+', _, rfl, by decide, by decide⟩
    | minus => exact ⟨'-', _, rfl, by decide, by decide⟩
    | percent =>
      simp only [Op1.before, List.nil_append]
      exact plainly_append (plainly_parens (ih h hp.1 hp.2))
  | hb o a b iha ihb =>
    intro h hp _
    simp only [Tree.Proper] at hp
    simp only [Tree.Words] at h
    simp only [Tree.text, binText]
    exact plainly_append (plainly_append (plainly_parens (iha h.1 hp.1 hp.2.2.1)))
  | hr a b iha ihb =>
    intro h hp _
    simp only [Tree.Proper] at hp
    simp only [Tree.Words] at h
    simp only [Tree.text, binText]
    exact plainly_append (plainly_append (plainly_parens (iha h.1 hp.1 hp.2.2.1)))
  | hi a b iha ihb =>
    intro h hp _
    simp only [Tree.Proper] at hp
    simp only [Tree.Words] at h
    simp only [Tree.text, binText]
    exact plainly_append (plainly_append (plainly_parens (iha h.1 hp.1 hp.2.2.1)))
  | hc f args ih =>
    intro h _ _
    simp only [Tree.Words] at h
    simp only [Tree.text, callText]
    rw [List.append_assoc]
    exact plainly_append (IsWord.plainly h.1)
  | hm => intro _ _ h; exact absurd rfl h

theorem lex_parens {r p : Nat} {s : PyStr} {l : List Sym} (h : Lex s l) : Lex (parens r p s) (wrap r p l) := by
  unfold parens wrap
  by_cases hr : r < p
  · rw [if_pos hr, if_pos hr]
    refine Or.inl (Lex.sym (s := '(' :: s) (l := .lpar :: l) ?_ ')' .rpar rfl)
    have h1 : LexGap ['('] [.lpar] := rfl
    exact h1.append h
  · rw [if_neg hr, if_neg hr]; exact h

theorem lex_join : ∀ (l : List (PyStr × List Sym)), (∀ p ∈ l, Lex p.1 p.2) → Lex (joinTexts (l.map Prod.fst)) (commaJoin (l.map Prod.snd)) := by
  intro l
  induction l with
  | nil => intro _; exact Or.inl rfl
  | cons p l ih =>
    intro h
    have hp := h p (List.mem_cons_self ..)
    cases l with
    | nil => exact hp
    | cons q l =>
      have := ih (fun x hx => h x (List.mem_cons_of_mem _ hx))
      simp only [List.map_cons, joinTexts, commaJoin] at this ⊢
      have h2 := (hp.sym ',' .comma rfl).append this
      simpa using h2

theorem lex_binary (o : Op2) {s t : PyStr} {l k : List Sym} (h : Lex s l) (h2 : Lex t k) (ht : Plainly t) :
    Lex (s ++ Op2.text o ++ t) (l ++ .op o :: k) := by
  have one : ∀ c x, symOf c = some x → Lex (s ++ [c] ++ t) (l ++ x :: k) := by
    intro c x hc
    have := (h.sym c x hc).append h2
    simpa using this
  cases o with
  | add => exact one '+' _ rfl
  | sub => exact one '-' _ rfl
  | mul => exact one '*' _ rfl
  | div => exact one '/' _ rfl
  | pow => exact one '^' _ rfl
  | cat => exact one '&' _ rfl
  | eq => exact one '=' _ rfl
  | lt => have := h.lt h2 ht; simpa [Op2.text] using this
  | gt => have := h.gt h2 ht; simpa [Op2.text] using this
  | le => have := h.le.append h2; simpa [Op2.text] using this
  | ge => have := h.ge.append h2; simpa [Op2.text] using this
  | ne => have := h.ne.append h2; simpa [Op2.text] using this

theorem lex_text : ∀ t : Tree, Tree.Words t → Tree.Proper t → Lex (Tree.text t) (Tree.syms t) := by
  intro t
  induction t using Tree.ind with
  | hl w => intro h _; simp only [Tree.Words] at h; simp only [Tree.text, Tree.syms]; exact Lex.word h
  | hu o e ih =>
    intro h hp
    simp only [Tree.Proper] at hp
    simp only [Tree.Words] at h
    simp only [Tree.text, Tree.syms, unText]
    have he := lex_parens (r := Tree.rank e) (p := Op1.rank o) (ih h hp.1)
    cases o with
    | plus =>
      have h1 : LexGap ['+'] [.op .add] := rfl
      simpa [Op1.before, Op1.after, unSyms] using h1.append he
    | minus =>
      have h1 : LexGap ['-'] [.op .sub] := rfl
      simpa [Op1.before, Op1.after, unSyms] using h1.append he
    | percent => exact Or.inl (he.sym '%' .percent rfl)
  | hb o a b iha ihb =>
    intro h hp
    simp only [Tree.Proper] at hp
    simp only [Tree.Words] at h
    simp only [Tree.text, Tree.syms, binText]
    exact lex_binary o (lex_parens (iha h.1 hp.1)) (lex_parens (ihb h.2 hp.2.1)) (plainly_parens (text_plainly b h.2 hp.2.1 hp.2.2.2))
  | hr a b iha ihb =>
    intro h hp
    simp only [Tree.Proper] at hp
    simp only [Tree.Words] at h
    simp only [Tree.text, Tree.syms, binText]
    have := ((lex_parens (r := Tree.rank a) (p := 80) (iha h.1 hp.1)).sym ':' .colon rfl).append (lex_parens (r := Tree.rank b) (p := 80) (ihb h.2 hp.2.1))
    simpa using this
  | hi a b iha ihb =>
    intro h hp
    simp only [Tree.Proper] at hp
    simp only [Tree.Words] at h
    simp only [Tree.text, Tree.syms, binText]
    have := ((lex_parens (r := Tree.rank a) (p := 80) (iha h.1 hp.1)).sym ' ' .space rfl).append (lex_parens (r := Tree.rank b) (p := 80) (ihb h.2 hp.2.1))
    simpa using this
  | hc f args ih =>
    intro h hp
    simp only [Tree.Proper] at hp
    simp only [Tree.Words] at h
    simp only [Tree.text, Tree.syms, callText]
    have h1 := (Lex.word h.1).sym '(' .lpar rfl
    have h2 := lex_join (args.map fun a => (Tree.text a, Tree.syms a)) (by
      intro p hmem
      obtain ⟨a, ha, rfl⟩ := List.mem_map.mp hmem
      exact ih a ha (h.2 a ha) (hp.1 a ha))
    simp only [List.map_map, Function.comp_def] at h2
    have h3 := (h1.append h2).sym ')' .rpar rfl
    exact Or.inl (by simpa using h3)
  | hm => intro _ _; simp only [Tree.text, Tree.syms]; exact Or.inl rfl

/-- The text of a tree denotes the tree with its operators regrouped, and nothing else. -/
theorem text_denotes (t : Tree) (hw : Tree.Words t) (hp : Tree.Proper t) (hm : t ≠ .missing) (e : Tree) : FormulaDenotes (Tree.text t) e ↔ e = t.regroup := by
  have hs := (lex_text t hw hp).symbols
  have hr : Reads 10 (Tree.syms t) t.regroup := .tighter (le_max_right _ _) (reads_syms t hp hm)
  constructor
  · rintro ⟨l, h1, h2⟩
    rw [hs] at h1
    cases h1
    exact Reads.unique hr h2
  · rintro rfl
    exact ⟨_, hs, hr⟩

/-! ## The loop over the tokens of a stored expression -/

/-- Steps of the loop. -/
inductive DRun (env : DEnv) (tab : List Int) (data : Bytes) (n : Nat) : List (Option DOpnd) × Int → List (Option DOpnd) × Int → Prop
  | refl (s) : DRun env tab data n s s
  | step {s s1 s2} (hc : 0 ≤ s.2 ∧ s.2 < (n : Int)) (h : dStep env tab data n s.2 s.1 = .ok s1) (h2 : DRun env tab data n s1 s2) : DRun env tab data n s s2

theorem DRun.trans {env : DEnv} {tab : List Int} {data : Bytes} {n : Nat} {s1 s2 s3 : List (Option DOpnd) × Int} (h : DRun env tab data n s1 s2)
    (h2 : DRun env tab data n s2 s3) : DRun env tab data n s1 s3 := by
  induction h with
  | refl _ => exact h2
  | step hc h _ ih => exact .step hc h (ih h2)

theorem DRun.loop {env : DEnv} {tab : List Int} {data : Bytes} {n : Nat} {s s' : List (Option DOpnd) × Int} (h : DRun env tab data n s s')
    (he : (n : Int) ≤ s'.2) : ∀ fuel : Nat, (n : Int) ≤ s.2 + fuel → dLoop env tab data n fuel s.1 s.2 = .ok s'.1 := by
  induction h with
  | refl s =>
    intro fuel hf
    cases fuel <;> simp only [dLoop] <;> rw [if_neg (by omega)]
  | @step s s1 s2 hc h _ ih =>
    intro fuel hf
    have hm := dStep_moves h
    cases fuel with
    | zero => simp only [dLoop]; omega
    | succ fuel =>
      simp only [dLoop]
      rw [if_pos hc, h]
      exact ih he fuel (by omega)

theorem token_sizes {bv : Nat} {tab : List Int} (h : szdict bv = .ok tab) :
    (∀ c : Nat, 3 ≤ c → c ≤ 0x16 → tab.getD c (-2) = 1) ∧ tab.getD 0x19 (-2) = -1 ∧ tab.getD 33 (-2) = (if bv ≥ 40 then 3 else 2) ∧
      tab.getD 34 (-2) = (if bv ≥ 40 then 4 else 3) := by
  have key : ∀ t ∈ [sztab0, sztab1, sztab2, sztab3, sztab4], (∀ c : Nat, 3 ≤ c → c ≤ 0x16 → t.getD c (-2) = 1) ∧ t.getD 0x19 (-2) = -1 := by
    intro t ht
    refine ⟨?_, ?_⟩
    · intro c h1 h2
      fin_cases ht <;> interval_cases c <;> rfl
    · fin_cases ht <;> rfl
  unfold szdict at h
  by_cases c0 : bv = 20 ∨ bv = 21
  · rw [if_pos c0] at h; cases h
    refine ⟨(key sztab0 (by simp)).1, rfl, ?_, ?_⟩ <;> rw [if_neg (by omega)] <;> rfl
  rw [if_neg c0] at h
  by_cases c1 : bv = 30
  · rw [if_pos c1] at h; cases h
    refine ⟨(key sztab1 (by simp)).1, rfl, ?_, ?_⟩ <;> rw [if_neg (by omega)] <;> rfl
  rw [if_neg c1] at h
  by_cases c2 : bv = 40 ∨ bv = 45
  · rw [if_pos c2] at h; cases h
    refine ⟨(key sztab2 (by simp)).1, rfl, ?_, ?_⟩ <;> rw [if_pos (by omega)] <;> rfl
  rw [if_neg c2] at h
  by_cases c3 : bv = 50 ∨ bv = 70
  · rw [if_pos c3] at h; cases h
    refine ⟨(key sztab3 (by simp)).1, rfl, ?_, ?_⟩ <;> rw [if_pos (by omega)] <;> rfl
  rw [if_neg c3] at h
  by_cases c4 : bv = 80
  · rw [if_pos c4] at h; cases h
    refine ⟨(key sztab4 (by simp)).1, rfl, ?_, ?_⟩ <;> rw [if_pos (by omega)] <;> rfl
  rw [if_neg c4] at h
  cases h

/-- A leaf whose token is shown as the given word, whatever is around it. -/
def LeafOk (env : DEnv) (tab : List Int) (tok : Bytes) (w : PyStr) : Prop :=
  IsWord w ∧ tok ≠ [] ∧ ∀ (data post : Bytes) (p n : Nat) (stk : List (Option DOpnd)), data.drop p = tok ++ post →
    ∃ k, dStep env tab data n (p : Int) stk = .ok (some { kind := k, rank := 90, text := w } :: stk, (p : Int) + tok.length)

/-- A reference that is no error. -/
def LeafRef (env : DEnv) (tab : List Int) (tok : Bytes) (w : PyStr) : Prop :=
  LeafOk env tab tok w ∧ ∀ (data post : Bytes) (p n : Nat) (stk : List (Option DOpnd)), data.drop p = tok ++ post →
    ∀ o x, dStep env tab data n (p : Int) stk = .ok (some o :: stk, x) → o.kind ≠ .err

/-- A reference to an area whose token is shown as the names of the corners, whatever is around it. -/
def AreaOk (env : DEnv) (tab : List Int) (tok : Bytes) (v w : PyStr) : Prop :=
  IsWord v ∧ IsWord w ∧ tok ≠ [] ∧ ∀ (data post : Bytes) (p n : Nat) (stk : List (Option DOpnd)), data.drop p = tok ++ post →
    ∃ k, k ≠ .err ∧ dStep env tab data n (p : Int) stk = .ok (some { kind := k, rank := 90, text := v ++ ':' :: w } :: stk, (p : Int) + tok.length)

/-- An expression of which the value is not a constant that is an error. -/
def Stored.NoError (env : DEnv) (tab : List Int) : Stored → Prop
  | .leaf tok w => LeafRef env tab tok w
  | .quiet _ _ e => Stored.NoError env tab e
  | .isect a b => Stored.NoError env tab a ∧ Stored.NoError env tab b
  | _ => True

/-- Stored expressions: the tokens are well-formed, functions are in the table and have as many arguments as they should. -/
def Stored.Ok (env : DEnv) (tab : List Int) : Stored → Prop
  | .leaf tok w => LeafOk env tab tok w
  | .area tok v w => AreaOk env tab tok v w
  | .un _ e => Stored.Ok env tab e ∧ e.tree ≠ .missing
  | .bin _ a b => Stored.Ok env tab a ∧ Stored.Ok env tab b ∧ a.tree ≠ .missing ∧ b.tree ≠ .missing
  | .range a b => Stored.Ok env tab a ∧ Stored.Ok env tab b ∧ a.tree ≠ .missing ∧ b.tree ≠ .missing ∧ Stored.NoError env tab a ∧ Stored.NoError env tab b
  | .isect a b => Stored.Ok env tab a ∧ Stored.Ok env tab b ∧ a.tree ≠ .missing ∧ b.tree ≠ .missing
  | .quiet before after e => (∀ q ∈ before, q.Ok) ∧ (∀ q ∈ after, q.Ok) ∧ Stored.Ok env tab e
  | .fixed _ n f args => n < (if env.bv ≥ 40 then 65536 else 256) ∧ (∃ hi, funcDef n = some (f, args.length, hi)) ∧ args.map Stored.tree ≠ [.missing] ∧
      ∀ a ∈ args, Stored.Ok env tab a
  | .varying _ n f args => n < (if env.bv ≥ 40 then 32768 else 256) ∧ (∃ lo hi, dFuncDef n = some (f, lo, hi) ∧ lo ≤ args.length ∧ args.length ≤ hi) ∧
      1 ≤ args.length ∧ args.length < 128 ∧ args.map Stored.tree ≠ [.missing] ∧ ∀ a ∈ args, Stored.Ok env tab a
  | .sum d e => d < 65536 ∧ Stored.Ok env tab e ∧ e.tree ≠ .missing
  | .missing => True

theorem Stored.ind {P : Stored → Prop} (hl : ∀ t w, P (.leaf t w)) (ha : ∀ t v w, P (.area t v w)) (hu : ∀ o e, P e → P (.un o e)) (hb : ∀ o a b, P a → P b → P (.bin o a b))
    (hr : ∀ a b, P a → P b → P (.range a b)) (hi : ∀ a b, P a → P b → P (.isect a b))
    (hq : ∀ x y e, P e → P (.quiet x y e)) (hf : ∀ c n f args, (∀ a ∈ args, P a) → P (.fixed c n f args))
    (hv : ∀ c n f args, (∀ a ∈ args, P a) → P (.varying c n f args)) (hs : ∀ d e, P e → P (.sum d e)) (hm : P .missing) : ∀ t, P t
  | .leaf t w => hl t w
  | .area t v w => ha t v w
  | .range a b => hr a b (Stored.ind hl ha hu hb hr hi hq hf hv hs hm a) (Stored.ind hl ha hu hb hr hi hq hf hv hs hm b)
  | .isect a b => hi a b (Stored.ind hl ha hu hb hr hi hq hf hv hs hm a) (Stored.ind hl ha hu hb hr hi hq hf hv hs hm b)
  | .un o e => hu o e (Stored.ind hl ha hu hb hr hi hq hf hv hs hm e)
  | .bin o a b => hb o a b (Stored.ind hl ha hu hb hr hi hq hf hv hs hm a) (Stored.ind hl ha hu hb hr hi hq hf hv hs hm b)
  | .quiet x y e => hq x y e (Stored.ind hl ha hu hb hr hi hq hf hv hs hm e)
  | .fixed c n f args => hf c n f args (fun a h => Stored.ind hl ha hu hb hr hi hq hf hv hs hm a)
  | .varying c n f args => hv c n f args (fun a h => Stored.ind hl ha hu hb hr hi hq hf hv hs hm a)
  | .sum d e => hs d e (Stored.ind hl ha hu hb hr hi hq hf hv hs hm e)
  | .missing => hm
termination_by t => sizeOf t
decreasing_by
  all_goals simp_wf
  all_goals try omega
  all_goals
    have := List.sizeOf_lt_of_mem h
    omega

/-- The names in the table of functions are words. -/
theorem func_words (n : Nat) (d : PyStr × Nat × Nat) (h : dFuncDef n = some d) : IsWord d.1 := by
  have key : ∀ e ∈ funcTable, e.2.1.toList ≠ [] ∧ readChars .gap e.2.1.toList = ([], .word e.2.1.toList.reverse) ∧
      wantsSign e.2.1.toList.reverse = false := by decide +kernel
  unfold dFuncDef at h
  by_cases c : n = 255
  · rw [if_pos c] at h; cases h
    exact ⟨by decide, by decide +kernel, by decide +kernel⟩
  · rw [if_neg c] at h
    unfold funcDef at h
    cases hf : funcTable.find? fun e => e.1 == n with
    | none => rw [hf] at h; cases h
    | some e =>
      rw [hf] at h
      cases h
      exact key e (List.mem_of_find?_eq_some hf)

theorem funcDef_no_255 : funcDef 255 = none := by decide +kernel

theorem fixed_words (n : Nat) (d : PyStr × Nat × Nat) (h : funcDef n = some d) : IsWord d.1 := by
  refine func_words n d ?_
  unfold dFuncDef
  rw [if_neg, h]
  rintro rfl
  rw [funcDef_no_255] at h
  cases h

theorem ok_words (env : DEnv) (tab : List Int) (s : Stored) : Stored.Ok env tab s → Tree.Words s.tree ∧ Tree.Proper s.tree := by
  induction s using Stored.ind with
  | hl t w => intro h; simp only [Stored.Ok] at h; simp only [Stored.tree, Tree.Words, Tree.Proper, and_true]; exact h.1
  | ha t v w => intro h; simp only [Stored.Ok] at h; simp [Stored.tree, Tree.Words, Tree.Proper, h.1, h.2.1]
  | hu o e ih => intro h; simp only [Stored.Ok] at h; simp only [Stored.tree, Tree.Words, Tree.Proper]; exact ⟨(ih h.1).1, (ih h.1).2, h.2⟩
  | hb o a b iha ihb =>
    intro h
    simp only [Stored.Ok] at h
    simp only [Stored.tree, Tree.Words, Tree.Proper]
    exact ⟨⟨(iha h.1).1, (ihb h.2.1).1⟩, (iha h.1).2, (ihb h.2.1).2, h.2.2⟩
  | hr a b iha ihb =>
    intro h
    simp only [Stored.Ok] at h
    simp only [Stored.tree, Tree.Words, Tree.Proper]
    exact ⟨⟨(iha h.1).1, (ihb h.2.1).1⟩, (iha h.1).2, (ihb h.2.1).2, h.2.2.1, h.2.2.2.1⟩
  | hi a b iha ihb =>
    intro h
    simp only [Stored.Ok] at h
    simp only [Stored.tree, Tree.Words, Tree.Proper]
    exact ⟨⟨(iha h.1).1, (ihb h.2.1).1⟩, (iha h.1).2, (ihb h.2.1).2, h.2.2⟩
  | hq x y e ih => intro h; simp only [Stored.Ok] at h; simp only [Stored.tree]; exact ih h.2.2
  | hf c n f args ih =>
    intro h
    simp only [Stored.Ok] at h
    obtain ⟨_, ⟨hi, h1⟩, h2, h3⟩ := h
    simp only [Stored.tree, Tree.Words, Tree.Proper]
    refine ⟨⟨fixed_words n _ h1, ?_⟩, ?_, h2⟩
    · intro a ha
      obtain ⟨x, hx, rfl⟩ := List.mem_map.mp ha
      exact (ih x hx (h3 x hx)).1
    · intro a ha
      obtain ⟨x, hx, rfl⟩ := List.mem_map.mp ha
      exact (ih x hx (h3 x hx)).2
  | hv c n f args ih =>
    intro h
    simp only [Stored.Ok] at h
    obtain ⟨_, ⟨lo, hi, h1, _⟩, _, _, h2, h3⟩ := h
    simp only [Stored.tree, Tree.Words, Tree.Proper]
    refine ⟨⟨func_words n _ h1, ?_⟩, ?_, h2⟩
    · intro a ha
      obtain ⟨x, hx, rfl⟩ := List.mem_map.mp ha
      exact (ih x hx (h3 x hx)).1
    · intro a ha
      obtain ⟨x, hx, rfl⟩ := List.mem_map.mp ha
      exact (ih x hx (h3 x hx)).2
  | hs d e ih =>
    intro h
    simp only [Stored.Ok] at h
    simp only [Stored.tree, Tree.Words, Tree.Proper, List.mem_singleton, forall_eq]
    refine ⟨⟨fixed_words 4 ("SUM".toList, 0, 30) (by decide +kernel), (ih h.2.1).1⟩, (ih h.2.1).2, ?_⟩
    simpa using h.2.2
  | hm => intro _; simp only [Stored.tree, Tree.Words, Tree.Proper, and_self]

theorem step_plain {env : DEnv} {tab : List Int} {data post : Bytes} {p n : Nat} {b : UInt8} (h : data.drop p = b :: post) {c : Nat}
    (hc : b.toNat = c) (hlt : c < 32) (hs : tab.getD c (-2) ≠ -2) {stk : List (Option DOpnd)} {s' : List (Option DOpnd)} {z : Int}
    (hp : dPlain env data n (p : Int) c (tab.getD c (-2)) stk = .ok (s', z)) (hz : 0 < z) :
    dStep env tab data n (p : Int) stk = .ok (s', (p : Int) + z) := by
  unfold dStep
  rw [byteAt_at h, hc]
  simp only [bind, Except.bind]
  rw [show c / 32 % 4 = 0 by omega, show c % 32 = c by omega]
  simp only [if_true]
  rw [if_neg hs, hp]
  simp only
  rw [if_neg (by omega)]
  rfl

theorem step_class {env : DEnv} {tab : List Int} {data post : Bytes} {p n : Nat} {b : UInt8} (h : data.drop p = b :: post) {c : Nat}
    (hc : b.toNat % 32 = c) (hlt : b.toNat / 32 % 4 ≠ 0) (hs : 0 < tab.getD (c + 32) (-2)) {stk : List (Option DOpnd)} {s' : List (Option DOpnd)}
    (hp : dClass env data (p : Int) c stk = .ok s') :
    dStep env tab data n (p : Int) stk = .ok (s', (p : Int) + tab.getD (c + 32) (-2)) := by
  unfold dStep
  rw [byteAt_at h]
  simp only [bind, Except.bind]
  rw [hc]
  simp only [if_neg hlt]
  rw [if_neg (by omega), hp]
  simp only
  rw [if_neg (by omega)]
  rfl

theorem slice_fwd {data x r : Bytes} {p k n : Nat} (pos : Int) (hp : pos = p) (hk : data.drop (p + k) = x ++ r) (hn : x.length = n) :
    slice data (pos + k) (pos + (k + n : Nat)) = x := by
  subst hp
  rw [← Int.natCast_add, show (p : Int) + ((k + n : Nat) : Int) = ((p + k : Nat) : Int) + (n : Int) by push_cast; ring]
  exact slice_at hk hn

theorem drop_one {data r : Bytes} {p : Nat} {b : UInt8} (h : data.drop p = b :: r) : data.drop (p + 1) = r := by
  rw [← List.drop_drop, h]; rfl

theorem quiet_step {env : DEnv} {tab : List Int} (ht : szdict env.bv = .ok tab) (q : Quiet) (hq : q.Ok) {data post : Bytes} {p n : Nat}
    (h : data.drop p = q.enc ++ post) (stk : List (Option DOpnd)) :
    dStep env tab data n (p : Int) stk = .ok (stk, (p : Int) + q.enc.length) := by
  obtain ⟨h1, h2, _, _⟩ := token_sizes ht
  cases q with
  | parens =>
    refine step_plain (b := 0x15) h rfl (by decide) (by rw [h1 _ (by decide) (by decide)]; decide) ?_ (by decide)
    rw [h1 _ (by decide) (by decide)]
    rfl
  | hint k d =>
    obtain ⟨hk1, hk2, hd⟩ := hq
    have h' : data.drop p = 0x19 :: ([k] ++ le16 d ++ post) := by rw [h]; simp [Quiet.enc]
    refine step_plain (c := 25) h' rfl (by decide) (by rw [show tab.getD 25 (-2) = -1 from h2]; decide) ?_ (by simp [Quiet.enc])
    have hf : attrFields data (p : Int) = .ok (k.toNat, d) := by
      unfold attrFields
      have := slice_fwd (x := [k] ++ le16 d) (k := 1) (n := 3) (p : Int) rfl (drop_one h') (by simp [le16_length])
      simp only [Nat.cast_one, Nat.reduceAdd, Nat.cast_ofNat] at this
      rw [this]
      rw [unpackN_ok (by simp [le16_length])]
      simp only [bind, Except.bind, pure, Except.pure]
      refine congrArg Except.ok (Prod.ext ?_ ?_)
      · simp [fld, le]
      · have := fld_only d hd
        simpa [fld] using this
    unfold dPlain
    rw [if_neg (by decide), if_neg (by decide), if_neg (by decide), if_neg (by decide), if_neg (by decide), if_neg (by decide), if_neg (by decide),
      if_neg (by decide), if_neg (by decide), if_neg (by decide), if_neg (by decide), if_pos rfl]
    unfold dAttr
    rw [hf]
    simp only [bind, Except.bind]
    have n1 : ¬ k.toNat = 0x04 := fun hc => hk1 (UInt8.toNat_inj.mp hc)
    have n2 : ¬ k.toNat = 0x10 := fun hc => hk2 (UInt8.toNat_inj.mp hc)
    rw [if_neg n1, if_neg n2]
    simp [Quiet.enc, le16_length, pure, Except.pure]
  | jumps offs =>
    obtain ⟨ho1, ho2⟩ := hq
    have hlen : ∀ l : List Nat, (l.flatMap le16).length = 2 * l.length := by
      intro l
      induction l with
      | nil => rfl
      | cons a l ih => rw [List.flatMap_cons, List.length_append, ih, le16_length]; simp; omega
    have h' : data.drop p = 0x19 :: ([0x04] ++ le16 (offs.length - 1) ++ (offs.flatMap le16 ++ post)) := by rw [h]; simp [Quiet.enc]
    refine step_plain (c := 25) h' rfl (by decide) (by rw [show tab.getD 25 (-2) = -1 from h2]; decide) ?_ (by simp [Quiet.enc]; omega)
    have hf : attrFields data (p : Int) = .ok (0x04, offs.length - 1) := by
      unfold attrFields
      have := slice_fwd (x := [0x04] ++ le16 (offs.length - 1)) (k := 1) (n := 3) (p : Int) rfl (drop_one h') (by simp [le16_length])
      simp only [Nat.cast_one, Nat.reduceAdd, Nat.cast_ofNat] at this
      rw [this]
      rw [unpackN_ok (by simp [le16_length])]
      simp only [bind, Except.bind, pure, Except.pure]
      refine congrArg Except.ok (Prod.ext ?_ ?_)
      · simp [fld, le]
      · have := fld_only (offs.length - 1) (by omega)
        simpa [fld] using this
    unfold dPlain
    rw [if_neg (by decide), if_neg (by decide), if_neg (by decide), if_neg (by decide), if_neg (by decide), if_neg (by decide), if_neg (by decide),
      if_neg (by decide), if_neg (by decide), if_neg (by decide), if_neg (by decide), if_pos rfl]
    unfold dAttr
    rw [hf]
    simp only [bind, Except.bind, if_true, pure, Except.pure]
    refine congrArg Except.ok (Prod.ext rfl ?_)
    simp only [Quiet.enc, List.length_append, hlen, le16_length, List.length_cons, List.length_nil]
    push_cast
    omega

theorem quiet_run {env : DEnv} {tab : List Int} (ht : szdict env.bv = .ok tab) : ∀ (qs : List Quiet), (∀ q ∈ qs, q.Ok) → ∀ {data post : Bytes} {p n : Nat},
    data.drop p = qs.flatMap Quiet.enc ++ post → p + (qs.flatMap Quiet.enc).length ≤ n → ∀ (stk : List (Option DOpnd)),
      DRun env tab data n (stk, (p : Int)) (stk, ((p + (qs.flatMap Quiet.enc).length : Nat) : Int)) := by
  intro qs
  induction qs with
  | nil => intro _ data post p n _ _ stk; exact .refl _
  | cons q qs ih =>
    intro hq data post p n h hn stk
    rw [List.flatMap_cons, List.append_assoc] at h
    rw [List.flatMap_cons, List.length_append] at hn
    have hpos : 0 < q.enc.length := by cases q <;> simp [Quiet.enc]
    refine .step (s1 := (stk, ((p + q.enc.length : Nat) : Int))) ⟨by simp, by simp only; omega⟩ ?_ ?_
    · simp only
      rw [quiet_step ht q (hq q (List.mem_cons_self ..)) h stk]
      push_cast; rfl
    · have := ih (fun x hx => hq x (List.mem_cons_of_mem _ hx)) (drop_at h rfl) (by omega) stk (n := n)
      rw [List.flatMap_cons, List.length_append, ← Nat.add_assoc]
      exact this

theorem binRule_ok (o : Op2) : ∃ c k, k ≠ .err ∧ binRule o.code.toNat = .ok (c, k, o.prec, Op2.text o) := by
  cases o <;> exact ⟨_, _, by decide, rfl⟩

theorem unRule_ok (o : Op1) : unRule o.code.toNat = .ok (Op1.rank o, Op1.before o, Op1.after o) := by
  cases o <;> rfl

theorem binary_step {env : DEnv} {tab : List Int} (ht : szdict env.bv = .ok tab) (o : Op2) {data post : Bytes} {p n : Nat}
    (h : data.drop p = o.code :: post) (a b : DOpnd) (stk : List (Option DOpnd)) :
    ∃ k, k ≠ .err ∧ dStep env tab data n (p : Int) (some b :: some a :: stk) =
      .ok (some { kind := k, rank := o.prec, text := binText o.prec (Op2.text o) a.rank a.text b.rank b.text } :: stk, (p : Int) + 1) := by
  obtain ⟨h1, h2, _, _⟩ := token_sizes ht
  have hr : 3 ≤ o.code.toNat ∧ o.code.toNat ≤ 0x0E := by cases o <;> decide
  obtain ⟨c, k, hk, hb⟩ := binRule_ok o
  have hs := h1 o.code.toNat hr.1 (by omega)
  refine ⟨k, hk, step_plain h rfl (by omega) (by rw [hs]; decide) ?_ (by decide)⟩
  rw [hs]
  unfold dPlain
  rw [if_neg (by omega), if_neg (by omega), if_pos hr.2]
  simp only [dBinop, hb, ditem, bind, Except.bind]
  rfl

theorem range_step {env : DEnv} {tab : List Int} (ht : szdict env.bv = .ok tab) {data post : Bytes} {p n : Nat} (h : data.drop p = 0x11 :: post)
    (a b : DOpnd) (ha : a.kind ≠ .err) (hb : b.kind ≠ .err) (stk : List (Option DOpnd)) :
    dStep env tab data n (p : Int) (some b :: some a :: stk) =
      .ok (some { kind := .ref, rank := 80, text := binText 80 ":".toList a.rank a.text b.rank b.text } :: stk, (p : Int) + 1) := by
  have hs := (token_sizes ht).1 0x11 (by decide) (by decide)
  refine step_plain (c := 0x11) h rfl (by decide) (by rw [hs]; decide) ?_ (by decide)
  rw [hs]
  unfold dPlain
  rw [if_neg (by decide), if_neg (by decide), if_neg (by decide), if_neg (by decide), if_neg (by decide), if_pos rfl]
  simp only [dRange, ditem, bind, Except.bind]
  rw [if_neg (by tauto)]
  rfl

theorem isect_step {env : DEnv} {tab : List Int} (ht : szdict env.bv = .ok tab) {data post : Bytes} {p n : Nat} (h : data.drop p = 0x0F :: post)
    (a b : DOpnd) (stk : List (Option DOpnd)) :
    ∃ k, (a.kind ≠ .err → b.kind ≠ .err → k ≠ .err) ∧ dStep env tab data n (p : Int) (some b :: some a :: stk) =
      .ok (some { kind := k, rank := 0, text := binText 80 " ".toList a.rank a.text b.rank b.text } :: stk, (p : Int) + 1) := by
  have hs := (token_sizes ht).1 0x0F (by decide) (by decide)
  refine ⟨if b.kind = .err ∨ a.kind = .err then .err else if b.kind = .unk ∨ a.kind = .unk then .ref
    else if b.kind = .relref ∧ a.kind = .relref then .relref else .ref, ?_, step_plain (c := 0x0F) h rfl (by decide) (by rw [hs]; decide) ?_ (by decide)⟩
  · intro ha hb
    rw [if_neg (by tauto)]
    by_cases c1 : b.kind = .unk ∨ a.kind = .unk
    · rw [if_pos c1]; decide
    · rw [if_neg c1]
      by_cases c2 : b.kind = .relref ∧ a.kind = .relref
      · rw [if_pos c2]; decide
      · rw [if_neg c2]; decide
  · rw [hs]
    unfold dPlain
    rw [if_neg (by decide), if_neg (by decide), if_neg (by decide), if_pos rfl]
    simp only [dIsect, ditem, bind, Except.bind]
    rfl

theorem unary_step {env : DEnv} {tab : List Int} (ht : szdict env.bv = .ok tab) (o : Op1) {data post : Bytes} {p n : Nat}
    (h : data.drop p = o.code :: post) (a : DOpnd) (stk : List (Option DOpnd)) :
    dStep env tab data n (p : Int) (some a :: stk) =
      .ok (some { kind := .num, rank := Op1.rank o, text := unText (Op1.rank o) (Op1.before o) (Op1.after o) a.rank a.text } :: stk, (p : Int) + 1) := by
  obtain ⟨h1, h2, _, _⟩ := token_sizes ht
  have hr : 0x12 ≤ o.code.toNat ∧ o.code.toNat ≤ 0x14 := by cases o <;> decide
  have hs := h1 o.code.toNat (by omega) (by omega)
  refine step_plain h rfl (by omega) (by rw [hs]; decide) ?_ (by decide)
  rw [hs]
  unfold dPlain
  rw [if_neg (by omega), if_neg (by omega), if_neg (by omega), if_neg (by omega), if_neg (by omega), if_neg (by omega), if_pos hr.2]
  simp only [dUnaryop, unRule_ok, ditem, bind, Except.bind]
  rfl

theorem sum_step {env : DEnv} {tab : List Int} (ht : szdict env.bv = .ok tab) (d : Nat) (hd : d < 65536) {data post : Bytes} {p n : Nat}
    (h : data.drop p = [0x19, 0x10] ++ le16 d ++ post) (a : DOpnd) (stk : List (Option DOpnd)) :
    dStep env tab data n (p : Int) (some a :: stk) = .ok (some { kind := .num, rank := 90, text := callText "SUM".toList [a.text] } :: stk, (p : Int) + 4) := by
  obtain ⟨h1, h2, _, _⟩ := token_sizes ht
  have h' : data.drop p = 0x19 :: ([0x10] ++ le16 d ++ post) := by rw [h]; simp
  refine step_plain (c := 25) h' rfl (by decide) (by rw [show tab.getD 25 (-2) = -1 from h2]; decide) ?_ (by decide)
  have hf : attrFields data (p : Int) = .ok (0x10, d) := by
    unfold attrFields
    have := slice_fwd (x := [0x10] ++ le16 d) (k := 1) (n := 3) (p : Int) rfl (drop_one h') (by simp [le16_length])
    simp only [Nat.cast_one, Nat.reduceAdd, Nat.cast_ofNat] at this
    rw [this]
    rw [unpackN_ok (by simp [le16_length])]
    simp only [bind, Except.bind, pure, Except.pure]
    refine congrArg Except.ok (Prod.ext ?_ ?_)
    · simp [fld, le]
    · have := fld_only d hd
      simpa [fld] using this
  unfold dPlain
  rw [if_neg (by decide), if_neg (by decide), if_neg (by decide), if_neg (by decide), if_neg (by decide), if_neg (by decide), if_neg (by decide),
    if_neg (by decide), if_neg (by decide), if_neg (by decide), if_neg (by decide), if_pos rfl]
  unfold dAttr
  rw [hf]
  simp only [bind, Except.bind]
  rw [if_neg (by decide), if_pos trivial]
  simp [dAttrSum, ditem, bind, Except.bind, pure, Except.pure, callText, joinTexts, sumText]

theorem missing_step {env : DEnv} {tab : List Int} (ht : szdict env.bv = .ok tab) {data post : Bytes} {p n : Nat}
    (h : data.drop p = 0x16 :: post) (stk : List (Option DOpnd)) :
    dStep env tab data n (p : Int) stk = .ok (some { kind := .msng, rank := 90, text := [] } :: stk, (p : Int) + 1) := by
  obtain ⟨h1, h2, _, _⟩ := token_sizes ht
  have hs := h1 0x16 (by omega) (by omega)
  refine step_plain (c := 22) h rfl (by decide) (by rw [show tab.getD 22 (-2) = 1 from hs]; decide) ?_ (by decide)
  rw [hs]
  rfl

theorem dTexts_some (os : List DOpnd) : dTexts ((os.map some).reverse) = .ok (os.map DOpnd.text) := by
  unfold dTexts
  rw [List.reverse_reverse]
  induction os with
  | nil => rfl
  | cons o os ih =>
    rw [List.map_cons, List.mapM_cons, ih]
    rfl

theorem cls_byte (c : Cls) (k : Nat) (hk : k < 32) : (UInt8.ofNat (c.code + k)).toNat % 32 = k ∧ (UInt8.ofNat (c.code + k)).toNat / 32 % 4 ≠ 0 := by
  have : (UInt8.ofNat (c.code + k)).toNat = (c.code + k) % 256 := u8_toNat_ofNat _
  cases c <;> simp only [Cls.code] at this ⊢ <;> omega

theorem encFunc_length (bv n : Nat) : (encFunc bv n).length = if bv ≥ 40 then 2 else 1 := by
  unfold encFunc
  by_cases h : bv ≥ 40
  · rw [if_pos h, if_pos h, le16_length]
  · rw [if_neg h, if_neg h]; rfl

theorem fixed_step {env : DEnv} {tab : List Int} (ht : szdict env.bv = .ok tab) (c : Cls) (num : Nat) (f : PyStr) (hi : Nat) (os : List DOpnd)
    (hn : num < (if env.bv ≥ 40 then 65536 else 256)) (hf : funcDef num = some (f, os.length, hi)) {data post : Bytes} {p n : Nat}
    (h : data.drop p = UInt8.ofNat (c.code + 1) :: (encFunc env.bv num ++ post)) (stk : List (Option DOpnd)) :
    dStep env tab data n (p : Int) ((os.map some).reverse ++ stk) =
      .ok (some { rank := 90, text := callText f (os.map DOpnd.text) } :: stk, (p : Int) + (1 + (encFunc env.bv num).length : Nat)) := by
  obtain ⟨_, _, h3, _⟩ := token_sizes ht
  obtain ⟨c1, c2⟩ := cls_byte c 1 (by decide)
  have hsz : tab.getD (1 + 32) (-2) = ((1 + (encFunc env.bv num).length : Nat) : Int) := by
    rw [show 1 + 32 = 33 from rfl, h3, encFunc_length]
    by_cases hv : env.bv ≥ 40
    · rw [if_pos hv, if_pos hv]; rfl
    · rw [if_neg hv, if_neg hv]; rfl
  rw [← hsz]
  refine step_class h c1 c2 (by rw [hsz]; push_cast; omega) ?_
  unfold dClass
  rw [if_neg (by decide), if_pos rfl]
  have hx : funcxAt env.bv data (p : Int) = .ok num := by
    unfold funcxAt
    have h1 := drop_one h
    by_cases hv : env.bv ≥ 40
    · rw [if_pos hv] at hn ⊢
      unfold encFunc at h1
      rw [if_pos hv] at h1
      have := unpackH_at hn h1
      rw [show ((p : Int) + 3) = ((p + 1 : Nat) : Int) + 2 by push_cast; ring]
      exact_mod_cast this
    · rw [if_neg hv] at hn ⊢
      unfold encFunc at h1
      rw [if_neg hv] at h1
      have := slice_fwd (x := [UInt8.ofNat num]) (k := 1) (n := 1) (p : Int) rfl h1 rfl
      simp only [Nat.cast_one, Nat.reduceAdd, Nat.cast_ofNat] at this
      rw [this]
      simp only [unpackB, unpackN, bind, Except.bind, pure, Except.pure, List.length_singleton, if_true]
      refine congrArg Except.ok ?_
      simp [fld, le, u8_toNat_ofNat, Nat.mod_eq_of_lt hn]
  unfold dFunc
  rw [hx]
  simp only [bind, Except.bind, hf]
  have hl : ((os.map some).reverse).length = os.length := by simp
  rw [show decide (((os.map some).reverse ++ stk).length ≥ os.length) = true from decide_eq_true (by rw [List.length_append, hl]; omega)]
  simp only [pyAssert]
  by_cases h0 : os.length = 0
  · rw [if_pos h0]
    have : os = [] := List.length_eq_zero_iff.mp h0
    subst this
    rfl
  · rw [if_neg h0]
    rw [show ((os.map some).reverse ++ stk).take os.length = (os.map some).reverse by rw [← hl, List.take_left],
      show ((os.map some).reverse ++ stk).drop os.length = stk by rw [← hl, List.drop_left], dTexts_some]
    rfl

theorem varying_step {env : DEnv} {tab : List Int} (ht : szdict env.bv = .ok tab) (c : Cls) (num : Nat) (f : PyStr) (lo hi : Nat) (os : List DOpnd)
    (hn : num < (if env.bv ≥ 40 then 32768 else 256)) (hf : dFuncDef num = some (f, lo, hi)) (hlo : lo ≤ os.length) (hhi : os.length ≤ hi)
    (h1 : 1 ≤ os.length) (h128 : os.length < 128) {data post : Bytes} {p n : Nat}
    (h : data.drop p = UInt8.ofNat (c.code + 2) :: UInt8.ofNat os.length :: (encFunc env.bv num ++ post)) (stk : List (Option DOpnd)) :
    dStep env tab data n (p : Int) ((os.map some).reverse ++ stk) =
      .ok (some { rank := 90, text := callText f (os.map DOpnd.text) } :: stk, (p : Int) + (2 + (encFunc env.bv num).length : Nat)) := by
  obtain ⟨_, _, _, h4⟩ := token_sizes ht
  obtain ⟨c1, c2⟩ := cls_byte c 2 (by decide)
  have hsz : tab.getD (2 + 32) (-2) = ((2 + (encFunc env.bv num).length : Nat) : Int) := by
    rw [show 2 + 32 = 34 from rfl, h4, encFunc_length]
    by_cases hv : env.bv ≥ 40
    · rw [if_pos hv, if_pos hv]; rfl
    · rw [if_neg hv, if_neg hv]; rfl
  rw [← hsz]
  refine step_class h c1 c2 (by rw [hsz]; push_cast; omega) ?_
  unfold dClass
  rw [if_neg (by decide), if_neg (by decide), if_pos rfl]
  have hx : funcVarFields env.bv data (p : Int) = .ok (os.length, num) := by
    unfold funcVarFields
    have h1 := drop_one h
    by_cases hv : env.bv ≥ 40
    · simp only [if_pos hv] at hn ⊢
      unfold encFunc at h1
      rw [if_pos hv] at h1
      have := slice_fwd (x := UInt8.ofNat os.length :: le16 num) (k := 1) (n := 3) (p : Int) rfl h1 (by simp [le16_length])
      simp only [Nat.cast_one, Nat.reduceAdd, Nat.cast_ofNat] at this
      rw [this, unpackN_ok (by simp [le16_length])]
      simp only [bind, Except.bind, pure, Except.pure]
      refine congrArg Except.ok (Prod.ext ?_ ?_)
      · simp [fld, le, u8_toNat_ofNat]; omega
      · have := fld_only num (by omega)
        simp only [fld, List.drop_succ_cons, List.drop_zero] at this ⊢
        rw [this]
        omega
    · simp only [if_neg hv] at hn ⊢
      unfold encFunc at h1
      rw [if_neg hv] at h1
      have := slice_fwd (x := [UInt8.ofNat os.length, UInt8.ofNat num]) (k := 1) (n := 2) (p : Int) rfl h1 rfl
      simp only [Nat.cast_one, Nat.reduceAdd, Nat.cast_ofNat] at this
      rw [this, unpackN_ok (n := 2) (by simp)]
      simp only [bind, Except.bind, pure, Except.pure]
      refine congrArg Except.ok (Prod.ext ?_ ?_)
      · simp [fld, le, u8_toNat_ofNat]; omega
      · simp [fld, le, u8_toNat_ofNat]; omega
  unfold dFuncVar
  rw [hx]
  simp only [bind, Except.bind, hf]
  have hl : ((os.map some).reverse).length = os.length := by simp
  rw [show decide (lo ≤ os.length ∧ os.length ≤ hi) = true from decide_eq_true ⟨hlo, hhi⟩,
    show decide (((os.map some).reverse ++ stk).length ≥ os.length) = true from decide_eq_true (by rw [List.length_append, hl]; exact Nat.le_add_right ..)]
  simp only [pyAssert, if_true]
  unfold topArgs dropArgs
  rw [if_neg (by omega), if_neg (by omega)]
  rw [show ((os.map some).reverse ++ stk).take os.length = (os.map some).reverse by rw [← hl, List.take_left],
    show ((os.map some).reverse ++ stk).drop os.length = stk by rw [← hl, List.drop_left], dTexts_some]
  rfl

theorem DRun.here {env : DEnv} {tab : List Int} {data : Bytes} {n : Nat} {s : List (Option DOpnd)} {a b : Int} (h : a = b) :
    DRun env tab data n (s, a) (s, b) := h ▸ .refl _

/-- Ranks that make no difference for any operator. -/
def SameRank (r q : Nat) : Prop := ∀ p, p ≤ 80 → (r < p ↔ q < p)

theorem SameRank.refl (r : Nat) : SameRank r r := fun _ _ => Iff.rfl

theorem SameRank.parens {r q p : Nat} (h : SameRank r q) (hp : p ≤ 80) (s : PyStr) : Xlrd.parens r p s = Xlrd.parens q p s := by
  have := h p hp
  unfold Xlrd.parens
  by_cases hr : r < p
  · rw [if_pos hr, if_pos (this.mp hr)]
  · rw [if_neg hr, if_neg (fun hq => hr (this.mpr hq))]

theorem SameRank.binText {ra qa rb qb p : Nat} (h : SameRank ra qa) (h2 : SameRank rb qb) (hp : p ≤ 80) (x s t : PyStr) :
    Xlrd.binText p x ra s rb t = Xlrd.binText p x qa s qb t := by
  unfold Xlrd.binText
  rw [h.parens hp, h2.parens hp]

/-- The loop over the tokens of an expression leaves one more operand, with the text and the rank of the tree. -/
def Runs (env : DEnv) (tab : List Int) (s : Stored) : Prop :=
  ∀ {data post : Bytes} {p n : Nat}, data.drop p = s.enc env.bv ++ post → p + (s.enc env.bv).length ≤ n → ∀ (stk : List (Option DOpnd)),
    ∃ o : DOpnd, SameRank o.rank (Tree.rank s.tree) ∧ o.text = Tree.text s.tree ∧ (Stored.NoError env tab s → o.kind ≠ .err) ∧
      DRun env tab data n (stk, (p : Int)) (some o :: stk, ((p + (s.enc env.bv).length : Nat) : Int))

theorem runs_args {env : DEnv} {tab : List Int} : ∀ (args : List Stored), (∀ a ∈ args, Runs env tab a) → ∀ {data post : Bytes} {p n : Nat},
    data.drop p = (args.map (Stored.enc env.bv)).flatten ++ post → p + (args.map (Stored.enc env.bv)).flatten.length ≤ n →
    ∀ (stk : List (Option DOpnd)), ∃ os : List DOpnd, os.length = args.length ∧ os.map DOpnd.text = args.map (fun a => Tree.text a.tree) ∧
      DRun env tab data n (stk, (p : Int)) ((os.map some).reverse ++ stk, ((p + (args.map (Stored.enc env.bv)).flatten.length : Nat) : Int)) := by
  intro args
  induction args with
  | nil => intro _ data post p n _ _ stk; exact ⟨[], rfl, rfl, .refl _⟩
  | cons a args ih =>
    intro ha data post p n h hn stk
    rw [List.map_cons, List.flatten_cons, List.append_assoc] at h
    rw [List.map_cons, List.flatten_cons, List.length_append] at hn
    obtain ⟨o, _, ht, _, h1⟩ := ha a (List.mem_cons_self ..) h (by omega) stk (n := n)
    obtain ⟨os, e1, e2, h2⟩ := ih (fun x hx => ha x (List.mem_cons_of_mem _ hx)) (drop_at h rfl) (by omega)
      (some o :: stk) (n := n)
    refine ⟨o :: os, by simp [e1], by simp [e2, ht], ?_⟩
    have := h1.trans h2
    rw [show p + (((a :: args).map (Stored.enc env.bv)).flatten).length = p + (a.enc env.bv).length + ((args.map (Stored.enc env.bv)).flatten).length by
      rw [List.map_cons, List.flatten_cons, List.length_append, Nat.add_assoc]]
    rw [List.map_cons, List.reverse_cons, List.append_assoc]
    exact this

/-- Two operands and an operator. -/
theorem runs_two {env : DEnv} {tab : List Int} {a b : Stored} (iha : Runs env tab a) (ihb : Runs env tab b) {code : UInt8} {data post : Bytes} {p n : Nat}
    (h : data.drop p = a.enc env.bv ++ b.enc env.bv ++ [code] ++ post) (hn : p + (a.enc env.bv ++ b.enc env.bv ++ [code]).length ≤ n)
    (stk : List (Option DOpnd)) {r : Nat} {t : PyStr} {N : Prop}
    (hstep : ∀ (x y : DOpnd) (q : Nat), SameRank x.rank (Tree.rank a.tree) → x.text = Tree.text a.tree → (Stored.NoError env tab a → x.kind ≠ .err) →
      SameRank y.rank (Tree.rank b.tree) → y.text = Tree.text b.tree → (Stored.NoError env tab b → y.kind ≠ .err) → data.drop q = code :: post →
      ∃ o : DOpnd, SameRank o.rank r ∧ o.text = t ∧ (N → o.kind ≠ .err) ∧ dStep env tab data n (q : Int) (some y :: some x :: stk) = .ok (some o :: stk, (q : Int) + 1)) :
    ∃ o : DOpnd, SameRank o.rank r ∧ o.text = t ∧ (N → o.kind ≠ .err) ∧
      DRun env tab data n (stk, (p : Int)) (some o :: stk, ((p + (a.enc env.bv ++ b.enc env.bv ++ [code]).length : Nat) : Int)) := by
  rw [List.append_assoc, List.append_assoc] at h
  rw [List.length_append, List.length_append, List.length_singleton] at hn
  obtain ⟨x, x1, x2, x3, h1⟩ := iha h (by omega) stk (n := n)
  have h' := drop_at h rfl
  obtain ⟨y, y1, y2, y3, h2⟩ := ihb h' (by omega) (some x :: stk) (n := n)
  obtain ⟨o, o1, o2, o3, h3⟩ := hstep x y _ x1 x2 x3 y1 y2 y3 (drop_at h' rfl)
  refine ⟨o, o1, o2, o3, (h1.trans h2).trans (.step ⟨by simp only; omega, ?_⟩ h3 ?_)⟩
  · simp only; omega
  · simp only [List.length_append, List.length_singleton]
    push_cast
    rw [← Int.add_assoc, ← Int.add_assoc]
    exact .refl _

theorem runs {env : DEnv} {tab : List Int} (ht : szdict env.bv = .ok tab) (s : Stored) : Stored.Ok env tab s → Runs env tab s := by
  induction s using Stored.ind with
  | hl t w =>
    intro hok data post p n h hn stk
    simp only [Stored.Ok] at hok
    simp only [Stored.enc] at h hn ⊢
    obtain ⟨_, h0, h1⟩ := hok
    obtain ⟨k, h1⟩ := h1 data post p n stk h
    have : 0 < t.length := List.length_pos_iff.mpr h0
    refine ⟨{ kind := k, rank := 90, text := w }, (by simp only [Stored.tree, Tree.rank]; exact SameRank.refl _), (by simp only [Stored.tree, Tree.text]), ?_, .step ⟨by simp only; omega, by simp only; omega⟩ h1 ?_⟩
    · intro hne
      simp only [Stored.NoError] at hne
      exact hne.2 data post p n stk h _ _ h1
    push_cast
    exact .refl _
  | ha t v w =>
    intro hok data post p n h hn stk
    simp only [Stored.Ok] at hok
    simp only [Stored.enc] at h hn ⊢
    obtain ⟨_, _, h0, h1⟩ := hok
    obtain ⟨k, hk, h1⟩ := h1 data post p n stk h
    have : 0 < t.length := List.length_pos_iff.mpr h0
    refine ⟨{ kind := k, rank := 90, text := v ++ ':' :: w }, ?_, ?_, fun _ => hk, .step ⟨by simp only; omega, by simp only; omega⟩ h1 ?_⟩
    · intro q hq
      simp only [Stored.tree, Tree.rank]
      omega
    · simp [Stored.tree, Tree.text, Tree.rank, binText, parens]
    push_cast
    exact .refl _
  | hu o e ih =>
    intro hok data post p n h hn stk
    simp only [Stored.Ok] at hok
    simp only [Stored.enc] at h hn ⊢
    rw [List.append_assoc] at h
    rw [List.length_append] at hn
    obtain ⟨x, x1, x2, _, h1⟩ := ih hok.1 h (by omega) stk (n := n)
    have h2 := unary_step ht o (n := n) (drop_at h rfl) x stk
    refine ⟨{ kind := .num, rank := Op1.rank o, text := unText (Op1.rank o) (Op1.before o) (Op1.after o) x.rank x.text }, (by simp only [Stored.tree, Tree.rank]; exact SameRank.refl _), ?_, ?_, h1.trans (.step ⟨by simp only; omega, ?_⟩ h2 ?_)⟩
    · simp only [Stored.tree, Tree.text, unText]
      rw [x1.parens (by cases o <;> decide), x2]
    · intro _ hc; cases hc
    · simp only [List.length_singleton] at hn ⊢; omega
    · simp only [List.length_append, List.length_singleton]
      push_cast
      rw [← Int.add_assoc]
      exact .refl _
  | hb o a b iha ihb =>
    intro hok data post p n h hn stk
    simp only [Stored.Ok] at hok
    simp only [Stored.enc] at h hn ⊢
    refine runs_two (iha hok.1) (ihb hok.2.1) h hn stk ?_
    intro x y q x1 x2 _ y1 y2 _ hq
    obtain ⟨k, hk, h3⟩ := binary_step ht o (n := n) hq x y stk
    refine ⟨_, (by simp only [Stored.tree, Tree.rank]; exact SameRank.refl _), ?_, fun _ => hk, h3⟩
    simp only [Stored.tree, Tree.text]
    rw [x1.binText y1 (by have := prec_le o; omega), x2, y2]
  | hr a b iha ihb =>
    intro hok data post p n h hn stk
    simp only [Stored.Ok] at hok
    simp only [Stored.enc] at h hn ⊢
    refine runs_two (iha hok.1) (ihb hok.2.1) h hn stk ?_
    intro x y q x1 x2 x3 y1 y2 y3 hq
    refine ⟨_, (by simp only [Stored.tree, Tree.rank]; exact SameRank.refl _), ?_, ?_, range_step ht (n := n) hq x y (x3 hok.2.2.2.2.1) (y3 hok.2.2.2.2.2) stk⟩
    · simp only [Stored.tree, Tree.text]
      rw [x1.binText y1 (by decide), x2, y2]
    · intro _ hc; cases hc
  | hi a b iha ihb =>
    intro hok data post p n h hn stk
    simp only [Stored.Ok] at hok
    simp only [Stored.enc] at h hn ⊢
    refine runs_two (iha hok.1) (ihb hok.2.1) h hn stk ?_
    intro x y q x1 x2 x3 y1 y2 y3 hq
    obtain ⟨k, hk, h3⟩ := isect_step ht (n := n) hq x y stk
    refine ⟨_, (by simp only [Stored.tree, Tree.rank]; exact SameRank.refl _), ?_, ?_, h3⟩
    · simp only [Stored.tree, Tree.text]
      rw [x1.binText y1 (by decide), x2, y2]
    · intro hne
      simp only [Stored.NoError] at hne
      exact hk (x3 hne.1) (y3 hne.2)
  | hq x y e ih =>
    intro hok data post p n h hn stk
    simp only [Stored.Ok] at hok
    simp only [Stored.enc] at h hn ⊢
    rw [List.append_assoc, List.append_assoc] at h
    rw [List.length_append, List.length_append] at hn
    have h1 := quiet_run ht x hok.1 h (by omega) stk (n := n)
    have h' := drop_at h rfl
    obtain ⟨o, o1, o2, o3, h2⟩ := ih hok.2.2 h' (by omega) stk (n := n)
    have h3 := quiet_run ht y hok.2.1 (drop_at h' rfl) (by omega) (some o :: stk) (n := n)
    refine ⟨o, (by simp only [Stored.tree]; exact o1), (by simp only [Stored.tree]; exact o2), ?_, ?_⟩
    · intro hne
      simp only [Stored.NoError] at hne
      exact o3 hne
    have := (h1.trans h2).trans h3
    simp only [List.length_append]
    rw [← Nat.add_assoc, ← Nat.add_assoc]
    exact this
  | hf c num f args ih =>
    intro hok data post p n h hn stk
    simp only [Stored.Ok] at hok
    simp only [Stored.enc] at h hn ⊢
    obtain ⟨hnum, ⟨hi, hdef⟩, _, hargs⟩ := hok
    rw [List.append_assoc] at h
    rw [List.length_append, List.length_cons] at hn
    obtain ⟨os, e1, e2, h1⟩ := runs_args args (fun a ha => ih a ha (hargs a ha)) h (by omega) stk (n := n)
    have h2 := fixed_step ht c num f hi os hnum (by rw [e1]; exact hdef) (n := n) (drop_at h rfl) stk
    refine ⟨{ rank := 90, text := callText f (os.map DOpnd.text) }, (by simp only [Stored.tree, Tree.rank]; exact SameRank.refl _), ?_, ?_, h1.trans (.step ⟨by simp only; omega, ?_⟩ h2 ?_)⟩
    · simp only [Stored.tree, Tree.text, e2, List.map_map, Function.comp_def]
    · intro _ hc; cases hc
    · simp only; omega
    · simp only [List.length_append, List.length_cons]
      push_cast
      exact .here (by ring)
  | hv c num f args ih =>
    intro hok data post p n h hn stk
    simp only [Stored.Ok] at hok
    simp only [Stored.enc] at h hn ⊢
    obtain ⟨hnum, ⟨lo, hi, hdef, hlo, hhi⟩, h1le, h128, _, hargs⟩ := hok
    rw [List.append_assoc] at h
    rw [List.length_append, List.length_cons, List.length_cons] at hn
    obtain ⟨os, e1, e2, h1⟩ := runs_args args (fun a ha => ih a ha (hargs a ha)) h (by omega) stk (n := n)
    have h2 := varying_step ht c num f lo hi os hnum hdef (by omega) (by omega) (by omega) (by omega) (n := n) (post := post)
      (by rw [drop_at h rfl, e1]; rfl) stk
    refine ⟨{ rank := 90, text := callText f (os.map DOpnd.text) }, (by simp only [Stored.tree, Tree.rank]; exact SameRank.refl _), ?_, ?_, h1.trans (.step ⟨by simp only; omega, ?_⟩ h2 ?_)⟩
    · simp only [Stored.tree, Tree.text, e2, List.map_map, Function.comp_def]
    · intro _ hc; cases hc
    · simp only; omega
    · simp only [List.length_append, List.length_cons]
      push_cast
      exact .here (by ring)
  | hs d e ih =>
    intro hok data post p n h hn stk
    simp only [Stored.Ok] at hok
    simp only [Stored.enc] at h hn ⊢
    rw [List.append_assoc, List.append_assoc] at h
    rw [List.length_append, List.length_append, le16_length] at hn
    obtain ⟨o, _, o2, _, h1⟩ := ih hok.2.1 h (by omega) stk (n := n)
    have h2 := sum_step ht d hok.1 (n := n) (post := post) (by rw [drop_at h rfl, List.append_assoc]) o stk
    refine ⟨{ kind := .num, rank := 90, text := callText "SUM".toList [o.text] }, (by simp only [Stored.tree, Tree.rank]; exact SameRank.refl _), ?_, ?_, h1.trans (.step ⟨by simp only; omega, ?_⟩ h2 ?_)⟩
    · simp only [Stored.tree, Tree.text, List.map_cons, List.map_nil, o2]
    · intro _ hc; cases hc
    · simp only [List.length_cons, List.length_nil] at hn ⊢; omega
    · simp only [List.length_append, List.length_cons, List.length_nil, le16_length]
      push_cast
      exact .here (by ring)
  | hm =>
    intro hok data post p n h hn stk
    simp only [Stored.enc] at h hn ⊢
    simp only [List.length_singleton] at hn
    refine ⟨{ kind := .msng, rank := 90, text := [] }, (by simp only [Stored.tree, Tree.rank]; exact SameRank.refl _), ?_, ?_, .step ⟨by simp only; omega, ?_⟩ (missing_step ht h stk) ?_⟩
    · simp only [Stored.tree, Tree.text]
    · intro _ hc; cases hc
    · simp only; omega
    · simp only [List.length_singleton]
      push_cast
      exact .refl _

theorem enc_pos (env : DEnv) (tab : List Int) (s : Stored) : Stored.Ok env tab s → 0 < (s.enc env.bv).length := by
  induction s using Stored.ind with
  | hl t w => intro h; simp only [Stored.Ok] at h; simp only [Stored.enc]; exact List.length_pos_iff.mpr h.2.1
  | ha t v w => intro h; simp only [Stored.Ok] at h; simp only [Stored.enc]; exact List.length_pos_iff.mpr h.2.2.1
  | hq x y e ih => intro h; simp only [Stored.Ok] at h; simp only [Stored.enc, List.length_append]; have := ih h.2.2; omega
  | _ => intro _; simp [Stored.enc]

theorem decompile_text (env : DEnv) (tab : List Int) (ht : szdict env.bv = .ok tab) (s : Stored) (hs : Stored.Ok env tab s) (rest : Bytes) :
    decompile env (s.enc env.bv ++ rest) (s.enc env.bv).length = .ok (some (Tree.text s.tree)) := by
  obtain ⟨o, _, ho, _, h⟩ := runs ht s hs (data := s.enc env.bv ++ rest) (post := rest) (p := 0) (n := (s.enc env.bv).length) rfl (by omega) []
  have hl := h.loop (by simp) (s.enc env.bv).length (by simp)
  have hpos := enc_pos env tab s hs
  unfold decompile
  rw [ht]
  simp only [bind, Except.bind]
  rw [if_neg (by omega)]
  simp only [Nat.cast_zero] at hl
  rw [hl]
  simp only [ditem, bind, Except.bind, ho]
  rfl

/-- **C50** (what the text denotes).  The text of the formula of a cell, read with the precedence of Excel's operators, all of them grouped to
the left, denotes the expression of which the tokens are stored, with operators of the same precedence grouped to the left. -/
theorem C50_text_regrouped (env : DEnv) (tab : List Int) (ht : szdict env.bv = .ok tab) (s : Stored) (hs : Stored.Ok env tab s) (hm : s.tree ≠ .missing)
    (rest : Bytes) :
    ∃ text, decompile env (s.enc env.bv ++ rest) (s.enc env.bv).length = .ok (some text) ∧ ∀ e, FormulaDenotes text e ↔ e = s.tree.regroup :=
  ⟨_, decompile_text env tab ht s hs rest, text_denotes s.tree (ok_words env tab s hs).1 (ok_words env tab s hs).2 hm⟩

/-- **C50**.  The text denotes exactly the expression that is stored if no right operand is an operation of the same precedence as its
operator.  Missing: operators of the same precedence in a right operand (`C50_grouping_lost`), unions (`C50_union_lost`), ranges with an operand that
is an error (`C50_range_of_error`), functions that are not in the table (`C50_unknown_function`), calls without arguments of functions with a varying
number of arguments (`C50_no_arguments`). -/
theorem C50_text_partial (env : DEnv) (tab : List Int) (ht : szdict env.bv = .ok tab) (s : Stored) (hs : Stored.Ok env tab s) (hm : s.tree ≠ .missing)
    (hg : s.tree.LeftGrouped) (rest : Bytes) :
    ∃ text, decompile env (s.enc env.bv ++ rest) (s.enc env.bv).length = .ok (some text) ∧ ∀ e, FormulaDenotes text e ↔ e = s.tree := by
  obtain ⟨text, h1, h2⟩ := C50_text_regrouped env tab ht s hs hm rest
  rw [regroup_id _ hg] at h2
  exact ⟨text, h1, h2⟩

end Xlrd
