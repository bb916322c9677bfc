import Verif.Spec.FormulaText
import Mathlib.Tactic.Ring

/-!
# Reading formulas: the grammar is unambiguous, and texts with few parentheses
-/
set_option linter.unusedSimpArgs false

namespace Xlrd
open Spec

theorem Tree.ind {P : Tree → Prop} (hl : ∀ w, P (.leaf w)) (hu : ∀ o e, P e → P (.un o e)) (hb : ∀ o a b, P a → P b → P (.bin o a b))
    (hr : ∀ a b, P a → P b → P (.range a b)) (hi : ∀ a b, P a → P b → P (.isect a b))
    (hc : ∀ f args, (∀ a ∈ args, P a) → P (.call f args)) (hm : P .missing) : ∀ t, P t
  | .leaf w => hl w
  | .un o e => hu o e (Tree.ind hl hu hb hr hi hc hm e)
  | .bin o a b => hb o a b (Tree.ind hl hu hb hr hi hc hm a) (Tree.ind hl hu hb hr hi hc hm b)
  | .range a b => hr a b (Tree.ind hl hu hb hr hi hc hm a) (Tree.ind hl hu hb hr hi hc hm b)
  | .isect a b => hi a b (Tree.ind hl hu hb hr hi hc hm a) (Tree.ind hl hu hb hr hi hc hm b)
  | .call f args => hc f args (fun a h => Tree.ind hl hu hb hr hi hc hm a)
  | .missing => hm
termination_by t => sizeOf t
decreasing_by
  all_goals simp_wf
  all_goals try omega
  have := List.sizeOf_lt_of_mem h
  omega

/-! ## A deterministic reader -/

/-- What the reader has to do next. -/
inductive Todo
  | expr (m : Nat) (ts : List Sym)
  | more (m : Nat) (e : Tree) (ts : List Sym)
  | args (ts : List Sym)
  | arg (ts : List Sym)
  | next (ts : List Sym)

/-- An operator that binds at least as much as `m` is next. -/
def goesOn (m : Nat) : List Sym → Prop
  | .op o :: _ => m ≤ o.prec
  | .percent :: _ => m ≤ 60
  | .colon :: _ => m ≤ 80
  | .space :: _ => m ≤ 75
  | _ => False

def argEnd : List Sym → Prop
  | .comma :: _ => True
  | .rpar :: _ => True
  | _ => False

def signOf : Op2 → Option Op1
  | .add => some .plus
  | .sub => some .minus
  | _ => none

inductive ReadRun : Todo → List Tree → List Sym → Prop
  | word {m w ts r t} (hn : ∀ x, ts ≠ .lpar :: x) (h : ReadRun (.more m (.leaf w) ts) r t) : ReadRun (.expr m (.word w :: ts)) r t
  | call {m f ts es ts1 r t} (h1 : ReadRun (.args ts) es ts1) (h : ReadRun (.more m (.call f es) ts1) r t) : ReadRun (.expr m (.word f :: .lpar :: ts)) r t
  | parens {m ts e ts1 r t} (h1 : ReadRun (.expr 10 ts) [e] (.rpar :: ts1)) (h : ReadRun (.more m e ts1) r t) : ReadRun (.expr m (.lpar :: ts)) r t
  | sign {m o o1 ts e ts1 r t} (ho : signOf o = some o1) (h1 : ReadRun (.expr 70 ts) [e] ts1) (h : ReadRun (.more m (.un o1 e) ts1) r t) :
      ReadRun (.expr m (.op o :: ts)) r t
  | stop {m e ts} (h : ¬ goesOn m ts) : ReadRun (.more m e ts) [e] ts
  | percent {m e ts r t} (hm : m ≤ 60) (h : ReadRun (.more m (.un .percent e) ts) r t) : ReadRun (.more m e (.percent :: ts)) r t
  | binary {m e o ts b ts1 r t} (hm : m ≤ o.prec) (h1 : ReadRun (.expr (o.prec + 1) ts) [b] ts1) (h : ReadRun (.more m (.bin o e b) ts1) r t) :
      ReadRun (.more m e (.op o :: ts)) r t
  | range {m e ts b ts1 r t} (hm : m ≤ 80) (h1 : ReadRun (.expr 81 ts) [b] ts1) (h : ReadRun (.more m (.range e b) ts1) r t) :
      ReadRun (.more m e (.colon :: ts)) r t
  | isect {m e ts b ts1 r t} (hm : m ≤ 75) (h1 : ReadRun (.expr 76 ts) [b] ts1) (h : ReadRun (.more m (.isect e b) ts1) r t) :
      ReadRun (.more m e (.space :: ts)) r t
  | noArgs {ts} : ReadRun (.args (.rpar :: ts)) [] ts
  | someArgs {ts r t} (hn : ∀ x, ts ≠ .rpar :: x) (h : ReadRun (.arg ts) r t) : ReadRun (.args ts) r t
  | arg {ts e ts1 r t} (hn : ¬ argEnd ts) (h1 : ReadRun (.expr 10 ts) [e] ts1) (h : ReadRun (.next ts1) r t) : ReadRun (.arg ts) (e :: r) t
  | skip {ts r t} (hn : argEnd ts) (h : ReadRun (.next ts) r t) : ReadRun (.arg ts) (.missing :: r) t
  | comma {ts r t} (h : ReadRun (.arg ts) r t) : ReadRun (.next (.comma :: ts)) r t
  | close {ts} : ReadRun (.next (.rpar :: ts)) [] ts

theorem ReadRun.det {s : Todo} {r : List Tree} {t : List Sym} (h : ReadRun s r t) : ∀ {r' t'}, ReadRun s r' t' → r' = r ∧ t' = t := by
  induction h with
  | word hn _ ih =>
    intro r' t' h'
    cases h' with
    | word _ h => exact ih h
    | call h1 h => exact absurd rfl (hn _)
  | call _ _ ih1 ih =>
    intro r' t' h'
    cases h' with
    | word hn h => exact absurd rfl (hn _)
    | call h1 h =>
      obtain ⟨rfl, rfl⟩ := ih1 h1
      exact ih h
  | parens _ _ ih1 ih =>
    intro r' t' h'
    cases h' with
    | parens h1 h =>
      obtain ⟨e1, e2⟩ := ih1 h1
      cases e1; cases e2
      exact ih h
  | sign ho _ _ ih1 ih =>
    intro r' t' h'
    cases h' with
    | sign ho' h1 h =>
      rw [ho] at ho'
      cases ho'
      obtain ⟨e1, e2⟩ := ih1 h1
      cases e1; cases e2
      exact ih h
  | stop hg =>
    intro r' t' h'
    cases h' with
    | stop _ => exact ⟨rfl, rfl⟩
    | percent hm h => exact absurd hm hg
    | binary hm h1 h => exact absurd hm hg
    | range hm h1 h => exact absurd hm hg
    | isect hm h1 h => exact absurd hm hg
  | percent hm _ ih =>
    intro r' t' h'
    cases h' with
    | stop hg => exact absurd hm hg
    | percent _ h => exact ih h
  | binary hm _ _ ih1 ih =>
    intro r' t' h'
    cases h' with
    | stop hg => exact absurd hm hg
    | binary _ h1 h =>
      obtain ⟨e1, e2⟩ := ih1 h1
      cases e1; cases e2
      exact ih h
  | range hm _ _ ih1 ih =>
    intro r' t' h'
    cases h' with
    | stop hg => exact absurd hm hg
    | range _ h1 h =>
      obtain ⟨e1, e2⟩ := ih1 h1
      cases e1; cases e2
      exact ih h
  | isect hm _ _ ih1 ih =>
    intro r' t' h'
    cases h' with
    | stop hg => exact absurd hm hg
    | isect _ h1 h =>
      obtain ⟨e1, e2⟩ := ih1 h1
      cases e1; cases e2
      exact ih h
  | noArgs =>
    intro r' t' h'
    cases h' with
    | noArgs => exact ⟨rfl, rfl⟩
    | someArgs hn h => exact absurd rfl (hn _)
  | someArgs hn _ ih =>
    intro r' t' h'
    cases h' with
    | noArgs => exact absurd rfl (hn _)
    | someArgs _ h => exact ih h
  | arg hn _ _ ih1 ih =>
    intro r' t' h'
    cases h' with
    | arg _ h1 h =>
      obtain ⟨e1, e2⟩ := ih1 h1
      cases e1; cases e2
      obtain ⟨rfl, rfl⟩ := ih h
      exact ⟨rfl, rfl⟩
    | skip hn' h => exact absurd hn' hn
  | skip hn _ ih =>
    intro r' t' h'
    cases h' with
    | arg hn' h1 h => exact absurd hn hn'
    | skip _ h =>
      obtain ⟨rfl, rfl⟩ := ih h
      exact ⟨rfl, rfl⟩
  | comma _ ih =>
    intro r' t' h'
    cases h' with
    | comma h => exact ih h
  | close =>
    intro r' t' h'
    cases h' with
    | close => exact ⟨rfl, rfl⟩

/-- What may follow an expression of level `p`. -/
def Follows (p : Nat) : List Sym → Prop
  | .op o :: _ => o.prec ≤ p
  | .percent :: _ => 60 ≤ p
  | .colon :: _ => 80 ≤ p
  | .space :: _ => 75 ≤ p
  | .lpar :: _ => False
  | _ => True

theorem Follows.mono {p q : Nat} (h : p ≤ q) {ts : List Sym} (hf : Follows p ts) : Follows q ts := by
  cases ts with
  | nil => trivial
  | cons t ts => cases t <;> simp only [Follows] at hf ⊢ <;> omega

theorem prec_le (o : Op2) : o.prec ≤ 50 := by cases o <;> decide
theorem prec_ge (o : Op2) : 10 ≤ o.prec := by cases o <;> decide

theorem Follows.stops {p m : Nat} {ts : List Sym} (hf : Follows p ts) (h : p < m) : ¬ goesOn m ts := by
  cases ts with
  | nil => exact id
  | cons t ts => cases t <;> simp only [Follows, goesOn, not_false_eq_true] at hf ⊢ <;> omega

theorem stops70 {ts : List Sym} (hf : Follows 70 ts) : ¬ goesOn 70 ts := by
  cases ts with
  | nil => exact id
  | cons t ts =>
    cases t with
    | op o =>
      have := prec_le o
      simp only [goesOn]
      omega
    | percent => simp [goesOn]
    | colon => simp [Follows] at hf
    | space => simp [Follows] at hf
    | _ => exact id

/-- What the reader makes of an expression of level `p`. -/
def ReadOk (p : Nat) (l : List Sym) (e : Tree) : Prop :=
  (p = 0 ∧ l = [] ∧ e = .missing) ∨
  ((∃ x xs, l = x :: xs ∧ x ≠ .comma ∧ x ≠ .rpar) ∧
    ∀ m, m ≤ max p 10 → ∀ rest, Follows (max p 10) rest → ∀ r t, ReadRun (.more m e rest) r t → ReadRun (.expr m (l ++ rest)) r t)

theorem ReadOk.pos {p : Nat} {l : List Sym} {e : Tree} (h : ReadOk p l e) (hp : 10 ≤ p) :
    (∃ x xs, l = x :: xs ∧ x ≠ .comma ∧ x ≠ .rpar) ∧
      ∀ m, m ≤ p → ∀ rest, Follows p rest → ∀ r t, ReadRun (.more m e rest) r t → ReadRun (.expr m (l ++ rest)) r t := by
  rcases h with ⟨h, _⟩ | h
  · omega
  · rwa [max_eq_left hp] at h

theorem read_args : ∀ (ps : List (List Sym × Tree)), ps ≠ [] → (∀ p ∈ ps, ReadOk 0 p.1 p.2) → ∀ rest,
    ReadRun (.arg (commaJoin (ps.map Prod.fst) ++ .rpar :: rest)) (ps.map Prod.snd) rest := by
  intro ps
  induction ps with
  | nil => intro h; exact absurd rfl h
  | cons p ps ih =>
    intro _ hps rest
    have hp := hps p (List.mem_cons_self ..)
    have key : ∀ tail r, argEnd tail → ReadRun (.next tail) r rest → ReadRun (.arg (p.1 ++ tail)) (p.2 :: r) rest := by
      intro tail r he hr
      rcases hp with ⟨_, h1, h2⟩ | ⟨⟨x, xs, h1, hx1, hx2⟩, h2⟩
      · rw [h1, h2]
        exact .skip he hr
      · refine .arg ?_ (h2 10 (le_max_right _ _) tail ?_ [p.2] tail (.stop ?_)) hr
        · rw [h1]
          cases x <;> simp [argEnd] at hx1 hx2 ⊢
        · cases tail with
          | nil => trivial
          | cons a _ => cases a <;> simp [argEnd, Follows] at he ⊢
        · cases tail with
          | nil => exact id
          | cons a _ => cases a <;> simp [argEnd, goesOn] at he ⊢
    cases ps with
    | nil =>
      simp only [List.map_cons, List.map_nil, commaJoin]
      exact key _ _ trivial .close
    | cons p2 ps =>
      have h2 := ih (by simp) (fun q hq => hps q (List.mem_cons_of_mem _ hq)) rest
      simp only [List.map_cons, commaJoin] at h2 ⊢
      rw [List.append_assoc]
      exact key _ _ trivial (.comma h2)

theorem Reads.run {p : Nat} {l : List Sym} {e : Tree} (h : Reads p l e) : ReadOk p l e := by
  induction h with
  | word w =>
    refine Or.inr ⟨⟨_, _, rfl, by simp, by simp⟩, ?_⟩
    intro m hm rest hf r t hr
    refine .word ?_ hr
    rintro x rfl
    exact hf
  | parens h ih =>
    refine Or.inr ⟨⟨_, _, rfl, by simp, by simp⟩, ?_⟩
    intro m hm rest hf r t hr
    obtain ⟨_, h2⟩ := ih.pos (Nat.le_refl _)
    have := h2 10 (Nat.le_refl _) (.rpar :: rest) trivial _ _ (.stop id)
    simp only [List.cons_append, List.append_assoc, List.nil_append]
    exact .parens this hr
  | call f ps h hm ih =>
    refine Or.inr ⟨⟨_, _, rfl, by simp, by simp⟩, ?_⟩
    intro m _ rest hf r t hr
    simp only [List.cons_append, List.append_assoc, List.nil_append]
    refine .call ?_ hr
    cases hps : ps with
    | nil => exact .noArgs
    | cons p ps' =>
      have h1 := read_args ps (by simp [hps]) ih rest
      rw [hps] at h1
      refine .someArgs ?_ h1
      intro x hx
      rcases ih p (by simp [hps]) with ⟨_, e1, e2⟩ | ⟨⟨y, ys, e1, _, hy⟩, _⟩
      · cases ps' with
        | nil => exact hm (by rw [hps]; exact congrArg (fun q => [q]) (Prod.ext e1 e2))
        | cons p2 ps' =>
          simp only [List.map_cons, commaJoin, e1, List.nil_append, List.cons_append] at hx
          cases hx
      · cases ps' with
        | nil =>
          simp only [List.map_cons, List.map_nil, commaJoin, e1, List.cons_append] at hx
          exact hy (List.cons.inj hx).1
        | cons p2 ps' =>
          simp only [List.map_cons, commaJoin, e1, List.cons_append] at hx
          exact hy (List.cons.inj hx).1
  | plus h ih =>
    refine Or.inr ⟨⟨_, _, rfl, by simp, by simp⟩, ?_⟩
    intro m hm rest hf r t hr
    obtain ⟨_, h2⟩ := ih.pos (by decide)
    exact .sign rfl (h2 70 (Nat.le_refl _) rest hf _ _ (.stop (stops70 hf))) hr
  | minus h ih =>
    refine Or.inr ⟨⟨_, _, rfl, by simp, by simp⟩, ?_⟩
    intro m hm rest hf r t hr
    obtain ⟨_, h2⟩ := ih.pos (by decide)
    exact .sign rfl (h2 70 (Nat.le_refl _) rest hf _ _ (.stop (stops70 hf))) hr
  | @percent l e h ih =>
    obtain ⟨⟨x, xs, e1, hx⟩, h2⟩ := ih.pos (by decide)
    refine Or.inr ⟨⟨x, xs ++ [.percent], by rw [e1]; rfl, hx⟩, ?_⟩
    intro m hm rest hf r t hr
    rw [List.append_assoc]
    exact h2 m hm (.percent :: rest) (Nat.le_refl 60) _ _ (.percent hm hr)
  | @binary o l r a b h1 h2 ih1 ih2 =>
    have hge := prec_ge o
    obtain ⟨⟨x, xs, e1, hx⟩, ha⟩ := ih1.pos hge
    obtain ⟨_, hb⟩ := ih2.pos (by omega)
    refine Or.inr ⟨⟨x, xs ++ .op o :: r, by rw [e1]; rfl, hx⟩, ?_⟩
    intro m hm rest hf r' t hr
    rw [max_eq_left hge] at hm hf
    rw [List.append_assoc]
    refine ha m hm _ (Nat.le_refl _) _ _ (.binary hm ?_ hr)
    exact hb _ (Nat.le_refl _) rest (hf.mono (by omega)) _ _ (.stop (hf.stops (by omega)))
  | @range l r a b h1 h2 ih1 ih2 =>
    obtain ⟨⟨x, xs, e1, hx⟩, ha⟩ := ih1.pos (by decide)
    obtain ⟨_, hb⟩ := ih2.pos (by decide)
    refine Or.inr ⟨⟨x, xs ++ .colon :: r, by rw [e1]; rfl, hx⟩, ?_⟩
    intro m hm rest hf r' t hr
    rw [max_eq_left (by decide)] at hm hf
    rw [List.append_assoc]
    refine ha m hm _ (Nat.le_refl _) _ _ (.range hm ?_ hr)
    exact hb _ (Nat.le_refl _) rest (hf.mono (by decide)) _ _ (.stop (hf.stops (by decide)))
  | @isect l r a b h1 h2 ih1 ih2 =>
    obtain ⟨⟨x, xs, e1, hx⟩, ha⟩ := ih1.pos (by decide)
    obtain ⟨_, hb⟩ := ih2.pos (by decide)
    refine Or.inr ⟨⟨x, xs ++ .space :: r, by rw [e1]; rfl, hx⟩, ?_⟩
    intro m hm rest hf r' t hr
    rw [max_eq_left (by decide)] at hm hf
    rw [List.append_assoc]
    refine ha m hm _ (Nat.le_refl _) _ _ (.isect hm ?_ hr)
    exact hb _ (Nat.le_refl _) rest (hf.mono (by decide)) _ _ (.stop (hf.stops (by decide)))
  | missing => exact Or.inl ⟨rfl, rfl, rfl⟩
  | @tighter p q l e hp h ih =>
    rcases ih with ⟨h0, h1, h2⟩ | ⟨h1, h2⟩
    · exact Or.inl ⟨by omega, h1, h2⟩
    · exact Or.inr ⟨h1, fun m hm rest hf => h2 m (by omega) rest (hf.mono (by omega))⟩

/-- The grammar is unambiguous. -/
theorem Reads.unique {l : List Sym} {e e' : Tree} (h : Reads 10 l e) (h' : Reads 10 l e') : e' = e := by
  have h1 := ((Reads.run h).pos (Nat.le_refl _)).2 10 (Nat.le_refl _) [] trivial [e] [] (.stop id)
  have h2 := ((Reads.run h').pos (Nat.le_refl _)).2 10 (Nat.le_refl _) [] trivial [e'] [] (.stop id)
  simpa using (h1.det h2).1

/-! ## Writing with parentheses only around operands of lower rank -/

def Op1.rank : Op1 → Nat
  | .percent => 60
  | _ => 70

def Tree.rank : Tree → Nat
  | .un o _ => Op1.rank o
  | .bin o _ _ => o.prec
  | .range _ _ => 80
  | .isect _ _ => 0
  | _ => 90

/-- A list of symbols in parentheses if `r` is smaller than `p`. -/
def wrap (r p : Nat) (l : List Sym) : List Sym := if r < p then .lpar :: l ++ [.rpar] else l

def unSyms (o : Op1) (l : List Sym) : List Sym :=
  match o with
  | .plus => .op .add :: l
  | .minus => .op .sub :: l
  | .percent => l ++ [.percent]

def Tree.syms : Tree → List Sym
  | .leaf w => [.word w]
  | .un o e => unSyms o (wrap (Tree.rank e) (Op1.rank o) (Tree.syms e))
  | .bin o a b => wrap (Tree.rank a) o.prec (Tree.syms a) ++ .op o :: wrap (Tree.rank b) o.prec (Tree.syms b)
  | .range a b => wrap (Tree.rank a) 80 (Tree.syms a) ++ .colon :: wrap (Tree.rank b) 80 (Tree.syms b)
  | .isect a b => wrap (Tree.rank a) 80 (Tree.syms a) ++ .space :: wrap (Tree.rank b) 80 (Tree.syms b)
  | .call f args => .word f :: .lpar :: commaJoin (args.map Tree.syms) ++ [.rpar]
  | .missing => []

/-- Arguments are missing only in calls, and a single argument is not missing. -/
def Tree.Proper : Tree → Prop
  | .leaf _ => True
  | .un _ e => Tree.Proper e ∧ e ≠ .missing
  | .bin _ a b => Tree.Proper a ∧ Tree.Proper b ∧ a ≠ .missing ∧ b ≠ .missing
  | .range a b => Tree.Proper a ∧ Tree.Proper b ∧ a ≠ .missing ∧ b ≠ .missing
  | .isect a b => Tree.Proper a ∧ Tree.Proper b ∧ a ≠ .missing ∧ b ≠ .missing
  | .call _ args => (∀ a ∈ args, Tree.Proper a) ∧ args ≠ [.missing]
  | .missing => True

theorem join_ne_missing (o : Op2) (a b : Tree) : join o a b ≠ .missing := by
  cases b <;> simp only [join, ne_eq, reduceCtorEq, not_false_eq_true]
  split <;> simp

theorem join_prec (o : Op2) (a b : Tree) : ∃ o' x y, join o a b = .bin o' x y ∧ o'.prec = o.prec := by
  cases b with
  | bin o' x y =>
    simp only [join]
    by_cases h : o'.prec = o.prec
    · rw [if_pos h]; exact ⟨_, _, _, rfl, h⟩
    · rw [if_neg h]; exact ⟨_, _, _, rfl, rfl⟩
  | _ => exact ⟨_, _, _, rfl, rfl⟩

theorem joinRange_range (a b : Tree) : ∃ x y, joinRange a b = .range x y := by
  cases b <;> exact ⟨_, _, rfl⟩

theorem rank_regroup (t : Tree) : Tree.rank t.regroup = Tree.rank t := by
  cases t with
  | bin o a b =>
    obtain ⟨o', x, y, h, hp⟩ := join_prec o a.regroup b.regroup
    simp only [Tree.regroup, h, Tree.rank, hp]
  | range a b =>
    obtain ⟨x, y, h⟩ := joinRange_range a.regroup b.regroup
    simp only [Tree.regroup, h, Tree.rank]
  | _ => simp only [Tree.regroup, Tree.rank]

theorem regroup_missing {t : Tree} : t.regroup = .missing ↔ t = .missing := by
  cases t with
  | bin o a b => simp only [Tree.regroup]; simp [join_ne_missing]
  | range a b =>
    obtain ⟨x, y, h⟩ := joinRange_range a.regroup b.regroup
    simp only [Tree.regroup, h]; simp
  | _ => simp [Tree.regroup]

theorem join_low {o : Op2} {a b : Tree} (h : Tree.rank b ≠ o.prec) : join o a b = .bin o a b := by
  cases b with
  | bin o' x y => simp only [join, Tree.rank] at h ⊢; rw [if_neg h]
  | _ => rfl

theorem join_join {o o' : Op2} (h : o'.prec = o.prec) (a x : Tree) : ∀ y, join o a (join o' x y) = join o' (join o a x) y
  | .bin p u v => by
    simp only [join]
    by_cases hp : p.prec = o'.prec
    · rw [if_pos hp, if_pos hp]
      simp only [join]
      rw [if_pos (hp.trans h), join_join h a x u]
    · rw [if_neg hp, if_neg hp]
      simp only [join]
      rw [if_pos h]
  | .leaf _ => by simp only [join, if_pos h]
  | .un _ _ => by simp only [join, if_pos h]
  | .range _ _ => by simp only [join, if_pos h]
  | .isect _ _ => by simp only [join, if_pos h]
  | .call _ _ => by simp only [join, if_pos h]
  | .missing => by simp only [join, if_pos h]

theorem joinRange_low {a b : Tree} (h : Tree.rank b ≠ 80) : joinRange a b = .range a b := by
  cases b with
  | range x y => simp [Tree.rank] at h
  | _ => rfl

theorem joinRange_join (a x : Tree) : ∀ y, joinRange a (joinRange x y) = joinRange (joinRange a x) y
  | .range u v => by simp only [joinRange, joinRange_join a x u]
  | .bin _ _ _ => by simp only [joinRange]
  | .leaf _ => by simp only [joinRange]
  | .un _ _ => by simp only [joinRange]
  | .isect _ _ => by simp only [joinRange]
  | .call _ _ => by simp only [joinRange]
  | .missing => by simp only [joinRange]

/-- An operand: in parentheses if its rank is smaller. -/
theorem reads_wrap {t : Tree} {p : Nat} (hp : p ≤ 90) (h : Reads (max (Tree.rank t) 10) (Tree.syms t) t.regroup) :
    Reads p (wrap (Tree.rank t) p (Tree.syms t)) t.regroup := by
  unfold wrap
  by_cases hr : Tree.rank t < p
  · rw [if_pos hr]; exact .tighter hp (.parens (.tighter (le_max_right _ _) h))
  · rw [if_neg hr]; exact .tighter (by omega) h

theorem reads_other (o : Op2) {b : Tree} (hr : Tree.rank b ≠ o.prec) (h : Reads (max (Tree.rank b) 10) (Tree.syms b) b.regroup) {l : List Sym} {a : Tree}
    (ha : Reads o.prec l a) : Reads o.prec (l ++ .op o :: wrap (Tree.rank b) o.prec (Tree.syms b)) (join o a b.regroup) := by
  rw [join_low (by rw [rank_regroup]; exact hr)]
  refine .binary ha ?_
  have := reads_wrap (p := o.prec + 1) (by have := prec_le o; omega) h
  rwa [show wrap (Tree.rank b) (o.prec + 1) (Tree.syms b) = wrap (Tree.rank b) o.prec (Tree.syms b) by
    unfold wrap
    by_cases h : Tree.rank b < o.prec
    · rw [if_pos h, if_pos (by omega)]
    · rw [if_neg h, if_neg (by omega)]] at this

/-- The right operand of a binary operator, when what is on its left has been read. -/
theorem reads_right (o : Op2) : ∀ (b : Tree), (∀ c : Tree, sizeOf c ≤ sizeOf b → Tree.Proper c → c ≠ .missing → Reads (max (Tree.rank c) 10) (Tree.syms c) c.regroup) →
    Tree.Proper b → b ≠ .missing → ∀ (l : List Sym) (a : Tree), Reads o.prec l a →
      Reads o.prec (l ++ .op o :: wrap (Tree.rank b) o.prec (Tree.syms b)) (join o a b.regroup)
  | .bin o' x y, hall, hb, hm, l, a, ha => by
    by_cases hr : o'.prec = o.prec
    · simp only [Tree.Proper] at hb
      have hx := reads_right o x (fun c hc => hall c (by simp; omega)) hb.1 hb.2.2.1 l a ha
      rw [← hr] at hx
      have hy := reads_right o' y (fun c hc => hall c (by simp; omega)) hb.2.1 hb.2.2.2 _ _ hx
      rw [hr] at hy
      simp only [Tree.regroup]
      rw [join_join hr]
      rw [show wrap (Tree.rank (.bin o' x y)) o.prec (Tree.syms (.bin o' x y)) = Tree.syms (.bin o' x y) by
        unfold wrap; rw [if_neg (by simp only [Tree.rank]; omega)]]
      simp only [Tree.syms, hr]
      simpa using hy
    · exact reads_other o (b := .bin o' x y) hr (hall _ (Nat.le_refl _) hb hm) ha
  | .leaf w, hall, hb, hm, l, a, ha => by
    have := prec_le o
    exact reads_other o (by simp only [Tree.rank]; omega) (hall _ (Nat.le_refl _) hb hm) ha
  | .un o1 e, hall, hb, hm, l, a, ha => by
    have := prec_le o
    have h60 : 60 ≤ Tree.rank (.un o1 e) := by cases o1 <;> simp [Tree.rank, Op1.rank]
    exact reads_other o (by omega) (hall _ (Nat.le_refl _) hb hm) ha
  | .call f args, hall, hb, hm, l, a, ha => by
    have := prec_le o
    exact reads_other o (by simp only [Tree.rank]; omega) (hall _ (Nat.le_refl _) hb hm) ha
  | .range x y, hall, hb, hm, l, a, ha => by
    have := prec_le o
    exact reads_other o (by simp only [Tree.rank]; omega) (hall _ (Nat.le_refl _) hb hm) ha
  | .isect x y, hall, hb, hm, l, a, ha => by
    have := prec_ge o
    exact reads_other o (by simp only [Tree.rank]; omega) (hall _ (Nat.le_refl _) hb hm) ha
  | .missing, hall, hb, hm, l, a, ha => absurd rfl hm

theorem range_other {b : Tree} (hr : Tree.rank b ≠ 80) (h : Reads (max (Tree.rank b) 10) (Tree.syms b) b.regroup) {l : List Sym} {a : Tree}
    (ha : Reads 80 l a) : Reads 80 (l ++ .colon :: wrap (Tree.rank b) 80 (Tree.syms b)) (joinRange a b.regroup) := by
  rw [joinRange_low (by rw [rank_regroup]; exact hr)]
  refine .range ha ?_
  have := reads_wrap (p := 81) (by decide) h
  rwa [show wrap (Tree.rank b) 81 (Tree.syms b) = wrap (Tree.rank b) 80 (Tree.syms b) by
    unfold wrap
    by_cases h : Tree.rank b < 80
    · rw [if_pos h, if_pos (by omega)]
    · rw [if_neg h, if_neg (by omega)]] at this

/-- The right operand of a range, when what is on its left has been read. -/
theorem range_right : ∀ (b : Tree), (∀ c : Tree, sizeOf c ≤ sizeOf b → Tree.Proper c → c ≠ .missing → Reads (max (Tree.rank c) 10) (Tree.syms c) c.regroup) →
    Tree.Proper b → b ≠ .missing → ∀ (l : List Sym) (a : Tree), Reads 80 l a →
      Reads 80 (l ++ .colon :: wrap (Tree.rank b) 80 (Tree.syms b)) (joinRange a b.regroup)
  | .range x y, hall, hb, hm, l, a, ha => by
    simp only [Tree.Proper] at hb
    have hx := range_right x (fun c hc => hall c (by simp; omega)) hb.1 hb.2.2.1 l a ha
    have hy := range_right y (fun c hc => hall c (by simp; omega)) hb.2.1 hb.2.2.2 _ _ hx
    simp only [Tree.regroup]
    rw [joinRange_join]
    rw [show wrap (Tree.rank (.range x y)) 80 (Tree.syms (.range x y)) = Tree.syms (.range x y) by
      unfold wrap; rw [if_neg (by simp only [Tree.rank]; omega)]]
    simp only [Tree.syms]
    simpa using hy
  | .bin o x y, hall, hb, hm, l, a, ha => by
    have := prec_le o
    exact range_other (by simp only [Tree.rank]; omega) (hall _ (Nat.le_refl _) hb hm) ha
  | .leaf w, hall, hb, hm, l, a, ha => range_other (by simp [Tree.rank]) (hall _ (Nat.le_refl _) hb hm) ha
  | .un o1 e, hall, hb, hm, l, a, ha => range_other (by cases o1 <;> simp [Tree.rank, Op1.rank]) (hall _ (Nat.le_refl _) hb hm) ha
  | .call f args, hall, hb, hm, l, a, ha => range_other (by simp [Tree.rank]) (hall _ (Nat.le_refl _) hb hm) ha
  | .isect x y, hall, hb, hm, l, a, ha => range_other (by simp [Tree.rank]) (hall _ (Nat.le_refl _) hb hm) ha
  | .missing, hall, hb, hm, l, a, ha => absurd rfl hm

/-- The symbols of a tree denote the tree with its operators regrouped. -/
theorem reads_syms : ∀ (t : Tree), Tree.Proper t → t ≠ .missing → Reads (max (Tree.rank t) 10) (Tree.syms t) t.regroup
  | .leaf w, _, _ => by simp only [Tree.rank, Tree.syms, Tree.regroup]; exact .word w
  | .un o e, hp, _ => by
    simp only [Tree.Proper] at hp
    have h := reads_syms e hp.1 hp.2
    simp only [Tree.rank, Tree.syms, Tree.regroup]
    cases o with
    | plus => exact .plus (reads_wrap (by decide) h)
    | minus => exact .minus (reads_wrap (by decide) h)
    | percent => exact .percent (reads_wrap (by decide) h)
  | .bin o a b, hp, _ => by
    simp only [Tree.Proper] at hp
    have ha := reads_syms a hp.1 hp.2.2.1
    simp only [Tree.rank, Tree.syms, Tree.regroup]
    have hle := prec_le o
    have := reads_right o b (fun c _ => reads_syms c) hp.2.1 hp.2.2.2 _ _ (reads_wrap (by omega) ha)
    rw [max_eq_left (prec_ge o)]
    exact this
  | .range a b, hp, _ => by
    simp only [Tree.Proper] at hp
    have ha := reads_syms a hp.1 hp.2.2.1
    simp only [Tree.syms, Tree.regroup]
    exact range_right b (fun c _ => reads_syms c) hp.2.1 hp.2.2.2 _ _ (reads_wrap (by decide) ha)
  | .isect a b, hp, _ => by
    simp only [Tree.Proper] at hp
    have ha := reads_syms a hp.1 hp.2.2.1
    have hb := reads_syms b hp.2.1 hp.2.2.2
    simp only [Tree.syms, Tree.regroup]
    exact .tighter (by simp [Tree.rank]) (.isect (.tighter (by decide) (reads_wrap (p := 80) (by decide) ha)) (.tighter (by decide) (reads_wrap (p := 80) (by decide) hb)))
  | .call f args, hp, _ => by
    simp only [Tree.Proper] at hp
    simp only [Tree.rank, Tree.syms, Tree.regroup]
    have := Reads.call f (args.map fun a => (Tree.syms a, a.regroup)) (by
      intro p hmem
      obtain ⟨a, ha, rfl⟩ := List.mem_map.mp hmem
      by_cases hm : a = .missing
      · subst hm; simp only [Tree.syms, Tree.regroup]; exact .missing
      · exact .tighter (by omega) (reads_syms a (hp.1 a ha) hm)) (by
      intro h
      cases args with
      | nil => cases h
      | cons a as =>
        cases as with
        | nil =>
          simp only [List.map_cons, List.map_nil, List.cons.injEq, Prod.mk.injEq, and_true] at h
          exact hp.2 (by rw [regroup_missing.mp h.2])
        | cons _ _ => simp at h)
    simpa [List.map_map, Function.comp_def] using this
  | .missing, _, hm => absurd rfl hm
termination_by t => sizeOf t
decreasing_by
  all_goals simp_wf
  all_goals try omega
  have := List.sizeOf_lt_of_mem ha
  omega

theorem regroup_id : ∀ t : Tree, t.LeftGrouped → t.regroup = t := by
  intro t
  induction t using Tree.ind with
  | hl w => intro _; simp only [Tree.regroup]
  | hu o e ih => intro h; simp only [Tree.LeftGrouped] at h; simp only [Tree.regroup, ih h]
  | hb o a b iha ihb =>
    intro h
    simp only [Tree.LeftGrouped] at h
    simp only [Tree.regroup, iha h.1, ihb h.2.1]
    cases b with
    | bin o' x y => simp only [join]; rw [if_neg (h.2.2 o' x y rfl)]
    | _ => rfl
  | hr a b iha ihb =>
    intro h
    simp only [Tree.LeftGrouped] at h
    simp only [Tree.regroup, iha h.1, ihb h.2.1]
    cases b with
    | range x y => exact absurd rfl (h.2.2 x y)
    | _ => rfl
  | hi a b iha ihb =>
    intro h
    simp only [Tree.LeftGrouped] at h
    simp only [Tree.regroup, iha h.1, ihb h.2]
  | hc f args ih =>
    intro h
    simp only [Tree.LeftGrouped] at h
    simp only [Tree.regroup]
    congr 1
    conv_rhs => rw [← List.map_id args]
    exact List.map_congr_left fun a ha => ih a ha (h a ha)
  | hm => intro _; simp only [Tree.regroup]

/-! ## From the text to the symbols -/

/-- The reader is between symbols after the text. -/
def LexGap (s : PyStr) (l : List Sym) : Prop := readChars .gap s = (l, .gap)

/-- The text has the symbols `l`, the last of which may be a word that could go on. -/
def Lex (s : PyStr) (l : List Sym) : Prop :=
  LexGap s l ∨ ∃ o w, readChars .gap s = (o, .word w) ∧ wantsSign w = false ∧ l = o ++ [.word w.reverse]

theorem readChars_append (s t : PyStr) : ∀ m, readChars m (s ++ t) =
    ((readChars m s).1 ++ (readChars (readChars m s).2 t).1, (readChars (readChars m s).2 t).2) := by
  induction s with
  | nil => intro m; rfl
  | cons c s ih => intro m; simp only [List.cons_append, readChars, ih, List.append_assoc]

theorem Lex.symbols {s : PyStr} {l : List Sym} (h : Lex s l) : Spec.symbols s = some l := by
  unfold Spec.symbols
  rcases h with h | ⟨o, w, h, _, rfl⟩
  · unfold LexGap at h; rw [h]; simp [Mode.finish]
  · rw [h]; simp [Mode.finish]

theorem LexGap.append {s t : PyStr} {l k : List Sym} (h : LexGap s l) (h2 : Lex t k) : Lex (s ++ t) (l ++ k) := by
  unfold LexGap at h
  rcases h2 with h2 | ⟨o, w, h2, hw, rfl⟩
  · unfold LexGap at h2
    exact Or.inl (by unfold LexGap; rw [readChars_append, h]; simp only [h2])
  · exact Or.inr ⟨l ++ o, w, by rw [readChars_append, h]; simp only [h2], hw, by rw [List.append_assoc]⟩

theorem LexGap.append' {s t : PyStr} {l k : List Sym} (h : LexGap s l) (h2 : LexGap t k) : LexGap (s ++ t) (l ++ k) := by
  unfold LexGap at h h2 ⊢
  rw [readChars_append, h]
  simp only [h2]

/-- A character that is no part of a word ends the word before it. -/
theorem Lex.char {s : PyStr} {l : List Sym} (h : Lex s l) (c : Char) (hc : symOf c ≠ none ∨ c = '<' ∨ c = '>') :
    readChars .gap (s ++ [c]) = (l ++ (fromGap c).1, (fromGap c).2) := by
  rw [readChars_append]
  rcases h with h | ⟨o, w, h, hw, rfl⟩
  · unfold LexGap at h; rw [h]; simp [readChars, readChar]
  · rw [h]
    simp only [readChars, readChar, hw, List.append_nil]
    rw [if_neg (by simp), if_neg (by tauto)]
    simp

theorem Lex.sym {s : PyStr} {l : List Sym} (h : Lex s l) (c : Char) (x : Sym) (hc : symOf c = some x) : LexGap (s ++ [c]) (l ++ [x]) := by
  unfold LexGap
  rw [h.char c (Or.inl (by rw [hc]; simp))]
  simp only [fromGap, hc]

theorem LexGap.nil : LexGap [] [] := rfl

theorem Lex.le {s : PyStr} {l : List Sym} (h : Lex s l) : LexGap (s ++ "<=".toList) (l ++ [.op .le]) := by
  unfold LexGap
  rw [show s ++ "<=".toList = s ++ ['<'] ++ ['='] by simp, readChars_append, h.char '<' (Or.inr (Or.inl rfl))]
  simp [fromGap, symOf, readChars, readChar]

theorem Lex.ne {s : PyStr} {l : List Sym} (h : Lex s l) : LexGap (s ++ "<>".toList) (l ++ [.op .ne]) := by
  unfold LexGap
  rw [show s ++ "<>".toList = s ++ ['<'] ++ ['>'] by simp, readChars_append, h.char '<' (Or.inr (Or.inl rfl))]
  simp [fromGap, symOf, readChars, readChar]

theorem Lex.ge {s : PyStr} {l : List Sym} (h : Lex s l) : LexGap (s ++ ">=".toList) (l ++ [.op .ge]) := by
  unfold LexGap
  rw [show s ++ ">=".toList = s ++ ['>'] ++ ['='] by simp, readChars_append, h.char '>' (Or.inr (Or.inr rfl))]
  simp [fromGap, symOf, readChars, readChar]

/-- The text does not begin with a character that would make `<` or `>` longer. -/
def Plainly (t : PyStr) : Prop := ∃ c cs, t = c :: cs ∧ c ≠ '=' ∧ c ≠ '>'

theorem Lex.lt {s t : PyStr} {l k : List Sym} (h : Lex s l) (h2 : Lex t k) (ht : Plainly t) : Lex (s ++ '<' :: t) (l ++ .op .lt :: k) := by
  obtain ⟨c, cs, rfl, hc1, hc2⟩ := ht
  have e : readChars .gap (s ++ '<' :: c :: cs) = (l ++ .op .lt :: (readChars .gap (c :: cs)).1, (readChars .gap (c :: cs)).2) := by
    rw [show s ++ '<' :: c :: cs = s ++ ['<'] ++ c :: cs by simp, readChars_append, h.char '<' (Or.inr (Or.inl rfl))]
    simp [fromGap, symOf, readChars, readChar, hc1, hc2]
  rcases h2 with h2 | ⟨o, w, h2, hw, rfl⟩
  · unfold LexGap at h2
    exact Or.inl (by unfold LexGap; rw [e, h2])
  · exact Or.inr ⟨l ++ .op .lt :: o, w, by rw [e, h2], hw, by simp⟩

theorem Lex.gt {s t : PyStr} {l k : List Sym} (h : Lex s l) (h2 : Lex t k) (ht : Plainly t) : Lex (s ++ '>' :: t) (l ++ .op .gt :: k) := by
  obtain ⟨c, cs, rfl, hc1, hc2⟩ := ht
  have e : readChars .gap (s ++ '>' :: c :: cs) = (l ++ .op .gt :: (readChars .gap (c :: cs)).1, (readChars .gap (c :: cs)).2) := by
    rw [show s ++ '>' :: c :: cs = s ++ ['>'] ++ c :: cs by simp, readChars_append, h.char '>' (Or.inr (Or.inr rfl))]
    simp [fromGap, symOf, readChars, readChar, hc1, hc2]
  rcases h2 with h2 | ⟨o, w, h2, hw, rfl⟩
  · unfold LexGap at h2
    exact Or.inl (by unfold LexGap; rw [e, h2])
  · exact Or.inr ⟨l ++ .op .gt :: o, w, by rw [e, h2], hw, by simp⟩

theorem Lex.word {w : PyStr} (h : IsWord w) : Lex w [.word w] :=
  Or.inr ⟨[], w.reverse, h.2.1, h.2.2, by simp⟩

theorem IsWord.plainly {w : PyStr} (h : IsWord w) : Plainly w := by
  obtain ⟨h0, h1, h2⟩ := h
  match w, h0 with
  | c :: cs, _ =>
    refine ⟨c, cs, rfl, ?_, ?_⟩
    · rintro rfl
      have := congrArg Prod.fst h1
      simp [readChars, readChar, fromGap, symOf] at this
    · rintro rfl
      cases cs with
      | nil => simp [readChars, readChar, fromGap, symOf] at h1
      | cons d cs =>
        have := congrArg Prod.fst h1
        simp only [readChars, readChar, fromGap, symOf] at this
        by_cases hd : d = '='
        · simp [hd, readChar] at this
        · simp [hd, readChar] at this

end Xlrd
