import Verif.Lemmas.CompDoc
import Verif.Spec.Directory

/-!
# `_build_family_tree` and `_dir_search`
-/
set_option linter.unusedSimpArgs false
namespace Xlrd
open Spec

/-- children appended to entry `j` when the tree `t` is hung below `p` -/
def added : Nat → DTree → Nat → List Nat
  | _, .leaf, _ => []
  | p, .node d l r s, j => added p l j ++ (if j = p then [d] else []) ++ added p r j ++ added d s j

/-- `n'` is `n` with some more children -/
def Ext (n n' : DirNode) (more : List Nat) : Prop :=
  ∃ par, n' = { n with children := n.children ++ more.map (fun (k : Nat) => (k : Int)), parent := par }

theorem Ext.nil (n) : Ext n n [] := ⟨n.parent, by simp⟩

theorem Ext.trans {a b c x y} (h1 : Ext a b x) (h2 : Ext b c y) : Ext a c (x ++ y) := by
  obtain ⟨p, rfl⟩ := h1
  obtain ⟨q, rfl⟩ := h2
  exact ⟨q, by simp⟩

/-- entry-wise extension -/
def ExtAll (dl dl' : List DirNode) (more : Nat → List Nat) : Prop :=
  dl'.length = dl.length ∧ ∀ (j : Nat) n, dl[j]? = some n → ∃ n', dl'[j]? = some n' ∧ Ext n n' (more j)

theorem ExtAll.refl (dl) : ExtAll dl dl (fun _ => []) := ⟨rfl, fun _ n h => ⟨n, h, Ext.nil n⟩⟩

theorem ExtAll.trans {a b c x y} (h1 : ExtAll a b x) (h2 : ExtAll b c y) : ExtAll a c (fun j => x j ++ y j) := by
  refine ⟨by rw [h2.1, h1.1], ?_⟩
  intro j n hn
  obtain ⟨n1, e1, x1⟩ := h1.2 j n hn
  obtain ⟨n2, e2, x2⟩ := h2.2 j n1 e1
  exact ⟨n2, e2, x1.trans x2⟩

theorem Spec.Describes.ext {dl dl' more} (h : ExtAll dl dl' more) {t c} (d : Describes dl t c) : Describes dl' t c := by
  induction d with
  | leaf c hc => exact .leaf c hc
  | storage d n l r s hd he _ _ _ il ir is =>
    obtain ⟨n', e, par, rfl⟩ := h.2 d n hd
    exact .storage d _ l r s e he il ir is
  | other d n l r hd he _ _ il ir =>
    obtain ⟨n', e, par, rfl⟩ := h.2 d n hd
    exact .other d _ l r e he il ir

theorem build_ok (depth : Nat) (t : DTree) (dl : List DirNode) (p : Nat) (c : Int) (hp : p < dl.length)
    (hd : Describes dl t c) (ht : t.height ≤ depth) :
    ∃ dl', buildFamilyTree depth dl p c = .ok dl' ∧ ExtAll dl dl' (added p t) := by
  induction depth generalizing t dl p c with
  | zero => cases t <;> simp [DTree.height] at ht
  | succ depth ih =>
    have hnode : ∀ (d : Nat) (n : DirNode) (l r s : DTree), dl[d]? = some n → Describes dl l n.left → Describes dl r n.right →
        (n.etype = 1 ∧ Describes dl s n.root ∨ n.etype ≠ 1 ∧ s = .leaf) → (DTree.node d l r s).height ≤ depth + 1 →
        ∃ dl', buildFamilyTree (depth + 1) dl p d = .ok dl' ∧ ExtAll dl dl' (added p (.node d l r s)) := by
      intro d n l r s hdn hl hr hs hh
      simp only [DTree.height] at hh
      have hdlt : d < dl.length := by
        by_contra hx; rw [List.getElem?_eq_none (by omega)] at hdn; cases hdn
      obtain ⟨dl1, e1, x1⟩ := ih l dl p n.left hp hl (by omega)
      -- p's children
      have hp1 : p < dl1.length := by rw [x1.1]; exact hp
      have hd1 : d < dl1.length := by rw [x1.1]; exact hdlt
      let np := dl1[p]
      let dl2 := dl1.set p { np with children := np.children ++ [(d : Int)] }
      have hd2 : d < dl2.length := by simp [dl2]; exact hd1
      let nd := dl2[d]
      let dl3 := dl2.set d { nd with parent := (p : Int) }
      have x2 : ExtAll dl1 dl2 (fun j => if j = p then [d] else []) := by
        refine ⟨by simp [dl2], ?_⟩
        intro j m hm
        by_cases hj : j = p
        · subst hj
          refine ⟨_, by simp [dl2, hp1]; rfl, ?_⟩
          rw [List.getElem?_eq_getElem hp1] at hm
          injection hm with hm
          simp only [↓reduceIte]
          exact ⟨m.parent, by simp [np, hm]⟩
        · refine ⟨m, by simp [dl2, List.getElem?_set, Ne.symm hj, hm], ?_⟩
          simp only [hj, ↓reduceIte]; exact Ext.nil m
      have x3 : ExtAll dl2 dl3 (fun _ => []) := by
        refine ⟨by simp [dl3], ?_⟩
        intro j m hm
        by_cases hj : j = d
        · subst hj
          refine ⟨_, by simp [dl3, hd2]; rfl, ?_⟩
          rw [List.getElem?_eq_getElem hd2] at hm
          injection hm with hm
          exact ⟨(p : Int), by simp [nd, hm]⟩
        · exact ⟨m, by simp [dl3, List.getElem?_set, Ne.symm hj, hm], Ext.nil m⟩
      have x123 := (x1.trans x2).trans x3
      have hd3 : d < dl3.length := by rw [x123.1]; exact hdlt
      have hp3 : p < dl3.length := by rw [x123.1]; exact hp
      obtain ⟨n3, en3, par3, rfl⟩ := x123.2 d n hdn
      obtain ⟨dl4, e4, x4⟩ := ih r dl3 p n.right hp3 (hr.ext x123) (by omega)
      have x1234 := x123.trans x4
      obtain ⟨n4, en4, par4, rfl⟩ := x1234.2 d n hdn
      have hunf : buildFamilyTree (depth + 1) dl p d =
          (if n.etype = 1 then buildFamilyTree depth dl4 d n.root else .ok dl4) := by
        conv_lhs => rw [buildFamilyTree]
        have h0 : ¬ ((d : Int) < 0) := by omega
        simp only [h0, ↓reduceIte, bind, Except.bind, (idx_ok_nat dl d n).mpr hdn, e1]
        rw [(idx_ok_nat dl1 p np).mpr (List.getElem?_eq_getElem hp1)]
        simp only
        rw [setIdx_nat dl1 p _ hp1]
        simp only
        rw [show dl1.set p { np with children := np.children ++ [(d : Int)] } = dl2 from rfl,
          (idx_ok_nat dl2 d nd).mpr (List.getElem?_eq_getElem hd2)]
        simp only
        rw [setIdx_nat dl2 d _ hd2]
        simp only
        rw [show dl2.set d { nd with parent := (p : Int) } = dl3 from rfl, (idx_ok_nat dl3 d _).mpr en3]
        simp only [e4]
        rw [(idx_ok_nat dl4 d _).mpr en4]
      rw [hunf]
      rcases hs with ⟨he, hs⟩ | ⟨he, rfl⟩
      · rw [if_pos he]
        obtain ⟨dl5, e5, x5⟩ := ih s dl4 d n.root (by rw [x1234.1]; exact hdlt) (hs.ext x1234) (by omega)
        refine ⟨dl5, e5, ?_⟩
        have := x1234.trans x5
        simpa [added] using this
      · rw [if_neg he]
        refine ⟨dl4, rfl, ?_⟩
        simpa [added] using x1234
    cases hd with
    | leaf c hc =>
      refine ⟨dl, ?_, ?_⟩
      · unfold buildFamilyTree; simp [hc]
      · exact ExtAll.refl dl
    | storage d n l r s hdn he hl hr hs => exact hnode d n l r s hdn hl hr (Or.inl ⟨he, hs⟩) ht
    | other d n l r hdn he hl hr => exact hnode d n l r .leaf hdn hl hr (Or.inr ⟨he, rfl⟩) ht

theorem added_out (t : DTree) (p j : Nat) (h : j ∉ t.ids) (hp : j ≠ p) : added p t j = [] := by
  induction t generalizing p with
  | leaf => rfl
  | node d l r s il ir is =>
    simp only [DTree.ids, List.mem_cons, List.mem_append, not_or] at h
    simp [added, il p h.2.1.1 hp, ir p h.2.1.2 hp, is d h.2.2 h.1, hp]

theorem added_self (t : DTree) (p : Nat) (h : p ∉ t.ids) : added p t p = t.siblings := by
  induction t with
  | leaf => rfl
  | node d l r s il ir _ =>
    simp only [DTree.ids, List.mem_cons, List.mem_append, not_or] at h
    simp [added, il h.2.1.1, ir h.2.1.2, added_out s d p h.2.2 h.1, DTree.siblings]

/-- every storage at any depth, with its entries -/
inductive Deep : DTree → Nat → DTree → Prop
  | here (d l r s) : Deep (.node d l r s) d s
  | left (d l r s d' s') : Deep l d' s' → Deep (.node d l r s) d' s'
  | right (d l r s d' s') : Deep r d' s' → Deep (.node d l r s) d' s'
  | sub (d l r s d' s') : Deep s d' s' → Deep (.node d l r s) d' s'

theorem Spec.Within.deep {t d s} (h : Within t d s) : Deep t d s := by
  induction h with
  | here => exact .here _ _ _ _
  | left d l r s d' s' _ ih => exact .left _ _ _ _ _ _ ih
  | right d l r s d' s' _ ih => exact .right _ _ _ _ _ _ ih

theorem Spec.Within.deep_trans {t d s} (h : Within t d s) {d' s'} (h' : Deep s d' s') : Deep t d' s' := by
  induction h with
  | here => exact .sub _ _ _ _ _ _ h'
  | left d l r s d' s' _ ih => exact .left _ _ _ _ _ _ (ih h')
  | right d l r s d' s' _ ih => exact .right _ _ _ _ _ _ (ih h')

theorem Deep.mem {t d s} (h : Deep t d s) : d ∈ t.ids := by
  induction h with
  | here => simp [DTree.ids]
  | left d l r s d' s' _ ih => simp [DTree.ids, ih]
  | right d l r s d' s' _ ih => simp [DTree.ids, ih]
  | sub d l r s d' s' _ ih => simp [DTree.ids, ih]

theorem added_deep {t : DTree} {p j : Nat} {s'} (h : Deep t j s') (hn : t.ids.Nodup) (hp : p ∉ t.ids) :
    added p t j = s'.siblings := by
  induction h generalizing p with
  | here d l r s =>
    simp only [DTree.ids, List.nodup_cons, List.mem_append, not_or] at hn
    simp only [DTree.ids, List.mem_cons, List.mem_append, not_or] at hp
    simp [added, added_out l p d hn.1.1.1 (Ne.symm hp.1), added_out r p d hn.1.1.2 (Ne.symm hp.1),
      added_self s d hn.1.2, Ne.symm hp.1]
  | left d l r s d' s' h ih =>
    simp only [DTree.ids, List.nodup_cons, List.mem_append, not_or] at hn
    simp only [DTree.ids, List.mem_cons, List.mem_append, not_or] at hp
    have hm := h.mem
    obtain ⟨h1, h2⟩ := hn
    obtain ⟨h3, h4, h5⟩ := List.nodup_append.mp h2
    obtain ⟨h6, h7, h8⟩ := List.nodup_append.mp h3
    have n1 : d' ∉ r.ids := fun hx => h8 _ hm _ hx rfl
    have n2 : d' ∉ s.ids := fun hx => h5 _ (List.mem_append_left _ hm) _ hx rfl
    have n3 : d' ≠ p := fun e => hp.2.1.1 (e ▸ hm)
    have n4 : d' ≠ d := fun e => h1.1.1 (e ▸ hm)
    simp [added, ih h6 hp.2.1.1, added_out r p d' n1 n3, added_out s d d' n2 n4, n3]
  | right d l r s d' s' h ih =>
    simp only [DTree.ids, List.nodup_cons, List.mem_append, not_or] at hn
    simp only [DTree.ids, List.mem_cons, List.mem_append, not_or] at hp
    have hm := h.mem
    obtain ⟨h1, h2⟩ := hn
    obtain ⟨h3, h4, h5⟩ := List.nodup_append.mp h2
    obtain ⟨h6, h7, h8⟩ := List.nodup_append.mp h3
    have n1 : d' ∉ l.ids := fun hx => h8 _ hx _ hm rfl
    have n2 : d' ∉ s.ids := fun hx => h5 _ (List.mem_append_right _ hm) _ hx rfl
    have n3 : d' ≠ p := fun e => hp.2.1.2 (e ▸ hm)
    have n4 : d' ≠ d := fun e => h1.1.2 (e ▸ hm)
    simp [added, ih h7 hp.2.1.2, added_out l p d' n1 n3, added_out s d d' n2 n4, n3]
  | sub d l r s d' s' h ih =>
    simp only [DTree.ids, List.nodup_cons, List.mem_append, not_or] at hn
    simp only [DTree.ids, List.mem_cons, List.mem_append, not_or] at hp
    have hm := h.mem
    obtain ⟨h1, h2⟩ := hn
    obtain ⟨h3, h4, h5⟩ := List.nodup_append.mp h2
    have n1 : d' ∉ l.ids := fun hx => h5 _ (List.mem_append_left _ hx) _ hm rfl
    have n2 : d' ∉ r.ids := fun hx => h5 _ (List.mem_append_right _ hx) _ hm rfl
    have n3 : d' ≠ p := fun e => hp.2.2 (e ▸ hm)
    simp [added, ih h4 h1.2, added_out l p d' n1 n3, added_out r p d' n2 n3, n3]

/-! ## lookup -/

/-- the children lists of `dl` agree with the tree `t` below `p` -/
def Kids (dl : List DirNode) (p : Nat) (t : DTree) : Prop :=
  (∃ n, dl[p]? = some n ∧ n.children = t.siblings.map (fun (k : Nat) => (k : Int))) ∧
  ∀ d s, Deep t d s → ∃ n, dl[d]? = some n ∧ n.children = s.siblings.map (fun (k : Nat) => (k : Int))

theorem Kids.sub {dl p t d s} (h : Kids dl p t) (w : Within t d s) : Kids dl d s :=
  ⟨h.2 d s w.deep, fun d' s' h' => h.2 d' s' (w.deep_trans h')⟩

theorem siblings_within {t : DTree} {d} (h : d ∈ t.siblings) : ∃ s, Within t d s := by
  induction t with
  | leaf => simp [DTree.siblings] at h
  | node e l r s il ir _ =>
    simp only [DTree.siblings, List.mem_append, List.mem_cons] at h
    rcases h with h | rfl | h
    · obtain ⟨s', w⟩ := il h; exact ⟨s', .left _ _ _ _ _ _ w⟩
    · exact ⟨s, .here _ _ _ _⟩
    · obtain ⟨s', w⟩ := ir h; exact ⟨s', .right _ _ _ _ _ _ w⟩

theorem within_siblings {t : DTree} {d s} (h : Within t d s) : d ∈ t.siblings := by
  induction h with
  | here => simp [DTree.siblings]
  | left d l r s d' s' _ ih => simp [DTree.siblings, ih]
  | right d l r s d' s' _ ih => simp [DTree.siblings, ih]

theorem scan_none (lower dl h descend) (l : List Nat) (hin : ∀ e ∈ l, e < dl.length)
    (hne : ∀ e ∈ l, ∀ m, dl[e]? = some m → lower m.name ≠ lower h) :
    scanChildren lower dl h descend (l.map (fun (k : Nat) => (k : Int))) = .ok none := by
  induction l with
  | nil => rfl
  | cons a as ih =>
    have ha := hin a (by simp)
    simp only [List.map_cons, scanChildren, bind, Except.bind]
    rw [(idx_ok_nat dl a _).mpr (List.getElem?_eq_getElem ha)]
    simp only
    rw [if_neg (hne a (by simp) _ (List.getElem?_eq_getElem ha))]
    exact ih (fun e he => hin e (by simp [he])) (fun e he => hne e (by simp [he]))

theorem scan_first (lower dl h descend) (pre post : List Nat) (d : Nat) (n : DirNode)
    (hin : ∀ e ∈ pre, e < dl.length) (hd : dl[d]? = some n) (hn : lower n.name = lower h)
    (hne : ∀ e ∈ pre, ∀ m, dl[e]? = some m → lower m.name ≠ lower h) :
    scanChildren lower dl h descend ((pre ++ d :: post).map (fun (k : Nat) => (k : Int))) =
      if n.etype = 2 then .ok (some n) else if n.etype = 1 then descend d else .error .compdoc := by
  induction pre with
  | nil =>
    simp only [List.nil_append, List.map_cons, scanChildren, bind, Except.bind]
    rw [(idx_ok_nat dl d n).mpr hd]
    simp only [hn, ↓reduceIte]
  | cons a as ih =>
    have ha := hin a (by simp)
    simp only [List.cons_append, List.map_cons, scanChildren, bind, Except.bind]
    rw [(idx_ok_nat dl a _).mpr (List.getElem?_eq_getElem ha)]
    simp only
    rw [if_neg (hne a (by simp) _ (List.getElem?_eq_getElem ha))]
    exact ih (fun e he => hin e (by simp [he])) (fun e he => hne e (by simp [he]))

theorem Kids.lt {dl p t} (k : Kids dl p t) {e} (he : e ∈ t.siblings) : e < dl.length := by
  obtain ⟨s, w⟩ := siblings_within he
  obtain ⟨n, hn, _⟩ := k.2 e s w.deep
  by_contra hx; rw [List.getElem?_eq_none (by omega)] at hn; cases hn

/-- one level of the search -/
theorem search_level (lower dl) (p : Nat) (t : DTree) (k : Kids dl p t) (h : PyStr) (tl : List PyStr) :
    (∀ d n, First lower dl t h d n → dirSearch lower dl (h :: tl) p =
      if n.etype = 2 then .ok (some n)
      else if n.etype = 1 then (if tl = [] then .error .compdoc else dirSearch lower dl tl d)
      else .error .compdoc) ∧
    ((∀ e ∈ t.siblings, ∀ m, dl[e]? = some m → lower m.name ≠ lower h) → dirSearch lower dl (h :: tl) p = .ok none) ∧
    ((∃ d n, First lower dl t h d n) ∨ (∀ e ∈ t.siblings, ∀ m, dl[e]? = some m → lower m.name ≠ lower h)) := by
  obtain ⟨n0, h0, hc⟩ := k.1
  have hin : ∀ e ∈ t.siblings, e < dl.length := fun e he => k.lt he
  refine ⟨?_, ?_, ?_⟩
  · rintro d n ⟨pre, post, e1, e2, e3, e4⟩
    simp only [dirSearch, bind, Except.bind]
    rw [(idx_ok_nat dl p n0).mpr h0]
    simp only [hc, e1]
    rw [scan_first lower dl h _ pre post d n (fun e he => hin e (by rw [e1]; simp [he])) e2 e3 e4]
  · intro hne
    simp only [dirSearch, bind, Except.bind]
    rw [(idx_ok_nat dl p n0).mpr h0]
    simp only [hc]
    exact scan_none lower dl h _ _ hin hne
  · -- first match or none
    have : ∀ l : List Nat, (∀ e ∈ l, e < dl.length) →
        (∃ pre post d n, l = pre ++ d :: post ∧ dl[d]? = some n ∧ lower n.name = lower h ∧
          ∀ e ∈ pre, ∀ m, dl[e]? = some m → lower m.name ≠ lower h) ∨
        (∀ e ∈ l, ∀ m, dl[e]? = some m → lower m.name ≠ lower h) := by
      intro l
      induction l with
      | nil => intro _; right; simp
      | cons a as ih =>
        intro hl
        have ha := hl a (by simp)
        by_cases hm : lower dl[a].name = lower h
        · left; exact ⟨[], as, a, dl[a], rfl, List.getElem?_eq_getElem ha, hm, by simp⟩
        · have hm' : ∀ m, dl[a]? = some m → lower m.name ≠ lower h := by
            intro m e; rw [List.getElem?_eq_getElem ha] at e; injection e with e; subst e; exact hm
          rcases ih (fun e he => hl e (by simp [he])) with ⟨pre, post, d, n, e1, e2, e3, e4⟩ | hno
          · left
            refine ⟨a :: pre, post, d, n, by simp [e1], e2, e3, ?_⟩
            intro e he
            rcases List.mem_cons.mp he with rfl | he
            · exact hm'
            · exact e4 e he
          · right
            intro e he
            rcases List.mem_cons.mp he with rfl | he
            · exact hm'
            · exact hno e he
    rcases this t.siblings hin with ⟨pre, post, d, n, e⟩ | hno
    · left; exact ⟨d, n, pre, post, e⟩
    · right; exact hno

theorem finds_ok {lower dl} {p : Nat} {t : DTree} {path d} (f : Finds lower dl t path d) (k : Kids dl p t) :
    ∃ n, dl[d]? = some n ∧ n.etype = 2 ∧ dirSearch lower dl path p = .ok (some n) := by
  induction f generalizing p with
  | stream t h d n hf he =>
    obtain ⟨pre, post, e1, e2, _⟩ := id hf
    refine ⟨n, e2, he, ?_⟩
    rw [(search_level lower dl p t k h []).1 d n hf]; simp [he]
  | storage t h tl d n s d' hf he htl w _ ih =>
    obtain ⟨m, h1, h2, h3⟩ := ih (k.sub w)
    refine ⟨m, h1, h2, ?_⟩
    rw [(search_level lower dl p t k h tl).1 d n hf]; simp [he, htl, h3]

theorem overshoots_ok {lower dl} {p : Nat} {t : DTree} {path d} (f : Overshoots lower dl t path d) (k : Kids dl p t) :
    ∃ n, dl[d]? = some n ∧ n.etype = 2 ∧ dirSearch lower dl path p = .ok (some n) := by
  induction f generalizing p with
  | here t h tl d n hf he _ =>
    obtain ⟨pre, post, e1, e2, _⟩ := id hf
    refine ⟨n, e2, he, ?_⟩
    rw [(search_level lower dl p t k h tl).1 d n hf]; simp [he]
  | inside t h tl d n s d' hf he htl w _ ih =>
    obtain ⟨m, h1, h2, h3⟩ := ih (k.sub w)
    refine ⟨m, h1, h2, ?_⟩
    rw [(search_level lower dl p t k h tl).1 d n hf]; simp [he, htl, h3]

theorem missing_none {lower dl} {p : Nat} {t : DTree} {path} (f : Missing lower dl t path) (k : Kids dl p t) :
    dirSearch lower dl path p = .ok none := by
  induction f generalizing p with
  | here t h tl hno => exact (search_level lower dl p t k h tl).2.1 hno
  | inside t h tl d n s hf he htl w _ ih =>
    rw [(search_level lower dl p t k h tl).1 d n hf]; simp [he, htl, ih (k.sub w)]

theorem wrong_error {lower dl} {p : Nat} {t : DTree} {path} (f : WrongKind lower dl t path) (k : Kids dl p t) :
    dirSearch lower dl path p = .error .compdoc := by
  induction f generalizing p with
  | storage t h d n hf he => rw [(search_level lower dl p t k h []).1 d n hf]; simp [he]
  | other t h tl d n hf h1 h2 => rw [(search_level lower dl p t k h tl).1 d n hf]; simp [h1, h2]
  | inside t h tl d n s hf he htl w _ ih =>
    rw [(search_level lower dl p t k h tl).1 d n hf]; simp [he, htl, ih (k.sub w)]

/-- the four outcomes are exhaustive -/
theorem search_total (lower dl) (path : List PyStr) (hp : path ≠ []) (p : Nat) (t : DTree) (k : Kids dl p t) :
    (∃ d, Finds lower dl t path d) ∨ (∃ d, Overshoots lower dl t path d) ∨ Missing lower dl t path ∨ WrongKind lower dl t path := by
  induction path generalizing p t with
  | nil => exact absurd rfl hp
  | cons h tl ih =>
    rcases (search_level lower dl p t k h tl).2.2 with ⟨d, n, hf⟩ | hno
    · by_cases h2 : n.etype = 2
      · by_cases htl : tl = []
        · subst htl; left; exact ⟨d, .stream t h d n hf h2⟩
        · right; left; exact ⟨d, .here t h tl d n hf h2 htl⟩
      · by_cases h1 : n.etype = 1
        · by_cases htl : tl = []
          · subst htl; right; right; right; exact .storage t h d n hf h1
          · obtain ⟨pre, post, e1, _⟩ := id hf
            obtain ⟨s, w⟩ := siblings_within (t := t) (d := d) (by rw [e1]; simp)
            rcases ih htl d s (k.sub w) with ⟨d', f⟩ | ⟨d', f⟩ | f | f
            · left; exact ⟨d', .storage t h tl d n s d' hf h1 htl w f⟩
            · right; left; exact ⟨d', .inside t h tl d n s d' hf h1 htl w f⟩
            · right; right; left; exact .inside t h tl d n s hf h1 htl w f
            · right; right; right; exact .inside t h tl d n s hf h1 htl w f
        · right; right; right; exact .other t h tl d n hf h1 h2
    · right; right; left; exact .here t h tl hno

/-- children lists after building the tree from fresh entries -/
theorem build_kids (dl dl' : List DirNode) (p : Nat) (t : DTree) (hp : p < dl.length) (hpt : p ∉ t.ids) (hn : t.ids.Nodup)
    (hids : ∀ d ∈ t.ids, d < dl.length) (hfresh : ∀ n ∈ dl, n.children = []) (x : ExtAll dl dl' (added p t)) :
    Kids dl' p t := by
  have key : ∀ j, j < dl.length → ∃ n, dl'[j]? = some n ∧ n.children = (added p t j).map (fun (k : Nat) => (k : Int)) := by
    intro j hj
    obtain ⟨n', e, par, rfl⟩ := x.2 j dl[j] (List.getElem?_eq_getElem hj)
    refine ⟨_, e, ?_⟩
    simp [hfresh dl[j] (List.getElem_mem hj)]
  constructor
  · obtain ⟨n, e, h⟩ := key p hp
    exact ⟨n, e, by rw [h, added_self t p hpt]⟩
  · intro d s hd
    obtain ⟨n, e, h⟩ := key d (hids d hd.mem)
    exact ⟨n, e, by rw [h, added_deep hd hn hpt]⟩

theorem describes_ids {dl t c} (h : Describes dl t c) : ∀ d ∈ t.ids, d < dl.length := by
  have lt : ∀ {d : Nat} {n : DirNode}, dl[d]? = some n → d < dl.length := by
    intro d n e; by_contra hx; rw [List.getElem?_eq_none (by omega)] at e; cases e
  induction h with
  | leaf => simp [DTree.ids]
  | storage d n l r s hd _ _ _ _ il ir is =>
    intro x hx
    simp only [DTree.ids, List.mem_cons, List.mem_append] at hx
    rcases hx with rfl | (h | h) | h
    · exact lt hd
    · exact il x h
    · exact ir x h
    · exact is x h
  | other d n l r hd _ _ _ il ir =>
    intro x hx
    simp only [DTree.ids, List.mem_cons, List.mem_append] at hx
    rcases hx with rfl | (h | h) | h
    · exact lt hd
    · exact il x h
    · exact ir x h
    · simp at h

end Xlrd
