import Verif.Model.CompDoc

/-!
# What the directory of a compound document says

The entries of a storage form a binary tree linked by `left` and `right`; a storage entry also has the
tree of its own entries below it.
-/
namespace Xlrd.Spec

/-- A directory tree: entry number, left and right siblings, entries below. -/
inductive DTree
  | leaf
  | node (d : Nat) (l r sub : DTree)

/-- The entries of one storage, in order. -/
def DTree.siblings : DTree → List Nat
  | leaf => []
  | node d l r _ => l.siblings ++ d :: r.siblings

/-- All entry numbers. -/
def DTree.ids : DTree → List Nat
  | leaf => []
  | node d l r s => d :: (l.ids ++ r.ids ++ s.ids)

def DTree.height : DTree → Nat
  | leaf => 1
  | node _ l r s => max l.height (max r.height s.height) + 1

/-- The entries `dl` link up to the tree `t`, starting from link `c` (negative: nothing). -/
inductive Describes (dl : List DirNode) : DTree → Int → Prop
  | leaf (c : Int) : c < 0 → Describes dl .leaf c
  | storage (d : Nat) (n : DirNode) (l r s : DTree) : dl[d]? = some n → n.etype = 1 → Describes dl l n.left →
      Describes dl r n.right → Describes dl s n.root → Describes dl (.node d l r s) d
  | other (d : Nat) (n : DirNode) (l r : DTree) : dl[d]? = some n → n.etype ≠ 1 → Describes dl l n.left →
      Describes dl r n.right → Describes dl (.node d l r .leaf) d

/-- Entry `d` is among the entries of this storage, with the entries `s` below it. -/
inductive Within : DTree → Nat → DTree → Prop
  | here (d l r s) : Within (.node d l r s) d s
  | left (d l r s d' s') : Within l d' s' → Within (.node d l r s) d' s'
  | right (d l r s d' s') : Within r d' s' → Within (.node d l r s) d' s'

/-- The first entry of the storage whose name equals `h` up to case. -/
def First (lower : PyStr → PyStr) (dl : List DirNode) (t : DTree) (h : PyStr) (d : Nat) (n : DirNode) : Prop :=
  ∃ pre post, t.siblings = pre ++ d :: post ∧ dl[d]? = some n ∧ lower n.name = lower h ∧
    ∀ e ∈ pre, ∀ m, dl[e]? = some m → lower m.name ≠ lower h

/-- The path names the stream entry `d`. -/
inductive Finds (lower : PyStr → PyStr) (dl : List DirNode) : DTree → List PyStr → Nat → Prop
  | stream (t h d n) : First lower dl t h d n → n.etype = 2 → Finds lower dl t [h] d
  | storage (t h tl d n s d') : First lower dl t h d n → n.etype = 1 → tl ≠ [] → Within t d s →
      Finds lower dl s tl d' → Finds lower dl t (h :: tl) d'

/-- Some component of the path is not there. -/
inductive Missing (lower : PyStr → PyStr) (dl : List DirNode) : DTree → List PyStr → Prop
  | here (t h tl) : (∀ e ∈ t.siblings, ∀ m, dl[e]? = some m → lower m.name ≠ lower h) → Missing lower dl t (h :: tl)
  | inside (t h tl d n s) : First lower dl t h d n → n.etype = 1 → tl ≠ [] → Within t d s →
      Missing lower dl s tl → Missing lower dl t (h :: tl)

/-- The path leads to a storage, or to (or through) an entry that is neither stream nor storage. -/
inductive WrongKind (lower : PyStr → PyStr) (dl : List DirNode) : DTree → List PyStr → Prop
  | storage (t h d n) : First lower dl t h d n → n.etype = 1 → WrongKind lower dl t [h]
  | other (t h tl d n) : First lower dl t h d n → n.etype ≠ 1 → n.etype ≠ 2 → WrongKind lower dl t (h :: tl)
  | inside (t h tl d n s) : First lower dl t h d n → n.etype = 1 → tl ≠ [] → Within t d s →
      WrongKind lower dl s tl → WrongKind lower dl t (h :: tl)

/-- The path continues after the stream entry `d`. -/
inductive Overshoots (lower : PyStr → PyStr) (dl : List DirNode) : DTree → List PyStr → Nat → Prop
  | here (t h tl d n) : First lower dl t h d n → n.etype = 2 → tl ≠ [] → Overshoots lower dl t (h :: tl) d
  | inside (t h tl d n s d') : First lower dl t h d n → n.etype = 1 → tl ≠ [] → Within t d s →
      Overshoots lower dl s tl d' → Overshoots lower dl t (h :: tl) d'

end Xlrd.Spec
