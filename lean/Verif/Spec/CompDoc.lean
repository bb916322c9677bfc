import Verif.Model.Py

/-!
# What a compound document says about a stream

A stream is the concatenation of the sectors on its chain; a chain follows the allocation table from
the first sector to the end-of-chain mark -2.
-/
namespace Xlrd.Spec

/-- `Chain sat s secs`: following `sat` from `s` visits the sectors `secs` and ends at -2. -/
inductive Chain (sat : List Int) : Int → List Nat → Prop
  | done : Chain sat (-2) []
  | next (k : Nat) (n : Int) (rest : List Nat) : sat[k]? = some n → Chain sat n rest → Chain sat k (k :: rest)

/-- Bytes of sector `k`. -/
def sector (mem : Bytes) (base sec k : Nat) : Bytes := (mem.drop (base + k * sec)).take sec

/-- All of sector `k` lies in the file. -/
def Whole (mem : Bytes) (base sec k : Nat) : Prop := base + (k + 1) * sec ≤ mem.length

/-- Bytes of a sequence of sectors. -/
def sectors (mem : Bytes) (base sec : Nat) (secs : List Nat) : Bytes := secs.flatMap (sector mem base sec)

/-- `seen'` is `seen` with the sectors `secs`, unmarked and all different, marked with `id`. -/
structure Marked (seen : List Nat) (secs : List Nat) (id : Nat) (seen' : List Nat) : Prop where
  nodup : secs.Nodup
  fresh : ∀ k ∈ secs, seen[k]? = some 0
  after : ∀ k : Nat, seen'[k]? = if k ∈ secs then some id else seen[k]?

end Xlrd.Spec
