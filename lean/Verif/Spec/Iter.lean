import Verif.Spec.Open

/-!
# Iterating over a book: what should happen
-/
namespace Xlrd.Spec
open Xlrd

/-- What a program does with a book: it makes calls, and it asks any of its iterators over the book for the next sheet. -/
inductive Step
  | call (c : Call)
  | next (j : Nat)

/-- What it gets: the reply to a call, a sheet or an exception from an iterator, or the news that the iterator is at its end. -/
inductive Out
  | reply (r : Reply)
  | item (r : R LSheet)
  | stop

/-- The answers are the same except for the `number` of the sheet. -/
def Out.Alike : Out → Out → Prop
  | .item (.ok a), .item (.ok b) => ∃ n, a = { b with number := n }
  | x, y => x = y

/-- What the `m`-th request (from 0) to an iterator should give: the `m`-th sheet, or the exception that reading it raises; after the last sheet
or an exception the iterator is at its end. -/
def File.element (f : File) (m : Nat) : Out :=
  if m < f.names.length ∧ ∀ k < m, (f.content k).toBool = true then .item (f.content m) else .stop

/-- How many requests to iterator `j` there are in a history. -/
def requests (j : Nat) : List Step → Nat
  | [] => 0
  | .next i :: st => (if i = j then 1 else 0) + requests j st
  | .call _ :: st => requests j st

/-- No call of the history is `release_resources`, or `unload_sheet`. -/
def NoRelease (st : List Step) : Prop := Step.call .release ∉ st
def NoUnload (st : List Step) : Prop := ∀ k, Step.call (.unload k) ∉ st

end Xlrd.Spec
