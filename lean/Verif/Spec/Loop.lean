import Verif.Model.Py

/-!
# Loops that end
-/
namespace Xlrd.Spec

/-- A loop, without any bound on its passes.  A pass leaves the loop with a result or an exception, or goes on in a new state.  `Loop pass n s r`: started in the state `s`,
the loop is left after `n` passes with `r`. -/
inductive Loop {σ ρ : Type} (pass : σ → R (ρ ⊕ σ)) : Nat → σ → R ρ → Prop
  | done {s : σ} {x : ρ} (h : pass s = .ok (.inl x)) : Loop pass 1 s (.ok x)
  | fail {s : σ} {e : PyErr} (h : pass s = .error e) : Loop pass 1 s (.error e)
  | next {s s' : σ} {r : R ρ} {n : Nat} (h : pass s = .ok (.inr s')) (hn : Loop pass n s' r) : Loop pass (n + 1) s r

end Xlrd.Spec
