import Mathlib.Analysis.Calculus.Deriv.Basic
import Mathlib.Data.List.GetD

/-
Specification vocabulary for motions from time 0 on (independent of the model).
-/

set_option autoImplicit false

namespace Verif.Spec

/-- `x` is a motion, from time 0 on, of states with `n` entries: the entries change continuously, and at
each time their derivatives from the right are rates of change `R` for the state at that time. (Derivatives
from the right because rates of change may jump: a clock that stops when it has reached 1, say.) -/
structure Motion (n : Nat) (R : List ℝ → List ℝ → Prop) (x : ℝ → List ℝ) : Prop where
  len : ∀ t, 0 ≤ t → (x t).length = n
  cont : ∀ i, i < n → ContinuousOn (fun u => (x u).getD i 0) (Set.Ici 0)
  ode : ∀ t, 0 ≤ t → ∃ xd, R (x t) xd ∧ ∀ i, i < n →
    HasDerivWithinAt (fun u => (x u).getD i 0) (xd.getD i 0) (Set.Ici t) t

end Verif.Spec
