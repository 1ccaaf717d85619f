import Mathlib.Analysis.Calculus.Deriv.Basic
import Mathlib.Data.List.GetD

/-
Specification vocabulary for motions `ℝ → List ℝ` (independent of the model).
-/

set_option autoImplicit false

namespace Verif.Spec

/-- `f'` is the derivative of the vector-valued function `f` at time `t`: the dimension is
constant and each component is differentiable with the given derivative. -/
def HasVecDeriv (f : ℝ → List ℝ) (f' : List ℝ) (t : ℝ) : Prop :=
  (∀ s, (f s).length = f'.length) ∧
    ∀ i < f'.length, HasDerivAt (fun s => (f s).getD i 0) (f'.getD i 0) t

/-- `x` with rate of change `xd` is a motion of the differential equation `x' = F x` that
starts in `x0` at time 0, and it obeys the equation at all times in `T`. -/
structure SolvesOn (T : Set ℝ) (F : List ℝ → List ℝ) (x0 : List ℝ) (x xd : ℝ → List ℝ) : Prop where
  start : x 0 = x0
  deriv : ∀ t ∈ T, HasVecDeriv x (xd t) t
  ode : ∀ t ∈ T, xd t = F (x t)

/-- The same for all times. -/
abbrev Solves (F : List ℝ → List ℝ) (x0 : List ℝ) (x xd : ℝ → List ℝ) : Prop :=
  SolvesOn Set.univ F x0 x xd

end Verif.Spec
