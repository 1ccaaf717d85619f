import Verif.Model.Optimization
import Mathlib.LinearAlgebra.Matrix.Charpoly.Basic
import Mathlib.Algebra.Polynomial.Roots

/- The magnitude of exploration: bbo/DistributionGaussian.py max_eigen_value and the values of the
exploration curve of bbo/LearningSession.py. -/

set_option autoImplicit false

namespace Verif

noncomputable section

variable {n : Nat} {D : Type}

/-- `np.linalg.eigvals`: the eigenvalues with their multiplicities. Their order is not specified.
Simplification: eigenvalues that are not real are left out; symmetric matrices have none. -/
def eigvals (c : Matrix (Fin n) (Fin n) ℝ) : List ℝ := c.charpoly.roots.toList

/-- DistributionGaussian.py:94-99 max_eigen_value. `max` of an empty array is a ValueError. -/
def Dist.maxEigenValue (d : Dist n) : Except PyErr ℝ :=
  match pyMax (eigvals d.covar) with
  | some x => .ok x
  | none => .error .valueError

/-- `np.sqrt`, which gives nan for negative numbers. -/
def npSqrt (x : ℝ) : Except PyErr ℝ := if x < 0 then .error .nanResult else .ok (√x)

/-- LearningSession.py:541-548 plot_exploration_curve without the plot: for each update the number of
samples so far and the standard deviation in the direction in which it is largest. If get_n_updates
returns None, `np.zeros` raises a TypeError. -/
def World.explorationCurve : PyM (World (Obj n D)) (List (ℝ × ℝ)) := do
  match ← PyM.lift (← PyM.self).getNUpdates with
  | none => PyM.raise .typeError
  | some nUpdates =>
    if nUpdates < 0 then PyM.raise .valueError
    else
      (List.range nUpdates.toNat).mapM fun (i : Nat) => do
        match (← World.askValue "distribution" (some i) none) with
        | .dist d =>
          let exploration ← PyM.lift (d.maxEigenValue >>= npSqrt)
          return ((i : ℝ) * (← PyM.self).nSamples, exploration)
        | _ => PyM.raise .attributeError

end

end Verif
