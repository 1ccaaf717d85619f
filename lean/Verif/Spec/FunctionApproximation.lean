import Mathlib.Analysis.SpecialFunctions.Exp
import Mathlib.Order.Interval.Finset.Fin
import Mathlib.Algebra.BigOperators.Fin

/- Notions for basis functions and regression, independent of the model. -/

set_option autoImplicit false

namespace Verif.Spec

noncomputable section

/-- Gaussian with diagonal covariance, scaled to 1 at its centre. -/
def gaussian {d : Nat} (c w x : Fin d → ℝ) : ℝ :=
  Real.exp (-(∑ i, ((x i - c i) / w i) ^ 2) / 2)

/-- Position of a combination of digits in lexicographic order, the last digit running fastest. -/
def position {d : Nat} (ns digits : Fin d → Nat) : Nat :=
  ∑ i, digits i * ∏ j ∈ Finset.Ioi i, ns j

/-- Weighted sum of squared errors of a linear model with parameters `beta`, plus `reg` times the
squared norm of the parameters. -/
def squaredError {N p : Nat} (x : Fin N → Fin p → ℝ) (t w : Fin N → ℝ) (reg : ℝ) (beta : Fin p → ℝ) :
    ℝ :=
  ∑ s, w s * (∑ i, x s i * beta i - t s) ^ 2 + reg * ∑ i, beta i ^ 2

/-- The same for an affine model with slope and offset, the offset being one of the parameters. -/
def squaredErrorAffine {N p : Nat} (x : Fin N → Fin p → ℝ) (t w : Fin N → ℝ) (reg : ℝ)
    (slope : Fin p → ℝ) (offset : ℝ) : ℝ :=
  ∑ s, w s * (∑ i, x s i * slope i + offset - t s) ^ 2 + reg * (∑ i, slope i ^ 2 + offset ^ 2)

end

end Verif.Spec
