import Verif.Model.Updaters
import Mathlib.LinearAlgebra.Matrix.DotProduct

/- The variance of a distribution in a direction. -/

set_option autoImplicit false

namespace Verif.Spec

variable {n : Nat}

/-- A direction: the squares of the entries sum to 1. -/
def IsDirection (v : Fin n → ℝ) : Prop := ∑ i, v i ^ 2 = 1

/-- The variance of the samples in a direction: that of the sum of `v i` times parameter `i`. -/
noncomputable def varianceIn (c : Matrix (Fin n) (Fin n) ℝ) (v : Fin n → ℝ) : ℝ := ∑ i, ∑ j, v i * c i j * v j

/-- `x` is the largest variance among all directions. -/
structure LargestVariance (c : Matrix (Fin n) (Fin n) ℝ) (x : ℝ) : Prop where
  attained : ∃ v, IsDirection v ∧ varianceIn c v = x
  bound : ∀ v, IsDirection v → varianceIn c v ≤ x

/-- `x` is the largest standard deviation among all directions. -/
def Exploration (c : Matrix (Fin n) (Fin n) ℝ) (x : ℝ) : Prop := 0 ≤ x ∧ LargestVariance c (x ^ 2)

end Verif.Spec
