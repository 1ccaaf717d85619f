import Mathlib.Data.Real.Basic
import Mathlib.Data.Finset.Card
import Mathlib.Algebra.BigOperators.Group.Finset.Defs
import Mathlib.Data.Fintype.Basic

/- When training data determine a function; independent of the model. -/

set_option autoImplicit false

namespace Verif.Spec

noncomputable section

variable {N d : Nat}

/-- The number of different inputs. -/
def distinct (x : Fin N → Fin 1 → ℝ) : Nat := by
  classical exact (Finset.univ.image fun s => x s 0).card

/-- The inputs do not lie in a hyperplane: only the constant 0 is an affine function that is zero at all of them. -/
def Spanning (x : Fin N → Fin d → ℝ) : Prop :=
  ∀ (slope : Fin d → ℝ) (offset : ℝ), (∀ s, ∑ i, x s i * slope i + offset = 0) → slope = 0 ∧ offset = 0

/-- The inputs do not lie in a hyperplane through zero. -/
def SpanningLinear (x : Fin N → Fin d → ℝ) : Prop :=
  ∀ slope : Fin d → ℝ, (∀ s, ∑ i, x s i * slope i = 0) → slope = 0

/-- All inputs have the same value in dimension `i`. -/
def Constant (x : Fin N → Fin d → ℝ) (i : Fin d) : Prop := ∀ s s', x s i = x s' i

end

end Verif.Spec
