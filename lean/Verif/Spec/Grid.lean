import Mathlib.Data.Real.Basic
import Mathlib.Algebra.Order.Archimedean.Real.Basic
import Mathlib.Algebra.Order.Floor.Ring

/- Specification of the times of a rollout. -/

set_option autoImplicit false

namespace Verif.Spec

/-- Uniformly spaced times from 0 to `T`, with as many steps as steps of size `dt` fit. -/
structure UniformGrid (T dt : ℝ) (ts : List ℝ) : Prop where
  count : (ts.length : ℤ) = ⌊T / dt⌋ + 1
  first : ts.head? = some 0
  last : ts.getLast? = some T
  spacing : ∃ h, dt ≤ h ∧ h < 2 * dt ∧ ∀ i, i + 1 < ts.length → ts.getD (i + 1) 0 = ts.getD i 0 + h

end Verif.Spec
