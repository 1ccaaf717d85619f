import Mathlib.Data.Real.Basic
import Mathlib.Algebra.Order.Group.Abs

/- Specification of bounds for schedules. -/

set_option autoImplicit false

namespace Verif.Spec

/-- `x` respects the bounds; `none` is no bound. -/
def Within (lo hi : Option ℝ) (x : ℝ) : Prop :=
  (∀ l, lo = some l → l ≤ x) ∧ (∀ h, hi = some h → x ≤ h)

/-- `y` respects the bounds, it is `x` if `x` respects them, and it is the number closest to `x`. -/
structure Clipped (lo hi : Option ℝ) (x y : ℝ) : Prop where
  within : Within lo hi y
  unchanged : Within lo hi x → y = x
  closest : ∀ z, Within lo hi z → |y - x| ≤ |z - x|

end Verif.Spec
