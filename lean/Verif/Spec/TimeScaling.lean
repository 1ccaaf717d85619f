import Verif.Model.Py
import Mathlib.Data.Real.Basic

/- Specification of "slowed down by the factor c", independent of the systems. -/

set_option autoImplicit false

namespace Verif.Spec

/-- An answer to a query for states and rates of change at given times. -/
abbrev Query := List ℝ → Except PyErr (List (List ℝ) × List (List ℝ))

/-- `slow` shows the motion of `fast` slowed down by `c`: at the times `c*t` it has the states that
`fast` has at the times `t`, with rates of change divided by `c`. -/
def SlowedDown (c : ℝ) (fast slow : Query) : Prop :=
  ∀ ts, ∃ xs xds, fast ts = .ok (xs, xds) ∧
    slow (ts.map (c * ·)) = .ok (xs, xds.map (fun row => row.map (· / c)))

end Verif.Spec
