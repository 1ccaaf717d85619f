import Mathlib.Analysis.SpecialFunctions.Exp
import Mathlib.Analysis.SpecialFunctions.Sqrt

/-
How a point follows a desired motion with a controller, in discrete time. Independent of the model.
-/

set_option autoImplicit false

namespace Verif.Spec

noncomputable section

/-- A force that is strongest, namely `strength`, at time `mode`, and smaller before and after. -/
def bump (strength mode t : ℝ) : ℝ := strength * Real.exp (-(10 * (t - mode) ^ 2 / mode))

/-- Motion of a point during `n` times at distance `dt`: it starts as desired; then the acceleration is the
desired one, corrected in proportion to the difference between the desired position and velocity and the
present ones (the factor for the velocities is the root of the gain), plus an external force. Velocity and
position change with the new acceleration and velocity. -/
structure Tracks (n : Nat) (dt : ℝ) (gain des desVel desAcc force pos vel acc : Nat → ℝ) : Prop where
  start : pos 0 = des 0 ∧ vel 0 = desVel 0 ∧ acc 0 = desAcc 0
  accel : ∀ i, i + 1 < n → acc (i + 1) = desAcc (i + 1) + gain (i + 1) * (des (i + 1) - pos i) +
    √(gain (i + 1)) * (desVel (i + 1) - vel i) + force (i + 1)
  speed : ∀ i, i + 1 < n → vel (i + 1) = vel i + dt * acc (i + 1)
  place : ∀ i, i + 1 < n → pos (i + 1) = pos i + dt * vel (i + 1)

end

end Verif.Spec
