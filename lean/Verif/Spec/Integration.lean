import Mathlib.Data.Real.Basic
import Mathlib.Data.List.GetD

/-
Specification of one-step integration methods and of their iteration, independent of the model.
-/

set_option autoImplicit false

namespace Verif.Spec

/-- `x'` results from `x` by one explicit Euler step of length `dt` for `x' = f x`. -/
def IsEulerStep (f : List ℝ → List ℝ) (n : Nat) (dt : ℝ) (x x' : List ℝ) : Prop :=
  x'.length = n ∧ ∀ i < n, x'.getD i 0 = x.getD i 0 + dt * (f x).getD i 0

/-- `x'` results from `x` by one step of the classical fourth-order Runge-Kutta method: there are
three intermediate states, and the increment is the weighted mean 1/6, 1/3, 1/3, 1/6 of the rates. -/
def IsRK4Step (f : List ℝ → List ℝ) (n : Nat) (dt : ℝ) (x x' : List ℝ) : Prop :=
  ∃ u2 u3 u4 : List ℝ, u2.length = n ∧ u3.length = n ∧ u4.length = n ∧ x'.length = n ∧
    ∀ i < n,
      u2.getD i 0 = x.getD i 0 + dt / 2 * (f x).getD i 0 ∧
      u3.getD i 0 = x.getD i 0 + dt / 2 * (f u2).getD i 0 ∧
      u4.getD i 0 = x.getD i 0 + dt * (f u3).getD i 0 ∧
      x'.getD i 0 = x.getD i 0 + dt * ((f x).getD i 0 / 6 + (f u2).getD i 0 / 3 +
        (f u3).getD i 0 / 3 + (f u4).getD i 0 / 6)

/-- `rows` (pairs of state and rate) is the iteration of `stepRel dt x row` along the times `ts`,
from the row `row0`. -/
structure IsIteration (stepRel : ℝ → List ℝ → List ℝ × List ℝ → Prop) (row0 : List ℝ × List ℝ)
    (ts : List ℝ) (rows : List (List ℝ × List ℝ)) : Prop where
  length : rows.length = ts.length
  first : rows[0]? = some row0
  next : ∀ (i : Nat) (h : i + 1 < ts.length) (h' : i + 1 < rows.length),
    stepRel (ts[i + 1] - ts[i]) rows[i].1 rows[i + 1]

end Verif.Spec
