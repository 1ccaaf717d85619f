import Mathlib.Data.Real.Basic
import Mathlib.Data.List.GetD
import Mathlib.Algebra.Module.Defs
import Verif.Model.DynamicalSystem

/- Specification of numerical motions: sequences of states that result from each other by steps of an
integration method. -/

set_option autoImplicit false

namespace Verif.Spec

open DynSys (Method)

/-- `x'` results from `x` by a step of length `dt`: `u 0 .. u 3` are the states at which the rates of change
`k 0 .. k 3` are taken. (The Euler method uses one state only, listed four times.) -/
def MethodStep {E : Type} [AddCommGroup E] [Module ℝ E] (m : Method) (dt : ℝ) (x x' : E) (u k : Fin 4 → E) :
    Prop :=
  u 0 = x ∧
  match m with
  | .euler => u 1 = x ∧ u 2 = x ∧ u 3 = x ∧ x' = x + dt • k 0
  | .rungeKutta => u 1 = x + (dt / 2) • k 0 ∧ u 2 = x + (dt / 2) • k 1 ∧ u 3 = x + dt • k 2 ∧
      x' = x + (dt / 6) • (k 0 + (2 : ℝ) • k 1 + (2 : ℝ) • k 2 + k 3)

/-- A sequence of states of size `n`, each of which results from the one before by a step of length `dt`;
`R x xd` says that `xd` are the rates of change at `x`. `u` are the states at which rates are taken. -/
structure Run (n : Nat) (R : List ℝ → List ℝ → Prop) (m : Method) (dt : ℝ) (X : Nat → List ℝ)
    (u : Nat → Fin 4 → List ℝ) : Prop where
  len : ∀ i, (X i).length = n
  lenStage : ∀ i j, (u i j).length = n
  step : ∀ i, ∃ k : Fin 4 → List ℝ, (∀ j, R (u i j) (k j)) ∧
    ∀ a, a < n → MethodStep m dt ((X i).getD a 0) ((X (i + 1)).getD a 0) (fun j => (u i j).getD a 0)
      (fun j => (k j).getD a 0)

end Verif.Spec
