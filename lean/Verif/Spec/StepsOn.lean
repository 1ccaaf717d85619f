import Verif.Spec.Steps

/- Specification of numerical motions over finitely many times, whose distances may vary. -/

set_option autoImplicit false

namespace Verif.Spec

open DynSys (Method)

/-- Times `t 0 = 0 ≤ t 1 ≤ .. ≤ t N ≤ T` with distances of at most `δ`. -/
structure Grid (T δ : ℝ) (N : Nat) (t : Nat → ℝ) : Prop where
  start : t 0 = 0
  forward : ∀ i, i < N → t i ≤ t (i + 1)
  fine : ∀ i, i < N → t (i + 1) - t i ≤ δ
  upto : t N ≤ T

/-- States of size `n` at the times `t 0 .. t N`, each of which results from the one before by a step of the
integration method; `R x xd` says that `xd` are the rates of change at `x`. `u` are the states at which rates are
taken. -/
structure RunOn (n : Nat) (R : List ℝ → List ℝ → Prop) (m : Method) (N : Nat) (t : Nat → ℝ) (X : Nat → List ℝ)
    (u : Nat → Fin 4 → List ℝ) : Prop where
  len : ∀ i, i ≤ N → (X i).length = n
  lenStage : ∀ i, i < N → ∀ j, (u i j).length = n
  step : ∀ i, i < N → ∃ k : Fin 4 → List ℝ, (∀ j, R (u i j) (k j)) ∧
    ∀ a, a < n → MethodStep m (t (i + 1) - t i) ((X i).getD a 0) ((X (i + 1)).getD a 0)
      (fun j => (u i j).getD a 0) (fun j => (k j).getD a 0)

/-- Entry `i` of the states is within `ε` of the motion `x`, and so is entry `i` of the states at which rates are
taken. -/
def Near (ε : ℝ) (N : Nat) (t : Nat → ℝ) (X : Nat → List ℝ) (u : Nat → Fin 4 → List ℝ) (x : ℝ → List ℝ) (i : Nat) :
    Prop :=
  (∀ n, n ≤ N → |(X n).getD i 0 - (x (t n)).getD i 0| ≤ ε) ∧
    ∀ n, n < N → ∀ j, |(u n j).getD i 0 - (x (t n)).getD i 0| ≤ ε

end Verif.Spec
