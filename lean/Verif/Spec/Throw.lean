import Mathlib.Data.Real.Basic
import Mathlib.Algebra.BigOperators.Group.Finset.Basic

/-
How a thrown ball moves in discrete time: it is held, flies, and lies on the floor. Independent of the model.
-/

set_option autoImplicit false

namespace Verif.Spec

noncomputable section

open Finset

/-- The ball is released at the first time after 0.6. -/
def Released (clock : Nat → ℝ) (r : Nat) : Prop := clock r > 0.6 ∧ ∀ i, i < r → clock i ≤ 0.6

/-- Time since the release: the lengths of the `k` steps after step `r`. -/
def airTime (dt : Nat → ℝ) (r k : Nat) : ℝ := ∑ j ∈ range k, dt (r + j + 1)

/-- The distance fallen per unit of gravity: in each step, the velocity is updated first. -/
def fallen (dt : Nat → ℝ) (r k : Nat) : ℝ := ∑ j ∈ range k, dt (r + j + 1) * airTime dt r (j + 1)

/-- Position `k` steps after the release from the hand, as if there were no floor. -/
def flight (dt : Nat → ℝ) (hand vel : Nat → ℝ × ℝ) (r k : Nat) : ℝ × ℝ :=
  ((hand r).1 + airTime dt r k * (vel r).1, (hand r).2 + airTime dt r k * (vel r).2 - 9.81 * fallen dt r k)

/-- `k` is the first step after the release in which the ball would be below the floor. -/
def Lands (floor : ℝ) (dt : Nat → ℝ) (hand vel : Nat → ℝ × ℝ) (r k : Nat) : Prop :=
  1 ≤ k ∧ (flight dt hand vel r k).2 < floor ∧
    ∀ j, 1 ≤ j → j < k → floor ≤ (flight dt hand vel r j).2

/-- The motion of a ball, given that of the hand, during `n` steps. -/
structure Thrown (n : Nat) (floor : ℝ) (dt clock : Nat → ℝ) (hand vel ball : Nat → ℝ × ℝ) : Prop where
  held : ∀ i, i < n → (∀ j, j < i → clock j ≤ 0.6) → ball i = hand i
  flies : ∀ r k, Released clock r → r + k < n →
    (∀ j, 1 ≤ j → j ≤ k → floor ≤ (flight dt hand vel r j).2) → ball (r + k) = flight dt hand vel r k
  lies : ∀ r k l, Released clock r → Lands floor dt hand vel r k → k ≤ l → r + l < n →
    ball (r + l) = ((flight dt hand vel r k).1, floor)

/-- The motion of a ball with its velocity and acceleration; lying on the floor, these are 0. -/
structure ThrownFully (n : Nat) (floor : ℝ) (dt clock : Nat → ℝ) (hand vel acc ball bvel bacc : Nat → ℝ × ℝ) :
    Prop extends Thrown n floor dt clock hand vel ball where
  heldRates : ∀ i, i < n → (∀ j, j < i → clock j ≤ 0.6) → bvel i = vel i ∧ bacc i = acc i
  fliesRates : ∀ r k, Released clock r → 1 ≤ k → r + k < n →
    (∀ j, 1 ≤ j → j ≤ k → floor ≤ (flight dt hand vel r j).2) →
    bvel (r + k) = ((vel r).1, (vel r).2 - 9.81 * airTime dt r k) ∧ bacc (r + k) = (0, -9.81)
  liesRates : ∀ r k l, Released clock r → Lands floor dt hand vel r k → k ≤ l → r + l < n →
    bvel (r + l) = (0, 0) ∧ bacc (r + l) = (0, 0)

end

end Verif.Spec
