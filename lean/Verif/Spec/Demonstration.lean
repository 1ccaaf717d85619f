import Mathlib.Data.Real.Basic
import Mathlib.Tactic.Ring

/- Specification of the deviation of a movement from a demonstration (C18). -/

set_option autoImplicit false

namespace Verif.Spec

/-- A demonstration of one dimension with `n` samples at times `t`: position `y`, velocity `yd`,
acceleration `ydd`. A movement deviates from it by `e` in position, `v` in velocity, `a` in acceleration:
it starts at rest at the demonstrated position, and the deviation is the motion of a free spring-damper
system (spring constant `K`, damping coefficients `c`, mass `m`, time constant `τ`) that is disturbed in
each Euler step by the residuals of the demonstration, i.e. by how much its positions and velocities
differ from one Euler step with its velocities and accelerations. -/
structure Deviation (n : Nat) (t : Nat → ℝ) (K m τ : ℝ) (c y yd ydd e v a : Nat → ℝ) : Prop where
  startPos : e 0 = 0
  startVel : v 0 = 0 - yd 0
  acc : ∀ k, k < n → a k = -(K * e k + τ * c k * v k) / (m * τ ^ 2)
  pos : ∀ k, k + 1 < n → e (k + 1) =
    e k + (t (k + 1) - t k) * v k - (y (k + 1) - (y k + (t (k + 1) - t k) * yd k))
  vel : ∀ k, k + 1 < n → v (k + 1) =
    v k + (t (k + 1) - t k) * a k - (yd (k + 1) - (yd k + (t (k + 1) - t k) * ydd k))

/-- The demonstration starts at rest, and its positions and velocities follow by Euler steps from its
accelerations. -/
structure EulerDemo (n : Nat) (t y yd ydd : Nat → ℝ) : Prop where
  rest : yd 0 = 0
  pos : ∀ k, k + 1 < n → y (k + 1) = y k + (t (k + 1) - t k) * yd k
  vel : ∀ k, k + 1 < n → yd (k + 1) = yd k + (t (k + 1) - t k) * ydd k

/-- No residuals, no deviation. -/
theorem Deviation.zero {n : Nat} {t : Nat → ℝ} {K m τ : ℝ} {c y yd ydd e v a : Nat → ℝ}
    (h : Deviation n t K m τ c y yd ydd e v a) (hd : EulerDemo n t y yd ydd) :
    ∀ k, k < n → e k = 0 ∧ v k = 0 ∧ a k = 0 := by
  have key : ∀ k, k < n → e k = 0 ∧ v k = 0 := by
    intro k
    induction k with
    | zero => intro _; exact ⟨h.startPos, by rw [h.startVel, hd.rest, sub_zero]⟩
    | succ k ih =>
      intro hk
      obtain ⟨h1, h2⟩ := ih (by omega)
      have h3 : a k = 0 := by rw [h.acc k (by omega), h1, h2]; simp
      constructor
      · rw [h.pos k hk, h1, h2, hd.pos k hk]; ring
      · rw [h.vel k hk, h2, h3, hd.vel k hk]; ring
  intro k hk
  obtain ⟨h1, h2⟩ := key k hk
  exact ⟨h1, h2, by rw [h.acc k hk, h1, h2]; simp⟩

end Verif.Spec
