import Mathlib.Analysis.Complex.Norm
import Mathlib.Analysis.SpecialFunctions.Pow.Real
import Mathlib.Topology.Algebra.Order.LiminfLimsup
import Verif.Spec.Steps

/- Steps of the integration methods on linear differential equations with small perturbations. -/

set_option autoImplicit false

namespace Verif

open Filter Topology Spec DynSys

/-- The factor by which a step multiplies the solutions of `x' = λ x`, `z = λ dt`. -/
noncomputable def stepFactor (m : Method) (z : ℂ) : ℂ :=
  match m with
  | .euler => 1 + z
  | .rungeKutta => 1 + z + z ^ 2 / 2 + z ^ 3 / 6 + z ^ 4 / 24

/-- One step on `x' = λ x + p`. -/
theorem step_scalar (m : Method) (dt : ℝ) (lam : ℂ) : ∃ C : ℝ, 1 ≤ C ∧ ∀ (y y' : ℂ) (u k p : Fin 4 → ℂ),
    MethodStep m dt y y' u k → (∀ j, k j = lam * u j + p j) →
    ‖y' - stepFactor m (dt * lam) * y‖ ≤ C * (‖p 0‖ + ‖p 1‖ + ‖p 2‖ + ‖p 3‖) ∧
    ‖u 0‖ ≤ C * ‖y‖ ∧ ‖u 1‖ ≤ C * (‖y‖ + ‖p 0‖) ∧ ‖u 2‖ ≤ C * (‖y‖ + ‖p 0‖ + ‖p 1‖) ∧
    ‖u 3‖ ≤ C * (‖y‖ + ‖p 0‖ + ‖p 1‖ + ‖p 2‖) := by
  cases m with
  | euler =>
    refine ⟨1 + |dt|, by linarith [abs_nonneg dt], fun y y' u k p h hk => ?_⟩
    obtain ⟨h0, h1, h2, h3, h4⟩ := h
    have a0 := abs_nonneg dt
    have n0 := norm_nonneg y
    have q0 := norm_nonneg (p 0)
    have q1 := norm_nonneg (p 1)
    have q2 := norm_nonneg (p 2)
    have q3 := norm_nonneg (p 3)
    rw [h1, h2, h3, h0]
    refine ⟨?_, ?_, ?_, ?_, ?_⟩
    · have e : y' - stepFactor .euler (dt * lam) * y = dt * p 0 := by
        rw [h4, hk 0, h0, stepFactor, Complex.real_smul]; ring
      rw [e, norm_mul, Complex.norm_real, Real.norm_eq_abs]
      nlinarith [mul_nonneg a0 q1, mul_nonneg a0 q2, mul_nonneg a0 q3]
    all_goals nlinarith [mul_nonneg a0 n0, mul_nonneg a0 q0, mul_nonneg a0 q1, mul_nonneg a0 q2]
  | rungeKutta =>
    obtain ⟨c0, hc0⟩ : ∃ c : ℂ, c = dt * (1 / 6 + dt * lam / 6 + (dt * lam) ^ 2 / 12 + (dt * lam) ^ 3 / 24) :=
      ⟨_, rfl⟩
    obtain ⟨c1, hc1⟩ : ∃ c : ℂ, c = dt * (1 / 3 + dt * lam / 6 + (dt * lam) ^ 2 / 12) := ⟨_, rfl⟩
    obtain ⟨c2, hc2⟩ : ∃ c : ℂ, c = dt * (1 / 3 + dt * lam / 6) := ⟨_, rfl⟩
    obtain ⟨c3, hc3⟩ : ∃ c : ℂ, c = dt * (1 / 6) := ⟨_, rfl⟩
    obtain ⟨G, hG⟩ : ∃ g : ℝ, g = 1 + |dt| * ‖lam‖ + |dt| := ⟨_, rfl⟩
    have a0 := abs_nonneg dt
    have al := mul_nonneg a0 (norm_nonneg lam)
    have g1 : 1 ≤ G := by rw [hG]; linarith
    obtain ⟨C, hC⟩ : ∃ c : ℝ, c = G ^ 3 + ‖c0‖ + ‖c1‖ + ‖c2‖ + ‖c3‖ := ⟨_, rfl⟩
    have k0 := norm_nonneg c0
    have k1 := norm_nonneg c1
    have k2 := norm_nonneg c2
    have k3 := norm_nonneg c3
    have g3 : 1 ≤ G ^ 3 := one_le_pow₀ g1
    have hCG : G ^ 3 ≤ C := by rw [hC]; linarith
    have stage : ∀ {y u w p : ℂ} {c D S S' : ℝ}, |c| ≤ |dt| → 1 ≤ D → ‖u‖ ≤ D * S → ‖y‖ + ‖p‖ ≤ S' → S ≤ S' →
        0 ≤ S' → w = y + c • (lam * u + p) → ‖w‖ ≤ (G * D) * S' := by
      intro y u w p c D S S' hc hD hu hyp hS h0 hw
      have y0 := norm_nonneg y
      have p0 := norm_nonneg p
      have h1 : ‖w‖ ≤ ‖y‖ + |dt| * (‖lam‖ * ‖u‖ + ‖p‖) := by
        rw [hw, Complex.real_smul]
        refine (norm_add_le _ _).trans (add_le_add le_rfl ?_)
        rw [norm_mul, Complex.norm_real, Real.norm_eq_abs]
        exact mul_le_mul hc ((norm_add_le _ _).trans (by rw [norm_mul])) (norm_nonneg _) a0
      have h2 : |dt| * ‖lam‖ * ‖u‖ ≤ |dt| * ‖lam‖ * (D * S') :=
        mul_le_mul_of_nonneg_left (hu.trans (mul_le_mul_of_nonneg_left hS (by linarith))) al
      have h3 : |dt| * ‖p‖ ≤ |dt| * S' := mul_le_mul_of_nonneg_left (by linarith) a0
      have h4 : S' ≤ D * S' := le_mul_of_one_le_left h0 hD
      have h5 : |dt| * S' ≤ |dt| * (D * S') := mul_le_mul_of_nonneg_left h4 a0
      rw [hG]
      nlinarith
    refine ⟨C, g3.trans hCG, fun y y' u k p h hk => ?_⟩
    obtain ⟨h0, h1, h2, h3, h4⟩ := h
    have n0 := norm_nonneg y
    have q0 := norm_nonneg (p 0)
    have q1 := norm_nonneg (p 1)
    have q2 := norm_nonneg (p 2)
    have q3 := norm_nonneg (p 3)
    have d2 : |dt / 2| ≤ |dt| := by rw [abs_div, abs_two]; linarith
    have b1 : ‖u 1‖ ≤ (G * 1) * (‖y‖ + ‖p 0‖) :=
      stage (y := y) (p := p 0) (S := ‖y‖) d2 le_rfl (by rw [one_mul]) (by linarith) (by linarith) (by linarith)
        (by rw [h1, hk 0, h0])
    have b2 : ‖u 2‖ ≤ (G * (G * 1)) * (‖y‖ + ‖p 0‖ + ‖p 1‖) :=
      stage (y := y) (p := p 1) d2 (by nlinarith) b1 (by linarith) (by linarith) (by linarith) (by rw [h2, hk 1])
    have b3 : ‖u 3‖ ≤ (G * (G * (G * 1))) * (‖y‖ + ‖p 0‖ + ‖p 1‖ + ‖p 2‖) :=
      stage (y := y) (p := p 2) le_rfl (by nlinarith) b2 (by linarith) (by linarith) (by linarith) (by rw [h3, hk 2])
    refine ⟨?_, ?_, b1.trans (mul_le_mul_of_nonneg_right (le_trans ?_ hCG) (by linarith)),
      b2.trans (mul_le_mul_of_nonneg_right (le_trans ?_ hCG) (by linarith)),
      b3.trans (mul_le_mul_of_nonneg_right (le_trans ?_ hCG) (by linarith))⟩
    · have e : y' - stepFactor .rungeKutta (dt * lam) * y = c0 * p 0 + c1 * p 1 + c2 * p 2 + c3 * p 3 := by
        rw [h4, hk 3, h3, hk 2, h2, hk 1, h1, hk 0, h0, stepFactor, hc0, hc1, hc2, hc3]
        simp only [Complex.real_smul]
        push_cast
        ring
      rw [e]
      have t1 := norm_add_le (c0 * p 0 + c1 * p 1 + c2 * p 2) (c3 * p 3)
      have t2 := norm_add_le (c0 * p 0 + c1 * p 1) (c2 * p 2)
      have t3 := norm_add_le (c0 * p 0) (c1 * p 1)
      rw [norm_mul] at t1 t2
      rw [norm_mul, norm_mul] at t3
      have m0 : ‖c0‖ * ‖p 0‖ ≤ C * ‖p 0‖ := mul_le_mul_of_nonneg_right (by rw [hC]; linarith) q0
      have m1 : ‖c1‖ * ‖p 1‖ ≤ C * ‖p 1‖ := mul_le_mul_of_nonneg_right (by rw [hC]; linarith) q1
      have m2 : ‖c2‖ * ‖p 2‖ ≤ C * ‖p 2‖ := mul_le_mul_of_nonneg_right (by rw [hC]; linarith) q2
      have m3 : ‖c3‖ * ‖p 3‖ ≤ C * ‖p 3‖ := mul_le_mul_of_nonneg_right (by rw [hC]; linarith) q3
      nlinarith
    · rw [h0]
      nlinarith
    · nlinarith [mul_self_nonneg G, mul_nonneg (by linarith : (0:ℝ) ≤ G) (by nlinarith : (0:ℝ) ≤ G ^ 2 - 1)]
    · nlinarith [mul_self_nonneg G]
    · nlinarith

/-- Two steps on `e' = λ₁ e + v`, `v' = λ₂ v + p` with a small `p`. -/
theorem step_pair (m : Method) (dt : ℝ) (l1 l2 : ℂ) : ∃ C : ℝ, 0 ≤ C ∧
    ∀ (e e' v v' : ℂ) (ue ke uv kv p : Fin 4 → ℂ) (δ r : ℝ),
    MethodStep m dt e e' ue ke → MethodStep m dt v v' uv kv → (∀ j, ke j = l1 * ue j + uv j) →
    (∀ j, kv j = l2 * uv j + p j) → 0 ≤ δ → δ ≤ 1 → 0 ≤ r →
    (∀ j, ‖p j‖ ≤ δ * (‖ue j‖ + ‖uv j‖) + r) →
    ‖v'‖ ≤ ‖stepFactor m (dt * l2)‖ * ‖v‖ + C * (δ * (‖e‖ + ‖v‖) + r) ∧
    ‖e'‖ ≤ ‖stepFactor m (dt * l1)‖ * ‖e‖ + C * ‖v‖ + C * (δ * (‖e‖ + ‖v‖) + r) := by
  obtain ⟨A, hA, sA⟩ := step_scalar m dt l1
  obtain ⟨B, hB, sB⟩ := step_scalar m dt l2
  have A0 : 0 ≤ A := by linarith
  have B0 : 0 ≤ B := by linarith
  have AB : 0 ≤ A * B := mul_nonneg A0 B0
  obtain ⟨D, hD⟩ : ∃ d : ℝ, d = A * (1 + 3 * B) + B := ⟨_, rfl⟩
  have hD1 : 1 ≤ D := by rw [hD]; nlinarith
  obtain ⟨P1, hP1⟩ : ∃ x : ℝ, x = D + D * D := ⟨_, rfl⟩
  obtain ⟨P2, hP2⟩ : ∃ x : ℝ, x = D + D * (D + P1) := ⟨_, rfl⟩
  obtain ⟨P3, hP3⟩ : ∃ x : ℝ, x = D + D * (D + P1 + P2) := ⟨_, rfl⟩
  have D0 : 0 ≤ D := by linarith
  have p10 : 0 ≤ P1 := by rw [hP1]; positivity
  have p20 : 0 ≤ P2 := by rw [hP2]; positivity
  have p30 : 0 ≤ P3 := by rw [hP3]; positivity
  obtain ⟨S, hS⟩ : ∃ x : ℝ, x = D + P1 + P2 + P3 := ⟨_, rfl⟩
  have S0 : 0 ≤ S := by rw [hS]; positivity
  refine ⟨B * S + 4 * A * B + 4 * A * B * S, by positivity, ?_⟩
  intro e e' v v' ue ke uv kv p δ r he hv hke hkv d0 d1 r0 hp
  obtain ⟨f1, f2, f3, f4, f5⟩ := sA e e' ue ke uv he hke
  obtain ⟨g1, g2, g3, g4, g5⟩ := sB v v' uv kv p hv hkv
  obtain ⟨T, hT⟩ : ∃ x : ℝ, x = ‖e‖ + ‖v‖ := ⟨_, rfl⟩
  obtain ⟨Q, hQ⟩ : ∃ x : ℝ, x = δ * T + r := ⟨_, rfl⟩
  have e0 := norm_nonneg e
  have v0 := norm_nonneg v
  have q0 := norm_nonneg (p 0)
  have q1 := norm_nonneg (p 1)
  have q2 := norm_nonneg (p 2)
  have T0 : 0 ≤ T := by rw [hT]; positivity
  have Q0 : 0 ≤ Q := by rw [hQ]; positivity
  have pert : ∀ (j : Fin 4) (P : ℝ), 0 ≤ P → ‖ue j‖ + ‖uv j‖ ≤ D * (T + P) → ‖p j‖ ≤ D * Q + D * P := by
    intro j P hP h
    have h1 := hp j
    have h2 : δ * (‖ue j‖ + ‖uv j‖) ≤ δ * (D * (T + P)) := mul_le_mul_of_nonneg_left h d0
    have h3 : δ * (D * P) ≤ 1 * (D * P) := mul_le_mul_of_nonneg_right d1 (mul_nonneg D0 hP)
    have h4 : r ≤ D * r := le_mul_of_one_le_left r0 hD1
    have h5 : D * Q + D * P = δ * (D * (T + P)) - δ * (D * P) + D * r + D * P := by rw [hQ]; ring
    linarith
  have all : ∀ (j : Fin 4) (P a b : ℝ), 0 ≤ P → ‖uv j‖ ≤ B * (‖v‖ + P) → ‖ue j‖ ≤ A * (‖e‖ + b) →
      b ≤ 3 * (B * (‖v‖ + P)) → ‖ue j‖ + ‖uv j‖ ≤ D * (T + P) := by
    intro j P a b hP h1 h2 h3
    have h4 : A * (‖e‖ + b) ≤ A * (‖e‖ + 3 * (B * (‖v‖ + P))) := mul_le_mul_of_nonneg_left (by linarith) A0
    have h5 : D * (T + P) - (A * (‖e‖ + 3 * (B * (‖v‖ + P))) + B * (‖v‖ + P)) =
        A * ‖v‖ + A * P + 3 * (A * B * ‖e‖) + B * ‖e‖ := by rw [hD, hT]; ring
    linarith [mul_nonneg A0 v0, mul_nonneg A0 hP, mul_nonneg AB e0, mul_nonneg B0 e0]
  have w0 : B * ‖v‖ ≤ B * (‖v‖ + ‖p 0‖) := mul_le_mul_of_nonneg_left (by linarith) B0
  have w1 : B * (‖v‖ + ‖p 0‖) ≤ B * (‖v‖ + ‖p 0‖ + ‖p 1‖) := mul_le_mul_of_nonneg_left (by linarith) B0
  have w2 : B * (‖v‖ + ‖p 0‖ + ‖p 1‖) ≤ B * (‖v‖ + ‖p 0‖ + ‖p 1‖ + ‖p 2‖) :=
    mul_le_mul_of_nonneg_left (by linarith) B0
  have w00 : 0 ≤ B * ‖v‖ := mul_nonneg B0 v0
  have b0 : ‖p 0‖ ≤ D * Q := by
    have := pert 0 0 le_rfl (all 0 0 0 0 le_rfl (by simpa using g2) (by simpa using f2) (by linarith))
    linarith
  have b1 : ‖p 1‖ ≤ P1 * Q := by
    have := pert 1 (‖p 0‖) q0 (all 1 _ 0 _ q0 g3 f3 (by linarith))
    have h1 : D * ‖p 0‖ ≤ D * (D * Q) := mul_le_mul_of_nonneg_left b0 D0
    rw [hP1]
    linarith
  have b2 : ‖p 2‖ ≤ P2 * Q := by
    have := pert 2 (‖p 0‖ + ‖p 1‖) (by linarith) (all 2 _ 0 (‖uv 0‖ + ‖uv 1‖) (by linarith)
      (by rw [← add_assoc]; exact g4) (by rw [← add_assoc]; exact f4) (by rw [← add_assoc]; linarith))
    have h1 : D * (‖p 0‖ + ‖p 1‖) ≤ D * (D * Q + P1 * Q) := mul_le_mul_of_nonneg_left (by linarith) D0
    rw [hP2]
    linarith
  have b3 : ‖p 3‖ ≤ P3 * Q := by
    have := pert 3 (‖p 0‖ + ‖p 1‖ + ‖p 2‖) (by linarith) (all 3 _ 0 (‖uv 0‖ + ‖uv 1‖ + ‖uv 2‖) (by linarith)
      (by rw [← add_assoc, ← add_assoc]; exact g5) (by rw [← add_assoc, ← add_assoc]; exact f5)
      (by rw [← add_assoc, ← add_assoc]; linarith))
    have h1 : D * (‖p 0‖ + ‖p 1‖ + ‖p 2‖) ≤ D * (D * Q + P1 * Q + P2 * Q) :=
      mul_le_mul_of_nonneg_left (by linarith) D0
    rw [hP3]
    linarith
  have bS : ‖p 0‖ + ‖p 1‖ + ‖p 2‖ + ‖p 3‖ ≤ S * Q := by rw [hS]; linarith
  have bS' : ‖p 0‖ + ‖p 1‖ + ‖p 2‖ ≤ S * Q := by linarith [norm_nonneg (p 3)]
  have SQ : 0 ≤ S * Q := mul_nonneg S0 Q0
  rw [← hT, ← hQ]
  constructor
  · have h1 : ‖v'‖ ≤ ‖v' - stepFactor m (dt * l2) * v‖ + ‖stepFactor m (dt * l2)‖ * ‖v‖ := by
      rw [← norm_mul]
      simpa using norm_add_le (v' - stepFactor m (dt * l2) * v) (stepFactor m (dt * l2) * v)
    have h2 : B * (‖p 0‖ + ‖p 1‖ + ‖p 2‖ + ‖p 3‖) ≤ B * (S * Q) := mul_le_mul_of_nonneg_left bS B0
    have h3 : 0 ≤ 4 * A * B * Q := by positivity
    have h4 : 0 ≤ 4 * A * B * S * Q := by positivity
    linarith
  · have h1 : ‖e'‖ ≤ ‖e' - stepFactor m (dt * l1) * e‖ + ‖stepFactor m (dt * l1)‖ * ‖e‖ := by
      rw [← norm_mul]
      simpa using norm_add_le (e' - stepFactor m (dt * l1) * e) (stepFactor m (dt * l1) * e)
    have h5 : B * (‖p 0‖ + ‖p 1‖ + ‖p 2‖) ≤ B * (S * Q) := mul_le_mul_of_nonneg_left bS' B0
    have h2 : ‖uv 0‖ + ‖uv 1‖ + ‖uv 2‖ + ‖uv 3‖ ≤ 4 * (B * ‖v‖ + B * (S * Q)) := by
      have := mul_nonneg B0 (add_nonneg q0 q1)
      linarith
    have h6 : A * (‖uv 0‖ + ‖uv 1‖ + ‖uv 2‖ + ‖uv 3‖) ≤ A * (4 * (B * ‖v‖ + B * (S * Q))) :=
      mul_le_mul_of_nonneg_left h2 A0
    have h3 : 0 ≤ B * S * ‖v‖ := by positivity
    have h4 : 0 ≤ 4 * A * B * S * ‖v‖ := by positivity
    have h7 : 0 ≤ B * S * Q := by positivity
    have h8 : 0 ≤ 4 * A * B * Q := by positivity
    linarith

/-- Numbers that shrink up to something that tends to zero. -/
theorem shrink {a r : Nat → ℝ} {q : ℝ} (ha : ∀ n, 0 ≤ a n) (h0 : 0 ≤ q) (h1 : q < 1)
    (h : ∀ᶠ n in atTop, a (n + 1) ≤ q * a n + r n) (hr : Tendsto r atTop (𝓝 0)) : Tendsto a atTop (𝓝 0) := by
  obtain ⟨N, hN⟩ := eventually_atTop.mp h
  refine squeeze_zero' (g := a) (f := a) (Eventually.of_forall ha) (Eventually.of_forall fun _ => le_rfl) ?_
  rw [Metric.tendsto_atTop]
  intro ε hε
  have h1q : 0 < 1 - q := by linarith
  obtain ⟨M, hM⟩ := (Metric.tendsto_atTop.mp hr) (ε / 2 * (1 - q)) (by positivity)
  have key : ∀ n, a (max N M + n) ≤ q ^ n * a (max N M) + ε / 2 := by
    intro n
    induction n with
    | zero => simpa using (half_pos hε).le
    | succ n ih =>
      have e1 := hN (max N M + n) (by omega)
      have e2 := hM (max N M + n) (by omega)
      rw [Real.dist_eq, sub_zero] at e2
      have e3 := (le_abs_self _).trans e2.le
      calc a (max N M + (n + 1)) ≤ q * a (max N M + n) + r (max N M + n) := e1
        _ ≤ q * (q ^ n * a (max N M) + ε / 2) + ε / 2 * (1 - q) := by gcongr
        _ = q ^ (n + 1) * a (max N M) + ε / 2 := by ring
  have hp : Tendsto (fun n => q ^ n * a (max N M)) atTop (𝓝 0) := by
    simpa using (tendsto_pow_atTop_nhds_zero_of_lt_one h0 h1).mul_const (a (max N M))
  obtain ⟨P, hP⟩ := (Metric.tendsto_atTop.mp hp) (ε / 2) (by positivity)
  refine ⟨max N M + P, fun n hn => ?_⟩
  obtain ⟨k, rfl⟩ := Nat.exists_eq_add_of_le ((Nat.le_add_right _ P).trans hn)
  have e1 := hP k (by omega)
  rw [Real.dist_eq, sub_zero] at e1 ⊢
  rw [abs_of_nonneg (ha _)]
  have := key k
  have := (le_abs_self _).trans_lt e1
  linarith

theorem shrink_pair {E V δ r : Nat → ℝ} {ρ C : ℝ} (hE : ∀ n, 0 ≤ E n) (hV : ∀ n, 0 ≤ V n) (h0 : 0 ≤ ρ)
    (h1 : ρ < 1) (hC : 0 ≤ C) (hδ : Tendsto δ atTop (𝓝 0)) (hr : Tendsto r atTop (𝓝 0))
    (h2 : ∀ᶠ n in atTop, V (n + 1) ≤ ρ * V n + C * (δ n * (E n + V n) + r n))
    (h3 : ∀ᶠ n in atTop, E (n + 1) ≤ ρ * E n + C * V n + C * (δ n * (E n + V n) + r n)) :
    Tendsto E atTop (𝓝 0) ∧ Tendsto V atTop (𝓝 0) := by
  have hρ : 0 < 1 - ρ := by linarith
  obtain ⟨K, hK⟩ : ∃ k : ℝ, k = 2 * C / (1 - ρ) + 1 := ⟨_, rfl⟩
  have hK1 : 1 ≤ K := by rw [hK]; linarith [div_nonneg (mul_nonneg two_pos.le hC) hρ.le]
  have hKC : C + ρ * K ≤ (1 + ρ) / 2 * K := by
    have : C ≤ (1 - ρ) / 2 * K := by
      rw [hK]
      have e : (1 - ρ) / 2 * (2 * C / (1 - ρ) + 1) = C + (1 - ρ) / 2 := by field_simp
      rw [e]; linarith
    linarith
  have hδ' : ∀ᶠ n in atTop, C * (1 + K) * δ n < (1 - ρ) / 4 := by
    have : Tendsto (fun n => C * (1 + K) * δ n) atTop (𝓝 0) := by simpa using hδ.const_mul (C * (1 + K))
    exact this.eventually (gt_mem_nhds (by linarith))
  have hW : Tendsto (fun n => E n + K * V n) atTop (𝓝 0) := by
    refine shrink (q := (3 + ρ) / 4) (r := fun n => C * (1 + K) * r n)
      (fun n => add_nonneg (hE n) (mul_nonneg (by linarith) (hV n))) (by linarith) (by linarith) ?_
      (by simpa using hr.const_mul (C * (1 + K)))
    filter_upwards [h2, h3, hδ'] with n e2 e3 e4
    have a1 := hE n
    have a2 := hV n
    have e5 : K * V (n + 1) ≤ K * (ρ * V n + C * (δ n * (E n + V n) + r n)) :=
      mul_le_mul_of_nonneg_left e2 (by linarith)
    have e6 : C * (1 + K) * δ n * (E n + V n) ≤ (1 - ρ) / 4 * (E n + V n) :=
      mul_le_mul_of_nonneg_right e4.le (by linarith)
    have e7 : (C + ρ * K) * V n ≤ (1 + ρ) / 2 * K * V n := mul_le_mul_of_nonneg_right hKC a2
    have e8 : V n ≤ K * V n := le_mul_of_one_le_left a2 hK1
    have e9 : (1 - ρ) / 4 * (E n + V n) ≤ (1 - ρ) / 4 * (E n + K * V n) :=
      mul_le_mul_of_nonneg_left (by linarith) (by linarith)
    have e10 : 0 ≤ (1 - ρ) * E n := by positivity
    nlinarith
  constructor
  · exact squeeze_zero hE (fun n => by nlinarith [hV n, hE n]) hW
  · exact squeeze_zero hV (fun n => by nlinarith [hV n, hE n]) hW

theorem _root_.Verif.Spec.MethodStep.comb {m : Method} {dt : ℝ} {x x' y y' : ℝ} {ux kx uy ky : Fin 4 → ℝ}
    (h : MethodStep m dt x x' ux kx) (h' : MethodStep m dt y y' uy ky) (α β γ : ℂ) :
    MethodStep m dt (α * x + β * y + γ) (α * x' + β * y' + γ) (fun j => α * ux j + β * uy j + γ)
      (fun j => α * kx j + β * ky j) := by
  cases m with
  | euler =>
    obtain ⟨h0, h1, h2, h3, h4⟩ := h
    obtain ⟨g0, g1, g2, g3, g4⟩ := h'
    refine ⟨by simp only [h0, g0], by simp only [h1, g1], by simp only [h2, g2], by simp only [h3, g3], ?_⟩
    rw [h4, g4]
    simp only [smul_eq_mul, Complex.real_smul]
    push_cast
    ring
  | rungeKutta =>
    obtain ⟨h0, h1, h2, h3, h4⟩ := h
    obtain ⟨g0, g1, g2, g3, g4⟩ := h'
    refine ⟨by simp only [h0, g0], ?_, ?_, ?_, ?_⟩
    · simp only [h1, g1]
      simp only [smul_eq_mul, Complex.real_smul]
      push_cast
      ring
    · simp only [h2, g2]
      simp only [smul_eq_mul, Complex.real_smul]
      push_cast
      ring
    · simp only [h3, g3]
      simp only [smul_eq_mul, Complex.real_smul]
      push_cast
      ring
    · rw [h4, g4]
      simp only [smul_eq_mul, Complex.real_smul]
      push_cast
      ring

theorem _root_.Verif.Spec.MethodStep.affine {m : Method} {dt : ℝ} {x x' : ℝ} {u k : Fin 4 → ℝ}
    (h : MethodStep m dt x x' u k) (α β : ℝ) :
    MethodStep m dt (α * x + β) (α * x' + β) (fun j => α * u j + β) (fun j => α * k j) := by
  cases m with
  | euler =>
    obtain ⟨h0, h1, h2, h3, h4⟩ := h
    refine ⟨by simp only [h0], by simp only [h1], by simp only [h2], by simp only [h3], ?_⟩
    rw [h4]
    simp only [smul_eq_mul]
    ring
  | rungeKutta =>
    obtain ⟨h0, h1, h2, h3, h4⟩ := h
    refine ⟨by simp only [h0], ?_, ?_, ?_, ?_⟩
    · simp only [h1, smul_eq_mul]; ring
    · simp only [h2, smul_eq_mul]; ring
    · simp only [h3, smul_eq_mul]; ring
    · simp only [h4, smul_eq_mul]; ring

/-- The step is stable for the differential equation `x'' = - a x' - q x`. -/
def StableStep (m : Method) (dt a q : ℝ) : Prop :=
  ∀ l : ℂ, l ^ 2 + a * l + q = 0 → ‖stepFactor m (dt * l)‖ < 1

theorem exists_roots (a q : ℝ) : ∃ l1 l2 : ℂ, l1 + l2 = -a ∧ l1 * l2 = q := by
  obtain ⟨w, hw⟩ : ∃ w : ℂ, w ^ 2 = (a : ℂ) ^ 2 / 4 - q := by
    rcases le_total 0 (a ^ 2 / 4 - q) with h | h
    · refine ⟨(Real.sqrt (a ^ 2 / 4 - q) : ℝ), ?_⟩
      rw [← Complex.ofReal_pow, Real.sq_sqrt h]
      push_cast; ring
    · refine ⟨Complex.I * (Real.sqrt (q - a ^ 2 / 4) : ℝ), ?_⟩
      rw [mul_pow, Complex.I_sq, ← Complex.ofReal_pow, Real.sq_sqrt (by linarith)]
      push_cast; ring
  refine ⟨-a / 2 + w, -a / 2 - w, by ring, ?_⟩
  have : (-(a : ℂ) / 2 + w) * (-a / 2 - w) = (a : ℂ) ^ 2 / 4 - w ^ 2 := by ring
  rw [this, hw]; ring

theorem root_re_neg {a q : ℝ} (ha : 0 < a) (hq : 0 < q) {l : ℂ} (h : l ^ 2 + a * l + q = 0) : l.re < 0 := by
  have h1 := congrArg Complex.re h
  have h2 := congrArg Complex.im h
  simp [pow_two] at h1 h2
  by_contra hc
  push Not at hc
  have h3 : l.im * (2 * l.re + a) = 0 := by linarith
  rcases mul_eq_zero.mp h3 with h4 | h4
  · rw [h4] at h1
    nlinarith [mul_nonneg ha.le hc, mul_self_nonneg l.re]
  · linarith

theorem stepFactor_small (m : Method) {l : ℂ} (h : l.re < 0) :
    ∃ dt0 : ℝ, 0 < dt0 ∧ ∀ dt : ℝ, 0 < dt → dt ≤ dt0 → ‖stepFactor m (dt * l)‖ < 1 := by
  have hl : 0 < ‖l‖ := norm_pos_iff.mpr (fun e => by rw [e] at h; simp at h)
  refine ⟨min (1 / ‖l‖) (-l.re / (2 * ‖l‖ ^ 2)), lt_min (by positivity) (div_pos (by linarith) (by positivity)),
    fun dt h0 h1 => ?_⟩
  have h2 : dt * ‖l‖ ≤ 1 := by
    have := h1.trans (min_le_left _ _)
    rwa [le_div_iff₀ hl] at this
  have h3 : dt * (2 * ‖l‖ ^ 2) ≤ -l.re := by
    have := h1.trans (min_le_right _ _)
    rwa [le_div_iff₀ (by positivity)] at this
  have n1 : ‖(dt : ℂ) * l‖ = dt * ‖l‖ := by rw [norm_mul, Complex.norm_real, Real.norm_eq_abs, abs_of_pos h0]
  have e1 : ‖1 + (dt : ℂ) * l‖ ≤ 1 + dt * l.re + (dt * ‖l‖) ^ 2 / 2 := by
    have r1 := Complex.abs_re_le_norm ((dt : ℂ) * l)
    rw [n1] at r1
    have r2 : ((dt : ℂ) * l).re = dt * l.re := by simp
    rw [r2] at r1
    have r3 := (abs_le.mp r1).1
    have p : 0 ≤ 1 + dt * l.re + (dt * ‖l‖) ^ 2 / 2 := by nlinarith [sq_nonneg (dt * ‖l‖)]
    refine le_of_sq_le_sq ?_ p
    have s1 : ‖1 + (dt : ℂ) * l‖ ^ 2 = 1 + 2 * (dt * l.re) + (dt * ‖l‖) ^ 2 := by
      rw [← n1, Complex.sq_norm, Complex.sq_norm, Complex.normSq_apply, Complex.normSq_apply]
      simp
      ring
    rw [s1]
    nlinarith [sq_nonneg (dt * l.re + (dt * ‖l‖) ^ 2 / 2)]
  have e2 : dt * l.re + 2 * (dt * ‖l‖) ^ 2 ≤ 0 := by nlinarith
  have q0 : 0 < (dt * ‖l‖) ^ 2 := by positivity
  cases m with
  | euler =>
    rw [stepFactor]
    linarith
  | rungeKutta =>
    rw [stepFactor]
    have t1 := norm_add_le (1 + (dt : ℂ) * l + ((dt : ℂ) * l) ^ 2 / 2 + ((dt : ℂ) * l) ^ 3 / 6)
      (((dt : ℂ) * l) ^ 4 / 24)
    have t2 := norm_add_le (1 + (dt : ℂ) * l + ((dt : ℂ) * l) ^ 2 / 2) (((dt : ℂ) * l) ^ 3 / 6)
    have t3 := norm_add_le (1 + (dt : ℂ) * l) (((dt : ℂ) * l) ^ 2 / 2)
    rw [norm_div, norm_pow, n1] at t1 t2 t3
    have c1 : ‖(24 : ℂ)‖ = 24 := by simp
    have c2 : ‖(6 : ℂ)‖ = 6 := by simp
    have c3 : ‖(2 : ℂ)‖ = 2 := by simp
    rw [c1] at t1
    rw [c2] at t2
    rw [c3] at t3
    have u0 : 0 ≤ dt * ‖l‖ := by positivity
    have u3 : (dt * ‖l‖) ^ 3 ≤ (dt * ‖l‖) ^ 2 := pow_le_pow_of_le_one u0 h2 (by norm_num)
    have u4 : (dt * ‖l‖) ^ 4 ≤ (dt * ‖l‖) ^ 2 := pow_le_pow_of_le_one u0 h2 (by norm_num)
    linarith

theorem stable_small (m : Method) {a q : ℝ} (ha : 0 < a) (hq : 0 < q) :
    ∃ dt0 : ℝ, 0 < dt0 ∧ ∀ dt : ℝ, 0 < dt → dt ≤ dt0 → StableStep m dt a q := by
  obtain ⟨l1, l2, h1, h2⟩ := exists_roots a q
  have f : ∀ l : ℂ, l ^ 2 + a * l + q = (l - l1) * (l - l2) := fun l => by
    have : (l - l1) * (l - l2) = l ^ 2 - (l1 + l2) * l + l1 * l2 := by ring
    rw [this, h1, h2]; ring
  obtain ⟨d1, p1, k1⟩ := stepFactor_small m (root_re_neg ha hq (l := l1) (by rw [f]; simp))
  obtain ⟨d2, p2, k2⟩ := stepFactor_small m (root_re_neg ha hq (l := l2) (by rw [f]; simp))
  refine ⟨min d1 d2, lt_min p1 p2, fun dt h0 h l hl => ?_⟩
  rw [f] at hl
  rcases mul_eq_zero.mp hl with e | e
  · rw [sub_eq_zero.mp e]
    exact k1 dt h0 (h.trans (min_le_left _ _))
  · rw [sub_eq_zero.mp e]
    exact k2 dt h0 (h.trans (min_le_right _ _))

end Verif
