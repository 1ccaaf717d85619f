import Mathlib.Analysis.SpecialFunctions.ExpDeriv
import Mathlib.Analysis.SpecialFunctions.Log.Basic
import Mathlib.Analysis.Calculus.Deriv.MeanValue
import Mathlib.Analysis.Calculus.ContDiff.RCLike
import Mathlib.Analysis.ODE.ExistUnique
import Mathlib.Topology.Order.Compact
import Mathlib.Analysis.Calculus.Deriv.Pow

/- Convergence of damped motions, uniqueness of motions in one dimension. -/

set_option autoImplicit false

namespace Verif

open Filter Topology Set

/-- A quantity that decays up to a vanishing disturbance tends to 0. -/
theorem decays {V V' k : ℝ → ℝ} {l T0 : ℝ} (hl : 0 < l) (hc : ContinuousOn V (Ioi T0))
    (hV : ∀ t, T0 < t → HasDerivWithinAt V (V' t) (Ici t) t)
    (h : ∀ t, T0 < t → V' t ≤ -l * V t + k t) (hk : Tendsto k atTop (𝓝 0)) (h0 : ∀ t, 0 ≤ V t) :
    Tendsto V atTop (𝓝 0) := by
  rw [Metric.tendsto_atTop]
  intro ε hε
  have hk1 : ∀ᶠ t in atTop, k t < l * (ε / 2) := hk.eventually (gt_mem_nhds (by positivity))
  obtain ⟨T1, hT1⟩ := eventually_atTop.mp hk1
  set T := max (T0 + 1) T1 with hT
  have hT0 : ∀ t, T ≤ t → T0 < t := fun t ht => by
    have := le_max_left (T0 + 1) T1
    linarith
  have hkT : ∀ t, T ≤ t → k t < l * (ε / 2) := fun t ht => hT1 t ((le_max_right _ _).trans ht)
  -- the weighted excess does not grow
  have hW : ∀ t, T ≤ t → HasDerivWithinAt (fun t => (V t - ε / 2) * Real.exp (l * t))
      (V' t * Real.exp (l * t) + (V t - ε / 2) * (Real.exp (l * t) * (l * 1))) (Ici t) t := fun t ht =>
    ((hV t (hT0 t ht)).sub_const _).mul (((hasDerivAt_id t).const_mul l).exp).hasDerivWithinAt
  have anti : ∀ t, T ≤ t → (V t - ε / 2) * Real.exp (l * t) ≤ (V T - ε / 2) * Real.exp (l * T) := by
    intro u hu
    have hcW : ContinuousOn (fun t => (V t - ε / 2) * Real.exp (l * t)) (Icc T u) :=
      ((hc.mono fun t ht => hT0 t ht.1).sub continuousOn_const).mul
        (Real.continuous_exp.comp (continuous_const.mul continuous_id)).continuousOn
    refine image_le_of_deriv_right_le_deriv_boundary (B' := fun _ => 0) hcW
      (fun t ht => hW t ht.1) le_rfl continuousOn_const (fun t _ => hasDerivWithinAt_const _ _ _)
      (fun t ht => ?_) (right_mem_Icc.mpr hu)
    have h1 := h t (hT0 t ht.1)
    have h2 := hkT t ht.1
    have h3 := Real.exp_pos (l * t)
    have : V' t * Real.exp (l * t) + (V t - ε / 2) * (Real.exp (l * t) * (l * 1)) =
      (V' t + l * V t - l * (ε / 2)) * Real.exp (l * t) := by ring
    rw [this]
    exact mul_nonpos_of_nonpos_of_nonneg (by linarith) h3.le
  have hexp : Tendsto (fun t => (V T - ε / 2) * Real.exp (l * T) * Real.exp (-(l * t))) atTop (𝓝 0) := by
    have h1 : Tendsto (fun t : ℝ => l * t) atTop atTop := tendsto_id.const_mul_atTop hl
    have h2 := (Real.tendsto_exp_atBot.comp (tendsto_neg_atTop_atBot.comp h1)).const_mul
      ((V T - ε / 2) * Real.exp (l * T))
    rw [mul_zero] at h2
    exact h2
  have hexp1 : ∀ᶠ t in atTop, (V T - ε / 2) * Real.exp (l * T) * Real.exp (-(l * t)) < ε / 2 :=
    hexp.eventually (gt_mem_nhds (by positivity))
  obtain ⟨T2, hT2⟩ := eventually_atTop.mp hexp1
  refine ⟨max T T2, fun t ht => ?_⟩
  have ht1 : T ≤ t := (le_max_left _ _).trans ht
  have ht2 := hT2 t ((le_max_right _ _).trans ht)
  have h1 : (V t - ε / 2) * Real.exp (l * t) ≤ (V T - ε / 2) * Real.exp (l * T) :=
    anti t ht1
  have h2 : V t - ε / 2 ≤ (V T - ε / 2) * Real.exp (l * T) * Real.exp (-(l * t)) := by
    rw [Real.exp_neg, ← div_eq_mul_inv, le_div_iff₀ (Real.exp_pos _)]
    exact h1
  rw [Real.dist_eq, sub_zero, abs_of_nonneg (h0 t)]
  linarith

/-- A damped oscillator with a disturbance that vanishes, and a damping that tends to a positive value,
comes to rest. -/
theorem comes_to_rest {e w a h : ℝ → ℝ} {b c A T0 : ℝ} (hb : 0 < b) (hc : 0 < c) (hA : 0 < A)
    (ce : ContinuousOn e (Ioi T0)) (cw : ContinuousOn w (Ioi T0))
    (he : ∀ t, T0 < t → HasDerivWithinAt e (c * w t) (Ici t) t)
    (hw : ∀ t, T0 < t → HasDerivWithinAt w (-b * e t - a t * w t + h t) (Ici t) t)
    (ha : Tendsto a atTop (𝓝 A)) (hh : Tendsto h atTop (𝓝 0)) :
    Tendsto e atTop (𝓝 0) ∧ Tendsto w atTop (𝓝 0) := by
  -- the weight of the mixed term
  obtain ⟨δ, hδ, hδ1, hδ2⟩ : ∃ δ : ℝ, 0 < δ ∧ δ * (c + 4 * A ^ 2 / b) ≤ c * A / 4 ∧ δ ^ 2 ≤ b * c / 4 := by
    have hp : 0 < c + 4 * A ^ 2 / b := by positivity
    refine ⟨min (c * A / 4 / (c + 4 * A ^ 2 / b)) (Real.sqrt (b * c / 4)), ?_, ?_, ?_⟩
    · exact lt_min (by positivity) (Real.sqrt_pos.mpr (by positivity))
    · calc _ ≤ c * A / 4 / (c + 4 * A ^ 2 / b) * (c + 4 * A ^ 2 / b) :=
          mul_le_mul_of_nonneg_right (min_le_left _ _) hp.le
        _ = _ := div_mul_cancel₀ _ hp.ne'
    · have h1 : min (c * A / 4 / (c + 4 * A ^ 2 / b)) (Real.sqrt (b * c / 4)) ≤ Real.sqrt (b * c / 4) :=
        min_le_right _ _
      have h2 : 0 ≤ min (c * A / 4 / (c + 4 * A ^ 2 / b)) (Real.sqrt (b * c / 4)) :=
        le_min (by positivity) (Real.sqrt_nonneg _)
      calc _ ≤ Real.sqrt (b * c / 4) ^ 2 := pow_le_pow_left₀ h2 h1 2
        _ = _ := Real.sq_sqrt (by positivity)
  -- the damping is near its limit at late times
  have ha1 : ∀ᶠ t in atTop, A / 2 < a t ∧ a t < 2 * A :=
    (ha.eventually (lt_mem_nhds (by linarith))).and (ha.eventually (gt_mem_nhds (by linarith)))
  obtain ⟨T1, hT1⟩ := eventually_atTop.mp ha1
  -- the energy
  have bound : ∀ t, (b * e t ^ 2 + c * w t ^ 2) / 4 ≤ (b * e t ^ 2 + c * w t ^ 2) / 2 + δ * (e t * w t) := by
    intro t
    have h1 : |δ * (e t * w t)| ≤ (b * e t ^ 2 + c * w t ^ 2) / 4 := by
      refine abs_le_of_sq_le_sq ?_ (by positivity)
      have h2 : (δ * (e t * w t)) ^ 2 ≤ b * c / 4 * (e t * w t) ^ 2 := by
        rw [mul_pow]; exact mul_le_mul_of_nonneg_right hδ2 (sq_nonneg _)
      nlinarith [sq_nonneg (b * e t ^ 2 - c * w t ^ 2)]
    have := neg_le_of_abs_le h1
    linarith
  have bound' : ∀ t, (b * e t ^ 2 + c * w t ^ 2) / 2 + δ * (e t * w t) ≤ 3 / 4 * (b * e t ^ 2 + c * w t ^ 2) := by
    intro t
    have h1 : |δ * (e t * w t)| ≤ (b * e t ^ 2 + c * w t ^ 2) / 4 := by
      refine abs_le_of_sq_le_sq ?_ (by positivity)
      have h2 : (δ * (e t * w t)) ^ 2 ≤ b * c / 4 * (e t * w t) ^ 2 := by
        rw [mul_pow]; exact mul_le_mul_of_nonneg_right hδ2 (sq_nonneg _)
      nlinarith [sq_nonneg (b * e t ^ 2 - c * w t ^ 2)]
    have := le_of_abs_le h1
    linarith
  set l := min (A / 6) (2 * δ / 3) with hl
  have hl0 : 0 < l := lt_min (by positivity) (by positivity)
  have hVc : ContinuousOn (fun t => (b * e t ^ 2 + c * w t ^ 2) / 2 + δ * (e t * w t)) (Ioi (max T0 T1)) := by
    have ce := ce.mono (Ioi_subset_Ioi (le_max_left T0 T1))
    have cw := cw.mono (Ioi_subset_Ioi (le_max_left T0 T1))
    exact (((continuousOn_const.mul (ce.pow 2)).add (continuousOn_const.mul (cw.pow 2))).div_const 2).add
      (continuousOn_const.mul (ce.mul cw))
  have hVd : ∀ t, max T0 T1 < t → HasDerivWithinAt (fun t => (b * e t ^ 2 + c * w t ^ 2) / 2 + δ * (e t * w t))
      (b * e t * (c * w t) + c * w t * (-b * e t - a t * w t + h t) +
        δ * (c * w t * w t + e t * (-b * e t - a t * w t + h t))) (Ici t) t := by
    intro t ht
    have h1 := he t ((le_max_left _ _).trans_lt ht)
    have h2 := hw t ((le_max_left _ _).trans_lt ht)
    have h3 := ((((h1.pow 2).const_mul b).add ((h2.pow 2).const_mul c)).div_const 2).add ((h1.mul h2).const_mul δ)
    refine HasDerivWithinAt.congr_deriv h3 ?_
    norm_num
    ring
  have key : Tendsto (fun t => (b * e t ^ 2 + c * w t ^ 2) / 2 + δ * (e t * w t)) atTop (𝓝 0) := by
    refine decays (k := fun t => (2 * c / A + δ / b) * h t ^ 2) hl0 hVc hVd ?_ ?_ ?_
    · intro t ht
      obtain ⟨a1, a2⟩ := hT1 t ((le_max_right _ _).trans ht.le)
      have b1 := bound' t
      have hl1 : l ≤ A / 6 := min_le_left _ _
      have hl2 : l ≤ 2 * δ / 3 := min_le_right _ _
      have e2 : 0 ≤ e t ^ 2 := sq_nonneg _
      have w2 : 0 ≤ w t ^ 2 := sq_nonneg _
      -- mixed term
      have m1 : -(δ * (a t * (e t * w t))) ≤ δ * (b / 4 * e t ^ 2 + 4 * A ^ 2 / b * w t ^ 2) := by
        have h1 : -(a t * (e t * w t)) ≤ b / 4 * e t ^ 2 + a t ^ 2 / b * w t ^ 2 := by
          have h2 : b / 4 * e t ^ 2 + a t * (e t * w t) + a t ^ 2 / b * w t ^ 2 =
              b * (e t / 2 + a t / b * w t) ^ 2 := by
            field_simp
            ring
          nlinarith [sq_nonneg (e t / 2 + a t / b * w t)]
        have h3 : a t ^ 2 / b * w t ^ 2 ≤ 4 * A ^ 2 / b * w t ^ 2 := by
          refine mul_le_mul_of_nonneg_right ?_ w2
          refine div_le_div_of_nonneg_right ?_ hb.le
          nlinarith
        have h4 := mul_le_mul_of_nonneg_left (h1.trans (add_le_add_right h3 _)) hδ.le
        linarith
      -- disturbance
      have m2 : c * w t * h t ≤ c * A / 8 * w t ^ 2 + 2 * c / A * h t ^ 2 := by
        have h2 : c * A / 8 * w t ^ 2 - c * w t * h t + 2 * c / A * h t ^ 2 =
            c * A / 8 * (w t - 4 / A * h t) ^ 2 := by
          field_simp
          ring
        nlinarith [mul_nonneg (by positivity : 0 ≤ c * A / 8) (sq_nonneg (w t - 4 / A * h t))]
      have m3 : δ * (e t * h t) ≤ δ * b / 4 * e t ^ 2 + δ / b * h t ^ 2 := by
        have h2 : δ * b / 4 * e t ^ 2 - δ * (e t * h t) + δ / b * h t ^ 2 =
            δ * b / 4 * (e t - 2 / b * h t) ^ 2 := by
          field_simp
          ring
        nlinarith [mul_nonneg (by positivity : 0 ≤ δ * b / 4) (sq_nonneg (e t - 2 / b * h t))]
      have m4 : c * a t * w t ^ 2 ≥ c * A / 2 * w t ^ 2 := by
        refine mul_le_mul_of_nonneg_right ?_ w2
        nlinarith
      have m5 : δ * (c + 4 * A ^ 2 / b) * w t ^ 2 ≤ c * A / 4 * w t ^ 2 := mul_le_mul_of_nonneg_right hδ1 w2
      have m6 : l * ((b * e t ^ 2 + c * w t ^ 2) / 2 + δ * (e t * w t)) ≤
          δ * b / 2 * e t ^ 2 + c * A / 8 * w t ^ 2 := by
        calc _ ≤ l * (3 / 4 * (b * e t ^ 2 + c * w t ^ 2)) := mul_le_mul_of_nonneg_left b1 hl0.le
          _ = l * (3 / 4 * b * e t ^ 2) + l * (3 / 4 * c * w t ^ 2) := by ring
          _ ≤ 2 * δ / 3 * (3 / 4 * b * e t ^ 2) + A / 6 * (3 / 4 * c * w t ^ 2) :=
            add_le_add (mul_le_mul_of_nonneg_right hl2 (by positivity))
              (mul_le_mul_of_nonneg_right hl1 (by positivity))
          _ = _ := by ring
      nlinarith
    · have := (hh.pow 2).const_mul (2 * c / A + δ / b)
      simpa using this
    · intro t
      exact le_trans (by positivity) (bound t)
  have sum0 : Tendsto (fun t => b * e t ^ 2 + c * w t ^ 2) atTop (𝓝 0) := by
    have k4 := key.const_mul 4
    rw [mul_zero] at k4
    refine tendsto_of_tendsto_of_tendsto_of_le_of_le tendsto_const_nhds k4 (fun t => by positivity) fun t => ?_
    have := bound t
    simp only
    linarith
  have sq0 : ∀ {f : ℝ → ℝ}, Tendsto (fun t => f t ^ 2) atTop (𝓝 0) → Tendsto f atTop (𝓝 0) := by
    intro f hf
    have h1 := (Real.continuous_sqrt.tendsto 0).comp hf
    rw [Real.sqrt_zero] at h1
    refine tendsto_zero_iff_abs_tendsto_zero f |>.mpr ?_
    refine h1.congr fun t => ?_
    simp [Real.sqrt_sq_eq_abs]
  constructor
  · refine sq0 ?_
    have h1 := sum0.const_mul (1 / b)
    rw [mul_zero] at h1
    refine tendsto_of_tendsto_of_tendsto_of_le_of_le tendsto_const_nhds h1 (fun t => sq_nonneg _) fun t => ?_
    have : 1 / b * (b * e t ^ 2 + c * w t ^ 2) = e t ^ 2 + c / b * w t ^ 2 := by field_simp
    simp only
    rw [this]
    have : 0 ≤ c / b * w t ^ 2 := by positivity
    linarith
  · refine sq0 ?_
    have h1 := sum0.const_mul (1 / c)
    rw [mul_zero] at h1
    refine tendsto_of_tendsto_of_tendsto_of_le_of_le tendsto_const_nhds h1 (fun t => sq_nonneg _) fun t => ?_
    have : 1 / c * (b * e t ^ 2 + c * w t ^ 2) = b / c * e t ^ 2 + w t ^ 2 := by field_simp
    simp only
    rw [this]
    have : 0 ≤ b / c * e t ^ 2 := by positivity
    linarith

/-- Motions of a smooth differential equation in one dimension are determined by their start. -/
theorem motion_unique {F : ℝ → ℝ} (hF : ContDiff ℝ 1 F) {f g : ℝ → ℝ}
    (cf : ContinuousOn f (Ici 0)) (hf : ∀ t, 0 ≤ t → HasDerivWithinAt f (F (f t)) (Ici t) t)
    (cg : ContinuousOn g (Ici 0)) (hg : ∀ t, 0 ≤ t → HasDerivWithinAt g (F (g t)) (Ici t) t) (h0 : f 0 = g 0) :
    ∀ t, 0 ≤ t → f t = g t := by
  intro T hT
  have cf : ContinuousOn f (Icc 0 T) := cf.mono fun _ h => h.1
  have cg : ContinuousOn g (Icc 0 T) := cg.mono fun _ h => h.1
  -- both stay within an interval
  obtain ⟨R1, hR1⟩ := isCompact_Icc.exists_bound_of_continuousOn cf
  obtain ⟨R2, hR2⟩ := isCompact_Icc.exists_bound_of_continuousOn cg
  set R := max R1 R2
  have mf : ∀ t ∈ Icc 0 T, f t ∈ Icc (-R) R := fun t ht =>
    abs_le.mp ((hR1 t ht).trans (le_max_left _ _))
  have mg : ∀ t ∈ Icc 0 T, g t ∈ Icc (-R) R := fun t ht =>
    abs_le.mp ((hR2 t ht).trans (le_max_right _ _))
  -- the right-hand side is Lipschitz there
  obtain ⟨C, hC⟩ := isCompact_Icc.exists_bound_of_continuousOn
    ((hF.continuous_deriv le_rfl).continuousOn (s := Icc (-R) R))
  have lip : LipschitzOnWith C.toNNReal F (Icc (-R) R) := by
    refine (convex_Icc (-R) R).lipschitzOnWith_of_nnnorm_deriv_le
      (fun x _ => (hF.differentiable one_ne_zero) x) fun x hx => ?_
    rw [← NNReal.coe_le_coe, coe_nnnorm]
    exact (hC x hx).trans (Real.le_coe_toNNReal C)
  exact ODE_solution_unique_of_mem_Icc_right (v := fun _ => F) (s := fun _ => Icc (-R) R)
    (fun t _ => lip) cf (fun t ht => hf t ht.1)
    (fun t ht => mf t ⟨ht.1, ht.2.le⟩) cg (fun t ht => hg t ht.1)
    (fun t ht => mg t ⟨ht.1, ht.2.le⟩) h0 ⟨hT, le_rfl⟩

end Verif
