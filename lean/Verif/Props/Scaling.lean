import Verif.Spec.TimeScaling
import Verif.Props.Exponential
import Verif.Props.Time
import Verif.Props.Spring
import Verif.Props.Sigmoid
import Verif.Props.Richards

/- C11: rescaling time through tau. -/

set_option autoImplicit false

namespace Verif

open Spec

/-- Rows given by functions of time that scale. -/
theorem slowedDown_of_rows {c : ℝ} {x xd x' xd' : ℝ → List ℝ} {fast slow : Query}
    (hf : ∀ ts, fast ts = .ok (ts.map x, ts.map xd))
    (hs : ∀ ts, slow ts = .ok (ts.map x', ts.map xd'))
    (hx : ∀ t, x' (c * t) = x t) (hxd : ∀ t, xd' (c * t) = (xd t).map (· / c)) :
    SlowedDown c fast slow := by
  intro ts
  refine ⟨_, _, hf ts, ?_⟩
  rw [hs]
  simp [Function.comp_def, hx, hxd]

theorem scale_div {c : ℝ} (hc : 0 < c) (a t tau : ℝ) : a * (c * t) / (c * tau) = a * t / tau := by
  rw [mul_left_comm, mul_div_mul_left _ _ hc.ne']

/-- C11, exponential system: setting tau to `c*tau` slows the motion down by `c`. -/
theorem Exponential.C11_time_scaling (s : Exponential) (c : ℝ) (hc : 0 < c) :
    (setTau (c * s.tau) s).1 = .ok () ∧
    SlowedDown c (fun ts => .ok (s.analytical ts))
      (fun ts => .ok ((setTau (c * s.tau) s).2.analytical ts)) := by
  refine ⟨rfl, slowedDown_of_rows (x := s.xAt) (xd := s.xdAt)
    (x' := (setTau (c * s.tau) s).2.xAt) (xd' := (setTau (c * s.tau) s).2.xdAt)
    (fun _ => rfl) (fun _ => rfl) (fun t => ?_) (fun t => ?_)⟩
  · refine List.map_congr_left fun i _ => ?_
    simp only [xComp, setTau, inherit, Base.setTau, PyM.modify_apply]
    rw [scale_div hc]
  · simp only [xdAt, List.map_map]
    refine List.map_congr_left fun i _ => ?_
    simp only [xdComp, setTau, inherit, Base.setTau, PyM.modify_apply, Function.comp]
    rw [scale_div hc, div_mul_eq_div_div_swap]
    ring

/-- C11, time system (counting up or down). -/
theorem TimeSystem.C11_time_scaling (s : TimeSystem) (c : ℝ) (hc : 0 < c) :
    (setTau (c * s.tau) s).1 = .ok () ∧
    SlowedDown c (fun ts => .ok (s.analytical ts))
      (fun ts => .ok ((setTau (c * s.tau) s).2.analytical ts)) := by
  refine ⟨rfl, slowedDown_of_rows (x := s.xAt) (xd := s.xdAt)
    (x' := (setTau (c * s.tau) s).2.xAt) (xd' := (setTau (c * s.tau) s).2.xdAt)
    (fun _ => rfl) (fun _ => rfl) (fun t => ?_) (fun t => ?_)⟩
  · simp only [xAt, setTau, inherit, Base.setTau, PyM.modify_apply, mul_div_mul_left _ _ hc.ne']
  · simp only [xdAt, setTau, inherit, Base.setTau, PyM.modify_apply, mul_div_mul_left _ _ hc.ne']
    have e1 : -1 / (c * s.tau) = -1 / s.tau / c := by rw [mul_comm, div_div]
    have e2 : 1 / (c * s.tau) = 1 / s.tau / c := by rw [mul_comm, div_div]
    rw [e1, e2]
    split <;> split <;> simp

/-- C11, spring-damper system started at rest. -/
theorem SpringDamper.C11_time_scaling (s : SpringDamper) (c : ℝ) (hc : 0 < c)
    (hrest : ∀ i < s.dimY, s.xInit.getD (s.dimY + i) 0 = 0) :
    (setTau (c * s.tau) s).1 = .ok () ∧
    SlowedDown c (fun ts => .ok (s.analytical ts))
      (fun ts => .ok ((setTau (c * s.tau) s).2.analytical ts)) := by
  set s' := (setTau (c * s.tau) s).2 with hs'
  have hw : ∀ i, s'.omega0 i = s.omega0 i / c := by
    intro i
    simp only [hs', omega0, setTau, inherit, Base.setTau, PyM.modify_apply]
    rw [mul_comm, div_mul_eq_div_div]
  have hA : ∀ i, s'.coefA i = s.coefA i := fun i => rfl
  have hB : ∀ i < s.dimY, s'.coefB i = s.coefB i / c := by
    intro i hi
    simp only [coefB, hw, hA]
    rw [show s'.xInit.getD (s'.dimY + i) 0 = 0 from hrest i hi, hrest i hi]
    ring
  have hw' : ∀ i t, s.omega0 i / c * (c * t) = s.omega0 i * t := by
    intro i t; field_simp
  have hB' : ∀ i t, s.coefB i / c * (c * t) = s.coefB i * t := by
    intro i t; field_simp
  have hdim : s'.dimY = s.dimY := rfl
  have htau : s'.tau = c * s.tau := rfl
  have ey : ∀ i < s.dimY, ∀ t, s'.yComp (c * t) i = s.yComp t i := by
    intro i hi t
    simp only [yComp, hw, hA, hB i hi, neg_mul, hw', hB']
    rfl
  have eyd : ∀ i < s.dimY, ∀ t, s'.ydComp (c * t) i = s.ydComp t i / c := by
    intro i hi t
    simp only [ydComp, hw, hA, hB i hi, neg_mul, hw', hB']
    ring
  have eydd : ∀ i < s.dimY, ∀ t, s'.yddComp (c * t) i = s.yddComp t i / c / c := by
    intro i hi t
    simp only [yddComp, hw, hA, hB i hi, neg_mul, hw', hB']
    ring
  refine ⟨rfl, slowedDown_of_rows (x := s.xAt) (xd := s.xdAt) (x' := s'.xAt) (xd' := s'.xdAt)
    (fun _ => rfl) (fun _ => rfl) (fun t => ?_) (fun t => ?_)⟩
  · simp only [xAt, hdim]
    congr 1
    · exact List.map_congr_left fun i hi => ey i (List.mem_range.mp hi) t
    · refine List.map_congr_left fun i hi => ?_
      rw [eyd i (List.mem_range.mp hi) t, htau]
      field_simp
  · simp only [xdAt, hdim, List.map_append, List.map_map]
    congr 1
    · exact List.map_congr_left fun i hi => eyd i (List.mem_range.mp hi) t
    · refine List.map_congr_left fun i hi => ?_
      rw [eydd i (List.mem_range.mp hi) t, htau]
      simp only [Function.comp]
      field_simp

/-- C11, Richards system (left asymptote computed or given). -/
theorem Richards.C11_time_scaling (s : Richards) (c : ℝ) (hc : 0 < c) :
    (setTau (c * s.tau) s).1 = .ok () ∧
    SlowedDown c (fun ts => (analytical ts s).1)
      (fun ts => (analytical ts (setTau (c * s.tau) s).2).1) := by
  set s' := (setTau (c * s.tau) s).2 with hs'
  have hv : s'.clipped.v = s.clipped.v := rfl
  have hleft : s'.left = s.left := by
    unfold left
    have h1 : s'.leftAsymp = s.leftAsymp := rfl
    rw [h1]
    cases s.leftAsymp with
    | some a => rfl
    | none =>
      simp only
      congr 1
      refine List.map_congr_left fun i _ => ?_
      simp only [leftComp, hv, clipped_alpha, clipped_tau, clipped_tInflRatio, clipped_xInit,
        clipped_rightAsymp]
      have e : max (s'.tau * s'.tInflRatio.at' i) 0 = c * max (s.tau * s.tInflRatio.at' i) 0 := by
        rw [mul_max_of_nonneg _ _ hc.le, mul_zero]
        show max (c * s.tau * s.tInflRatio.at' i) 0 = _
        rw [mul_assoc]
      rw [e, show s'.tau = c * s.tau from rfl, scale_div hc]
      rfl
  refine ⟨rfl, slowedDown_of_rows (x := s.xAt) (xd := s.xdAt) (x' := s'.xAt) (xd' := s'.xdAt)
    (fun _ => by simp only [analytical_run]; rfl) (fun _ => by simp only [analytical_run]; rfl)
    (fun t => ?_) (fun t => ?_)⟩
  · refine List.map_congr_left fun i _ => ?_
    simp only [xComp, hv, hleft, clipped_alpha, clipped_tau]
    rw [show s'.tau = c * s.tau from rfl, scale_div hc]
    rfl
  · simp only [xdAt, List.map_map]
    refine List.map_congr_left fun i _ => ?_
    simp only [xdComp, hv, hleft, clipped_alpha, clipped_tau, Function.comp]
    rw [show s'.tau = c * s.tau from rfl, scale_div hc, div_div, mul_comm s.tau c]
    rfl

namespace Sigmoid

/-- C11 for the sigmoid system, as claimed. -/
def C11_statement : Prop := ∀ (s : Sigmoid) (c : ℝ), Reachable s →
  (∀ i < s.dimX, 0 < s.xInit.getD i 0) → 0 < c →
    SlowedDown c (fun ts => (analytical ts s).1)
      (fun ts => (analytical ts (setTau (c * s.tau) s).2).1)

/-- C11 fails for the sigmoid system: the tau setter does not rescale `max_rate`. -/
theorem C11_refuted : ¬ C11_statement := by
  intro h
  have hr : Reachable (init 1 [1] (.scalar 1) (.scalar 0)) :=
    ⟨1, [1], .scalar 1, .scalar 0, [], trivial, trivial, rfl⟩
  obtain ⟨xs, xds, h1, h2⟩ := h _ 2 hr (by
    intro i hi
    have : i = 0 := by have : i < 1 := hi; omega
    subst this; norm_num [init]) (by norm_num) [1]
  simp only [setTau, PyM.modify_apply] at h2
  dsimp only at h1
  rw [analytical_run (.inl rfl)] at h1 h2
  simp only [Except.ok.injEq, Prod.mk.injEq] at h1 h2
  have h3 := h1.1.trans h2.1.symm
  simp [init, xComp, ksNow, kComp] at h3
  have e : Real.exp (-1) = Real.exp (-2) := by
    have p1 := Real.exp_pos (-1)
    have p2 := Real.exp_pos (-2)
    rw [div_eq_div_iff (by positivity) (by positivity)] at h3
    linarith
  have := Real.exp_injective e
  norm_num at this

/-- C11 for gating systems: what holds of the sigmoid system is that `for_gating` for `c*tau` is
the system for `tau` slowed down by `c` (but not that setting tau of the latter achieves this). -/
theorem C11_for_gating_partial (tau ratio c : ℝ) (n : Nat) (hc : 0 < c) :
    SlowedDown c (fun ts => (analytical ts (forGating tau ratio n)).1)
      (fun ts => (analytical ts (forGating (c * tau) ratio n)).1) := by
  set s := forGating tau ratio n with hs
  set s' := forGating (c * tau) ratio n with hs'
  have hr : ∀ i, s'.maxRate.at' i = s.maxRate.at' i / c := by
    intro i
    simp only [hs, hs', forGating, init, Par.at'_scalar]
    rw [mul_comm c tau, div_mul_eq_div_div]
  have hi : ∀ i, c * tau * s'.inflRatio.at' i = c * (tau * s.inflRatio.at' i) := by
    intro i
    simp only [hs, hs', forGating, init, Par.at'_scalar]
    rw [mul_assoc]
    congr 2
    generalize -Real.log ((((1 + gatingD) / ratio) - 1) / gatingD) = A
    generalize -Real.log (1 / gatingD) = B
    by_cases htau : tau = 0
    · simp [htau]
    · by_cases hA : A = 0
      · simp [hA]
      · field_simp
  have hks : s'.ksNow = s.ksNow := by
    refine List.map_congr_left fun i _ => ?_
    simp only [kComp]
    rw [show s'.tau = c * tau from rfl, hi, hr, show s.tau = tau from rfl]
    have : -(s.maxRate.at' i / c) * (c * (tau * s.inflRatio.at' i)) =
        -s.maxRate.at' i * (tau * s.inflRatio.at' i) := by field_simp
    rw [this]
    rfl
  have he : ∀ i t, -(s.maxRate.at' i / c) * (c * t) = -s.maxRate.at' i * t := by
    intro i t; field_simp
  refine slowedDown_of_rows (x := s.xAt) (xd := s.xdAt) (x' := s'.xAt) (xd' := s'.xdAt)
    (fun _ => by rw [analytical_run (.inl rfl)]; rfl)
    (fun _ => by rw [analytical_run (.inl rfl)]; rfl) (fun t => ?_) (fun t => ?_)
  · refine List.map_congr_left fun i _ => ?_
    simp only [xComp, hr, hks, he]
    rfl
  · simp only [xdAt, List.map_map]
    refine List.map_congr_left fun i _ => ?_
    simp only [xdComp, hr, hks, he, Function.comp]
    rw [show s'.xInit = s.xInit from rfl]
    ring

end Sigmoid

/-- A spring-damper system started at rest, as produced by the constructor. -/
example : ∀ i < (SpringDamper.init 2 [1, 5] [0, 3] (.scalar 20)).dimY,
    (SpringDamper.init 2 [1, 5] [0, 3] (.scalar 20)).xInit.getD
      ((SpringDamper.init 2 [1, 5] [0, 3] (.scalar 20)).dimY + i) 0 = 0 := by
  intro i hi
  have : i < 2 := hi
  have : i = 0 ∨ i = 1 := by omega
  rcases this with rfl | rfl <;> rfl

end Verif
