import Verif.Model.Exponential
import Verif.Spec.Calculus
import Verif.Proofs.Vec
import Mathlib.Analysis.SpecialFunctions.ExpDeriv
import Mathlib.Analysis.Calculus.MeanValue

/- C01, C02: the exponential system. -/

set_option autoImplicit false

namespace Verif

open Spec Filter

namespace Exponential

theorem diffEq_length {s : Exponential} (h : s.Wf) {x : List ℝ} (hx : x.length = s.dimY) :
    (s.diffEq x).length = s.dimY := by
  have hl : (vsub s.xAttr x).length = s.dimY := by simp [h.xAttr, hx]
  rw [diffEq, length_vdivs, Par.length_mul (by rw [hl]; exact h.alpha), hl]

theorem diffEq_getD {s : Exponential} (h : s.Wf) {x : List ℝ} (hx : x.length = s.dimY)
    {i : Nat} (hi : i < s.dimY) :
    (s.diffEq x).getD i 0 = s.alpha.at' i * (s.xAttr.getD i 0 - x.getD i 0) / s.tau := by
  have hl : (vsub s.xAttr x).length = s.dimY := by simp [h.xAttr, hx]
  rw [diffEq, getD_vdivs, Par.getD_mul (by rw [hl]; exact h.alpha) (by omega),
    getD_vsub (by rw [h.xAttr]; exact hi) (by omega)]

@[simp] theorem length_xAt (s : Exponential) (t : ℝ) : (s.xAt t).length = s.dimY := by simp [xAt]
@[simp] theorem length_xdAt (s : Exponential) (t : ℝ) : (s.xdAt t).length = s.dimY := by
  simp [xdAt]
theorem getD_xAt (s : Exponential) (t : ℝ) {i : Nat} (hi : i < s.dimY) :
    (s.xAt t).getD i 0 = s.xComp t i := by simp only [xAt]; exact getD_range_map hi 0
theorem getD_xdAt (s : Exponential) (t : ℝ) {i : Nat} (hi : i < s.dimY) :
    (s.xdAt t).getD i 0 = s.xdComp t i := by simp only [xdAt]; exact getD_range_map hi 0

theorem solves (s : Exponential) (h : s.Wf) : Solves s.diffEq s.xInit s.xAt s.xdAt where
  start := by
    apply ext_getD 0 (by simp [h.xInit])
    intro i hi
    simp only [length_xAt] at hi
    rw [getD_xAt s 0 hi]
    simp [xComp]
  deriv := by
    intro t _
    refine ⟨fun u => by simp, fun i hi => ?_⟩
    simp only [length_xdAt] at hi
    rw [getD_xdAt s t hi]
    have : (fun u => (s.xAt u).getD i 0) = fun u => s.xComp u i := by
      funext u; exact getD_xAt s u hi
    rw [this]
    unfold xComp xdComp
    have h1 : HasDerivAt (fun u : ℝ => -s.alpha.at' i * u / s.tau) (-s.alpha.at' i / s.tau) t := by
      simpa using ((hasDerivAt_id t).const_mul (-s.alpha.at' i)).div_const s.tau
    have h2 := ((h1.exp).const_mul (s.xInit.getD i 0 - s.xAttr.getD i 0)).add_const
      (s.xAttr.getD i 0)
    exact h2.congr_deriv (by ring)
  ode := by
    intro t _
    apply ext_getD 0 (by rw [diffEq_length h (by simp)]; simp)
    intro i hi
    simp only [length_xdAt] at hi
    rw [getD_xdAt s t hi, diffEq_getD h (by simp) hi, getD_xAt s t hi]
    unfold xComp xdComp
    ring

theorem unique (s : Exponential) (h : s.Wf) (y : ℝ → List ℝ) (hy0 : y 0 = s.xInit)
    (hy : ∀ t, HasVecDeriv y (s.diffEq (y t)) t) (t : ℝ) : y t = s.xAt t := by
  have hlen : ∀ u, (y u).length = s.dimY := by
    intro u
    have h0 := (hy u).1 0
    have hu := (hy u).1 u
    rw [hu, ← h0, hy0, h.xInit]
  apply ext_getD 0 (by simp [hlen])
  intro i hi
  rw [hlen] at hi
  rw [getD_xAt s t hi]
  set c := s.alpha.at' i / s.tau with hc
  have hd : ∀ u, HasDerivAt
      (fun u => ((y u).getD i 0 - s.xAttr.getD i 0) * Real.exp (c * u)) 0 u := by
    intro u
    have h1 := (hy u).2 i (by rw [diffEq_length h (hlen u)]; exact hi)
    rw [diffEq_getD h (hlen u) hi] at h1
    have h2 : HasDerivAt (fun u : ℝ => c * u) c u := by
      simpa using (hasDerivAt_id u).const_mul c
    have h3 := (h1.sub_const (s.xAttr.getD i 0)).mul h2.exp
    exact h3.congr_deriv (by rw [hc]; ring)
  have hconst := is_const_of_deriv_eq_zero (fun u => (hd u).differentiableAt)
    (fun u => (hd u).deriv) t 0
  simp only [mul_zero, Real.exp_zero, mul_one, hy0] at hconst
  have hexp : Real.exp (c * t) * Real.exp (-s.alpha.at' i * t / s.tau) = 1 := by
    rw [← Real.exp_add, hc]
    rw [show s.alpha.at' i / s.tau * t + -s.alpha.at' i * t / s.tau = 0 by ring, Real.exp_zero]
  unfold xComp
  simp only
  rw [← hconst]
  rw [mul_assoc, hexp]
  ring

/-- C01: the result of `analytical_solution` is, at all times, the motion of the system from its
initial state, and its second part is the rate of change of the first. -/
theorem C01_analytical_is_motion (s : Exponential) (h : s.Wf) (_hτ : s.tau ≠ 0) :
    ∃ x xd : ℝ → List ℝ, (∀ ts, s.analytical ts = (ts.map x, ts.map xd)) ∧
      Solves s.diffEq s.xInit x xd :=
  ⟨s.xAt, s.xdAt, fun _ => rfl, s.solves h⟩

/-- C01: no other motion obeys the differential equation from the same initial state. -/
theorem C01_motion_unique (s : Exponential) (h : s.Wf) (_hτ : s.tau ≠ 0)
    (y : ℝ → List ℝ) (hy0 : y 0 = s.xInit) (hy : ∀ t, HasVecDeriv y (s.diffEq (y t)) t)
    (ts : List ℝ) : (s.analytical ts).1 = ts.map y := by
  simp only [analytical]
  exact List.map_congr_left fun t _ => (s.unique h y hy0 hy t).symm

/-- C01: in components, the differential equation is `x_i' = alpha_i (attr_i - x_i) / tau`. -/
theorem C01_diffEq_components (s : Exponential) (h : s.Wf) (x : List ℝ) (hx : x.length = s.dimY) :
    (s.diffEq x).length = s.dimY ∧ ∀ i < s.dimY, (s.diffEq x).getD i 0 =
      s.alpha.at' i * (s.xAttr.getD i 0 - x.getD i 0) / s.tau :=
  ⟨diffEq_length h hx, fun _ hi => diffEq_getD h hx hi⟩

/-- A two-dimensional system with one decay constant per dimension. -/
example : (init 2 [1, 5] [0, 3] (.array [4, -1])).Wf ∧
    (init 2 [1, 5] [0, 3] (.array [4, -1])).tau ≠ 0 :=
  ⟨⟨rfl, rfl, rfl, rfl⟩, by simp [init]⟩

/-- ... and a motion for it that satisfies the hypotheses of `C01_motion_unique`. -/
example : ∃ y : ℝ → List ℝ, y 0 = (init 2 [1, 5] [0, 3] (.array [4, -1])).xInit ∧
    ∀ t, HasVecDeriv y ((init 2 [1, 5] [0, 3] (.array [4, -1])).diffEq (y t)) t := by
  have h : (init 2 [1, 5] [0, 3] (.array [4, -1])).Wf := ⟨rfl, rfl, rfl, rfl⟩
  have hs := solves _ h
  refine ⟨_, hs.start, fun t => ?_⟩
  rw [← hs.ode t trivial]
  exact hs.deriv t trivial

/-- C02: the distance to the attractor shrinks by the factor `exp(-(alpha/tau) t)`, without
change of sign. -/
theorem C02_distance (s : Exponential) (i : Nat) (hi : i < s.dimY) (t : ℝ) :
    (s.xAt t).getD i 0 - s.xAttr.getD i 0 =
      (s.xInit.getD i 0 - s.xAttr.getD i 0) * Real.exp (-(s.alpha.at' i / s.tau) * t) := by
  rw [getD_xAt s t hi]
  unfold xComp
  simp only [add_sub_cancel_right]
  congr 2
  ring

/-- C02: monotone approach: later states lie between earlier states and the attractor; so there
is no overshoot. -/
theorem C02_monotone_approach (s : Exponential) (i : Nat) (hi : i < s.dimY)
    (hα : 0 < s.alpha.at' i / s.tau) (t₁ t₂ : ℝ) (_h0 : 0 ≤ t₁) (h12 : t₁ ≤ t₂) :
    (s.xAt t₂).getD i 0 ∈ Set.uIcc ((s.xAt t₁).getD i 0) (s.xAttr.getD i 0) := by
  have e1 := C02_distance s i hi t₁
  have e2 := C02_distance s i hi t₂
  have hle : Real.exp (-(s.alpha.at' i / s.tau) * t₂) ≤ Real.exp (-(s.alpha.at' i / s.tau) * t₁) := by
    apply Real.exp_le_exp.mpr
    nlinarith
  have p1 := Real.exp_pos (-(s.alpha.at' i / s.tau) * t₁)
  have p2 := Real.exp_pos (-(s.alpha.at' i / s.tau) * t₂)
  set a := s.xInit.getD i 0 - s.xAttr.getD i 0
  rw [Set.mem_uIcc]
  rcases le_total 0 a with ha | ha
  · right
    constructor
    · nlinarith [mul_nonneg ha p2.le]
    · nlinarith
  · left
    constructor
    · nlinarith
    · nlinarith [mul_nonneg (neg_nonneg.mpr ha) p2.le]

/-- C02: strict approach, and the attractor is never crossed or reached: the distance keeps its
sign and strictly decreases unless it is zero from the start. -/
theorem C02_strict_approach (s : Exponential) (i : Nat) (hi : i < s.dimY)
    (hα : 0 < s.alpha.at' i / s.tau) (hne : s.xInit.getD i 0 ≠ s.xAttr.getD i 0)
    (t₁ t₂ : ℝ) (h12 : t₁ < t₂) :
    |(s.xAt t₂).getD i 0 - s.xAttr.getD i 0| < |(s.xAt t₁).getD i 0 - s.xAttr.getD i 0| ∧
    0 < ((s.xAt t₂).getD i 0 - s.xAttr.getD i 0) * (s.xInit.getD i 0 - s.xAttr.getD i 0) := by
  rw [C02_distance s i hi t₁, C02_distance s i hi t₂]
  have hlt : Real.exp (-(s.alpha.at' i / s.tau) * t₂) < Real.exp (-(s.alpha.at' i / s.tau) * t₁) := by
    apply Real.exp_lt_exp.mpr
    nlinarith
  have ha : s.xInit.getD i 0 - s.xAttr.getD i 0 ≠ 0 := sub_ne_zero.mpr hne
  constructor
  · rw [abs_mul, abs_mul, Real.abs_exp, Real.abs_exp]
    exact mul_lt_mul_of_pos_left hlt (abs_pos.mpr ha)
  · have := mul_pos (mul_self_pos.mpr ha) (Real.exp_pos (-(s.alpha.at' i / s.tau) * t₂))
    nlinarith

/-- C02: convergence to the attractor. -/
theorem C02_converges (s : Exponential) (i : Nat) (hi : i < s.dimY)
    (hα : 0 < s.alpha.at' i / s.tau) :
    Tendsto (fun t => (s.xAt t).getD i 0) atTop (nhds (s.xAttr.getD i 0)) := by
  have h1 : Tendsto (fun t : ℝ => Real.exp (-(s.alpha.at' i / s.tau) * t)) atTop (nhds 0) := by
    apply Real.tendsto_exp_atBot.comp
    exact tendsto_id.const_mul_atTop_of_neg (by linarith)
  have h2 := (h1.const_mul (s.xInit.getD i 0 - s.xAttr.getD i 0)).add_const (s.xAttr.getD i 0)
  simp only [mul_zero, zero_add] at h2
  refine h2.congr fun t => ?_
  rw [← C02_distance s i hi t]; ring

/-- The hypotheses of the C02 theorems, met by the second dimension of a system with
decay constants 4 and 1 and tau = 2. -/
example : 1 < (init 2 [1, 5] [0, 3] (.array [4, 1])).dimY ∧
    0 < (init 2 [1, 5] [0, 3] (.array [4, 1])).alpha.at' 1 /
      (init 2 [1, 5] [0, 3] (.array [4, 1])).tau ∧
    (init 2 [1, 5] [0, 3] (.array [4, 1])).xInit.getD 1 0 ≠
      (init 2 [1, 5] [0, 3] (.array [4, 1])).xAttr.getD 1 0 := by
  refine ⟨by simp [init], ?_, ?_⟩ <;> norm_num [init]

end Exponential

end Verif
