import Verif.Model.Richards
import Verif.Spec.Calculus
import Verif.Proofs.Integration
import Mathlib.Analysis.SpecialFunctions.Pow.Deriv
import Mathlib.Analysis.SpecialFunctions.Pow.Continuity
import Mathlib.Analysis.SpecialFunctions.ExpDeriv

/- C10: the Richards system (generalised sigmoid). -/

set_option autoImplicit false

namespace Verif

open Spec Filter

namespace Richards

/-! ### One dimension -/

section Scalar

variable {a k x0 v al tau q : ℝ}

/-- `1 + q * exp(-alpha v t / tau)`. -/
noncomputable def den (al v tau q t : ℝ) : ℝ := 1 + q * Real.exp (-al * v * t / tau)

theorem den_deriv (t : ℝ) : HasDerivAt (den al v tau q)
    (-(al * v / tau) * (q * Real.exp (-al * v * t / tau))) t := by
  have h1 : HasDerivAt (fun u : ℝ => -al * v * u / tau) (-(al * v / tau)) t :=
    (((hasDerivAt_id t).const_mul (-al * v)).div_const tau).congr_deriv (by simp; ring)
  exact ((h1.exp.const_mul q).const_add 1).congr_deriv (by ring)

/-- the position formula of the code -/
noncomputable def pos1 (a k al v tau q t : ℝ) : ℝ := (k - a) / (den al v tau q t) ^ (1 / v) + a

/-- the velocity formula of the code -/
noncomputable def vel1 (a k al v tau q t : ℝ) : ℝ :=
  (q * al * (k - a)) * (Real.exp (-al * v * t / tau) / (den al v tau q t) ^ (1 + 1 / v)) / tau

/-- derivative of the velocity -/
noncomputable def acc1 (a k al v tau q t : ℝ) : ℝ :=
  q * al * (k - a) / tau * (-(al * v / tau)) * Real.exp (-al * v * t / tau) *
    (1 - q * Real.exp (-al * v * t / tau) / v) / (den al v tau q t) ^ (2 + 1 / v)

theorem pos1_deriv (hv : 0 < v) {t : ℝ} (hd : 0 < den al v tau q t) :
    HasDerivAt (pos1 a k al v tau q) (vel1 a k al v tau q t) t := by
  have h1 := (den_deriv (al := al) (v := v) (tau := tau) (q := q) t).rpow_const (p := -(1 / v))
    (.inl hd.ne')
  have h2 := (h1.const_mul (k - a)).add_const a
  have h3 : (fun u => (k - a) * den al v tau q u ^ (-(1 / v)) + a) =ᶠ[nhds t]
      pos1 a k al v tau q := by
    have : ∀ᶠ u in nhds t, 0 < den al v tau q u :=
      (den_deriv t).continuousAt.eventually (lt_mem_nhds hd)
    filter_upwards [this] with u hu
    show (k - a) * den al v tau q u ^ (-(1 / v)) + a = (k - a) / den al v tau q u ^ (1 / v) + a
    rw [Real.rpow_neg hu.le, ← div_eq_mul_inv]
  refine (h2.congr_of_eventuallyEq h3.symm).congr_deriv ?_
  unfold vel1
  rw [show -(1 / v) - 1 = -(1 + 1 / v) by ring, Real.rpow_neg hd.le]
  field_simp

theorem vel1_deriv (hv : 0 < v) {t : ℝ} (hd : 0 < den al v tau q t) :
    HasDerivAt (vel1 a k al v tau q) (acc1 a k al v tau q t) t := by
  have he : HasDerivAt (fun u : ℝ => Real.exp (-al * v * u / tau))
      (-(al * v / tau) * Real.exp (-al * v * t / tau)) t := by
    have h1 : HasDerivAt (fun u : ℝ => -al * v * u / tau) (-(al * v / tau)) t :=
      (((hasDerivAt_id t).const_mul (-al * v)).div_const tau).congr_deriv (by simp; ring)
    exact h1.exp.congr_deriv (by ring)
  have h1 := (den_deriv (al := al) (v := v) (tau := tau) (q := q) t).rpow_const
    (p := -(1 + 1 / v)) (.inl hd.ne')
  have h2 := ((he.mul h1).const_mul (q * al * (k - a) / tau))
  have h3 : (fun u => q * al * (k - a) / tau * (Real.exp (-al * v * u / tau) *
      den al v tau q u ^ (-(1 + 1 / v)))) =ᶠ[nhds t] vel1 a k al v tau q := by
    have : ∀ᶠ u in nhds t, 0 < den al v tau q u :=
      (den_deriv t).continuousAt.eventually (lt_mem_nhds hd)
    filter_upwards [this] with u hu
    show _ = (q * al * (k - a)) * (Real.exp (-al * v * u / tau) / (den al v tau q u) ^ (1 + 1 / v))
      / tau
    rw [Real.rpow_neg hu.le, div_eq_mul_inv (Real.exp _)]
    generalize (den al v tau q u ^ (1 + 1 / v))⁻¹ = P
    ring
  refine (h2.congr_of_eventuallyEq h3.symm).congr_deriv ?_
  unfold acc1
  have e1 : den al v tau q t ^ (-(1 + 1 / v)) =
      den al v tau q t * (den al v tau q t ^ (2 + 1 / v))⁻¹ := by
    rw [← Real.rpow_neg hd.le]
    nth_rw 2 [← Real.rpow_one (den al v tau q t)]
    rw [← Real.rpow_add hd]; congr 1; ring
  rw [show -(1 + 1 / v) - 1 = -(2 + 1 / v) by ring, e1, Real.rpow_neg hd.le]
  have hden : den al v tau q t = 1 + q * Real.exp (-al * v * t / tau) := rfl
  rw [div_eq_mul_inv _ (den al v tau q t ^ (2 + 1 / v))]
  generalize (den al v tau q t ^ (2 + 1 / v))⁻¹ = P at *
  rw [hden]
  generalize Real.exp (-al * v * t / tau) = E at *
  field_simp
  ring

theorem vel1_ode (hv : 0 < v) (hk : k - a ≠ 0) {t : ℝ} (hd : 0 < den al v tau q t) :
    vel1 a k al v tau q t = al * (1 - ((pos1 a k al v tau q t - a) / (k - a)) ^ v) *
      (pos1 a k al v tau q t - a) / tau := by
  have e0 : pos1 a k al v tau q t - a = (k - a) / (den al v tau q t) ^ (1 / v) := by
    rw [pos1, add_sub_cancel_right]
  have e1 : (pos1 a k al v tau q t - a) / (k - a) = (den al v tau q t ^ (1 / v))⁻¹ := by
    rw [e0]; field_simp
  have e2 : ((pos1 a k al v tau q t - a) / (k - a)) ^ v = (den al v tau q t)⁻¹ := by
    rw [e1, ← Real.rpow_neg hd.le, ← Real.rpow_mul hd.le,
      show -(1 / v) * v = -1 by field_simp, Real.rpow_neg_one]
  rw [e2, e0]
  unfold vel1
  rw [Real.rpow_add hd, Real.rpow_one]
  have hp : 0 < den al v tau q t ^ (1 / v) := Real.rpow_pos_of_pos hd _
  have hden : den al v tau q t = 1 + q * Real.exp (-al * v * t / tau) := rfl
  generalize den al v tau q t ^ (1 / v) = P at *
  have h1 : 1 - (den al v tau q t)⁻¹ =
      q * Real.exp (-al * v * t / tau) / den al v tau q t := by
    field_simp; rw [hden]; ring_nf
  rw [h1]
  field_simp

theorem pos1_tendsto (hv : 0 < v) (hal : 0 < al) (hτ : 0 < tau) :
    Tendsto (pos1 a k al v tau q) atTop (nhds k) := by
  have h1 : Tendsto (den al v tau q) atTop (nhds 1) := by
    have h2 : Tendsto (fun t : ℝ => Real.exp (-al * v * t / tau)) atTop (nhds 0) := by
      apply Real.tendsto_exp_atBot.comp
      have h3 : Tendsto (fun t : ℝ => (al * v / tau) * t) atTop atTop :=
        tendsto_id.const_mul_atTop (by positivity)
      exact (tendsto_neg_atTop_atBot.comp h3).congr fun t => by
        simp only [Function.comp]; ring
    have := (h2.const_mul q).const_add 1
    rw [mul_zero, add_zero] at this
    exact this
  have h2 : Tendsto (fun t => den al v tau q t ^ (1 / v)) atTop (nhds 1) := by
    have := h1.rpow_const (p := 1 / v) (.inl one_ne_zero)
    rwa [Real.one_rpow] at this
  have h3 := ((tendsto_const_nhds (x := k - a)).div h2 one_ne_zero).add_const a
  rw [div_one, sub_add_cancel] at h3
  exact h3

/-- Algebra of the left asymptote computed by the code. -/
theorem left_algebra {z : ℝ} (hz : 1 < z) (hx : x0 ≠ k) (ha : a = (z * x0 - k) / (z - 1)) :
    (k - a) / (x0 - a) = z ∧ k - a ≠ 0 := by
  have hz1 : z - 1 ≠ 0 := by linarith
  have h1 : k - a = z * (k - x0) / (z - 1) := by rw [ha]; field_simp; ring
  have h2 : x0 - a = (k - x0) / (z - 1) := by rw [ha]; field_simp; ring
  have h3 : k - x0 ≠ 0 := sub_ne_zero.mpr hx.symm
  constructor
  · rw [h1, h2]; field_simp
  · rw [h1]
    exact div_ne_zero (mul_ne_zero (by linarith) h3) hz1

end Scalar

/-! ### The object -/

/-- `clipMin` on entries. -/
theorem at'_clipMin (lo : ℝ) (p : Par ℝ) {n i : Nat} (hf : p.Fits n) (hi : i < n) :
    (clipMin lo p).at' i = max (p.at' i) lo := by
  cases p with
  | scalar c => rfl
  | array l =>
    have hl : l.length = n := hf
    simp only [clipMin, Par.at']
    rw [getD_map' (by omega) 0 0]

theorem fits_clipMin (lo : ℝ) {p : Par ℝ} {n : Nat} (hf : p.Fits n) : (clipMin lo p).Fits n := by
  cases p with
  | scalar c => trivial
  | array l => simpa [clipMin, Par.Fits] using hf

theorem clipMin_idem (lo : ℝ) (p : Par ℝ) : clipMin lo (clipMin lo p) = clipMin lo p := by
  cases p <;> simp [clipMin, Function.comp_def]

/-- The object after a query (the shape parameter is clipped). -/
noncomputable def clipped (s : Richards) : Richards :=
  { s with v := match s.leftAsymp with
            | some _ => s.v
            | none => clipMin 0.5 s.v }

/-- The left asymptote used in queries. -/
noncomputable def left (s : Richards) : Par ℝ :=
  match s.leftAsymp with
  | some a => a
  | none => .array ((List.range s.xInit.length).map s.clipped.leftComp)

theorem getLeft_run (s : Richards) : getLeft s = (.ok s.left, s.clipped) := by
  unfold getLeft
  rw [PyM.self_bind]
  cases h : s.leftAsymp with
  | some a =>
    have hc : s.clipped = s := by simp only [clipped, h]; rw [← h]
    simp only [left, h, hc]; rfl
  | none =>
    have hc : s.clipped = { s with v := clipMin 0.5 s.v } := by simp only [clipped, h]
    have hl : s.left = .array ((List.range s.xInit.length).map s.clipped.leftComp) := by
      simp only [left, h]
    rw [hl, hc]
    rfl

theorem clipped_clipped (s : Richards) : s.clipped.clipped = s.clipped := by
  unfold clipped
  cases h : s.leftAsymp <;> simp [clipMin_idem]

theorem clipped_left (s : Richards) : s.clipped.left = s.left := by
  cases h : s.leftAsymp with
  | some a => simp [clipped, left, h]
  | none =>
    have h1 : s.clipped.leftAsymp = none := by simp [clipped, h]
    have h2 : s.clipped.xInit = s.xInit := by simp [clipped, h]
    simp only [left, h, h1, h2, clipped_clipped]

@[simp] theorem clipped_dimX (s : Richards) : s.clipped.dimX = s.dimX := rfl
@[simp] theorem clipped_xInit (s : Richards) : s.clipped.xInit = s.xInit := rfl
@[simp] theorem clipped_tau (s : Richards) : s.clipped.tau = s.tau := rfl
@[simp] theorem clipped_alpha (s : Richards) : s.clipped.alpha = s.alpha := rfl
@[simp] theorem clipped_rightAsymp (s : Richards) : s.clipped.rightAsymp = s.rightAsymp := rfl
@[simp] theorem clipped_tInflRatio (s : Richards) : s.clipped.tInflRatio = s.tInflRatio := rfl

theorem clipped_wf {s : Richards} (h : s.Wf) : s.clipped.Wf := by
  refine ⟨h.dim, h.xInit, h.alpha, ?_, h.rightAsymp, h.tInflRatio, h.leftAsymp⟩
  cases hl : s.leftAsymp with
  | some a => simpa only [clipped, hl] using h.v
  | none => simpa only [clipped, hl] using fits_clipMin _ h.v

theorem diffEq_run (s : Richards) (x : List ℝ) :
    diffEq x s = (.ok ((List.range x.length).map (s.clipped.rateComp s.left x)), s.clipped) := by
  unfold diffEq
  rw [PyM.bind_ok (getLeft_run s)]
  rfl

theorem analytical_run (s : Richards) (ts : List ℝ) :
    analytical ts s =
      (.ok (ts.map (fun t => (List.range s.dimX).map (s.clipped.xComp s.left t)),
        ts.map (fun t => (List.range s.dimX).map (s.clipped.xdComp s.left t))), s.clipped) := by
  unfold analytical
  rw [PyM.bind_ok (getLeft_run s)]
  rfl

/-- Row of `xs` at time `t`. -/
noncomputable def xAt (s : Richards) (t : ℝ) : List ℝ :=
  (List.range s.dimX).map (s.clipped.xComp s.left t)
/-- Row of `xds` at time `t`. -/
noncomputable def xdAt (s : Richards) (t : ℝ) : List ℝ :=
  (List.range s.dimX).map (s.clipped.xdComp s.left t)
/-- `differential_equation` as a function. -/
noncomputable def rhs (s : Richards) (x : List ℝ) : List ℝ :=
  (List.range x.length).map (s.clipped.rateComp s.left x)

theorem xAt_getD (s : Richards) {i : Nat} (hi : i < s.dimX) (t : ℝ) :
    (s.xAt t).getD i 0 = pos1 (s.left.at' i) (s.rightAsymp.at' i) (s.alpha.at' i)
      (s.clipped.v.at' i) s.tau (s.clipped.qComp s.left i) t := by
  rw [xAt, getD_range_map hi]
  simp [xComp, pos1, den]

theorem xdAt_getD (s : Richards) {i : Nat} (hi : i < s.dimX) (t : ℝ) :
    (s.xdAt t).getD i 0 = vel1 (s.left.at' i) (s.rightAsymp.at' i) (s.alpha.at' i)
      (s.clipped.v.at' i) s.tau (s.clipped.qComp s.left i) t := by
  rw [xdAt, getD_range_map hi]
  simp [xdComp, vel1, den]

theorem rhs_getD (s : Richards) {x : List ℝ} {i : Nat} (hi : i < x.length) :
    (s.rhs x).getD i 0 = s.alpha.at' i *
      (1 - ((x.getD i 0 - s.left.at' i) / (s.rightAsymp.at' i - s.left.at' i)) ^
        (s.clipped.v.at' i)) * (x.getD i 0 - s.left.at' i) / s.tau := by
  rw [rhs, getD_range_map hi]
  simp [rateComp]

/-- Conditions on the parameters under which the solution exists for times in `T`. -/
theorem solvesOn {s : Richards} (hw : s.Wf) {T : Set ℝ}
    (hv : ∀ i < s.dimX, 0 < s.clipped.v.at' i)
    (hk : ∀ i < s.dimX, 0 < (s.rightAsymp.at' i - s.left.at' i) /
      (s.xInit.getD i 0 - s.left.at' i))
    (hd : ∀ i < s.dimX, ∀ t ∈ T, 0 < den (s.alpha.at' i) (s.clipped.v.at' i) s.tau
      (s.clipped.qComp s.left i) t) :
    SolvesOn T s.rhs s.xInit s.xAt s.xdAt where
  start := by
    apply ext_getD 0 (by simp [xAt, hw.xInit])
    intro i hi
    have hi : i < s.dimX := by simpa [xAt] using hi
    rw [xAt_getD s hi]
    have h1 := hk i hi
    have h2 := hv i hi
    have h3 : s.rightAsymp.at' i - s.left.at' i ≠ 0 := by
      intro h; rw [h, zero_div] at h1; exact lt_irrefl _ h1
    have h4 : s.xInit.getD i 0 - s.left.at' i ≠ 0 := by
      intro h; rw [h, div_zero] at h1; exact lt_irrefl _ h1
    have hden : den (s.alpha.at' i) (s.clipped.v.at' i) s.tau (s.clipped.qComp s.left i) 0 =
        ((s.rightAsymp.at' i - s.left.at' i) /
          (s.xInit.getD i 0 - s.left.at' i)) ^ s.clipped.v.at' i := by
      simp [den, qComp]
    rw [pos1, hden, ← Real.rpow_mul h1.le, mul_one_div_cancel h2.ne', Real.rpow_one]
    field_simp
    ring
  deriv := by
    intro t ht
    refine ⟨fun u => by simp [xAt, xdAt], fun i hi => ?_⟩
    have hi : i < s.dimX := by simpa [xdAt] using hi
    rw [xdAt_getD s hi]
    have : (fun u => (s.xAt u).getD i 0) = _ := funext fun u => xAt_getD s hi u
    rw [this]
    exact pos1_deriv (hv i hi) (hd i hi t ht)
  ode := by
    intro t ht
    have hl : (s.xAt t).length = s.dimX := by simp [xAt]
    apply ext_getD 0 (by simp [xdAt, rhs, hl])
    intro i hi
    have hi : i < s.dimX := by simpa [xdAt] using hi
    have h3 : s.rightAsymp.at' i - s.left.at' i ≠ 0 := by
      intro h; have := hk i hi; rw [h, zero_div] at this; exact lt_irrefl _ this
    rw [xdAt_getD s hi, rhs_getD s (by omega), xAt_getD s hi]
    exact vel1_ode (hv i hi) h3 (hd i hi t ht)

/-- The parameters for which C10 is claimed, with the left asymptote left to the code. -/
structure Regular (s : Richards) : Prop where
  wf : s.Wf
  auto : s.leftAsymp = none
  tau : 0 < s.tau
  alpha : ∀ i < s.dimX, 0 < s.alpha.at' i
  infl : ∀ i < s.dimX, 0 ≤ s.tInflRatio.at' i
  moves : ∀ i < s.dimX, s.xInit.getD i 0 ≠ s.rightAsymp.at' i

theorem Regular.v {s : Richards} (h : Regular s) {i : Nat} (hi : i < s.dimX) :
    s.clipped.v.at' i = max (s.v.at' i) 0.5 := by
  rw [show s.clipped.v = clipMin 0.5 s.v by simp [clipped, h.auto]]
  exact at'_clipMin _ _ h.wf.v hi

theorem Regular.vpos {s : Richards} (h : Regular s) {i : Nat} (hi : i < s.dimX) :
    0 < s.clipped.v.at' i := by
  rw [h.v hi]
  exact lt_of_lt_of_le (by norm_num) (le_max_right _ _)

/-- `q * exp(-alpha v t/tau) = v * exp(alpha v (t_infl - t)/tau)`; also the ratio is positive. -/
theorem Regular.key {s : Richards} (h : Regular s) {i : Nat} (hi : i < s.dimX) :
    s.clipped.qComp s.left i = s.clipped.v.at' i *
      Real.exp (s.alpha.at' i * s.clipped.v.at' i * (s.tInflRatio.at' i * s.tau) / s.tau) ∧
    0 < (s.rightAsymp.at' i - s.left.at' i) / (s.xInit.getD i 0 - s.left.at' i) ∧
    s.rightAsymp.at' i - s.left.at' i ≠ 0 := by
  have hv := h.vpos hi
  have hleft : s.left.at' i = s.clipped.leftComp i := by
    simp only [left, h.auto, Par.at']
    exact getD_range_map (by rw [h.wf.xInit]; exact hi) 0
  have hT : max (s.tau * s.tInflRatio.at' i) 0 = s.tInflRatio.at' i * s.tau := by
    rw [max_eq_left (mul_nonneg h.tau.le (h.infl i hi)), mul_comm]
  set E := Real.exp (-(s.alpha.at' i) * s.clipped.v.at' i * (s.tInflRatio.at' i * s.tau) / s.tau)
    with hE
  have hEpos : 0 < E := Real.exp_pos _
  set z := (s.clipped.v.at' i / E + 1) ^ (1 / s.clipped.v.at' i) with hz
  have hbase : 1 < s.clipped.v.at' i / E + 1 := by
    have : 0 < s.clipped.v.at' i / E := div_pos hv hEpos
    linarith
  have hz1 : 1 < z := Real.one_lt_rpow hbase (by positivity)
  have ha : s.left.at' i = (z * s.xInit.getD i 0 - s.rightAsymp.at' i) / (z - 1) := by
    rw [hleft]
    simp only [leftComp, clipped_tau, clipped_tInflRatio, clipped_alpha, clipped_xInit,
      clipped_rightAsymp, hT]
    rfl
  obtain ⟨h1, h2⟩ := left_algebra hz1 (h.moves i hi) ha
  refine ⟨?_, by rw [h1]; linarith, h2⟩
  have hq : s.clipped.qComp s.left i = -1 + z ^ s.clipped.v.at' i := by
    simp only [qComp, clipped_rightAsymp, clipped_xInit, h1]
    rfl
  rw [hq, hz, ← Real.rpow_mul (by linarith), one_div_mul_cancel hv.ne', Real.rpow_one]
  have : Real.exp (s.alpha.at' i * s.clipped.v.at' i * (s.tInflRatio.at' i * s.tau) / s.tau) =
      E⁻¹ := by
    rw [hE, ← Real.exp_neg]; congr 1; ring
  rw [this]; ring

theorem Regular.den_pos {s : Richards} (h : Regular s) {i : Nat} (hi : i < s.dimX) (t : ℝ) :
    0 < den (s.alpha.at' i) (s.clipped.v.at' i) s.tau (s.clipped.qComp s.left i) t := by
  have hv := h.vpos hi
  rw [den, (h.key hi).1]
  positivity

/-- C10: for a Richards system whose left asymptote is computed by the code,
`differential_equation` answers as a function `F`, also after any number of earlier queries;
`F` is the generalised logistic law with the shape parameter restricted to at least 0.5;
`analytical_solution` is the motion of `F` from the initial state; it converges to the attractor;
its velocity is differentiable and the acceleration vanishes exactly at `t_infl_ratio * tau`. -/
theorem C10_analytical_is_motion {s : Richards} (h : Regular s) :
    ∃ (F : List ℝ → List ℝ) (x xd : ℝ → List ℝ) (a : Nat → ℝ) (acc : Nat → ℝ → ℝ),
      (∀ (before : List (List ℝ)) y,
        (diffEq y (before.foldl (fun s q => (diffEq q s).2) s)).1 = .ok (F y)) ∧
      (∀ (before : List (List ℝ)) ts,
        (analytical ts (before.foldl (fun s q => (analytical q s).2) s)).1 =
          .ok (ts.map x, ts.map xd)) ∧
      Solves F s.xInit x xd ∧
      (∀ y, y.length = s.dimX → ∀ i < s.dimX, (F y).getD i 0 = s.alpha.at' i *
        (1 - ((y.getD i 0 - a i) / (s.rightAsymp.at' i - a i)) ^ (max (s.v.at' i) 0.5)) *
          (y.getD i 0 - a i) / s.tau) ∧
      (∀ i < s.dimX, Tendsto (fun t => (x t).getD i 0) atTop (nhds (s.rightAsymp.at' i))) ∧
      (∀ i < s.dimX, ∀ t, HasDerivAt (fun u => (xd u).getD i 0) (acc i t) t ∧
        (acc i t = 0 ↔ t = s.tInflRatio.at' i * s.tau)) := by
  have hb1 : ∀ before : List (List ℝ),
      before.foldl (fun s q => (diffEq q s).2) s = s ∨
      before.foldl (fun s q => (diffEq q s).2) s = s.clipped := by
    intro before
    induction before using List.reverseRecOn with
    | nil => exact .inl rfl
    | append_singleton l q ih =>
      rw [List.foldl_append]
      simp only [List.foldl_cons, List.foldl_nil, diffEq_run] at ih ⊢
      rcases ih with ih | ih <;> rw [ih]
      · exact .inr rfl
      · exact .inr (clipped_clipped s)
  have hb2 : ∀ before : List (List ℝ),
      before.foldl (fun s q => (analytical q s).2) s = s ∨
      before.foldl (fun s q => (analytical q s).2) s = s.clipped := by
    intro before
    induction before using List.reverseRecOn with
    | nil => exact .inl rfl
    | append_singleton l q ih =>
      rw [List.foldl_append]
      simp only [List.foldl_cons, List.foldl_nil, analytical_run] at ih ⊢
      rcases ih with ih | ih <;> rw [ih]
      · exact .inr rfl
      · exact .inr (clipped_clipped s)
  refine ⟨s.rhs, s.xAt, s.xdAt, s.left.at', fun i t => acc1 (s.left.at' i) (s.rightAsymp.at' i)
    (s.alpha.at' i) (s.clipped.v.at' i) s.tau (s.clipped.qComp s.left i) t, ?_, ?_, ?_, ?_, ?_, ?_⟩
  · intro before y
    rcases hb1 before with e | e <;> rw [e, diffEq_run]
    · rfl
    · rw [clipped_clipped, clipped_left]; rfl
  · intro before ts
    rcases hb2 before with e | e <;> rw [e, analytical_run]
    · rfl
    · rw [clipped_clipped, clipped_left, clipped_dimX]; rfl
  · exact solvesOn h.wf (fun i hi => h.vpos hi) (fun i hi => (h.key hi).2.1)
      (fun i hi t _ => h.den_pos hi t)
  · intro y hy i hi
    rw [rhs_getD s (by omega), h.v hi]
  · intro i hi
    have : (fun u => (s.xAt u).getD i 0) = _ := funext fun u => xAt_getD s hi u
    rw [this]
    exact pos1_tendsto (h.vpos hi) (h.alpha i hi) h.tau
  · intro i hi t
    have hv := h.vpos hi
    have hal := h.alpha i hi
    have hτ := h.tau
    have hd := h.den_pos hi t
    obtain ⟨hq, _, hk⟩ := h.key hi
    constructor
    · have : (fun u => (s.xdAt u).getD i 0) = _ := funext fun u => xdAt_getD s hi u
      rw [this]
      exact vel1_deriv hv hd
    · have hP := Real.rpow_pos_of_pos hd (2 + 1 / s.clipped.v.at' i)
      have hqpos : 0 < s.clipped.qComp s.left i := by rw [hq]; positivity
      have hE := Real.exp_pos (-s.alpha.at' i * s.clipped.v.at' i * t / s.tau)
      have hw : s.clipped.qComp s.left i * Real.exp (-s.alpha.at' i * s.clipped.v.at' i * t / s.tau)
          = s.clipped.v.at' i * Real.exp (s.alpha.at' i * s.clipped.v.at' i / s.tau *
            (s.tInflRatio.at' i * s.tau - t)) := by
        rw [hq, mul_assoc, ← Real.exp_add]; congr 2; ring
      have hc : 0 < s.alpha.at' i * s.clipped.v.at' i / s.tau := by positivity
      have hiff : 1 - s.clipped.qComp s.left i *
          Real.exp (-s.alpha.at' i * s.clipped.v.at' i * t / s.tau) / s.clipped.v.at' i = 0 ↔
          t = s.tInflRatio.at' i * s.tau := by
        rw [hw, mul_div_assoc, mul_comm, div_mul_cancel₀ _ hv.ne', sub_eq_zero, eq_comm,
          Real.exp_eq_one_iff]
        constructor
        · intro h0
          rcases mul_eq_zero.mp h0 with h0 | h0
          · exact absurd h0 hc.ne'
          · linarith
        · intro h0; rw [h0, sub_self, mul_zero]
      rw [← hiff]
      unfold acc1
      constructor
      · intro h0
        rcases div_eq_zero_iff.mp h0 with h0 | h0
        · rcases mul_eq_zero.mp h0 with h0 | h0
          · exfalso
            have : s.clipped.qComp s.left i * s.alpha.at' i *
              (s.rightAsymp.at' i - s.left.at' i) / s.tau *
              (-(s.alpha.at' i * s.clipped.v.at' i / s.tau)) ≠ 0 :=
              mul_ne_zero (div_ne_zero (mul_ne_zero (mul_ne_zero hqpos.ne' hal.ne') hk) hτ.ne')
                (neg_ne_zero.mpr hc.ne')
            exact (mul_ne_zero this hE.ne') h0
          · exact h0
        · exact absurd h0 hP.ne'
      · intro h0
        dsimp only
        rw [h0, mul_zero, zero_div]

/-- A regular two-dimensional system (with one shape parameter that gets clipped). -/
example : Regular (init 2 [1, 0] (.array [0, 3]) (.scalar 0.3) (.scalar 10) (.array [0.2, 1])) where
  wf := ⟨rfl, rfl, trivial, rfl, rfl, trivial, fun a ha => by simp [init] at ha⟩
  auto := rfl
  tau := by norm_num [init]
  alpha := fun i _ => by norm_num [init, Par.at']
  infl := fun i _ => by norm_num [init, Par.at']
  moves := by
    intro i hi
    have : i < 2 := hi
    have : i = 0 ∨ i = 1 := by omega
    rcases this with rfl | rfl <;> norm_num [init, Par.at']

/-- C10 for a left asymptote set by the user (`set_left_asymp`): for nonnegative times the analytical
solution is the motion, provided that initial state and attractor lie on the same side of the given
asymptote and the shape parameter is positive (it is not clipped in this case). -/
theorem C10_given_asymptote {s : Richards} (hw : s.Wf) {a : Par ℝ} (ha : s.leftAsymp = some a)
    (hτ : 0 < s.tau) (hal : ∀ i < s.dimX, 0 < s.alpha.at' i) (hv : ∀ i < s.dimX, 0 < s.v.at' i)
    (hside : ∀ i < s.dimX, 0 < (s.rightAsymp.at' i - a.at' i) / (s.xInit.getD i 0 - a.at' i)) :
    ∃ (F : List ℝ → List ℝ) (x xd : ℝ → List ℝ),
      (∀ y, (diffEq y s) = (.ok (F y), s)) ∧
      (∀ ts, (analytical ts s) = (.ok (ts.map x, ts.map xd), s)) ∧
      SolvesOn {t | 0 ≤ t} F s.xInit x xd ∧
      (∀ y, y.length = s.dimX → ∀ i < s.dimX, (F y).getD i 0 = s.alpha.at' i *
        (1 - ((y.getD i 0 - a.at' i) / (s.rightAsymp.at' i - a.at' i)) ^ (s.v.at' i)) *
          (y.getD i 0 - a.at' i) / s.tau) ∧
      (∀ i < s.dimX, Tendsto (fun t => (x t).getD i 0) atTop (nhds (s.rightAsymp.at' i))) := by
  have hc : s.clipped = s := by simp only [clipped, ha]; rw [← ha]
  have hl : s.left = a := by simp [left, ha]
  refine ⟨s.rhs, s.xAt, s.xdAt, fun y => ?_, fun ts => ?_, ?_, fun y hy i hi => ?_, fun i hi => ?_⟩
  · rw [diffEq_run, hc]; rw [rhs, hc]
  · rw [analytical_run]
    congr 1
  · apply solvesOn hw
    · rw [hc]; exact hv
    · rw [hl]; exact hside
    · intro i hi t ht
      have ht : 0 ≤ t := ht
      rw [hc, hl, den]
      have h1 := Real.rpow_pos_of_pos (hside i hi) (s.v.at' i)
      have hq : -1 < s.qComp a i := by
        have : s.qComp a i = -1 + ((s.rightAsymp.at' i - a.at' i) /
          (s.xInit.getD i 0 - a.at' i)) ^ (s.v.at' i) := rfl
        rw [this]; linarith
      have h2 : Real.exp (-s.alpha.at' i * s.v.at' i * t / s.tau) ≤ 1 := by
        rw [Real.exp_le_one_iff]
        have := hal i hi
        have := hv i hi
        have : 0 ≤ s.alpha.at' i * s.v.at' i * t / s.tau := by positivity
        have e : -s.alpha.at' i * s.v.at' i * t / s.tau =
          -(s.alpha.at' i * s.v.at' i * t / s.tau) := by ring
        rw [e]; linarith
      have h3 := Real.exp_pos (-s.alpha.at' i * s.v.at' i * t / s.tau)
      nlinarith
  · rw [rhs_getD s (by omega), hc, hl]
  · have : (fun u => (s.xAt u).getD i 0) = _ := funext fun u => xAt_getD s hi u
    rw [this, hc]
    exact pos1_tendsto (hv i hi) (hal i hi) hτ

/-- A system with a given asymptote that meets the hypotheses: asymptote 0, from 1 to 2. -/
example : ∃ s : Richards, s.Wf ∧ s.leftAsymp = some (.scalar 0) ∧ 0 < s.tau ∧
    ∀ i < s.dimX, 0 < (s.rightAsymp.at' i - (Par.scalar (0 : ℝ)).at' i) /
      (s.xInit.getD i 0 - (Par.scalar (0 : ℝ)).at' i) := by
  refine ⟨(setLeftAsymp (.scalar 0) (init 1 [1] (.scalar 2) (.scalar 0.5))).2,
    ⟨rfl, rfl, trivial, trivial, trivial, trivial, fun a ha => ?_⟩, rfl, ?_, ?_⟩
  · simp only [setLeftAsymp, PyM.modify_apply, Option.some.injEq] at ha
    rw [← ha]; trivial
  · norm_num [setLeftAsymp, PyM.modify_apply, init]
  · intro i hi
    have : i < 1 := hi
    have : i = 0 := by omega
    subst this
    norm_num [setLeftAsymp, PyM.modify_apply, init, Par.at']

/-- The Richards system meets the hypothesis of the C12 theorems. -/
theorem realises (s : Richards) (h : s.Wf) :
    DynSys.Realises (fun s' => s' = s ∨ s' = s.clipped) s.dimX s.xInit s.rhs where
  dim := by rintro _ (rfl | rfl); exacts [rfl, clipped_dimX s]
  init := by rintro _ (rfl | rfl); exacts [rfl, clipped_xInit s]
  initLen := h.xInit
  diff := by
    rintro _ x (rfl | rfl) _
    · exact ⟨_, diffEq_run _ x, .inr rfl⟩
    · refine ⟨s.clipped, ?_, .inr rfl⟩
      have := diffEq_run s.clipped x
      rw [clipped_clipped, clipped_left] at this
      exact this
  len := fun x hx => by simp [rhs, hx]

end Richards

end Verif
