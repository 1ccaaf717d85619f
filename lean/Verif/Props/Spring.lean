import Verif.Model.SpringDamper
import Verif.Spec.Calculus
import Verif.Proofs.Integration
import Mathlib.Analysis.SpecialFunctions.ExpDeriv
import Mathlib.Analysis.SpecialFunctions.Exp

/- C05, C06: the spring-damper system. -/

set_option autoImplicit false

namespace Verif

open Spec Filter

namespace SpringDamper

@[simp] theorem length_xAt (s : SpringDamper) (t : ℝ) : (s.xAt t).length = s.dimY + s.dimY := by
  simp [xAt]
@[simp] theorem length_xdAt (s : SpringDamper) (t : ℝ) : (s.xdAt t).length = s.dimY + s.dimY := by
  simp [xdAt]

theorem getD_xAt_y (s : SpringDamper) (t : ℝ) {i : Nat} (hi : i < s.dimY) :
    (s.xAt t).getD i 0 = s.yComp t i := by
  rw [xAt, getD_append_left' (by simpa using hi), getD_range_map hi]

theorem getD_xAt_z (s : SpringDamper) (t : ℝ) {i : Nat} (hi : i < s.dimY) :
    (s.xAt t).getD (s.dimY + i) 0 = s.ydComp t i * s.tau := by
  have := getD_append_right' (a := (List.range s.dimY).map (s.yComp t))
    (b := (List.range s.dimY).map (fun i => s.ydComp t i * s.tau)) (i := i) 0
  rw [List.length_map, List.length_range, getD_range_map hi] at this
  exact this

theorem getD_xdAt_y (s : SpringDamper) (t : ℝ) {i : Nat} (hi : i < s.dimY) :
    (s.xdAt t).getD i 0 = s.ydComp t i := by
  rw [xdAt, getD_append_left' (by simpa using hi), getD_range_map hi]

theorem getD_xdAt_z (s : SpringDamper) (t : ℝ) {i : Nat} (hi : i < s.dimY) :
    (s.xdAt t).getD (s.dimY + i) 0 = s.yddComp t i * s.tau := by
  have := getD_append_right' (a := (List.range s.dimY).map (s.ydComp t))
    (b := (List.range s.dimY).map (fun i => s.yddComp t i * s.tau)) (i := i) 0
  rw [List.length_map, List.length_range, getD_range_map hi] at this
  exact this

theorem diffEq_length {s : SpringDamper} {x : List ℝ} (hx : x.length = s.dimY + s.dimY) :
    (s.diffEq x).length = s.dimY + s.dimY := by
  simp [diffEq, hx]

theorem diffEq_getD_y {s : SpringDamper} {x : List ℝ} (hx : x.length = s.dimY + s.dimY)
    {i : Nat} (hi : i < s.dimY) :
    (s.diffEq x).getD i 0 = x.getD (s.dimY + i) 0 / s.tau := by
  rw [diffEq, getD_append_left' (by simp [hx, hi]), getD_vdivs, getD_drop']

theorem diffEq_getD_z {s : SpringDamper} {x : List ℝ} (hx : x.length = s.dimY + s.dimY)
    {i : Nat} (hi : i < s.dimY) :
    (s.diffEq x).getD (s.dimY + i) 0 =
      (-(s.spring.at' i) * (x.getD i 0 - s.yAttr.getD i 0) -
        s.damping.at' i * x.getD (s.dimY + i) 0) / (s.mass.at' i * s.tau) := by
  have hl : (vdivs (x.drop s.dimY) s.tau).length = s.dimY := by simp [hx]
  have := getD_append_right' (a := vdivs (x.drop s.dimY) s.tau)
    (b := (List.range s.dimY).map (s.zdComp (x.take s.dimY) (x.drop s.dimY))) (i := i) 0
  rw [hl, getD_range_map hi] at this
  rw [diffEq]
  refine this.trans ?_
  unfold zdComp
  simp only
  rw [getD_take' hi, getD_drop']

/-- The two halves of a state index. -/
theorem index_cases {n j : Nat} (h : j < n + n) : j < n ∨ ∃ i < n, j = n + i := by
  by_cases hj : j < n
  · exact .inl hj
  · exact .inr ⟨j - n, by omega, by omega⟩

/-- Critical damping of dimension `i`: positive mass and damping, and `d^2 = 4 k m`. -/
def Critical (s : SpringDamper) (i : Nat) : Prop :=
  0 < s.mass.at' i ∧ 0 < s.damping.at' i ∧
    s.damping.at' i ^ 2 = 4 * s.spring.at' i * s.mass.at' i

theorem Critical.omega {s : SpringDamper} {i : Nat} (h : s.Critical i) (hτ : 0 < s.tau) :
    0 < s.omega0 i ∧ s.spring.at' i = s.mass.at' i * (s.omega0 i * s.tau) ^ 2 ∧
      s.damping.at' i = 2 * s.mass.at' i * (s.omega0 i * s.tau) := by
  obtain ⟨hm, hd, hc⟩ := h
  have hk : s.spring.at' i = s.damping.at' i ^ 2 / (4 * s.mass.at' i) := by
    field_simp; linarith
  have hkm : s.spring.at' i / s.mass.at' i = (s.damping.at' i / (2 * s.mass.at' i)) ^ 2 := by
    rw [hk]; field_simp; norm_num
  have hw : s.omega0 i = s.damping.at' i / (2 * s.mass.at' i) / s.tau := by
    rw [omega0, hkm, Real.sqrt_sq (by positivity)]
  refine ⟨by rw [hw]; positivity, ?_, ?_⟩
  · rw [hw, hk]; field_simp; norm_num
  · rw [hw]; field_simp

theorem yComp_deriv (s : SpringDamper) (i : Nat) (t : ℝ) :
    HasDerivAt (fun u => s.yComp u i) (s.ydComp t i) t := by
  unfold yComp ydComp
  have h1 : HasDerivAt (fun u : ℝ => s.coefA i + s.coefB i * u) (s.coefB i) t := by
    simpa using ((hasDerivAt_id t).const_mul (s.coefB i)).const_add (s.coefA i)
  have h2 : HasDerivAt (fun u : ℝ => -s.omega0 i * u) (-s.omega0 i) t := by
    simpa using (hasDerivAt_id t).const_mul (-s.omega0 i)
  exact ((h1.mul h2.exp).const_add _).congr_deriv (by ring)

theorem ydComp_deriv (s : SpringDamper) (i : Nat) (t : ℝ) :
    HasDerivAt (fun u => s.ydComp u i) (s.yddComp t i) t := by
  unfold ydComp yddComp
  have h1 : HasDerivAt (fun u : ℝ => s.coefA i + s.coefB i * u) (s.coefB i) t := by
    simpa using ((hasDerivAt_id t).const_mul (s.coefB i)).const_add (s.coefA i)
  have h2 : HasDerivAt (fun u : ℝ => -s.omega0 i * u) (-s.omega0 i) t := by
    simpa using (hasDerivAt_id t).const_mul (-s.omega0 i)
  exact (((h1.const_mul (s.omega0 i)).const_sub _).mul h2.exp).congr_deriv (by ring)

/-- Everything but the initial state: also holds for non-zero initial velocity. -/
theorem deriv_ode (s : SpringDamper) (hτ : 0 < s.tau) (hc : ∀ i < s.dimY, s.Critical i) (t : ℝ) :
    HasVecDeriv s.xAt (s.xdAt t) t ∧ s.xdAt t = s.diffEq (s.xAt t) := by
  constructor
  · refine ⟨fun u => by simp, fun j hj => ?_⟩
    rw [length_xdAt] at hj
    rcases index_cases hj with hi | ⟨i, hi, rfl⟩
    · rw [getD_xdAt_y s t hi]
      have : (fun u => (s.xAt u).getD j 0) = fun u => s.yComp u j :=
        funext fun u => getD_xAt_y s u hi
      rw [this]
      exact s.yComp_deriv j t
    · rw [getD_xdAt_z s t hi]
      have : (fun u => (s.xAt u).getD (s.dimY + i) 0) = fun u => s.ydComp u i * s.tau :=
        funext fun u => getD_xAt_z s u hi
      rw [this]
      exact (s.ydComp_deriv i t).mul_const s.tau
  · apply ext_getD 0 (by rw [diffEq_length (by simp)]; simp)
    intro j hj
    rw [length_xdAt] at hj
    rcases index_cases hj with hi | ⟨i, hi, rfl⟩
    · rw [getD_xdAt_y s t hi, diffEq_getD_y (by simp) hi, getD_xAt_z s t hi]
      field_simp
    · rw [getD_xdAt_z s t hi, diffEq_getD_z (by simp) hi, getD_xAt_z s t hi, getD_xAt_y s t hi]
      obtain ⟨hw, hk, hd⟩ := (hc i hi).omega hτ
      have hm := (hc i hi).1
      rw [hk, hd]
      unfold yddComp ydComp yComp
      field_simp
      ring

theorem start_components (s : SpringDamper) :
    (∀ i < s.dimY, (s.xAt 0).getD i 0 = s.xInit.getD i 0) ∧
    (∀ i < s.dimY, (s.xAt 0).getD (s.dimY + i) 0 = s.xInit.getD (s.dimY + i) 0 * s.tau) := by
  constructor
  · intro i hi
    rw [getD_xAt_y s 0 hi]
    simp [yComp, coefA]
  · intro i hi
    rw [getD_xAt_z s 0 hi]
    unfold ydComp coefB
    simp only [mul_zero, add_zero, Real.exp_zero, mul_one]
    ring

/-- C05 (full statement; it is *not* a theorem about the code, see `C05_refuted`): the analytical
solution of every critically damped system is its motion from its initial state. -/
def C05_statement : Prop :=
  ∀ s : SpringDamper, s.Wf → 0 < s.tau → (∀ i < s.dimY, s.Critical i) →
    Solves s.diffEq s.xInit s.xAt s.xdAt

/-- C05, the part that holds: the analytical solution is the motion from the initial state if the
system starts at rest, or if tau = 1.  Missing: initial velocity part `z ≠ 0` with `tau ≠ 1`, for
which the code is wrong (next theorem). -/
theorem C05_analytical_is_motion_partial (s : SpringDamper) (h : s.Wf) (hτ : 0 < s.tau)
    (hc : ∀ i < s.dimY, s.Critical i)
    (hz : s.tau = 1 ∨ ∀ i < s.dimY, s.xInit.getD (s.dimY + i) 0 = 0) :
    ∃ x xd : ℝ → List ℝ, (∀ ts, s.analytical ts = (ts.map x, ts.map xd)) ∧
      Solves s.diffEq s.xInit x xd := by
  refine ⟨s.xAt, s.xdAt, fun _ => rfl, ⟨?_, fun t _ => (s.deriv_ode hτ hc t).1,
    fun t _ => (s.deriv_ode hτ hc t).2⟩⟩
  obtain ⟨h1, h2⟩ := s.start_components
  apply ext_getD 0 (by rw [length_xAt, h.xInit, h.dim])
  intro j hj
  rw [length_xAt] at hj
  rcases index_cases hj with hi | ⟨i, hi, rfl⟩
  · exact h1 j hi
  · rw [h2 i hi]
    rcases hz with hz | hz
    · rw [hz, mul_one]
    · rw [hz i hi, zero_mul]

/-- The witness: one dimension, unit mass, critically damped, tau = 2, initial velocity part 1. -/
noncomputable def witness : SpringDamper :=
  { init 2 [0] [0] (.scalar 2) with xInit := [0, 1] }

theorem witness_wf : witness.Wf :=
  ⟨rfl, rfl, rfl, trivial, trivial, trivial⟩

theorem witness_critical : ∀ i < witness.dimY, witness.Critical i := by
  intro i _
  refine ⟨?_, ?_, ?_⟩ <;> norm_num [witness, init, criticalSpring]

/-- C05: the property is violated: the analytical solution of the witness does not even start in the
initial state that was set (the velocity part is multiplied by tau). -/
theorem C05_refuted : ¬ C05_statement := by
  intro h
  have hs := (h witness witness_wf (by norm_num [witness, init]) witness_critical).start
  have h2 := (start_components witness).2 0 (by simp [witness, init])
  rw [hs] at h2
  norm_num [witness, init] at h2

/-- The hypotheses of the partial theorem are met by a two-dimensional system with different masses. -/
example : (init 3 [1, 2] [0, 5] (.array [4, 6]) (some (.array [2, 3])) (.array [2, 3])).Wf ∧
    (∀ i < 2, (init 3 [1, 2] [0, 5] (.array [4, 6]) (some (.array [2, 3])) (.array [2, 3])).Critical i)
    := by
  refine ⟨⟨rfl, rfl, rfl, rfl, rfl, rfl⟩, ?_⟩
  intro i hi
  have : i = 0 ∨ i = 1 := by omega
  rcases this with rfl | rfl <;> refine ⟨?_, ?_, ?_⟩ <;> norm_num [init]

/-- C05: a critically damped system started at rest approaches its attractor without crossing it,
and the distance factor is `(1 + w t) exp(-w t)` with natural frequency `w = sqrt(k/m)/tau`. -/
theorem C05_no_overshoot (s : SpringDamper) (hτ : 0 < s.tau) (i : Nat) (hi : i < s.dimY)
    (hc : s.Critical i) (hz : s.xInit.getD (s.dimY + i) 0 = 0) (t : ℝ) (ht : 0 ≤ t) :
    ∃ ρ : ℝ, 0 < ρ ∧ ρ ≤ 1 ∧
      (s.xAt t).getD i 0 - s.yAttr.getD i 0 = ρ * (s.xInit.getD i 0 - s.yAttr.getD i 0) ∧
      ρ = (1 + Real.sqrt (s.spring.at' i / s.mass.at' i) / s.tau * t) *
        Real.exp (-(Real.sqrt (s.spring.at' i / s.mass.at' i) / s.tau * t)) := by
  have hw := (hc.omega hτ).1
  refine ⟨(1 + s.omega0 i * t) * Real.exp (-(s.omega0 i * t)), by positivity, ?_, ?_, rfl⟩
  · have h1 : 1 + s.omega0 i * t ≤ Real.exp (s.omega0 i * t) := by
      have := Real.add_one_le_exp (s.omega0 i * t); linarith
    calc (1 + s.omega0 i * t) * Real.exp (-(s.omega0 i * t))
        ≤ Real.exp (s.omega0 i * t) * Real.exp (-(s.omega0 i * t)) := by gcongr
      _ = 1 := by rw [← Real.exp_add]; simp
  · rw [getD_xAt_y s t hi]
    unfold yComp coefB coefA
    rw [hz]
    simp only
    rw [show -s.omega0 i * t = -(s.omega0 i * t) by ring]
    ring

/-- C05: convergence of position and velocity part, for every initial state. -/
theorem C05_converges (s : SpringDamper) (hτ : 0 < s.tau) (i : Nat) (hi : i < s.dimY)
    (hc : s.Critical i) :
    Tendsto (fun t => (s.xAt t).getD i 0) atTop (nhds (s.yAttr.getD i 0)) ∧
    Tendsto (fun t => (s.xAt t).getD (s.dimY + i) 0) atTop (nhds 0) := by
  have hw := (hc.omega hτ).1
  have h0 : Tendsto (fun t : ℝ => s.omega0 i * t) atTop atTop := tendsto_id.const_mul_atTop hw
  have h1 : Tendsto (fun t : ℝ => Real.exp (-s.omega0 i * t)) atTop (nhds 0) := by
    apply Real.tendsto_exp_atBot.comp
    exact tendsto_id.const_mul_atTop_of_neg (by linarith)
  have h2 : Tendsto (fun t : ℝ => t * Real.exp (-s.omega0 i * t)) atTop (nhds 0) := by
    have := (Real.tendsto_pow_mul_exp_neg_atTop_nhds_zero 1).comp h0
    have h3 := this.const_mul (1 / s.omega0 i)
    simp only [mul_zero] at h3
    refine h3.congr fun t => ?_
    simp only [Function.comp, pow_one, neg_mul]
    field_simp
  constructor
  · have h3 := ((h1.const_mul (s.coefA i)).add (h2.const_mul (s.coefB i))).const_add
      (s.yAttr.getD i 0)
    simp only [mul_zero, add_zero] at h3
    refine h3.congr fun t => ?_
    rw [getD_xAt_y s t hi]; unfold yComp; ring
  · have h3 := ((h1.const_mul ((s.coefB i - s.omega0 i * s.coefA i) * s.tau)).add
      (h2.const_mul (-(s.omega0 i * s.coefB i) * s.tau)))
    simp only [mul_zero, add_zero] at h3
    refine h3.congr fun t => ?_
    rw [getD_xAt_z s t hi]; unfold ydComp; ring

example : (init 3 [1, 2] [0, 5] (.scalar 4)).Critical 1 ∧ 1 < (init 3 [1, 2] [0, 5] (.scalar 4)).dimY ∧
    (init 3 [1, 2] [0, 5] (.scalar 4)).xInit.getD ((init 3 [1, 2] [0, 5] (.scalar 4)).dimY + 1) 0 = 0 := by
  refine ⟨⟨?_, ?_, ?_⟩, ?_, ?_⟩ <;> norm_num [init, criticalSpring, vzeros]

/-! ### C06 -/

/-- C06 (full statement, violated by the code): the default spring constant gives damping ratio 1. -/
def C06_statement : Prop :=
  ∀ (tau : ℝ) (yInit yAttr : List ℝ) (d m : ℝ), 0 < d → 0 < m → ∀ i < yInit.length,
    (init tau yInit yAttr (.scalar d) none (.scalar m)).zeta i = 1

/-- C06: violated: with mass 4 the damping ratio is 1/2. -/
theorem C06_refuted : ¬ C06_statement := by
  intro h
  have := h 1 [0] [0] 2 4 (by norm_num) (by norm_num) 0 (by simp)
  have h4 : Real.sqrt 4 = 2 := by
    rw [show (4 : ℝ) = 2 ^ 2 by norm_num]; exact Real.sqrt_sq (by norm_num)
  norm_num [init, zeta, criticalSpring, h4] at this

/-- C06, the part that holds: with mass 1 (the default) the damping ratio is 1 and the system is
critically damped in every dimension, for scalar and array damping coefficients.  Missing: other
masses. In general the ratio is `1/sqrt(mass)` (`C06_zeta_formula`). -/
theorem C06_default_critical_partial (tau : ℝ) (yInit yAttr : List ℝ) (d : Par ℝ) (i : Nat)
    (hfit : d.Fits yInit.length) (hi : i < yInit.length) (hd : 0 < d.at' i) :
    (init tau yInit yAttr d).zeta i = 1 ∧ (init tau yInit yAttr d).Critical i := by
  have hk : (criticalSpring d).at' i = d.at' i * d.at' i / 4 := by
    cases d with
    | scalar c => rfl
    | array l =>
      simp only [Par.Fits] at hfit
      simp only [criticalSpring, Par.at'_array]
      rw [getD_map' (by omega) 0 0]
  constructor
  · simp only [zeta, init, hk, Par.at'_scalar, one_mul]
    rw [show d.at' i * d.at' i / 4 = (d.at' i / 2) ^ 2 by ring, Real.sqrt_sq (by positivity)]
    field_simp
  · refine ⟨by simp [init], hd, ?_⟩
    simp only [init, hk, Par.at'_scalar]
    ring

/-- C06: what the damping ratio is for an arbitrary mass. -/
theorem C06_zeta_formula (tau : ℝ) (yInit yAttr : List ℝ) (d m : ℝ) (hd : 0 < d) (hm : 0 < m)
    (i : Nat) : (init tau yInit yAttr (.scalar d) none (.scalar m)).zeta i = 1 / Real.sqrt m := by
  simp only [zeta, init, criticalSpring, Par.at'_scalar]
  rw [show m * (d * d / 4) = m * (d / 2) ^ 2 by ring, Real.sqrt_mul hm.le,
    Real.sqrt_sq (by positivity)]
  have := Real.sqrt_pos.mpr hm
  field_simp

example : (Par.array [4, (3 : ℝ)]).Fits [1, (2 : ℝ)].length ∧ 0 < (Par.array [4, (3 : ℝ)]).at' 1 := by
  refine ⟨rfl, ?_⟩; norm_num

/-- The spring-damper system meets the hypothesis of the C12 theorems. -/
theorem realises (s : SpringDamper) (h : s.Wf) :
    DynSys.Realises (· = s) (s.dimY + s.dimY) s.xInit s.diffEq where
  dim := by rintro _ rfl; exact h.dim
  init := by rintro _ rfl; rfl
  initLen := by rw [h.xInit, h.dim]
  diff := by rintro _ x rfl _; exact ⟨_, rfl, rfl⟩
  len := fun _ hx => diffEq_length hx

end SpringDamper

end Verif
