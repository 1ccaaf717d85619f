import Verif.Props.Integrate
import Mathlib.Analysis.SpecialFunctions.ExpDeriv
import Mathlib.Analysis.Calculus.Deriv.MeanValue
import Mathlib.Analysis.Calculus.Deriv.Pow

/- C13: accuracy and monotonicity of the integration methods on the exponential system. -/

set_option autoImplicit false

namespace Verif

open Spec DynSys

/-! ### The exponential function and its Taylor polynomials -/

theorem nonneg_of_deriv_nonneg {g g' : ℝ → ℝ} (hd : ∀ x, HasDerivAt g (g' x) x) (h0 : g 0 = 0)
    (hp : ∀ x, 0 ≤ x → 0 ≤ g' x) {x : ℝ} (hx : 0 ≤ x) : 0 ≤ g x := by
  have hm : MonotoneOn g (Set.Ici 0) := by
    apply monotoneOn_of_deriv_nonneg (convex_Ici 0)
    · exact fun y _ => (hd y).continuousAt.continuousWithinAt
    · exact fun y _ => (hd y).differentiableAt.differentiableWithinAt
    · intro y hy
      rw [(hd y).deriv]
      rw [interior_Ici] at hy
      exact hp y (le_of_lt hy)
  have := hm (Set.mem_Ici.mpr le_rfl) (Set.mem_Ici.mpr hx) hx
  rwa [h0] at this

theorem exp_neg_deriv (x : ℝ) : HasDerivAt (fun x : ℝ => Real.exp (-x)) (-Real.exp (-x)) x :=
  ((hasDerivAt_neg x).exp).congr_deriv (by ring)

theorem pow_deriv (n : Nat) (c x : ℝ) :
    HasDerivAt (fun x : ℝ => x ^ (n + 1) / c) ((n + 1) * x ^ n / c) x :=
  ((hasDerivAt_pow (n + 1) x).div_const c).congr_deriv (by push_cast; ring_nf)

theorem exp_taylor1 {x : ℝ} (hx : 0 ≤ x) : 0 ≤ Real.exp (-x) - (1 - x) :=
  nonneg_of_deriv_nonneg (g := fun x => Real.exp (-x) - (1 - x)) (g' := fun x => 1 - Real.exp (-x))
    (fun x => ((exp_neg_deriv x).sub ((hasDerivAt_id x).const_sub 1)).congr_deriv (by ring))
    (by simp) (fun x hx => by
      have : Real.exp (-x) ≤ 1 := Real.exp_le_one_iff.mpr (by linarith)
      linarith) hx

theorem exp_taylor2 {x : ℝ} (hx : 0 ≤ x) : 0 ≤ (1 - x + x ^ 2 / 2) - Real.exp (-x) :=
  nonneg_of_deriv_nonneg (g := fun x => (1 - x + x ^ 2 / 2) - Real.exp (-x))
    (g' := fun x => Real.exp (-x) - (1 - x))
    (fun x => ((((hasDerivAt_id x).const_sub 1).add (pow_deriv 1 2 x)).sub
      (exp_neg_deriv x)).congr_deriv (by norm_num; ring))
    (by simp) (fun x hx => exp_taylor1 hx) hx

theorem exp_taylor3 {x : ℝ} (hx : 0 ≤ x) :
    0 ≤ Real.exp (-x) - (1 - x + x ^ 2 / 2 - x ^ 3 / 6) :=
  nonneg_of_deriv_nonneg (g := fun x => Real.exp (-x) - (1 - x + x ^ 2 / 2 - x ^ 3 / 6))
    (g' := fun x => (1 - x + x ^ 2 / 2) - Real.exp (-x))
    (fun x => ((exp_neg_deriv x).sub ((((hasDerivAt_id x).const_sub 1).add (pow_deriv 1 2 x)).sub
      (pow_deriv 2 6 x))).congr_deriv (by norm_num; ring))
    (by simp) (fun x hx => exp_taylor2 hx) hx

theorem exp_taylor4 {x : ℝ} (hx : 0 ≤ x) :
    0 ≤ (1 - x + x ^ 2 / 2 - x ^ 3 / 6 + x ^ 4 / 24) - Real.exp (-x) :=
  nonneg_of_deriv_nonneg (g := fun x => (1 - x + x ^ 2 / 2 - x ^ 3 / 6 + x ^ 4 / 24) - Real.exp (-x))
    (g' := fun x => Real.exp (-x) - (1 - x + x ^ 2 / 2 - x ^ 3 / 6))
    (fun x => (((((((hasDerivAt_id x).const_sub 1).add (pow_deriv 1 2 x)).sub
      (pow_deriv 2 6 x))).add (pow_deriv 3 24 x)).sub (exp_neg_deriv x)).congr_deriv
      (by norm_num; ring))
    (by simp) (fun x hx => exp_taylor3 hx) hx

theorem exp_taylor5 {x : ℝ} (hx : 0 ≤ x) :
    0 ≤ Real.exp (-x) - (1 - x + x ^ 2 / 2 - x ^ 3 / 6 + x ^ 4 / 24 - x ^ 5 / 120) :=
  nonneg_of_deriv_nonneg
    (g := fun x => Real.exp (-x) - (1 - x + x ^ 2 / 2 - x ^ 3 / 6 + x ^ 4 / 24 - x ^ 5 / 120))
    (g' := fun x => (1 - x + x ^ 2 / 2 - x ^ 3 / 6 + x ^ 4 / 24) - Real.exp (-x))
    (fun x => ((exp_neg_deriv x).sub ((((((hasDerivAt_id x).const_sub 1).add (pow_deriv 1 2 x)).sub
      (pow_deriv 2 6 x)).add (pow_deriv 3 24 x)).sub (pow_deriv 4 120 x))).congr_deriv
      (by norm_num; ring))
    (by simp) (fun x hx => exp_taylor4 hx) hx

/-! ### One step -/

namespace Exponential

/-- Specification: factor by which a step reduces the distance to the attractor, `h = alpha dt/tau`:
the Taylor polynomial of `exp(-h)` of order 4 (Runge-Kutta) or 1 (Euler). -/
noncomputable def taylorFactor (m : Method) (h : ℝ) : ℝ :=
  match m with
  | .rungeKutta => ∑ k ∈ Finset.range 5, (-h) ^ k / (k.factorial : ℝ)
  | .euler => ∑ k ∈ Finset.range 2, (-h) ^ k / (k.factorial : ℝ)

theorem taylorFactor_rk (h : ℝ) :
    taylorFactor .rungeKutta h = 1 - h + h ^ 2 / 2 - h ^ 3 / 6 + h ^ 4 / 24 := by
  simp [taylorFactor, Finset.sum_range_succ, Nat.factorial]; ring

theorem taylorFactor_euler (h : ℝ) : taylorFactor .euler h = 1 - h := by
  simp [taylorFactor, Finset.sum_range_succ]; ring

theorem stepFn_factor {s : Exponential} (hw : s.Wf) {x : List ℝ} (hx : x.length = s.dimY)
    (m : Method) (dt : ℝ) {i : Nat} (hi : i < s.dimY) :
    (stepFn s.diffEq m dt x).1.getD i 0 - s.xAttr.getD i 0 =
      taylorFactor m (s.alpha.at' i * dt / s.tau) * (x.getD i 0 - s.xAttr.getD i 0) := by
  have hr := realises s hw
  cases m with
  | euler =>
    rw [(hr.euler_spec hx dt).2 i hi, diffEq_getD hw hx hi, taylorFactor_euler]
    ring
  | rungeKutta =>
    obtain ⟨u2, u3, u4, l2, l3, l4, _, hall⟩ := hr.rk4_spec hx dt
    obtain ⟨e2, e3, e4, e5⟩ := hall i hi
    rw [diffEq_getD hw hx hi] at e2 e5
    rw [diffEq_getD hw l2 hi] at e3 e5
    rw [diffEq_getD hw l3 hi] at e4 e5
    rw [diffEq_getD hw l4 hi] at e5
    rw [e5, e4, e3, e2, taylorFactor_rk]
    ring

/-- C13: one step of the system multiplies the distance to the attractor in each dimension by the
Taylor polynomial of `exp(-alpha*dt/tau)` of order 4 (Runge-Kutta) or 1 (Euler). -/
theorem C13_step_factor {s : Exponential} (hw : s.Wf) {x : List ℝ} (hx : x.length = s.dimY)
    (m : Method) (dt : ℝ) :
    ∃ x' xd', (step m dt x s) = (.ok (x', xd'), s) ∧ x'.length = s.dimY ∧
      ∀ i < s.dimY, x'.getD i 0 - s.xAttr.getD i 0 =
        taylorFactor m (s.alpha.at' i * dt / s.tau) * (x.getD i 0 - s.xAttr.getD i 0) := by
  have hr := realises s hw
  obtain ⟨s', e, rfl⟩ := hr.step rfl hx m dt
  exact ⟨_, _, e, hr.len_step hx m dt, fun i hi => stepFn_factor hw hx m dt hi⟩

theorem taylorFactor_range (m : Method) {h : ℝ} (h0 : 0 < h) (h1 : h ≤ 1) :
    0 ≤ taylorFactor m h ∧ taylorFactor m h < 1 := by
  cases m with
  | euler => rw [taylorFactor_euler]; constructor <;> linarith
  | rungeKutta =>
    rw [taylorFactor_rk]
    have h2 : 0 < h ^ 2 := by positivity
    have h3 : 0 < h ^ 3 := by positivity
    have h4 : 0 < h ^ 4 := by positivity
    have e3 : h ^ 3 ≤ h ^ 2 := by nlinarith
    have e4 : h ^ 4 ≤ h ^ 3 := by nlinarith
    have e2 : h ^ 2 ≤ h := by nlinarith
    constructor
    · linarith
    · linarith

/-- C13: with steps `0 < alpha*dt/tau <= 1`, `integrate` approaches the attractor without overshoot
over the whole sequence: each distance is the previous one times a factor in [0,1). -/
theorem C13_integrate_monotone {s : Exponential} (hw : s.Wf) (m : Method) (ts : List ℝ)
    (hts : ts ≠ [])
    (hdt : ∀ i < s.dimY, ∀ (j : Nat) (h : j + 1 < ts.length),
      0 < s.alpha.at' i * (ts[j + 1] - ts[j]) / s.tau ∧
        s.alpha.at' i * (ts[j + 1] - ts[j]) / s.tau ≤ 1) :
    ∃ rows, (integrate ts m s).1 = .ok rows ∧ rows.length = ts.length ∧
      (rows.getD 0 ([], [])).1 = s.xInit ∧
      ∀ i < s.dimY, ∀ j, j + 1 < ts.length → ∃ g : ℝ, 0 ≤ g ∧ g < 1 ∧
        (rows.getD (j + 1) ([], [])).1.getD i 0 - s.xAttr.getD i 0 =
          g * ((rows.getD j ([], [])).1.getD i 0 - s.xAttr.getD i 0) := by
  have hr := realises s hw
  cases ts with
  | nil => exact absurd rfl hts
  | cons t0 ts =>
    obtain ⟨s', e, _⟩ := hr.integrate rfl m t0 ts
    refine ⟨_, by rw [e], by simp [rowsFn_length], rfl, fun i hi j hj => ?_⟩
    have hj' : j + 1 < ((s.xInit, s.diffEq s.xInit) :: rowsFn s.diffEq m t0 s.xInit ts).length := by
      simpa [rowsFn_length] using hj
    rw [getD_lt hj', getD_lt (show j < _ by omega), rowsFn_next m _ ts t0 s.xInit j hj hj']
    have hlen : (((s.xInit, s.diffEq s.xInit) ::
        rowsFn s.diffEq m t0 s.xInit ts)[j]'(by omega)).1.length = s.dimY := by
      have hmem := List.getElem_mem
        (l := (s.xInit, s.diffEq s.xInit) :: rowsFn s.diffEq m t0 s.xInit ts) (n := j) (by omega)
      rcases List.mem_cons.mp hmem with heq | hmem
      · rw [heq]; exact hw.xInit
      · exact hr.rows_len m ts hw.xInit t0 _ hmem
    obtain ⟨d1, d2⟩ := hdt i hi j hj
    obtain ⟨r1, r2⟩ := taylorFactor_range m d1 d2
    exact ⟨_, r1, r2, stepFn_factor hw hlen m _ hi⟩

/-- C13: the local error of one Runge-Kutta step, compared to the exact motion over `dt`
(the solution of the differential equation, see C01), is at most the next Taylor term. -/
theorem C13_local_error {s : Exponential} (hw : s.Wf) {x : List ℝ} (hx : x.length = s.dimY)
    (dt : ℝ) (hdt : ∀ i < s.dimY, 0 ≤ s.alpha.at' i * dt / s.tau) :
    ∃ x' xd', (step .rungeKutta dt x s) = (.ok (x', xd'), s) ∧
      ∀ i < s.dimY, |x'.getD i 0 - (s.xAttr.getD i 0 +
          (x.getD i 0 - s.xAttr.getD i 0) * Real.exp (-(s.alpha.at' i * dt / s.tau)))| ≤
        (s.alpha.at' i * dt / s.tau) ^ 5 / 120 * |x.getD i 0 - s.xAttr.getD i 0| := by
  obtain ⟨x', xd', e, _, hall⟩ := C13_step_factor hw hx .rungeKutta dt
  refine ⟨x', xd', e, fun i hi => ?_⟩
  set h := s.alpha.at' i * dt / s.tau with hh
  have hx' : x'.getD i 0 = taylorFactor .rungeKutta h * (x.getD i 0 - s.xAttr.getD i 0) +
      s.xAttr.getD i 0 := by
    have := hall i hi; rw [← hh] at this; linarith
  have hdiff : x'.getD i 0 - (s.xAttr.getD i 0 + (x.getD i 0 - s.xAttr.getD i 0) * Real.exp (-h)) =
      (taylorFactor .rungeKutta h - Real.exp (-h)) * (x.getD i 0 - s.xAttr.getD i 0) := by
    rw [hx']; ring
  rw [hdiff, abs_mul]
  apply mul_le_mul_of_nonneg_right _ (abs_nonneg _)
  have t4 := exp_taylor4 (hdt i hi)
  have t5 := exp_taylor5 (hdt i hi)
  rw [← hh] at t4 t5
  rw [taylorFactor_rk, abs_of_nonneg t4]
  linarith

/-- Steps and parameters that meet the hypotheses. -/
example : ∀ i < (init 2 [1, 5] [0, 3] (.array [4, 1])).dimY, ∀ (j : Nat)
    (h : j + 1 < ([0, 0.1, 0.3] : List ℝ).length),
    0 < (init 2 [1, 5] [0, 3] (.array [4, 1])).alpha.at' i *
      (([0, 0.1, 0.3] : List ℝ)[j + 1] - ([0, 0.1, 0.3] : List ℝ)[j]) / 2 ∧
    (init 2 [1, 5] [0, 3] (.array [4, 1])).alpha.at' i *
      (([0, 0.1, 0.3] : List ℝ)[j + 1] - ([0, 0.1, 0.3] : List ℝ)[j]) / 2 ≤ 1 := by
  intro i hi j hj
  have h1 : i < 2 := hi
  have h2 : j + 1 < 3 := hj
  have : i = 0 ∨ i = 1 := by omega
  have : j = 0 ∨ j = 1 := by omega
  rcases ‹i = 0 ∨ i = 1› with rfl | rfl <;> rcases ‹j = 0 ∨ j = 1› with rfl | rfl <;>
    norm_num [init, Par.at']

end Exponential

end Verif
