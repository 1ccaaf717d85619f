import Mathlib.Analysis.Complex.ExponentialBounds
import Verif.Props.DmpStepsRun

/- Dmp: step lengths for which numerical integration converges (C75). -/

set_option autoImplicit false

namespace Verif

open DynSys (Method)

/-- On a decaying exponential, steps of length below twice the time constant are stable. -/
theorem stepFactor_real (m : Method) {x : ℝ} (h0 : 0 < x) (h2 : x < 2) : ‖stepFactor m ((-x : ℝ) : ℂ)‖ < 1 := by
  cases m with
  | euler =>
    have e : stepFactor .euler ((-x : ℝ) : ℂ) = ((1 - x : ℝ) : ℂ) := by
      rw [stepFactor]; push_cast; ring
    rw [e, Complex.norm_real, Real.norm_eq_abs, abs_lt]
    constructor <;> linarith
  | rungeKutta =>
    have e : stepFactor .rungeKutta ((-x : ℝ) : ℂ) = ((1 - x + x ^ 2 / 2 - x ^ 3 / 6 + x ^ 4 / 24 : ℝ) : ℂ) := by
      rw [stepFactor]; push_cast; ring
    rw [e, Complex.norm_real, Real.norm_eq_abs, abs_lt]
    have x2 : 0 < x ^ 2 := by positivity
    constructor
    · nlinarith [sq_nonneg (x - 1), mul_pos x2 (by linarith : 0 < 2 - x), sq_nonneg (x ^ 2)]
    · have : 0 < x * ((1 - x / 2) + x ^ 2 / 6 * (1 - x / 4)) :=
        mul_pos h0 (add_pos (by linarith) (mul_pos (by positivity) (by linarith)))
      nlinarith

/-- On a critically damped spring-damper system with time constant `2 tau / alpha`. -/
theorem stable_critical (m : Method) {dt α τ : ℝ} (h0 : 0 < dt) (hα : 0 < α) (hτ : 0 < τ) (h : dt * α < 4 * τ) :
    StableStep m dt (α / (1 * τ)) (α * α / 4 / (1 * τ) * (1 / τ)) := by
  intro l hl
  have e : (l + α / (2 * τ)) ^ 2 = 0 := by
    rw [← hl]
    have : (τ : ℂ) ≠ 0 := by exact_mod_cast hτ.ne'
    push_cast
    field_simp
    ring
  have e2 : l = -(α / (2 * τ) : ℝ) := by
    have := pow_eq_zero_iff (two_ne_zero) |>.mp e
    push_cast
    linear_combination this
  have e3 : (dt : ℂ) * l = ((-(dt * (α / (2 * τ))) : ℝ) : ℂ) := by
    rw [e2]; push_cast; ring
  rw [e3]
  refine stepFactor_real m (by positivity) ?_
  rw [mul_div_assoc', div_lt_iff₀ (by positivity)]
  linarith

namespace Dmp

open Filter Topology Set

variable {d : Nat}

theorem gating_rate_bound : Real.log ((((1 + Sigmoid.gatingD) / 0.1) - 1) / Sigmoid.gatingD) ≤ 17 := by
  have h1 : (2.7 : ℝ) ^ 17 ≤ Real.exp 17 := by
    have := Real.exp_one_gt_d9
    rw [show (17 : ℝ) = ((17 : ℕ) : ℝ) * 1 by norm_num, Real.exp_nat_mul]
    exact pow_le_pow_left₀ (by norm_num) (by linarith) 17
  rw [Real.log_le_iff_le_exp (by norm_num [Sigmoid.gatingD])]
  refine le_trans ?_ h1
  norm_num [Sigmoid.gatingD]

/-- Step lengths that are small enough directly after the constructor. -/
theorem init_fine {tau : ℝ} {yInit yAttr : List ℝ} {fas : Option (List Fa)} {o : Options} {s : Dmp}
    (h : init tau yInit yAttr fas o = .ok s) (ho : o.Fits yInit.length) (hg : DefaultSystems tau yInit yAttr o s)
    (m : Method) {dt : ℝ} (h0 : 0 < dt) (h1 : dt ≤ tau / 17)
    (h2 : (isIn "2022" o.dmpType || isIn "SCT23" o.dmpType) = true → dt ≤ tau / 100)
    (h3 : ∀ j, j < yInit.length → dt * o.alphaSpring.at' j < 4 * tau) : FineSteps yInit.length s m dt := by
  obtain ⟨hτ, hα, htr, hgn, hgt, hph, hdp⟩ := hg
  obtain ⟨dflt, hd, rfl⟩ := init_eq h
  simp only [htr, Option.getD_none] at hd
  -- exponential systems
  have hexp : ∀ r : ℝ, 0 < r → r < 34 → ‖stepFactor m (dt * (-(r / tau) : ℝ))‖ < 1 := fun r r0 r1 => by
    have e : (dt : ℂ) * (-(r / tau) : ℝ) = ((-(dt * (r / tau)) : ℝ) : ℂ) := by push_cast; ring
    rw [e]
    refine stepFactor_real m (by positivity) ?_
    rw [mul_div_assoc', div_lt_iff₀ hτ]
    have : dt * r ≤ tau / 17 * r := mul_le_mul_of_nonneg_right h1 r0.le
    nlinarith
  have hall : dflt.phase.Fine 1 m dt ∧ dflt.gating.Fine 1 m dt ∧
      (∀ g, dflt.goal = some g → g.Fine yInit.length m dt) ∧
      (∀ g, dflt.damping = some g → g.Fine yInit.length m dt ∧ g.Tends yInit.length o.alphaSpring.at') := by
    unfold defaults at hd
    simp only at hd
    by_cases c1 : o.dmpType = "IJSPEERT_2002_MOVEMENT" ∨ o.dmpType = "Ijs02"
    · rw [if_pos c1] at hd
      cases hd
      exact ⟨fun i _ => hexp 4 (by norm_num) (by norm_num), fun i _ => hexp 4 (by norm_num) (by norm_num),
        (fun _ h => nomatch h), (fun _ h => nomatch h)⟩
    rw [if_neg c1] at hd
    by_cases c2 : o.dmpType = "KULVICIUS_2012_JOINING" ∨ o.dmpType = "Kul12" ∨ o.dmpType = "COUNTDOWN_2013"
    · rw [if_pos c2] at hd
      cases hd
      refine ⟨trivial, fun i _ => ?_, ?_, (fun _ h => nomatch h)⟩
      · change dt * -(-Real.log ((((1 + Sigmoid.gatingD) / 0.1) - 1) / Sigmoid.gatingD) / tau) ≤ 1
        have := gating_rate_bound
        rw [neg_div, neg_neg, mul_div_assoc', div_le_one hτ]
        calc dt * _ ≤ dt * 17 := mul_le_mul_of_nonneg_left this h0.le
          _ ≤ tau / 17 * 17 := mul_le_mul_of_nonneg_right h1 (by norm_num)
          _ = tau := by ring
      · rintro g ⟨⟩
        exact fun i _ => hexp 15 (by norm_num) (by norm_num)
    rw [if_neg c2] at hd
    by_cases c3 : (isIn "2022" o.dmpType || isIn "SCT23" o.dmpType) = true
    · rw [if_pos c3] at hd
      cases hd
      have h2 := h2 c3
      refine ⟨trivial, fun i _ => ?_, ?_, ?_⟩
      · change dt * (10 / tau * max (10 : ℝ) 0.5) ≤ 1
        rw [max_eq_left (by norm_num)]
        have e : dt * (10 / tau * 10) = dt * 100 / tau := by ring
        rw [e, div_le_one hτ]
        linarith
      · intro g hg
        simp only at hg
        have e : dt * (10 / tau * max (1 : ℝ) 0.5) ≤ 1 := by
          rw [max_eq_left (by norm_num)]
          have e : dt * (10 / tau * 1) = dt * 10 / tau := by ring
          rw [e, div_le_one hτ]
          linarith
        cases hg
        by_cases c4 : isIn "NO_SCALING" o.dmpType = true
        · simp only [c4]
          exact fun i _ => e
        · have c4 : isIn "NO_SCALING" o.dmpType = false := by simpa using c4
          simp only [c4]
          exact fun i _ => e
      · intro g hg
        simp only at hg
        by_cases c4 : isIn "DAMPING" o.dmpType = true
        · rw [if_pos c4] at hg
          cases hg
          refine ⟨fun i _ => hexp 4 (by norm_num) (by norm_num), hτ, fun i hi => ⟨?_, ?_⟩⟩
          · change (0 : ℝ) < 4
            norm_num
          · change (full yInit.length o.alphaSpring).getD i 0 = _
            rw [full, getD_range_map hi]
        · rw [if_neg c4] at hg
          cases hg
    · rw [if_neg c3] at hd
      cases hd
  obtain ⟨a1, a2, a3, a4⟩ := hall
  refine ⟨h0, ?_, ?_, ?_, ?_, o.alphaSpring.at', ?_, ?_⟩
  · change (o.phase.getD dflt.phase).Fine 1 m dt
    rw [hph]
    exact a1
  · change (o.gating.getD dflt.gating).Fine 1 m dt
    rw [hgt]
    exact a2
  · intro g hg
    change o.goal.getD dflt.goal = some g at hg
    rw [hgn] at hg
    exact a3 g hg
  · intro g hg
    change o.damping.getD dflt.damping = some g at hg
    rw [hdp] at hg
    exact (a4 g hg).1
  · unfold DampsTo
    change match o.damping.getD dflt.damping with
      | none => _
      | some g => _
    rw [hdp]
    simp only [Option.getD_none]
    cases e : dflt.damping with
    | none =>
      intro j _
      change (o.transformation.getD _).damping.at' j = _
      rw [htr]
      rfl
    | some g => exact (a4 g e).2
  · intro j hj
    change StableStep m dt (_ / ((o.transformation.getD _).mass.at' j * (o.transformation.getD _).tau))
      ((o.transformation.getD _).spring.at' j / ((o.transformation.getD _).mass.at' j *
        (o.transformation.getD _).tau) * (1 / (o.transformation.getD _).tau))
    rw [htr]
    have key := stable_critical m h0 (hα j hj) hτ (h3 j hj)
    have hc : (SpringDamper.criticalSpring o.alphaSpring).at' j =
        o.alphaSpring.at' j * o.alphaSpring.at' j / 4 := by
      have hf := ho.alphaSpring
      cases e : o.alphaSpring with
      | scalar c => rfl
      | array l =>
        rw [e] at hf
        have hl : l.length = yInit.length := hf
        change (l.map fun d => d * d / 4).getD j 0 = _
        rw [getD_map' (by omega) 0 0]
        rfl
    rw [← hc] at key
    exact key

/-- C75, with numbers: directly after the constructor with default subsystems, steps of up to `tau / 17`
(for the dmp_types of 2022, `tau / 100`) that are shorter than `4 tau / alpha_spring_damper` let numerical
motions, from whatever positions and velocities, come to rest at the attractor, with either method. -/
theorem C75_step_length {tau : ℝ} {yInit yAttr : List ℝ} {fas : Option (List Fa)} {o : Options} {s : Dmp}
    (h : init tau yInit yAttr fas o = .ok s) (ha : yAttr.length = yInit.length)
    (ho : o.Fits yInit.length) (hg : DefaultSystems tau yInit yAttr o s)
    (hns : isIn "NO_SCALING" o.dmpType = true → ∀ j, j < yInit.length → yInit.getD j 0 ≠ yAttr.getD j 0)
    (m : Method) (dt : ℝ) (h0 : 0 < dt) (h1 : dt ≤ tau / 17)
    (h2 : (isIn "2022" o.dmpType || isIn "SCT23" o.dmpType) = true → dt ≤ tau / 100)
    (h3 : ∀ j, j < yInit.length → dt * o.alphaSpring.at' j < 4 * tau) :
    (∀ X u, Steps s m dt X u → StartsLike s (X 0) → Arrives yInit.length X yAttr) ∧
    ∀ ε, 0 < ε → ∃ N, ∀ ts rows, (∀ i, i + 1 < ts.length → ts.getD (i + 1) 0 - ts.getD i 0 = dt) →
      (integrate ts m s).1 = .ok rows → ∀ i, N ≤ i → i < rows.length → ∀ j, j < yInit.length →
      |(rows.getD i ([], [])).1.getD j 0 - yAttr.getD j 0| < ε ∧
      |(rows.getD i ([], [])).1.getD (yInit.length + j) 0| < ε := by
  have hs := (init_settles h ha ho hg hns).1
  have hf := init_fine h ho hg m h0 h1 h2 h3
  have hy : s.yAttr = yAttr := by
    obtain ⟨dflt, -, rfl⟩ := init_eq h
    rfl
  rw [← hy]
  exact ⟨fun X u hx hst => settles_arrives hs hf hx hst, fun ε hε => settles_integrate hs hf hε⟩

/-! ### The integration succeeds -/

section
variable {s : Dmp} (g : Good d s) (ht : ∀ x : List ℝ, x.length = 4 * d + 2 → ∃ xd, (diffEq x s).1 = .ok xd)
include g ht

theorem start_total (hs : s.CanScale) : ∃ xd, (integrateStart none s).1 = .ok (s.startX, xd) := by
  have w := g.wf
  have l0 : s.startX.length = 4 * d + 2 := by rw [← g.dim]; exact (startX_sizes w).length
  have e := scaleGoal_ok hs s.goalStart
  have l : (s.scaled s.goalStart).length = d := by rw [scaleGoal_length w (goalStart_length w) e, g.dim]
  obtain ⟨c1, g1⟩ := started_good g l
  obtain ⟨xd, hxd⟩ := ht _ l0
  have := (stable_diffEq l0 _ _ g1 g c1).1
  rw [hxd] at this
  refine ⟨xd, ?_⟩
  rw [integrateStart_run w, e]
  simp only
  rw [PyM.bind_apply]
  rcases e : diffEq s.startX (s.started (s.scaled s.goalStart)) with ⟨r, t⟩
  rw [e] at this
  simp only at this
  rw [this]
  rfl

theorem step_total (m : Method) (dt : ℝ) {x : List ℝ} (hx : x.length = 4 * d + 2) :
    ∃ r, (DynSys.step m dt x s).1 = .ok r ∧ r.1.length = 4 * d + 2 := by
  have call : ∀ (t : Dmp) (y : List ℝ), Good d t → t.core = s.core → y.length = 4 * d + 2 →
      ∃ k t', DynSys.diffEq y t = (.ok k, t') ∧ k.length = 4 * d + 2 ∧ Good d t' ∧ t'.core = s.core := by
    intro t y gt ct hy
    obtain ⟨e1, e2, e3⟩ := stable_diffEq hy t s gt g ct
    obtain ⟨k, hk⟩ := ht y hy
    rw [hk] at e1
    exact ⟨k, _, Prod.ext e1 rfl, vf_pack_length g hy hk, e3, e2.trans ct⟩
  have ne : ¬ x.length ≠ DynSys.dimX s := by
    change ¬ x.length ≠ s.dimX
    rw [good_length g]
    simp [hx]
  obtain ⟨k1, s1, p1, l1, g1, c1⟩ := call s x g rfl hx
  cases m with
  | euler =>
    refine ⟨(vadd x (vscale dt k1), k1), ?_, by simp [hx, l1]⟩
    change (DynSys.eulerStep dt x s).1 = _
    unfold DynSys.eulerStep
    rw [PyM.self_bind, if_neg ne, PyM.bind_ok p1]
    rfl
  | rungeKutta =>
    obtain ⟨k2, s2, p2, l2, g2, c2⟩ := call s1 (vadd x (vscale (dt * 0.5) k1)) g1 c1 (by simp [hx, l1])
    obtain ⟨k3, s3, p3, l3, g3, c3⟩ := call s2 (vadd x (vscale (dt * 0.5) k2)) g2 c2 (by simp [hx, l2])
    obtain ⟨k4, s4, p4, l4, g4, c4⟩ := call s3 (vadd x (vscale dt k3)) g3 c3 (by simp [hx, l3])
    have l5 : (vadd x (vdivs (vscale dt (vadd (vadd k1 (vscale 2 (vadd k2 k3))) k4)) 6)).length = 4 * d + 2 := by
      simp [hx, l1, l2, l3, l4]
    obtain ⟨k5, s5, p5, -, -, -⟩ := call s4 _ g4 c4 l5
    refine ⟨(_, k5), ?_, l5⟩
    change (DynSys.rungeKuttaStep dt x s).1 = _
    unfold DynSys.rungeKuttaStep
    rw [PyM.self_bind, if_neg ne, PyM.bind_ok p1, PyM.bind_ok p2, PyM.bind_ok p3, PyM.bind_ok p4]
    exact congrArg Prod.fst ((PyM.bind_ok p5).trans rfl)

theorem start_makes (hs : s.CanScale) (m : Method) (dt : ℝ) : ∃ X, Makes s m dt X := by
  have l0 : s.startX.length = 4 * d + 2 := by rw [← g.dim]; exact (startX_sizes g.wf).length
  have h0 := start_total g ht hs
  have hstep : ∀ x : List ℝ, x.length = 4 * d + 2 → ∃ r, (DynSys.step m dt x s).1 = .ok r ∧ r.1.length = 4 * d + 2 :=
    fun x hx => step_total g ht m dt hx
  choose! F hF lF using hstep
  let X : Nat → List ℝ := fun n => Nat.rec s.startX (fun _ x => (F x).1) n
  have lX : ∀ n, (X n).length = 4 * d + 2 := by
    intro n
    induction n with
    | zero => exact l0
    | succ n ih => exact lF _ ih
  exact ⟨X, h0, fun n => ⟨(F (X n)).2, hF _ (lX n)⟩⟩

end

/-- Without function approximators, and if scaling is possible, differential_equation succeeds. -/
theorem unforced_total {s : Dmp} (g : Good d s) (hs : s.CanScale) (hc : s.CanForce) (hf : s.fas = none)
    {x : List ℝ} (hx : x.length = 4 * d + 2) : ∃ xd, (diffEq x s).1 = .ok xd := by
  have w := g.wf
  obtain rfl := g.dim
  obtain ⟨y, z, gg, p, q, c, hz, rfl⟩ := exists_pack hx
  rw [diffEq_run w hz]
  have h1 : ∃ ga, s.springGoal gg = .ok ga := by
    unfold springGoal
    cases s.goal with
    | none => exact ⟨_, rfl⟩
    | some _ => exact ⟨_, scaleGoal_ok hs _⟩
  obtain ⟨ga, h1⟩ := h1
  have h2 : s.predictions p = .ok (List.replicate p.length (vzeros s.dimY)) := by
    unfold predictions
    rw [hf]
  have h3 : ∃ f, s.forcing p q = .ok f := by
    unfold forcing
    rw [h2, hz.p]
    exact ⟨_, scaleForcing_ok w hc (by simp [vzeros])⟩
  obtain ⟨f, h3⟩ := h3
  unfold vf
  rw [h1, h3]
  exact ⟨_, rfl⟩

/-- The hypotheses of C75 are met by the Dmp with the default subsystems, which makes such sequences with
either method and each step length. -/
theorem C75_example : ∃ s, init 1 [0] [1] none {} = .ok s ∧ Reachable DefaultScaled Change.Forward 1 s ∧
    (∀ m dt, ∃ X, Makes s m dt X) ∧ ∀ m X, Makes s m 0.05 X → Arrives 1 X [1] := by
  obtain ⟨s, hs, hr, -, -⟩ := C19_example_default
  have hst := kept_standard.reachable init_standard hr
  have g := hst.inv.good
  have hfas : s.fas = none := by
    obtain ⟨dflt, -, e⟩ := init_eq hs
    rw [e]
  have hsc : s.scaling = .noScaling := by
    obtain ⟨dflt, -, e⟩ := init_eq hs
    rw [e]
  have hreq : s.requiresScaling = false := by
    obtain ⟨dflt, hdf, e⟩ := init_eq hs
    unfold defaults at hdf
    simp only at hdf
    rw [if_neg (by decide), if_pos (by decide)] at hdf
    cases hdf
    rw [e]
  have hcs : s.CanScale := fun h => by rw [hreq] at h; cases h
  have hcf : s.CanForce := by
    unfold CanForce
    rw [hsc]
    trivial
  refine ⟨s, hs, hr, fun m dt => start_makes g (fun x hx => unforced_total g hcs hcf hfas hx) hcs m dt,
    fun m X hX => ?_⟩
  obtain ⟨⟨u, hu⟩, hst'⟩ := hX.steps g
  have hfit : Options.Fits {} 1 :=
    ⟨(fun _ h => nomatch h), trivial, (fun _ h => nomatch h),
      (fun _ h => nomatch h), (fun _ h => nomatch h), (fun _ h => nomatch h), (fun _ h => nomatch h)⟩
  refine (C75_step_length (o := {}) hs rfl hfit ⟨one_pos, fun j _ => ?_, rfl, rfl, rfl, rfl, rfl⟩
    (fun h => absurd h (by decide)) m 0.05 (by norm_num) (by norm_num) (fun h => absurd h (by decide))
    (fun j _ => ?_)).1 X u hu hst'
  · change (0 : ℝ) < 20
    norm_num
  · change (0.05 : ℝ) * 20 < 4 * 1
    norm_num

/-- Steps have to be small: with steps of Euler's method that are as long as the movement, a Dmp with the
subsystems of Ijspeert et al. and no forcing term does not arrive. -/
theorem C75_large_steps_fail : ∃ s, init 1 [0] [1] none { dmpType := "Ijs02" } = .ok s ∧
    Reachable DefaultScaled Change.Forward 1 s ∧ ∃ X, Makes s .euler 1 X ∧ ¬ Arrives 1 X s.yAttr := by
  obtain ⟨s, hs, hr, -, -⟩ := C19_example
  have hst := kept_standard.reachable init_standard hr
  have g := hst.inv.good
  have w := g.wf
  have hd : s.dimY = 1 := g.dim
  obtain ⟨dflt, hdf, e⟩ := init_eq hs
  unfold defaults at hdf
  simp only at hdf
  rw [if_pos (by decide)] at hdf
  cases hdf
  have hfas : s.fas = none := by rw [e]
  have hsc : s.scaling = .noScaling := by rw [e]
  have hreq : s.requiresScaling = false := by rw [e]
  have hgoal : s.goal = none := by rw [e]; rfl
  have hdamp : s.damping = none := by rw [e]; rfl
  have hyA : s.yAttr = [1] := by rw [e]
  have hspr : s.spring = SpringDamper.init 1 [0] [1] (.scalar 20) := by rw [e]; rfl
  have hcs : s.CanScale := fun h => by rw [hreq] at h; cases h
  have hcf : s.CanForce := by
    unfold CanForce
    rw [hsc]
    trivial
  obtain ⟨X, hX⟩ := start_makes g (fun x hx => unforced_total g hcs hcf hfas hx) hcs .euler 1
  refine ⟨s, hs, hr, X, hX, fun arr => ?_⟩
  obtain ⟨⟨u, hu⟩, -⟩ := hX.steps g
  -- the positions and velocities
  have stp : ∀ n, (X (n + 1)).getD 0 0 = (X n).getD 0 0 + (X n).getD 1 0 ∧
      (X (n + 1)).getD 1 0 = (X n).getD 1 0 + (-100 * ((X n).getD 0 0 - 1) - 20 * (X n).getD 1 0) := by
    intro n
    obtain ⟨k, hk, hm⟩ := hu.step n
    obtain ⟨ga, f, r1, r2, r3, r4, -⟩ := rates w (hu.lenStage n 0) (hk 0)
    obtain ⟨a0, -, -, -, a1⟩ := hm 0 (by rw [w.dimX]; omega)
    obtain ⟨b0, -, -, -, b1⟩ := hm 1 (by rw [w.dimX]; omega)
    have r3 := r3 0 (by omega)
    have r4 := r4 0 (by omega)
    rw [hd] at r3 r4
    have hf : f.getD 0 0 = 0 := by
      have := forcing_bound w (by rw [length_pick]; rfl) r2 (B := 0) (fun rows hrows row hrow v hv => by
        unfold predictions at hrows
        rw [hfas] at hrows
        injection hrows with hrows
        rw [← hrows] at hrow
        rw [List.eq_of_mem_replicate hrow] at hv
        rw [List.eq_of_mem_replicate hv, abs_zero]) (j := 0) (by omega)
      rw [mul_zero, zero_mul] at this
      exact abs_nonpos_iff.mp this
    have hga : ga = [1] := by
      unfold springGoal at r1
      rw [hgoal] at r1
      injection r1 with r1
      rw [← r1, hyA]
    have hda : (s.dampingAt (pickAt (u n 0) (DAMPING 1))).at' 0 = 20 := by
      unfold dampingAt
      rw [hdamp, hspr]
      rfl
    rw [hf, hga, hda] at r4
    rw [show s.spring.tau = 1 by rw [hspr]; rfl] at r3 r4
    rw [show s.spring.spring.at' 0 = 20 * 20 / 4 by rw [hspr]; rfl,
      show s.spring.mass.at' 0 = 1 by rw [hspr]; rfl] at r4
    simp only [smul_eq_mul] at a1 b1
    simp only at a0 b0
    rw [r3] at a1
    rw [r4] at b1
    rw [a0, b0] at b1
    rw [b0] at a1
    refine ⟨by rw [a1]; norm_num, ?_⟩
    rw [b1]
    change _ + 1 * ((-(20 * 20 / 4) * ((X n).getD 0 0 - 1) - 20 * (X n).getD 1 0) / (1 * 1) + 0 / s.tau) = _
    ring
  have start : (X 0).getD 0 0 = 0 ∧ (X 0).getD 1 0 = 0 := by
    obtain ⟨xd, h0⟩ := hX.start
    obtain ⟨e0, -⟩ := integrateStart_ok g h0
    have : s.startX = [0, 0, 1, 1, 1, 20] := by
      unfold startX goalStart dampingStart
      rw [hgoal, hdamp, hd, e]
      rfl
    rw [e0, this]
    exact ⟨rfl, rfl⟩
  -- a combination that grows
  have grow : ∀ n, 10 ≤ |(X n).getD 1 0 + 10 * ((X n).getD 0 0 - 1)| := by
    intro n
    induction n with
    | zero => rw [start.1, start.2]; norm_num
    | succ n ih =>
      obtain ⟨s1, s2⟩ := stp n
      have : (X (n + 1)).getD 1 0 + 10 * ((X (n + 1)).getD 0 0 - 1) =
          -9 * ((X n).getD 1 0 + 10 * ((X n).getD 0 0 - 1)) := by rw [s1, s2]; ring
      rw [this, abs_mul, show |(-9 : ℝ)| = 9 by norm_num]
      linarith
  obtain ⟨t1, t2⟩ := arr 0 one_pos
  rw [hyA] at t1
  have t3 : Tendsto (fun n => |(X n).getD 1 0 + 10 * ((X n).getD 0 0 - 1)|) atTop (𝓝 0) := by
    have := (t2.add ((t1.sub_const 1).const_mul 10)).abs
    simpa using this
  have := ge_of_tendsto' t3 grow
  norm_num at this

end Dmp

end Verif
