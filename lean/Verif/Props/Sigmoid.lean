import Verif.Model.Sigmoid
import Verif.Spec.Calculus
import Verif.Proofs.Integration
import Mathlib.Analysis.SpecialFunctions.ExpDeriv
import Mathlib.Analysis.SpecialFunctions.Log.Basic
import Mathlib.Analysis.Calculus.Deriv.Inv

/- C07, C08, C09: the sigmoid system. -/

set_option autoImplicit false

namespace Verif

open Spec Filter

namespace Sigmoid

/-- The carrying capacities computed from the current parameters. -/
noncomputable def ksNow (s : Sigmoid) : List ℝ := (List.range s.xInit.length).map s.kComp

/-- The cache is empty or up to date. -/
def Coherent (s : Sigmoid) : Prop := s.ksCached = none ∨ s.ksCached = some s.ksNow

theorem kComp_congr {s s' : Sigmoid} (h1 : s.tau = s'.tau) (h2 : s.xInit = s'.xInit)
    (h3 : s.maxRate = s'.maxRate) (h4 : s.inflRatio = s'.inflRatio) : s.kComp = s'.kComp := by
  funext i; simp [kComp, h1, h2, h3, h4]

/-- The object after computing the carrying capacities. -/
noncomputable def filled (s : Sigmoid) : Sigmoid := { s with ksCached := some s.ksNow }

theorem getKs_run {s : Sigmoid} (h : s.Coherent) : getKs s = (.ok s.ksNow, s.filled) := by
  unfold getKs
  rw [PyM.self_bind]
  rcases h with h | h
  · rw [h]; rfl
  · have : s.filled = s := by
      unfold filled; rw [← h]
    rw [this, h]
    rfl

theorem diffEq_run {s : Sigmoid} (h : s.Coherent) (x : List ℝ) :
    diffEq x s = (.ok (rate s.maxRate x s.ksNow), s.filled) := by
  unfold diffEq
  rw [PyM.bind_ok (getKs_run h)]
  rfl

theorem analytical_run {s : Sigmoid} (h : s.Coherent) (ts : List ℝ) :
    analytical ts s = (.ok (ts.map (fun t => (List.range s.dimX).map (s.xComp s.ksNow t)),
      ts.map (fun t => (List.range s.dimX).map (s.xdComp s.ksNow t))), s.filled) := by
  unfold analytical
  rw [PyM.bind_ok (getKs_run h)]
  rfl

theorem filled_coherent (s : Sigmoid) : s.filled.Coherent := .inr rfl

/-! ### C08: the cache -/

/-- The calls a user can make on a SigmoidSystem. -/
inductive Op
  | setTau (tau : ℝ)
  | setXInit (x : List ℝ)
  | setYInit (y : List ℝ)
  | decouple
  | queryDiff (x : List ℝ)
  | queryAnalytical (ts : List ℝ)

/-- What a call returns to the user. -/
inductive Out
  | done
  | raised (e : PyErr)
  | rate (xd : List ℝ)
  | solution (xs xds : List (List ℝ))

/-- Result of a call on the modelled object. -/
noncomputable def exec (op : Op) (s : Sigmoid) : Out × Sigmoid :=
  match op with
  | .setTau tau => match setTau tau s with
    | (.ok _, s') => (.done, s')
    | (.error e, s') => (.raised e, s')
  | .setXInit x => match setXInit x s with
    | (.ok _, s') => (.done, s')
    | (.error e, s') => (.raised e, s')
  | .setYInit y => match setYInit y s with
    | (.ok _, s') => (.done, s')
    | (.error e, s') => (.raised e, s')
  | .decouple => match decouple s with
    | (.ok _, s') => (.done, s')
    | (.error e, s') => (.raised e, s')
  | .queryDiff x => match diffEq x s with
    | (.ok xd, s') => (.rate xd, s')
    | (.error e, s') => (.raised e, s')
  | .queryAnalytical ts => match analytical ts s with
    | (.ok r, s') => (.solution r.1 r.2, s')
    | (.error e, s') => (.raised e, s')

/-- Specification: the user-visible parameters only. -/
structure Params where
  tau : ℝ
  xInit : List ℝ
  maxRate : Par ℝ
  inflRatio : Par ℝ

/-- Specification: a system without memory.  Setters change a parameter (initial states of another
size are refused); a query is answered by a system newly constructed from the current parameters. -/
noncomputable def Params.exec (op : Op) (p : Params) : Out × Params :=
  match op with
  | .setTau tau => (.done, { p with tau := tau })
  | .setXInit x =>
    if x.length = p.xInit.length then (.done, { p with xInit := x }) else (.raised .valueError, p)
  | .setYInit y =>
    if y.length = p.xInit.length then (.done, { p with xInit := y }) else (.raised .valueError, p)
  | .decouple => (.done, { p with
      maxRate := match p.maxRate with
        | .scalar c => .array (List.replicate p.xInit.length c)
        | .array l => .array l
      inflRatio := match p.inflRatio with
        | .scalar c => .array (List.replicate p.xInit.length c)
        | .array l => .array l })
  | .queryDiff x =>
    match (diffEq x (init p.tau p.xInit p.maxRate p.inflRatio)).1 with
    | .ok xd => (.rate xd, p)
    | .error e => (.raised e, p)
  | .queryAnalytical ts =>
    match (analytical ts (init p.tau p.xInit p.maxRate p.inflRatio)).1 with
    | .ok r => (.solution r.1 r.2, p)
    | .error e => (.raised e, p)

/-- Outputs of a sequence of calls on the object. -/
noncomputable def outputs (s : Sigmoid) : List Op → List Out
  | [] => []
  | op :: ops => (exec op s).1 :: outputs (exec op s).2 ops

/-- Outputs of a sequence of calls on the specification. -/
noncomputable def Params.outputs (p : Params) : List Op → List Out
  | [] => []
  | op :: ops => (p.exec op).1 :: Params.outputs (p.exec op).2 ops

/-- The object represents the parameters. -/
structure Represents (s : Sigmoid) (p : Params) : Prop where
  coherent : s.Coherent
  tau : s.tau = p.tau
  xInit : s.xInit = p.xInit
  maxRate : s.maxRate = p.maxRate
  inflRatio : s.inflRatio = p.inflRatio
  dimX : s.dimX = p.xInit.length

theorem init_coherent (tau : ℝ) (x : List ℝ) (r i : Par ℝ) : (init tau x r i).Coherent := .inl rfl

theorem Represents.ksNow {s : Sigmoid} {p : Params} (h : Represents s p) :
    s.ksNow = (init p.tau p.xInit p.maxRate p.inflRatio).ksNow := by
  unfold Sigmoid.ksNow
  rw [kComp_congr (s' := init p.tau p.xInit p.maxRate p.inflRatio) h.tau h.xInit h.maxRate
    h.inflRatio, h.xInit]
  rfl

theorem exec_represents {s : Sigmoid} {p : Params} (h : Represents s p) (op : Op) :
    (exec op s).1 = (p.exec op).1 ∧ Represents (exec op s).2 (p.exec op).2 := by
  cases op with
  | setTau tau => exact ⟨rfl, .inl rfl, rfl, h.xInit, h.maxRate, h.inflRatio, h.dimX⟩
  | setXInit x =>
    by_cases hx : x.length = p.xInit.length
    · simp only [exec, setXInit, PyM.self_bind, h.dimX, hx, Params.exec, ne_eq, not_true_eq_false,
        if_false, if_true, PyM.modify_apply]
      exact ⟨trivial, .inl rfl, h.tau, rfl, h.maxRate, h.inflRatio, by simp [hx]⟩
    · simp only [exec, setXInit, PyM.self_bind, h.dimX, hx, Params.exec, ne_eq, not_false_eq_true,
        if_false, if_true, PyM.raise_apply]
      exact ⟨trivial, h⟩
  | setYInit x =>
    by_cases hx : x.length = p.xInit.length
    · simp only [exec, setYInit, PyM.bind_apply, setXInit, h.dimX, hx, Params.exec,
        ne_eq, not_true_eq_false, if_false, if_true, PyM.modify_apply, PyM.self_apply]
      exact ⟨trivial, .inl rfl, h.tau, rfl, h.maxRate, h.inflRatio, by simp [hx]⟩
    · simp only [exec, setYInit, PyM.bind_apply, setXInit, h.dimX, hx, Params.exec,
        ne_eq, not_false_eq_true, if_false, if_true, PyM.raise_apply, PyM.self_apply]
      exact ⟨trivial, h⟩
  | decouple =>
    refine ⟨rfl, .inl rfl, h.tau, h.xInit, ?_, ?_, h.dimX⟩
    · show s.maxRate.decouple s.dimX = _
      rw [h.maxRate, h.dimX]; cases hp : p.maxRate <;> simp [Par.decouple, Params.exec, hp]
    · show s.inflRatio.decouple s.dimX = _
      rw [h.inflRatio, h.dimX]; cases hp : p.inflRatio <;> simp [Par.decouple, Params.exec, hp]
  | queryDiff x =>
    simp only [exec, Params.exec, diffEq_run h.coherent, diffEq_run (init_coherent _ _ _ _)]
    rw [h.maxRate, h.ksNow]
    exact ⟨rfl, filled_coherent s, h.tau, h.xInit, h.maxRate, h.inflRatio, h.dimX⟩
  | queryAnalytical ts =>
    simp only [exec, Params.exec, analytical_run h.coherent, analytical_run (init_coherent _ _ _ _)]
    refine ⟨?_, filled_coherent s, h.tau, h.xInit, h.maxRate, h.inflRatio, h.dimX⟩
    rw [h.ksNow, h.dimX]
    have e1 : s.xComp = (init p.tau p.xInit p.maxRate p.inflRatio).xComp := by
      funext a b c; simp [xComp, h.maxRate, h.xInit, init]
    have e2 : s.xdComp = (init p.tau p.xInit p.maxRate p.inflRatio).xdComp := by
      funext a b c; simp [xdComp, h.maxRate, h.xInit, init]
    rw [e1, e2]
    rfl

theorem outputs_represents (ops : List Op) : ∀ {s : Sigmoid} {p : Params}, Represents s p →
    outputs s ops = p.outputs ops := by
  induction ops with
  | nil => intros; rfl
  | cons op ops ih =>
    intro s p h
    obtain ⟨h1, h2⟩ := exec_represents h op
    simp only [outputs, Params.outputs, h1, ih h2]

/-- C08: for every sequence of calls after construction, everything returned to the user is what a
system without cache returns, in which each query is answered by a newly constructed system. -/
theorem C08_cache_never_stale (tau : ℝ) (x : List ℝ) (r infl : Par ℝ) (ops : List Op) :
    outputs (init tau x r infl) ops = Params.outputs ⟨tau, x, r, infl⟩ ops :=
  outputs_represents ops ⟨.inl rfl, rfl, rfl, rfl, rfl, rfl⟩

/-- The queries do give non-trivial answers (here: after setting tau, which changes them). -/
example : ∃ xd, outputs (init 1 [1] (.scalar (-5)) (.scalar 0.5))
    [.queryDiff [1], .setTau 2, .queryDiff [1]] = [.rate xd, .done,
      .rate [-5 * 1 * (1 - 1 / (1 * (1 + 1 / Real.exp (-(-5) * (2 * 0.5)))))]] := by
  rw [C08_cache_never_stale]
  simp only [Params.outputs, Params.exec, diffEq_run (init_coherent _ _ _ _)]
  exact ⟨_, rfl⟩

/-- Objects that can be obtained by construction followed by any sequence of calls. -/
def Reachable (s : Sigmoid) : Prop :=
  ∃ (tau : ℝ) (x : List ℝ) (r infl : Par ℝ) (ops : List Op),
    r.Fits x.length ∧ infl.Fits x.length ∧
    s = ops.foldl (fun s op => (exec op s).2) (init tau x r infl)

theorem exec_wf {s : Sigmoid} (h : s.Wf ∧ s.Coherent) (op : Op) :
    (exec op s).2.Wf ∧ (exec op s).2.Coherent := by
  obtain ⟨hw, hc⟩ := h
  have hr : Represents s ⟨s.tau, s.xInit, s.maxRate, s.inflRatio⟩ :=
    ⟨hc, rfl, rfl, rfl, rfl, hw.xInit.symm⟩
  refine ⟨?_, (exec_represents hr op).2.coherent⟩
  cases op with
  | setTau tau => exact ⟨hw.dim, hw.xInit, hw.maxRate, hw.inflRatio⟩
  | setXInit x =>
    by_cases hx : x.length = s.dimX
    · simp only [exec, setXInit, PyM.self_bind, hx, ne_eq, not_true_eq_false,
        if_false, PyM.modify_apply]
      exact ⟨hw.dim, hx, hw.maxRate, hw.inflRatio⟩
    · simp only [exec, setXInit, PyM.self_bind, hx, ne_eq, not_false_eq_true,
        if_true, PyM.raise_apply]
      exact hw
  | setYInit x =>
    by_cases hx : x.length = s.dimX
    · simp only [exec, setYInit, PyM.bind_apply, setXInit, PyM.self_apply, hx, ne_eq,
        not_true_eq_false, if_false, PyM.modify_apply]
      exact ⟨hw.dim, hx, hw.maxRate, hw.inflRatio⟩
    · simp only [exec, setYInit, PyM.bind_apply, setXInit, PyM.self_apply, hx, ne_eq,
        not_false_eq_true, if_true, PyM.raise_apply]
      exact hw
  | decouple =>
    exact ⟨hw.dim, hw.xInit, Par.fits_decouple hw.maxRate, Par.fits_decouple hw.inflRatio⟩
  | queryDiff x =>
    simp only [exec, diffEq_run hc]
    exact ⟨hw.dim, hw.xInit, hw.maxRate, hw.inflRatio⟩
  | queryAnalytical x =>
    simp only [exec, analytical_run hc]
    exact ⟨hw.dim, hw.xInit, hw.maxRate, hw.inflRatio⟩

theorem Reachable.wf {s : Sigmoid} (h : Reachable s) : s.Wf ∧ s.Coherent := by
  obtain ⟨tau, x, r, infl, ops, hr, hi, rfl⟩ := h
  have h0 : (init tau x r infl).Wf ∧ (init tau x r infl).Coherent :=
    ⟨⟨rfl, rfl, hr, hi⟩, .inl rfl⟩
  generalize init tau x r infl = s at h0
  induction ops generalizing s with
  | nil => exact h0
  | cons op ops ih => exact ih _ (exec_wf h0 op)

/-! ### C07: the solution -/

theorem kComp_pos {s : Sigmoid} {i : Nat} (h : 0 < s.xInit.getD i 0) : 0 < s.kComp i := by
  unfold kComp; positivity

/-- `b = K/N0 - 1 = exp(r * t_infl)`. -/
theorem coefB_eq {s : Sigmoid} {i : Nat} (h : 0 < s.xInit.getD i 0) :
    s.kComp i / s.xInit.getD i 0 - 1 =
      Real.exp (s.maxRate.at' i * (s.tau * s.inflRatio.at' i)) := by
  unfold kComp
  simp only
  rw [mul_div_assoc, mul_comm, div_mul_cancel₀ _ h.ne', add_sub_cancel_left, one_div,
    ← Real.exp_neg]
  congr 1; ring

theorem getD_ksNow {s : Sigmoid} {i : Nat} (hi : i < s.xInit.length) :
    s.ksNow.getD i 0 = s.kComp i := getD_range_map hi 0

/-- Row of `xs` at time `t`. -/
noncomputable def xAt (s : Sigmoid) (t : ℝ) : List ℝ :=
  (List.range s.dimX).map (s.xComp s.ksNow t)
/-- Row of `xds` at time `t`. -/
noncomputable def xdAt (s : Sigmoid) (t : ℝ) : List ℝ :=
  (List.range s.dimX).map (s.xdComp s.ksNow t)

/-- Closed form of component `i`. -/
theorem xAt_getD {s : Sigmoid} (hw : s.Wf) {i : Nat} (hi : i < s.dimX)
    (h : 0 < s.xInit.getD i 0) (t : ℝ) :
    (s.xAt t).getD i 0 = s.kComp i /
      (1 + Real.exp (s.maxRate.at' i * (s.tau * s.inflRatio.at' i - t))) := by
  rw [xAt, getD_range_map hi]
  unfold xComp
  simp only
  rw [getD_ksNow (by rw [hw.xInit]; exact hi), coefB_eq h, ← Real.exp_add]
  congr 3; ring

theorem xdAt_getD {s : Sigmoid} (hw : s.Wf) {i : Nat} (hi : i < s.dimX)
    (h : 0 < s.xInit.getD i 0) (t : ℝ) :
    (s.xdAt t).getD i 0 = s.kComp i * s.maxRate.at' i *
      Real.exp (s.maxRate.at' i * (s.tau * s.inflRatio.at' i - t)) /
      (1 + Real.exp (s.maxRate.at' i * (s.tau * s.inflRatio.at' i - t))) ^ 2 := by
  rw [xdAt, getD_range_map hi]
  unfold xdComp
  simp only
  rw [getD_ksNow (by rw [hw.xInit]; exact hi), coefB_eq h]
  have e : Real.exp (s.maxRate.at' i * (s.tau * s.inflRatio.at' i - t)) =
      Real.exp (s.maxRate.at' i * (s.tau * s.inflRatio.at' i)) *
        Real.exp (-s.maxRate.at' i * t) := by
    rw [← Real.exp_add]; congr 1; ring
  rw [e]
  ring

theorem rate_length {s : Sigmoid} (hw : s.Wf) {x : List ℝ} (hx : x.length = s.dimX) :
    (rate s.maxRate x s.ksNow).length = s.dimX := by
  have hf : s.maxRate.Fits x.length := by rw [hx]; exact hw.maxRate
  simp [rate, Par.length_mul hf, hx, ksNow, hw.xInit]

theorem rate_getD {s : Sigmoid} (hw : s.Wf) {x : List ℝ} (hx : x.length = s.dimX)
    {i : Nat} (hi : i < s.dimX) :
    (rate s.maxRate x s.ksNow).getD i 0 =
      s.maxRate.at' i * x.getD i 0 * (1 - x.getD i 0 / s.kComp i) := by
  have hf : s.maxRate.Fits x.length := by rw [hx]; exact hw.maxRate
  have hk : s.ksNow.length = s.dimX := by simp [ksNow, hw.xInit]
  rw [rate, getD_vmul (by rw [Par.length_mul hf]; omega) (by simp [hx, hk]; omega),
    Par.getD_mul hf (by omega), getD_map' (by simp [hx, hk]; omega) 0 0,
    getD_vdiv (by omega) (by omega), getD_ksNow (by rw [hw.xInit]; exact hi)]

theorem solves {s : Sigmoid} (hw : s.Wf) (hpos : ∀ i < s.dimX, 0 < s.xInit.getD i 0) :
    Solves (fun x => rate s.maxRate x s.ksNow) s.xInit s.xAt s.xdAt where
  start := by
    apply ext_getD 0 (by simp [xAt, hw.xInit])
    intro i hi
    have hi : i < s.dimX := by simpa [xAt] using hi
    have h0 := hpos i hi
    rw [xAt, getD_range_map hi]
    unfold xComp
    simp only
    rw [getD_ksNow (by rw [hw.xInit]; exact hi)]
    have := kComp_pos h0
    simp only [mul_zero, Real.exp_zero, mul_one, add_sub_cancel]
    field_simp
  deriv := by
    intro t _
    refine ⟨fun u => by simp [xAt, xdAt], fun i hi => ?_⟩
    have hi : i < s.dimX := by simpa [xdAt] using hi
    have h0 := hpos i hi
    rw [xdAt_getD hw hi h0]
    have : (fun u => (s.xAt u).getD i 0) = fun u => s.kComp i /
      (1 + Real.exp (s.maxRate.at' i * (s.tau * s.inflRatio.at' i - u))) :=
      funext fun u => xAt_getD hw hi h0 u
    rw [this]
    set r := s.maxRate.at' i
    set c := s.tau * s.inflRatio.at' i
    have h1 : HasDerivAt (fun u : ℝ => r * (c - u)) (-r) t := by
      simpa using ((hasDerivAt_id t).const_sub c).const_mul r
    have h2 := (h1.exp).const_add 1
    have hne : 1 + Real.exp (r * (c - t)) ≠ 0 := by positivity
    have h3 := HasDerivAt.fun_div (hasDerivAt_const t (s.kComp i)) h2 hne
    exact h3.congr_deriv (by ring)
  ode := by
    intro t _
    have hl : (s.xAt t).length = s.dimX := by simp [xAt]
    apply ext_getD 0 (by rw [rate_length hw hl]; simp [xdAt])
    intro i hi
    have hi : i < s.dimX := by simpa [xdAt] using hi
    have h0 := hpos i hi
    have hk := kComp_pos h0
    rw [xdAt_getD hw hi h0, rate_getD hw hl hi, xAt_getD hw hi h0]
    have := Real.exp_pos (s.maxRate.at' i * (s.tau * s.inflRatio.at' i - t))
    field_simp
    ring

/-- C07: in any reachable state with positive initial state, `differential_equation` is a function
`F` of its argument and `analytical_solution` is the motion of `F` from the initial state.  `F` is
the logistic law with the same positive carrying capacities `K` in all queries. -/
theorem C07_analytical_is_motion {s : Sigmoid} (hr : Reachable s)
    (hpos : ∀ i < s.dimX, 0 < s.xInit.getD i 0) :
    ∃ (F : List ℝ → List ℝ) (x xd : ℝ → List ℝ) (K : Nat → ℝ),
      (∀ y, (diffEq y s).1 = .ok (F y)) ∧
      (∀ ts, (analytical ts s).1 = .ok (ts.map x, ts.map xd)) ∧
      Solves F s.xInit x xd ∧
      (∀ y, y.length = s.dimX → ∀ i < s.dimX, 0 < K i ∧
        (F y).getD i 0 = s.maxRate.at' i * y.getD i 0 * (1 - y.getD i 0 / K i)) ∧
      (∀ i < s.dimX, (x (s.inflRatio.at' i * s.tau)).getD i 0 = K i / 2) ∧
      (∀ i < s.dimX, ∀ t, |(xd t).getD i 0| ≤ |(xd (s.inflRatio.at' i * s.tau)).getD i 0|) := by
  obtain ⟨hw, hc⟩ := hr.wf
  refine ⟨fun x => rate s.maxRate x s.ksNow, s.xAt, s.xdAt, s.kComp, fun y => by rw [diffEq_run hc],
    fun ts => by rw [analytical_run hc]; rfl, solves hw hpos, fun y hy i hi =>
      ⟨kComp_pos (hpos i hi), rate_getD hw hy hi⟩, fun i hi => ?_, fun i hi t => ?_⟩
  · rw [xAt_getD hw hi (hpos i hi)]
    rw [show s.maxRate.at' i * (s.tau * s.inflRatio.at' i - s.inflRatio.at' i * s.tau) = 0 by ring]
    rw [Real.exp_zero]; norm_num
  · rw [xdAt_getD hw hi (hpos i hi), xdAt_getD hw hi (hpos i hi)]
    rw [show s.maxRate.at' i * (s.tau * s.inflRatio.at' i - s.inflRatio.at' i * s.tau) = 0 by ring]
    rw [Real.exp_zero]
    set e := Real.exp (s.maxRate.at' i * (s.tau * s.inflRatio.at' i - t))
    have he : 0 < e := Real.exp_pos _
    rw [mul_div_assoc, mul_div_assoc, abs_mul, abs_mul (s.kComp i * s.maxRate.at' i) (1 / (1 + 1) ^ 2)]
    apply mul_le_mul_of_nonneg_left _ (abs_nonneg _)
    rw [abs_of_pos (by positivity), abs_of_pos (by norm_num)]
    rw [div_le_div_iff₀ (by positivity) (by norm_num)]
    nlinarith [sq_nonneg (e - 1)]

/-- A reachable two-dimensional system with positive initial state (after setting tau and a query). -/
example : ∃ s : Sigmoid, Reachable s ∧ s.tau = 3 ∧ ∀ i < s.dimX, 0 < s.xInit.getD i 0 := by
  refine ⟨_, ⟨1, [1, 2], .scalar (-20), .array [0.9, 0.5], [.setTau 3, .queryDiff [1, 1]], trivial,
    rfl, rfl⟩, ?_, ?_⟩
  · simp only [List.foldl, exec, setTau, PyM.modify_apply]
    rw [diffEq_run (.inl rfl)]; rfl
  · simp only [List.foldl, exec, setTau, PyM.modify_apply]
    rw [diffEq_run (.inl rfl)]
    intro i hi
    have : i < 2 := hi
    have : i = 0 ∨ i = 1 := by omega
    rcases this with rfl | rfl <;> norm_num [filled, init]

/-- The sigmoid system meets the hypothesis of the C12 theorems. -/
theorem realises (s : Sigmoid) (h : s.Wf) (hc : s.Coherent) :
    DynSys.Realises (fun s' => s' = s ∨ s' = s.filled) s.dimX s.xInit
      (fun x => rate s.maxRate x s.ksNow) where
  dim := by rintro _ (rfl | rfl) <;> rfl
  init := by rintro _ (rfl | rfl) <;> rfl
  initLen := h.xInit
  diff := by
    rintro _ x (rfl | rfl) _
    · exact ⟨_, diffEq_run hc x, .inr rfl⟩
    · exact ⟨_, diffEq_run (filled_coherent s) x, .inr rfl⟩
  len := fun _ hx => rate_length h hx

/-! ### C09: gating -/

theorem forGating_wf (tau ratio : ℝ) (n : Nat) : (forGating tau ratio n).Wf :=
  ⟨rfl, rfl, trivial, trivial⟩

theorem gating_form (tau ratio : ℝ) (n : Nat) (hτ : 0 < tau) (h0 : 0 < ratio) (h1 : ratio < 1) {i : Nat}
    (hi : i < n) (t : ℝ) : ((forGating tau ratio n).xAt t).getD i 0 =
      (1 + gatingD) / (1 + gatingD *
        Real.exp (t / tau * Real.log ((((1 + gatingD) / ratio) - 1) / gatingD))) := by
  set s := forGating tau ratio n with hs
  have hw : s.Wf := forGating_wf tau ratio n
  have hdim : s.dimX = n := by simp [hs, forGating, init]
  have hinit : s.xInit = List.replicate n 1 := rfl
  have hpos : ∀ i < s.dimX, 0 < s.xInit.getD i 0 := by
    intro i hi
    rw [hinit, getD_replicate' (by omega)]; exact one_pos
  have hd : (0 : ℝ) < gatingD := by norm_num [gatingD]
  -- the rate
  set R := -Real.log ((((1 + gatingD) / ratio) - 1) / gatingD) / tau with hR
  have hRr : s.maxRate = .scalar R := rfl
  have harg : 1 < (((1 + gatingD) / ratio) - 1) / gatingD := by
    rw [lt_div_iff₀ hd, one_mul]
    have : 1 + gatingD < (1 + gatingD) / ratio := by
      rw [lt_div_iff₀ h0]; nlinarith
    linarith
  have hRneg : R < 0 := by
    have := Real.log_pos harg
    rw [hR]
    exact div_neg_of_neg_of_pos (by linarith) hτ
  have hinfl : s.inflRatio = .scalar (-Real.log (1 / gatingD) / R / tau) := rfl
  have htau : s.tau = tau := rfl
  have hexpc : Real.exp (R * (tau * (-Real.log (1 / gatingD) / R / tau))) = gatingD := by
    have : R * (tau * (-Real.log (1 / gatingD) / R / tau)) = Real.log gatingD := by
      rw [one_div, Real.log_inv]
      have := hRneg.ne
      field_simp
    rw [this, Real.exp_log hd]
  have hi' : i < s.dimX := by omega
  rw [xAt_getD hw hi' (hpos i hi')]
  have hk : s.kComp i = 1 + gatingD := by
    have hb := coefB_eq (hpos i hi')
    rw [hRr, hinfl, htau] at hb
    simp only [Par.at'_scalar] at hb
    rw [hexpc, hinit, getD_replicate' hi] at hb
    linarith
  rw [hk, hRr, hinfl, htau]
  simp only [Par.at'_scalar]
  rw [mul_sub, sub_eq_add_neg, Real.exp_add, hexpc, hR]
  congr 4
  ring

/-- C09: the curve of the gating system. -/
theorem C09_curve (tau ratio : ℝ) (n : Nat) (hτ : 0 < tau) (h0 : 0 < ratio) (h1 : ratio < 1) (ts : List ℝ) :
    ∃ xds, (analytical ts (forGating tau ratio n)).1 = .ok (ts.map (fun t => List.replicate n
      ((1 + 1 / 10 ^ 6) / (1 + 1 / 10 ^ 6 *
        Real.exp (t / tau * Real.log (((1 + 1 / 10 ^ 6) / ratio - 1) * 10 ^ 6))))), xds) := by
  have hg : gatingD = 1 / 10 ^ 6 := by norm_num [gatingD]
  refine ⟨ts.map (forGating tau ratio n).xdAt, ?_⟩
  rw [analytical_run (.inl rfl)]
  change Except.ok (ts.map (forGating tau ratio n).xAt, _) = _
  congr 2
  refine List.map_congr_left fun t _ => ?_
  have hl : ((forGating tau ratio n).xAt t).length = n := by simp [xAt, forGating, init]
  apply ext_getD 0 (by simp [hl])
  intro i hi
  rw [hl] at hi
  rw [gating_form tau ratio n hτ h0 h1 hi, getD_replicate' hi, hg, div_div_eq_mul_div, div_one]

/-- C09: the gating system starts at 1, has the value `ratio` at `tau`, is strictly decreasing,
stays in (0,1] for nonnegative times and tends to 0, in each of the `n` dimensions. -/
theorem C09_gating (tau ratio : ℝ) (n : Nat) (hτ : 0 < tau) (h0 : 0 < ratio) (h1 : ratio < 1) :
    ∃ x xd : ℝ → List ℝ,
      (∀ ts, (analytical ts (forGating tau ratio n)).1 = .ok (ts.map x, ts.map xd)) ∧
      (∀ t, (x t).length = n) ∧ x 0 = List.replicate n 1 ∧ x tau = List.replicate n ratio ∧
      ∀ i < n, StrictAnti (fun t => (x t).getD i 0) ∧
        (∀ t, 0 ≤ t → 0 < (x t).getD i 0 ∧ (x t).getD i 0 ≤ 1) ∧
        Tendsto (fun t => (x t).getD i 0) atTop (nhds 0) := by
  set s := forGating tau ratio n with hs
  have hw : s.Wf := forGating_wf tau ratio n
  have hdim : s.dimX = n := by simp [hs, forGating, init]
  have hinit : s.xInit = List.replicate n 1 := rfl
  have hpos : ∀ i < s.dimX, 0 < s.xInit.getD i 0 := by
    intro i hi
    rw [hinit, getD_replicate' (by omega)]; exact one_pos
  have hsol := solves hw hpos
  have hd : (0 : ℝ) < gatingD := by norm_num [gatingD]
  have hd1 : gatingD < 1 := by norm_num [gatingD]
  -- the rate
  set R := -Real.log ((((1 + gatingD) / ratio) - 1) / gatingD) / tau with hR
  have harg : 1 < (((1 + gatingD) / ratio) - 1) / gatingD := by
    rw [lt_div_iff₀ hd, one_mul]
    have : 1 + gatingD < (1 + gatingD) / ratio := by
      rw [lt_div_iff₀ h0]; nlinarith
    linarith
  have hRneg : R < 0 := by
    have := Real.log_pos harg
    rw [hR]
    exact div_neg_of_neg_of_pos (by linarith) hτ
  have hform : ∀ i < n, ∀ t, (s.xAt t).getD i 0 =
      (1 + gatingD) / (1 + gatingD * Real.exp (-R * t)) := by
    intro i hi t
    rw [gating_form tau ratio n hτ h0 h1 hi, hR]
    congr 4
    ring
  refine ⟨s.xAt, s.xdAt, fun ts => by rw [analytical_run (.inl rfl)]; rfl,
    fun t => by simp [xAt, hdim], hsol.start, ?_, fun i hi => ⟨?_, ?_, ?_⟩⟩
  · apply ext_getD 0 (by simp [xAt, hdim])
    intro i hi
    have hi : i < n := by simpa [xAt, hdim] using hi
    rw [hform i hi, getD_replicate' hi]
    have : Real.exp (-R * tau) = (((1 + gatingD) / ratio) - 1) / gatingD := by
      rw [hR]
      rw [show -(-Real.log ((((1 + gatingD) / ratio) - 1) / gatingD) / tau) * tau =
        Real.log ((((1 + gatingD) / ratio) - 1) / gatingD) by field_simp]
      exact Real.exp_log (by linarith)
    rw [this]
    field_simp
    rw [add_sub_cancel, div_self (by linarith)]
  · intro a b hab
    simp only [hform i hi]
    have h2 : Real.exp (-R * a) < Real.exp (-R * b) := Real.exp_lt_exp.mpr (by nlinarith)
    have h3 := Real.exp_pos (-R * a)
    apply div_lt_div_of_pos_left (by linarith) (by positivity)
    nlinarith
  · intro t ht
    rw [hform i hi]
    have h2 : 1 ≤ Real.exp (-R * t) := Real.one_le_exp (by nlinarith)
    constructor
    · positivity
    · rw [div_le_one (by positivity)]; nlinarith
  · have h2 : Tendsto (fun t : ℝ => 1 + gatingD * Real.exp (-R * t)) atTop atTop := by
      apply tendsto_atTop_add_const_left
      apply Tendsto.const_mul_atTop hd
      exact Real.tendsto_exp_atTop.comp (tendsto_id.const_mul_atTop (by linarith))
    have h3 := h2.const_div_atTop (1 + gatingD)
    exact h3.congr fun t => (hform i hi t).symm

/-- The default gating parameters. -/
example : (0 : ℝ) < 1 ∧ (0 : ℝ) < 0.1 ∧ (0.1 : ℝ) < 1 := by norm_num

end Sigmoid

end Verif
