import Verif.Model.TimeSystem
import Verif.Spec.Calculus
import Verif.Proofs.Integration
import Verif.Props.Integrate
import Mathlib.Analysis.Calculus.Deriv.Mul
import Mathlib.Tactic.Positivity
import Mathlib.Tactic.IntervalCases

/- C03, C04: the time system (phase variable). -/

set_option autoImplicit false

namespace Verif

open Spec

namespace TimeSystem

/-- Objects that can be obtained by constructing a TimeSystem, and then setting tau and the count
direction any number of times. -/
inductive Reachable : TimeSystem → Prop
  | init (tau : ℝ) (down : Bool) : Reachable (init tau down)
  | setCountDown {s : TimeSystem} (h : Reachable s) (new : Bool) : Reachable (setCountDown new s).2
  | setTau {s : TimeSystem} (h : Reachable s) (tau : ℝ) : Reachable { s with tau := tau }

/-- What is always true of a TimeSystem. -/
structure Wf (s : TimeSystem) : Prop where
  dimX : s.dimX = 1
  dimY : s.dimY = 1
  xInit : s.xInit = [start s.countDown]

theorem Reachable.wf {s : TimeSystem} (h : Reachable s) : s.Wf := by
  induction h with
  | init tau down => exact ⟨rfl, rfl, rfl⟩
  | setCountDown h new ih => exact ⟨ih.dimX, ih.dimY, rfl⟩
  | setTau h tau ih => exact ⟨ih.dimX, ih.dimY, ih.xInit⟩

theorem xAt_down {s : TimeSystem} (h : s.countDown = true) (t : ℝ) :
    s.xAt t = [max 0 (1 - t / s.tau)] := by
  simp only [xAt, h, if_true]
  split_ifs with hlt
  · rw [max_eq_left hlt.le]
  · rw [max_eq_right (not_lt.mp hlt)]

theorem xAt_up {s : TimeSystem} (h : s.countDown = false) (t : ℝ) :
    s.xAt t = [min 1 (t / s.tau)] := by
  simp only [xAt, h]
  simp only [Bool.false_eq_true, if_false]
  split_ifs with hlt
  · rw [min_eq_left hlt.le]
  · rw [min_eq_right (not_lt.mp hlt)]

/-- C03: one phase value per time; it starts in the initial state of the system, which is 1 when
counting down and 0 otherwise. -/
theorem C03_start {s : TimeSystem} (hr : Reachable s) :
    s.xAt 0 = s.xInit ∧ s.xInit = [if s.countDown then 1 else 0] := by
  constructor
  · rw [hr.wf.xInit]
    cases h : s.countDown with
    | true => rw [xAt_down h]; simp [start]
    | false => rw [xAt_up h]; simp [start]
  · rw [hr.wf.xInit]; rfl

/-- C03: the phase is linear in `t/tau` until `tau`. -/
theorem C03_linear {s : TimeSystem} (hτ : 0 < s.tau) (t : ℝ) (_h0 : 0 ≤ t) (h1 : t ≤ s.tau) :
    s.xAt t = [if s.countDown then 1 - t / s.tau else t / s.tau] := by
  have h2 : t / s.tau ≤ 1 := (div_le_one hτ).mpr h1
  cases h : s.countDown with
  | true => rw [xAt_down h, max_eq_right (by linarith)]; simp
  | false => rw [xAt_up h, min_eq_right h2]; simp

/-- C03: from `tau` on the phase has its final value. -/
theorem C03_saturates {s : TimeSystem} (hτ : 0 < s.tau) (t : ℝ) (h1 : s.tau ≤ t) :
    s.xAt t = [if s.countDown then 0 else 1] := by
  have h2 : 1 ≤ t / s.tau := (one_le_div hτ).mpr h1
  cases h : s.countDown with
  | true => rw [xAt_down h, max_eq_left (by linarith)]; simp
  | false => rw [xAt_up h, min_eq_left h2]; simp

/-- C03: the phase stays within [0,1]. -/
theorem C03_range {s : TimeSystem} (hτ : 0 < s.tau) (t : ℝ) (h0 : 0 ≤ t) :
    ∃ x, s.xAt t = [x] ∧ 0 ≤ x ∧ x ≤ 1 := by
  have h2 : 0 ≤ t / s.tau := by positivity
  cases h : s.countDown with
  | true => exact ⟨_, xAt_down h t, le_max_left _ _, max_le zero_le_one (by linarith)⟩
  | false => exact ⟨_, xAt_up h t, le_min zero_le_one h2, min_le_left _ _⟩

/-- C03: the phase is monotone. -/
theorem C03_monotone {s : TimeSystem} (hτ : 0 < s.tau) (t₁ t₂ : ℝ) (h : t₁ ≤ t₂) :
    ∃ x₁ x₂, s.xAt t₁ = [x₁] ∧ s.xAt t₂ = [x₂] ∧
      (if s.countDown then x₂ ≤ x₁ else x₁ ≤ x₂) := by
  have h2 : t₁ / s.tau ≤ t₂ / s.tau := by gcongr
  cases hd : s.countDown with
  | true => exact ⟨_, _, xAt_down hd t₁, xAt_down hd t₂,
      max_le_max le_rfl (sub_le_sub_left h2 1)⟩
  | false => exact ⟨_, _, xAt_up hd t₁, xAt_up hd t₂, by
      simpa using min_le_min le_rfl h2⟩

/-- C03: counting up and counting down are mirror images. -/
theorem C03_up_plus_down (s : TimeSystem) (hd : s.countDown = true) (t : ℝ) :
    ∃ d u, s.xAt t = [d] ∧ (setCountDown false s).2.xAt t = [u] ∧ d + u = 1 := by
  refine ⟨_, _, xAt_down hd t, xAt_up (s := (setCountDown false s).2) rfl t, ?_⟩
  show max 0 (1 - t / s.tau) + min 1 (t / s.tau) = 1
  rcases le_total 1 (t / s.tau) with h | h
  · rw [max_eq_left (by linarith), min_eq_left h]; ring
  · rw [max_eq_right (by linarith), min_eq_right h]; ring

/-- C03: away from the switching instant the returned rate is the derivative of the phase and
agrees with the differential equation. -/
theorem C03_rate {s : TimeSystem} (hτ : 0 < s.tau) (t : ℝ) (ht : t ≠ s.tau) :
    HasVecDeriv s.xAt (s.xdAt t) t ∧ s.diffEq (s.xAt t) = .ok (s.xdAt t) := by
  have hdiv : HasDerivAt (fun u : ℝ => u / s.tau) (1 / s.tau) t := (hasDerivAt_id t).div_const s.tau
  cases hd : s.countDown with
  | true =>
    have hx : s.xAt = fun u => [max 0 (1 - u / s.tau)] := funext (xAt_down hd)
    rcases lt_or_gt_of_ne ht with h | h
    · have h1 : t / s.tau < 1 := (div_lt_one hτ).mpr h
      have hxd : s.xdAt t = [-1 / s.tau] := by
        simp only [xdAt, hd, if_true]; rw [if_neg (by linarith)]
      refine ⟨⟨fun u => by rw [hx, hxd]; rfl, ?_⟩, ?_⟩
      · intro i hi
        rw [hxd] at hi ⊢
        obtain rfl : i = 0 := by simpa using hi
        have : HasDerivAt (fun u : ℝ => 1 - u / s.tau) (-1 / s.tau) t :=
          (hdiv.const_sub 1).congr_deriv (by ring)
        refine this.congr_of_eventuallyEq ?_
        filter_upwards [eventually_lt_nhds h] with u hu
        have : u / s.tau < 1 := (div_lt_one hτ).mpr hu
        simp only [hx, List.getD_cons_zero]
        exact max_eq_right (by linarith)
      · rw [hxd, xAt_down hd, max_eq_right (by linarith)]
        simp only [diffEq, hd, if_true]
        rw [if_pos (by linarith)]
    · have h1 : 1 < t / s.tau := (one_lt_div hτ).mpr h
      have hxd : s.xdAt t = [0] := by
        simp only [xdAt, hd, if_true]; rw [if_pos (by linarith)]
      refine ⟨⟨fun u => by rw [hx, hxd]; rfl, ?_⟩, ?_⟩
      · intro i hi
        rw [hxd] at hi ⊢
        obtain rfl : i = 0 := by simpa using hi
        refine (hasDerivAt_const t (0 : ℝ)).congr_of_eventuallyEq ?_
        filter_upwards [eventually_gt_nhds h] with u hu
        have : 1 < u / s.tau := (one_lt_div hτ).mpr hu
        simp only [hx, List.getD_cons_zero]
        exact max_eq_left (by linarith)
      · rw [hxd, xAt_down hd, max_eq_left (by linarith)]
        simp [diffEq, hd]
  | false =>
    have hx : s.xAt = fun u => [min 1 (u / s.tau)] := funext (xAt_up hd)
    rcases lt_or_gt_of_ne ht with h | h
    · have h1 : t / s.tau < 1 := (div_lt_one hτ).mpr h
      have hxd : s.xdAt t = [1 / s.tau] := by
        simp only [xdAt, hd, Bool.false_eq_true, if_false]; rw [if_neg (by linarith)]
      refine ⟨⟨fun u => by rw [hx, hxd]; rfl, ?_⟩, ?_⟩
      · intro i hi
        rw [hxd] at hi ⊢
        obtain rfl : i = 0 := by simpa using hi
        refine hdiv.congr_of_eventuallyEq ?_
        filter_upwards [eventually_lt_nhds h] with u hu
        have : u / s.tau < 1 := (div_lt_one hτ).mpr hu
        simp only [hx, List.getD_cons_zero]
        exact min_eq_right (by linarith)
      · rw [hxd, xAt_up hd, min_eq_right (by linarith)]
        simp only [diffEq, hd, Bool.false_eq_true, if_false]
        rw [if_pos (by linarith)]
    · have h1 : 1 < t / s.tau := (one_lt_div hτ).mpr h
      have hxd : s.xdAt t = [0] := by
        simp only [xdAt, hd, Bool.false_eq_true, if_false]; rw [if_pos (by linarith)]
      refine ⟨⟨fun u => by rw [hx, hxd]; rfl, ?_⟩, ?_⟩
      · intro i hi
        rw [hxd] at hi ⊢
        obtain rfl : i = 0 := by simpa using hi
        refine (hasDerivAt_const t (1 : ℝ)).congr_of_eventuallyEq ?_
        filter_upwards [eventually_gt_nhds h] with u hu
        have : 1 < u / s.tau := (one_lt_div hτ).mpr hu
        simp only [hx, List.getD_cons_zero]
        exact min_eq_left (by linarith)
      · rw [hxd, xAt_up hd, min_eq_left (by linarith)]
        simp [diffEq, hd]

/-- C03: `analytical_solution` returns these phases and rates for each requested time. -/
theorem C03_analytical (s : TimeSystem) (ts : List ℝ) :
    (s.analytical ts).1.length = ts.length ∧ (s.analytical ts).2.length = ts.length ∧
    ∀ (i : Nat) (h : i < ts.length), (s.analytical ts).1.getD i [] = s.xAt ts[i] ∧
      (s.analytical ts).2.getD i [] = s.xdAt ts[i] := by
  refine ⟨by simp [analytical], by simp [analytical], fun i h => ?_⟩
  simp [analytical, h]

/-- A system that was switched from counting up to counting down and whose tau was changed; at
time 1/2 it has not yet saturated, at time 3 it has. -/
example : ∃ s : TimeSystem, Reachable s ∧ s.countDown = true ∧ 0 < s.tau ∧ (1 / 2 : ℝ) ≤ s.tau ∧
    s.tau ≤ 3 ∧ (1 / 2 : ℝ) ≠ s.tau :=
  ⟨_, .setTau (.setCountDown (.init 1 false) true) 2, rfl, by norm_num, by norm_num, by norm_num,
    by norm_num⟩

/-! ### C04: numerical integration -/

/-- The differential equation as a total function on lists (used for states of size 1 only). -/
noncomputable def rateFn (s : TimeSystem) (x : List ℝ) : List ℝ :=
  match s.diffEq x with
  | .ok y => y
  | .error _ => []

theorem rateFn_down {s : TimeSystem} (h : s.countDown = true) (x : ℝ) :
    s.rateFn [x] = [if 0 < x then -1 / s.tau else 0] := by
  simp only [rateFn, diffEq, h, if_true]
  split_ifs <;> simp_all

theorem rateFn_up {s : TimeSystem} (h : s.countDown = false) (x : ℝ) :
    s.rateFn [x] = [if x < 1 then 1 / s.tau else 0] := by
  simp only [rateFn, diffEq, h, Bool.false_eq_true, if_false]
  split_ifs <;> simp_all

theorem realises (s : TimeSystem) (h : s.Wf) :
    DynSys.Realises (· = s) 1 s.xInit s.rateFn where
  dim := by rintro _ rfl; exact h.dimX
  init := by rintro _ rfl; rfl
  initLen := by rw [h.xInit]; rfl
  diff := by
    rintro _ x rfl hx
    refine ⟨_, ?_, rfl⟩
    obtain ⟨a, rfl⟩ := List.length_eq_one_iff.mp hx
    show (TimeSystem.diffEq _ [a], _) = _
    congr 1
    simp only [rateFn, diffEq]
    split_ifs <;> rfl
  len := by
    intro x hx
    obtain ⟨a, rfl⟩ := List.length_eq_one_iff.mp hx
    cases hd : s.countDown with
    | true => rw [rateFn_down hd]; rfl
    | false => rw [rateFn_up hd]; rfl

/-- The new phase after one step. -/
theorem stepFn_down {s : TimeSystem} (hτ : 0 < s.tau) (h : s.countDown = true)
    (m : DynSys.Method) (dt x : ℝ) (hdt : 0 < dt) :
    ∃ x', (DynSys.stepFn s.rateFn m dt [x]).1 = [x'] ∧ (x ≤ 0 → x' = x) ∧
      (0 < x → x' < x ∧ x - dt / s.tau ≤ x') ∧ (dt / s.tau < x → x' = x - dt / s.tau) := by
  have hp : 0 < 1 / s.tau := by positivity
  have hdp : 0 < dt * (1 / s.tau) := by positivity
  have e1 : -1 / s.tau = -(1 / s.tau) := by ring
  have e2 : dt / s.tau = dt * (1 / s.tau) := by ring
  cases m with
  | euler =>
    simp only [DynSys.stepFn, rateFn_down h, vadd, vscale, List.map, List.zipWith]
    refine ⟨_, rfl, ?_, ?_, ?_⟩
    · intro hx; rw [if_neg (not_lt.mpr hx)]; ring
    · intro hx; rw [if_pos hx]; constructor <;> (rw [e1]; linarith [e2])
    · intro hx; rw [if_pos (by linarith)]; ring
  | rungeKutta =>
    simp only [DynSys.stepFn, DynSys.rkNew, rateFn_down h, vadd, vscale, vdivs, List.map,
      List.zipWith]
    refine ⟨_, rfl, ?_, ?_, ?_⟩
    · intro hx
      have h0 : ¬ 0 < x := not_lt.mpr hx
      simp [h0]
    · intro hx
      rw [e1, e2]
      simp only [hx, if_true]
      constructor
      · split_ifs <;> nlinarith
      · split_ifs <;> nlinarith
    · intro hx
      rw [e2] at hx ⊢
      rw [e1]
      have hx0 : 0 < x := by linarith
      have hx1 : 0 < x + dt * 0.5 * -(1 / s.tau) := by
        have : (0.5 : ℝ) = 1 / 2 := by norm_num
        rw [this]; linarith
      have hx2 : 0 < x + dt * -(1 / s.tau) := by linarith
      simp only [hx0, if_true, hx1, hx2]
      ring

theorem stepFn_up {s : TimeSystem} (hτ : 0 < s.tau) (h : s.countDown = false)
    (m : DynSys.Method) (dt x : ℝ) (hdt : 0 < dt) :
    ∃ x', (DynSys.stepFn s.rateFn m dt [x]).1 = [x'] ∧ (1 ≤ x → x' = x) ∧
      (x < 1 → x < x' ∧ x' ≤ x + dt / s.tau) ∧ (x + dt / s.tau < 1 → x' = x + dt / s.tau) := by
  have hp : 0 < 1 / s.tau := by positivity
  have hdp : 0 < dt * (1 / s.tau) := by positivity
  have e2 : dt / s.tau = dt * (1 / s.tau) := by ring
  cases m with
  | euler =>
    simp only [DynSys.stepFn, rateFn_up h, vadd, vscale, List.map, List.zipWith]
    refine ⟨_, rfl, ?_, ?_, ?_⟩
    · intro hx; rw [if_neg (not_lt.mpr hx)]; ring
    · intro hx; rw [if_pos hx, e2]; constructor <;> linarith
    · intro hx; rw [if_pos (by linarith)]; ring
  | rungeKutta =>
    simp only [DynSys.stepFn, DynSys.rkNew, rateFn_up h, vadd, vscale, vdivs, List.map,
      List.zipWith]
    refine ⟨_, rfl, ?_, ?_, ?_⟩
    · intro hx
      have h0 : ¬ x < 1 := not_lt.mpr hx
      simp [h0]
    · intro hx
      rw [e2]
      simp only [hx, if_true]
      constructor
      · split_ifs <;> nlinarith
      · split_ifs <;> nlinarith
    · intro hx
      rw [e2] at hx ⊢
      have hx0 : x < 1 := by linarith
      have hx1 : x + dt * 0.5 * (1 / s.tau) < 1 := by
        have : (0.5 : ℝ) = 1 / 2 := by norm_num
        rw [this]; linarith
      have hx2 : x + dt * (1 / s.tau) < 1 := by linarith
      simp only [hx0, if_true, hx1, hx2]
      ring

/-- What one integration step of length `dt` must do to a phase `x` that counts towards `goal`
(`dir = -1` counting down, `dir = 1` counting up): nothing once the goal is reached; otherwise move
strictly towards the goal, by at most `dt/tau`, and by exactly `dt/tau` if that does not
reach the goal. -/
def PhaseStep (down : Bool) (tau dt x x' : ℝ) : Prop :=
  if down then
    (x ≤ 0 → x' = x) ∧ (0 < x → x' < x ∧ x - dt / tau ≤ x') ∧
      (dt / tau < x → x' = x - dt / tau)
  else
    (1 ≤ x → x' = x) ∧ (x < 1 → x < x' ∧ x' ≤ x + dt / tau) ∧
      (x + dt / tau < 1 → x' = x + dt / tau)

theorem stepFn_phase {s : TimeSystem} (hτ : 0 < s.tau) (m : DynSys.Method) (dt x : ℝ)
    (hdt : 0 < dt) :
    ∃ x', (DynSys.stepFn s.rateFn m dt [x]).1 = [x'] ∧ PhaseStep s.countDown s.tau dt x x' := by
  cases hd : s.countDown with
  | true =>
    obtain ⟨x', h1, h2⟩ := stepFn_down hτ hd m dt x hdt
    exact ⟨x', h1, by simpa [PhaseStep] using h2⟩
  | false =>
    obtain ⟨x', h1, h2⟩ := stepFn_up hτ hd m dt x hdt
    exact ⟨x', h1, by simpa [PhaseStep] using h2⟩

theorem rowsFn_phase {s : TimeSystem} (hτ : 0 < s.tau) (m : DynSys.Method) (ts : List ℝ) :
    ∀ (t0 x : ℝ), (t0 :: ts).Pairwise (· < ·) →
      ∃ xs : List ℝ, (DynSys.rowsFn s.rateFn m t0 [x] ts).map Prod.fst = xs.map ([·]) ∧
        xs.length = ts.length ∧
        ∀ i, i + 1 < (t0 :: ts).length →
          PhaseStep s.countDown s.tau ((t0 :: ts).getD (i + 1) 0 - (t0 :: ts).getD i 0)
            ((x :: xs).getD i 0) ((x :: xs).getD (i + 1) 0) := by
  induction ts with
  | nil => intro t0 x _; exact ⟨[], rfl, rfl, fun i hi => by simp at hi⟩
  | cons t ts ih =>
    intro t0 x hp
    rw [List.pairwise_cons] at hp
    have hdt : 0 < t - t0 := by have := hp.1 t (by simp); linarith
    obtain ⟨x', e, hph⟩ := stepFn_phase hτ m (t - t0) x hdt
    obtain ⟨xs, h1, h2, h3⟩ := ih t x' hp.2
    refine ⟨x' :: xs, ?_, by simp [h2], ?_⟩
    · simp only [DynSys.rowsFn, List.map_cons, e, h1]
    · intro i hi
      cases i with
      | zero => simpa using hph
      | succ i => simpa using h3 i (by simpa using hi)

/-- C04: integrating over any strictly increasing sequence of times succeeds, gives one phase value
per time, starting at the initial phase, and each step obeys `PhaseStep`. -/
theorem C04_integrate {s : TimeSystem} (hr : Reachable s) (hτ : 0 < s.tau) (m : DynSys.Method)
    (ts : List ℝ) (hne : ts ≠ []) (hinc : ts.Pairwise (· < ·)) :
    ∃ (rows : List (List ℝ × List ℝ)) (xs : List ℝ),
      DynSys.integrate ts m s = (.ok rows, s) ∧ rows.map Prod.fst = xs.map ([·]) ∧
      xs.length = ts.length ∧ xs[0]? = some (if s.countDown then 1 else 0) ∧
      ∀ i, i + 1 < ts.length →
        PhaseStep s.countDown s.tau (ts.getD (i + 1) 0 - ts.getD i 0) (xs.getD i 0)
          (xs.getD (i + 1) 0) := by
  have hw := hr.wf
  cases ts with
  | nil => exact absurd rfl hne
  | cons t0 ts =>
    obtain ⟨s', e, rfl⟩ := (realises s hw).integrate rfl m t0 ts
    obtain ⟨xs, h1, h2, h3⟩ := rowsFn_phase hτ m ts t0 (start s'.countDown) hinc
    refine ⟨_, start s'.countDown :: xs, e, ?_, by simp [h2], rfl, h3⟩
    rw [hw.xInit]
    simp only [List.map_cons, h1]

/-- C04: consequence for whole runs: for phases related by `PhaseStep` with steps of length at most
`dtMax` the phase never leaves `[-dtMax/tau, 1]` (counting down), `[0, 1+dtMax/tau]` (counting up),
and once at or beyond its final value it stays constant. -/
theorem C04_overshoot_bounded (down : Bool) (tau dtMax : ℝ) (hτ : 0 < tau)
    (ts xs : List ℝ) (hlen : xs.length = ts.length) (h0 : xs[0]? = some (if down then 1 else 0))
    (hinc : ∀ i, i + 1 < ts.length → 0 < ts.getD (i + 1) 0 - ts.getD i 0 ∧
      ts.getD (i + 1) 0 - ts.getD i 0 ≤ dtMax)
    (hd : 0 ≤ dtMax)
    (hstep : ∀ i, i + 1 < ts.length → PhaseStep down tau (ts.getD (i + 1) 0 - ts.getD i 0)
      (xs.getD i 0) (xs.getD (i + 1) 0)) (i : Nat) (hi : i < xs.length) :
    (if down then -(dtMax / tau) ≤ xs.getD i 0 ∧ xs.getD i 0 ≤ 1
      else 0 ≤ xs.getD i 0 ∧ xs.getD i 0 ≤ 1 + dtMax / tau) ∧
    (∀ j, i ≤ j → j < xs.length → (if down then xs.getD i 0 ≤ 0 else 1 ≤ xs.getD i 0) →
      xs.getD j 0 = xs.getD i 0) := by
  have hq : 0 ≤ dtMax / tau := by positivity
  have hx0 : xs.getD 0 0 = if down then 1 else 0 := by
    rw [List.getD_eq_getElem?_getD, h0]; rfl
  constructor
  · induction i with
    | zero =>
      rw [hx0]
      cases down
      · simp only [Bool.false_eq_true, if_false]; constructor <;> linarith
      · simp only [if_true]; constructor <;> linarith
    | succ i ih =>
      have ih := ih (by omega)
      have hs := hstep i (by omega)
      obtain ⟨hpos, hmax⟩ := hinc i (by omega)
      set dt := ts.getD (i + 1) 0 - ts.getD i 0
      have hdt : dt / tau ≤ dtMax / tau := by gcongr
      cases down
      · simp only [PhaseStep, Bool.false_eq_true, if_false] at hs ih ⊢
        rcases le_or_gt 1 (xs.getD i 0) with h | h
        · rw [hs.1 h]; exact ih
        · have := hs.2.1 h; constructor <;> linarith
      · simp only [PhaseStep, if_true] at hs ih ⊢
        rcases le_or_gt (xs.getD i 0) 0 with h | h
        · rw [hs.1 h]; exact ih
        · have := hs.2.1 h; constructor <;> linarith
  · intro j hij
    induction j, hij using Nat.le_induction with
    | base => intros; rfl
    | succ j hij ih =>
      intro hj hsat
      have ih' := ih (by omega) hsat
      have hs := hstep j (by omega)
      cases down
      · simp only [PhaseStep, Bool.false_eq_true, if_false] at hs hsat
        rw [hs.1 (by rw [ih']; exact hsat), ih']
      · simp only [PhaseStep, if_true] at hs hsat
        rw [hs.1 (by rw [ih']; exact hsat), ih']

/-- C04: the two previous facts together, for `integrate`: with steps of length at most `dtMax`
the phase overshoots its final value by at most `dtMax/tau` and stays where it is once it has
reached or passed the final value. -/
theorem C04_integrate_bounded {s : TimeSystem} (hr : Reachable s) (hτ : 0 < s.tau)
    (m : DynSys.Method) (ts : List ℝ) (hne : ts ≠ []) (hinc : ts.Pairwise (· < ·)) (dtMax : ℝ)
    (hd : 0 ≤ dtMax) (hmax : ∀ i, i + 1 < ts.length → ts.getD (i + 1) 0 - ts.getD i 0 ≤ dtMax) :
    ∃ (rows : List (List ℝ × List ℝ)) (xs : List ℝ),
      DynSys.integrate ts m s = (.ok rows, s) ∧ rows.map Prod.fst = xs.map ([·]) ∧
      xs.length = ts.length ∧ ∀ i < xs.length,
        (if s.countDown then -(dtMax / s.tau) ≤ xs.getD i 0 ∧ xs.getD i 0 ≤ 1
          else 0 ≤ xs.getD i 0 ∧ xs.getD i 0 ≤ 1 + dtMax / s.tau) ∧
        (∀ j, i ≤ j → j < xs.length →
          (if s.countDown then xs.getD i 0 ≤ 0 else 1 ≤ xs.getD i 0) →
          xs.getD j 0 = xs.getD i 0) := by
  obtain ⟨rows, xs, h1, h2, h3, h4, h5⟩ := C04_integrate hr hτ m ts hne hinc
  refine ⟨rows, xs, h1, h2, h3, fun i hi => ?_⟩
  refine C04_overshoot_bounded s.countDown s.tau dtMax hτ ts xs h3 h4 (fun j hj => ⟨?_, hmax j hj⟩)
    hd h5 i hi
  rw [getD_lt hj, getD_lt (by omega : j < ts.length)]
  have := List.pairwise_iff_getElem.mp hinc j (j + 1) (by omega) hj (by omega)
  linarith

/-- Non-uniform times that meet the hypotheses of C04. -/
example : Reachable (init 2 true) ∧ 0 < (init 2 true).tau ∧
    ([0, 0.5, 0.7, 3, 4] : List ℝ).Pairwise (· < ·) ∧ ([0, 0.5, 0.7, 3, 4] : List ℝ) ≠ [] := by
  refine ⟨.init _ _, by norm_num [init], ?_, by simp⟩
  norm_num [List.pairwise_cons]

/-- Phases that meet the hypotheses of `C04_overshoot_bounded`: a count-down with tau = 1 and
step 0.6 that overshoots to -0.2. -/
example : ∀ i, i + 1 < ([0, 0.6, 1.2, 1.8] : List ℝ).length →
    PhaseStep true 1 (([0, 0.6, 1.2, 1.8] : List ℝ).getD (i + 1) 0 -
      ([0, 0.6, 1.2, 1.8] : List ℝ).getD i 0)
      (([1, 0.4, -0.2, -0.2] : List ℝ).getD i 0) (([1, 0.4, -0.2, -0.2] : List ℝ).getD (i + 1) 0) := by
  intro i hi
  have : i < 3 := by simp at hi; omega
  interval_cases i <;> norm_num [PhaseStep]

end TimeSystem

end Verif
