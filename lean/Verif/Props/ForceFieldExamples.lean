import Verif.Props.ForceFieldCost

/-
Following a Dmp in a force field (C81, C83): a rollout for a sample.
-/

set_option autoImplicit false

namespace Verif.ForceField

open Spec Finset
open Cpp.Dmp (evenly evenly_succ)
open Dmp (Reachable DefaultLike DefaultScaled Change Makes)
open DmpWithSchedules (constFa)

/-- A gain that is linear in the phase, whose slope is a parameter. -/
noncomputable def slopeFa (a c : ℝ) : Fa := ⟨.wls true 0, some ⟨1, .wls ⟨fun _ => a, some c⟩⟩, some ["slope"]⟩

theorem slopeFa_set (a b c : ℝ) : Fa.setParamVector [b] (slopeFa a c) = (.ok (), slopeFa b c) := by
  have e : Fa.setParam ([b].take 1) "slope" (slopeFa a c) = slopeFa b c := by
    unfold Fa.setParam slopeFa
    simp only [Option.map_some, List.take_succ_cons, List.take_zero]
    refine congrArg (fun m => Fa.mk _ (some ⟨1, m⟩) _) ?_
    unfold FaModel.setParam
    simp
  change (Except.ok (), Fa.setParam ([b].take 1) "slope" (slopeFa a c)) = _
  rw [e]

/-- A sample that makes the gain of the default Dmp constant. -/
theorem solver_example : ∃ (solver : Solver) (s s' : DmpWithSchedules) (cv : Arr2 ℝ),
    Solver.init 1 0.05 1.25 false = .ok solver ∧
    DmpWithSchedules.init 1 [0] [1] none [slopeFa 7 100] none none = .ok s ∧
    Reachable DefaultLike Change.Valid 1 s.dmp ∧ s.dmp.tau = 1 ∧
    solver.performRollout [0] 0 s = (.ok cv, s') := by
  have hfit : Dmp.Options.Fits {} 1 :=
    ⟨(fun _ h => nomatch h), trivial, (fun _ h => nomatch h),
      (fun _ h => nomatch h), (fun _ h => nomatch h), (fun _ h => nomatch h), (fun _ h => nomatch h)⟩
  obtain ⟨s, hs, hr, hmk, -⟩ := Dmp.C75_example
  have hl : Reachable DefaultLike Change.Valid 1 s := .init hs rfl rfl hfit (fun _ h => nomatch h)
  have g := hl.inv.good
  obtain ⟨dflt, hd, hseq⟩ := Dmp.init_eq hs
  have hfas : s.fas = none := by rw [hseq]
  have hsel : s.selected = [] := by rw [hseq]
  have htau : s.tau = 1 := by rw [hseq]
  obtain ⟨w, hw⟩ : ∃ w : DmpWithSchedules, w = ⟨s, [slopeFa 7 100], none, none⟩ := ⟨_, rfl⟩
  have hi : DmpWithSchedules.init 1 [0] [1] none [slopeFa 7 100] none none = .ok w := by
    unfold DmpWithSchedules.init
    rw [hs, hw]
    rfl
  have hwd : w.dmp = s := by rw [hw]
  obtain ⟨w1, hw1⟩ : ∃ w1 : DmpWithSchedules, w1 = ⟨s, [slopeFa 0 100], none, none⟩ := ⟨_, rfl⟩
  have hset : DmpWithSchedules.setParamVector [0] w = (.ok (), w1) := by
    have z : s.paramVectorSize = .ok 0 := by
      unfold Dmp.paramVectorSize
      rw [hfas, hsel]
      rfl
    have z1 : w.paramVectorSize = .ok 1 := by
      unfold DmpWithSchedules.paramVectorSize
      rw [hwd, z, hw]
      rfl
    have z2 : DmpWithSchedules.floatSize s = false := by
      unfold DmpWithSchedules.floatSize
      rw [hfas]
      rfl
    unfold DmpWithSchedules.setParamVector
    rw [PyM.self_bind, z1, PyM.lift_ok_bind, if_neg (by simp), hwd, z, PyM.lift_ok_bind, z2]
    have q : DmpWithSchedules.onSched ⟨Dmp.setFas ([0].drop 0)⟩ w = (.ok [], w1) := by
      rw [hw, hw1]
      have e : Dmp.setFas [0] [slopeFa 7 100] = (.ok [], [slopeFa 0 100]) := by
        have e1 : Dmp.sliceSize (slopeFa 7 100) = .ok 1 := rfl
        have e2 : (slopeFa 7 100).model.isSome = true := rfl
        simp only [Dmp.setFas, e1, e2, if_true, List.take_succ_cons, List.take_zero, slopeFa_set]
        rfl
      unfold DmpWithSchedules.onSched
      simp only [List.drop_zero, e]
    simp only [Bool.false_eq_true, if_false]
    rw [if_neg (by omega), PyM.bind_ok q]
    rfl
  have hsol : ∃ solver, Solver.init 1 0.05 1.25 false = .ok solver ∧ solver.nTimeSteps = 26 ∧
      solver.integrateTime = 1.25 ∧ solver.stochasticField = false := by
    unfold Solver.init
    rw [if_neg (by norm_num)]
    refine ⟨_, rfl, ?_, by norm_num, rfl⟩
    norm_num
  obtain ⟨solver, h1, h2, h3, h4⟩ := hsol
  obtain ⟨X, hX⟩ := hmk .rungeKutta 0.05
  obtain ⟨rows, hrows⟩ := makes_integrate g hX 25
  have hstep : stepLength 1.25 26 = 0.05 := by
    unfold stepLength
    norm_num
  obtain ⟨r, hroll⟩ := total_of_good 1 w1 (Dmp.integrate (evenly 0.05 0 26) .rungeKutta s).2 (by rw [hw1]; exact g)
    1.25 (-20) 0.5 (by norm_num) 26 (by norm_num) rows (by
      rw [hstep, hw1]
      exact Prod.ext hrows rfl) fun i _ =>
    ⟨_, _, (by
      rw [hw1]
      exact schedulesNow_const (s := ⟨s, [constFa 100], none, none⟩) (c := 100) rfl rfl rfl _),
      gainsRow_const 1 100, fun _ x hx => by
      rw [(List.mem_replicate.mp hx).2]
      norm_num⟩
  have hτ : w1.dmp.tau = 1 := by rw [hw1]; exact htau
  refine ⟨solver, w, { w1 with dmp := (Dmp.integrate (evenly 0.05 0 26) .rungeKutta s).2 }, 
    costVars (Dmp.integrate (evenly 0.05 0 26) .rungeKutta s).2.dimY r, h1, hi, hwd ▸ hl, hwd ▸ htau, ?_⟩
  unfold Solver.performRollout
  rw [PyM.bind_ok hset]
  unfold Solver.performRolloutDmpSched
  rw [PyM.self_bind, h2, h3, h4, hτ]
  simp only [Bool.false_eq_true, if_false, mul_one]
  rw [PyM.bind_ok hroll]
  rfl

/-- The costs of this rollout. -/
example : ∃ (solver : Solver) (s s' : DmpWithSchedules) (cv : Arr2 ℝ) (costs : List ℝ),
    solver.performRollout [0] 0 s = (.ok cv, s') ∧
    (⟨.one [0.5], 0.5, 10, 1000, 1, 0.0001, 1⟩ : Task).evaluateRollout cv = .ok costs := by
  obtain ⟨solver, s, s', cv, -, -, hl, hτ, h⟩ := solver_example
  obtain ⟨-, -, -, -, -, -, -, c1, c2, c3, e, -⟩ := C83_rollout 1 solver [0] 0 s s' cv hl (by rw [hτ]; norm_num)
    h ⟨.one [0.5], 0.5, 10, 1000, 1, 0.0001, 1⟩ [0.5] rfl rfl (by norm_num)
  exact ⟨solver, s, s', cv, _, h, e⟩

/-- Rows as in `C83_costs` and `C83_partial`, for two coordinates. -/
example : ∃ (t : Task) (cv : Arr2 ℝ), t.viapoint = .one [0.5, 0.25] ∧
    (∀ r ∈ cv.rows, r.length = 1 + 7 * [(0.5 : ℝ), 0.25].length) ∧ cv.rows.length = 2 ∧ 0 < t.maxGain ∧
    ∀ r ∈ cv.rows, ∀ j < [(0.5 : ℝ), 0.25].length, t.minGain ≤ r.getD (1 + 3 * [(0.5 : ℝ), 0.25].length + j) 0 ∧
      r.getD (1 + 3 * [(0.5 : ℝ), 0.25].length + j) 0 ≤ t.maxGain := by
  refine ⟨⟨.one [0.5, 0.25], 0.5, 10, 1000, 1, 0.0001, 1⟩,
    ⟨15, [[0, 0, 0, 0, 0, 0, 0, 10, 20, 0, 0, 0, 0, 0, 0], [1, 0, 0, 0, 0, 0, 0, 30, 1000, 0, 0, 0, 0, 0, 0]]⟩,
    rfl, by simp, rfl, by norm_num, ?_⟩
  intro r hr j hj
  simp only [List.mem_cons, List.not_mem_nil, or_false] at hr
  simp only [List.length_cons, List.length_nil] at hj ⊢
  rcases hr with rfl | rfl <;> obtain rfl | rfl : j = 0 ∨ j = 1 := by omega
  all_goals norm_num

/-- Rows as in `C83_matrix`, for two coordinates: the third column that counts as acceleration is a velocity. -/
example : ∃ (t : Task) (cv : Arr2 ℝ), t.viapoint = .two ⟨2, [[0.5, 0.25]]⟩ ∧ (∀ r ∈ cv.rows, 5 ≤ r.length) ∧
    cv.rows ≠ [] ∧ t.maxGain ≠ 0 :=
  ⟨⟨.two ⟨2, [[0.5, 0.25]]⟩, 0.5, 10, 1000, 1, 0.0001, 1⟩,
    ⟨15, [[0, 1, 2, 3, 4, 0, 0, 10, 20, 0, 0, 0, 0, 0, 0]]⟩, rfl, by simp, by simp, by norm_num⟩

/-- Rollouts as in `C81_rollout` and `C81_proportional`: any strength of the field. -/
example : ∃ s : DmpWithSchedules, Reachable DefaultLike Change.Valid 1 s.dmp ∧
    ∀ F, ∃ r, (performRollout 1.25 26 F 0.5 s).1 = .ok r := by
  have hfit : Dmp.Options.Fits {} 1 :=
    ⟨(fun _ h => nomatch h), trivial, (fun _ h => nomatch h),
      (fun _ h => nomatch h), (fun _ h => nomatch h), (fun _ h => nomatch h), (fun _ h => nomatch h)⟩
  obtain ⟨s, hs, -, hmk, -⟩ := Dmp.C75_example
  have hl : Reachable DefaultLike Change.Valid 1 s := .init hs rfl rfl hfit (fun _ h => nomatch h)
  obtain ⟨X, hX⟩ := hmk .rungeKutta (stepLength 1.25 26)
  exact ⟨⟨s, [constFa 100], none, none⟩, hl, fun F => const_rollouts (c := 100) hl.inv.good (by norm_num) rfl rfl rfl _ _ _
    (by norm_num) _ (by norm_num) (makes_integrate hl.inv.good hX 25)⟩

/-- Gains as in `C81_gains`: with the bounds 10 and 1000, the gain 5 becomes 10 in both dimensions. -/
example : ∃ s : DmpWithSchedules, DmpWithSchedules.init 1 [0, 0] [1, 1] none [constFa 5] (some (.scalar 10))
      (some (.scalar 1000)) = .ok s ∧ DmpWithSchedules.Bounded (some (.scalar 10)) (some (.scalar 1000)) s ∧
    ∀ x, ∃ v, s.schedulesNow x = .ok v ∧ gainsRow 2 v = .ok [10, 10] := by
  obtain ⟨d, hd⟩ := (Dmp.C16_types 1 [0, 0] [1, 1] none {}).1 (by simp [Dmp.known])
  have hi : DmpWithSchedules.init 1 [0, 0] [1, 1] none [constFa 5] (some (.scalar 10)) (some (.scalar 1000)) =
      .ok ⟨d, [constFa 5], some (.array [10]), some (.array [1000])⟩ := by
    unfold DmpWithSchedules.init
    rw [hd]
    rfl
  have ho : BoundArg.Ordered 1 (some (.scalar 10)) (some (.scalar 1000)) := by
    rintro i l h - ⟨⟩ ⟨⟩
    norm_num
  refine ⟨_, hi, (DmpWithSchedules.C30_bounds hi ⟨trivial, trivial⟩ ho []).2, fun x => ?_⟩
  have hne : pickAt x (Dmp.PHASE d.dimY) ≠ [] := by
    unfold pickAt Dmp.PHASE
    simp
  have hp : Bounds.pick (some (.array [10])) 0 = .ok (some 10) := by
    have e : Bounds.truthy (.array [10]) = .ok true := by
      unfold Bounds.truthy
      simp
    unfold Bounds.pick
    simp only [e]
    rfl
  have hq : Bounds.pick (some (.array [1000])) 0 = .ok (some 1000) := by
    have e : Bounds.truthy (.array [1000]) = .ok true := by
      unfold Bounds.truthy
      simp
    unfold Bounds.pick
    simp only [e]
    rfl
  refine ⟨.two ⟨1, [[10]]⟩, ?_, rfl⟩
  unfold DmpWithSchedules.schedulesNow
  simp only [List.mapM_cons, List.mapM_nil, DmpWithSchedules.predictAt_const _ hne]
  have : (pickAt x (Dmp.PHASE d.dimY)).length = 1 := by rw [length_pick]; rfl
  rw [this]
  change DmpWithSchedules.enforce ⟨d, [constFa 5], some (.array [10]), some (.array [1000])⟩ (.one [5]) = _
  unfold DmpWithSchedules.enforce
  rw [if_neg (by simp)]
  simp only [List.length_singleton, List.range_one, DmpWithSchedules.clipColumns, hp, hq]
  have hc : DmpWithSchedules.clipColumn (some 10) (some 1000) 0 ⟨1, [5].map fun x => [x]⟩ = .ok ⟨1, [[10]]⟩ := by
    unfold DmpWithSchedules.clipColumn clipTo
    norm_num
    exact fun h => nomatch h
  change (do
    let a ← DmpWithSchedules.clipColumn (some 10) (some 1000) 0 ⟨1, [5].map fun x => [x]⟩
    return Arr.two a : Except PyErr (Arr ℝ)) = _
  rw [hc]
  rfl

/-- Times as in `C81_times`. -/
example : ∃ solver, Solver.init 1 0.05 1.25 false = .ok solver ∧ (0.05 : ℝ) ≤ 1 * 1.25 := by
  unfold Solver.init
  rw [if_neg (by norm_num)]
  exact ⟨_, rfl, by norm_num⟩

end Verif.ForceField
