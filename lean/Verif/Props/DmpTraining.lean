import Verif.Proofs.DmpTrain
import Verif.Props.DmpStartGoal
import Verif.Spec.Demonstration

/- Dmp: training targets invert the transformation system (C17); a trained Dmp reproduces the
demonstration (C18). -/

set_option autoImplicit false

namespace Verif

namespace Dmp

variable {d : Nat}

/-- State `x` with position and velocity of sample `k` of a demonstration. -/
noncomputable def demoState (s : Dmp) (x : List ℝ) (traj : Trajectory ℝ) (k : Nat) : List ℝ :=
  putAt (putAt x (SPRING_Y s.dimY) (traj.ys.rows.getD k [])) (SPRING_Z s.dimY)
    (vscale s.tau (traj.yds.rows.getD k []))

/-- Along the demonstration, with the other parts of the state as in the analytical solution, the
differential equation of the Dmp gives the demonstrated velocity and acceleration. -/
def FollowsDemo (s : Dmp) (traj : Trajectory ℝ) : Prop :=
  ∀ b, ∃ sol, (analytical (some traj.ts) b s).1 = .ok sol ∧ ∀ k, k < traj.ts.length →
    ∃ xd, (diffEq (s.demoState (sol.xs.getD k []) traj k) s).1 = .ok xd ∧
      s.posVelAcc (s.demoState (sol.xs.getD k []) traj k) xd =
        (traj.ys.rows.getD k [], traj.yds.rows.getD k [], traj.ydds.rows.getD k [])

theorem shape_row {traj : Trajectory ℝ} (h : traj.Shape) {k : Nat} (hk : k < traj.ts.length) :
    (traj.ys.rows.getD k []).length = traj.ys.cols ∧ (traj.yds.rows.getD k []).length = traj.ys.cols ∧
      (traj.ydds.rows.getD k []).length = traj.ys.cols := by
  have h1 := h.ys
  have h2 := h.yds
  have h3 := h.ydds
  refine ⟨?_, ?_, ?_⟩
  · rw [List.getD_eq_getElem?_getD, List.getElem?_eq_getElem (by omega)]
    exact h.ysCols _ (List.getElem_mem _)
  · rw [List.getD_eq_getElem?_getD, List.getElem?_eq_getElem (by omega)]
    exact h.ydsCols _ (List.getElem_mem _)
  · rw [List.getD_eq_getElem?_getD, List.getElem?_eq_getElem (by omega)]
    exact h.yddsCols _ (List.getElem_mem _)

theorem faUsed_exists {s : Dmp} {traj : Trajectory ℝ} {phases : List ℝ} {targets : List (List ℝ)}
    (T : s.TargetsFor traj phases targets) (hp : s.predictions phases = .ok targets) (b : Bool) :
    s.faUsed traj.ts b = .ok (if b then targets.map fun r => vzeros r.length else targets) := by
  unfold faUsed
  rw [← T.phases, hp]
  rfl

theorem followsDemo_of {s : Dmp} (w : s.Wf) (h0 : s.tau ≠ 0) (hτ : s.spring.tau = s.tau)
    (hg : s.goal = none → s.requiresScaling = false) {traj : Trajectory ℝ} (hs : traj.Shape)
    {phases : List ℝ} {targets : List (List ℝ)} (T : s.TargetsFor traj phases targets)
    (hp : s.predictions phases = .ok targets) : s.FollowsDemo traj := by
  intro b
  refine ⟨_, (analytical_iff w (sameStart_of_tau hτ)).mpr ⟨T.scale, T.force, T.times, _,
    faUsed_exists T hp b, rfl⟩, fun k hk => ?_⟩
  simp only
  have e : ∀ F, ((List.range traj.ts.length).map (s.xRow traj.ts F)).getD k [] =
      s.xRow traj.ts F k := by
    intro F; simp [List.getD_eq_getElem?_getD, hk]
  rw [e]
  generalize s.gated traj.ts (if b then targets.map fun r => vzeros r.length else targets) = F
  obtain ⟨l1, l2, l3⟩ := shape_row hs hk
  rw [← T.dim] at l1 l2 l3
  have sx := xRow_sizes w traj.ts F k
  have e1 : s.demoState (s.xRow traj.ts F k) traj k =
      pack (traj.ys.rows.getD k []) (vscale s.tau (traj.yds.rows.getD k []))
        (s.goalAt (traj.ts.getD k 0)) (s.phase.xAt (traj.ts.getD k 0))
        (s.gating.xAt (traj.ts.getD k 0)) (s.dampAt (traj.ts.getD k 0)) := by
    unfold demoState xRow
    simp only
    rw [sx.put_SPRING_Y l1]
    have sy : Sizes s.dimY (traj.ys.rows.getD k [])
      ((List.range s.dimY).map fun j => (s.mot traj.ts F j k).2)
      (s.goalAt (traj.ts.getD k 0)) (s.phase.xAt (traj.ts.getD k 0)) (s.gating.xAt (traj.ts.getD k 0))
      (s.dampAt (traj.ts.getD k 0)) := ⟨l1, sx.z, sx.g, sx.p, sx.q, sx.c⟩
    rw [sy.put_SPRING_Z ((length_vscale _ _).trans l2)]
  have sd : Sizes s.dimY (traj.ys.rows.getD k []) (vscale s.tau (traj.yds.rows.getD k []))
      (s.goalAt (traj.ts.getD k 0)) (s.phase.xAt (traj.ts.getD k 0)) (s.gating.xAt (traj.ts.getD k 0))
      (s.dampAt (traj.ts.getD k 0)) := ⟨l1, (length_vscale _ _).trans l2, sx.g, sx.p, sx.q, sx.c⟩
  rw [e1]
  -- goal
  have hgoal : s.springGoal (s.goalAt (traj.ts.getD k 0)) =
      .ok (s.scaled (s.goalAt (traj.ts.getD k 0))) := by
    unfold springGoal
    cases eg : s.goal with
    | none =>
      have hr := hg eg
      unfold scaled goalAt
      simp [eg, hr]
    | some g => exact scaleGoal_ok T.scale _
  -- forcing term
  have hph : s.phase.xAt (traj.ts.getD k 0) = [phases.getD k 0] := by
    have lp := phase_length w (traj.ts.getD k 0)
    obtain ⟨p, hp'⟩ := List.length_eq_one_iff.mp lp
    rw [T.phases, getD_map' hk 0 0, hp']
    rfl
  have hforce : s.forcing (s.phase.xAt (traj.ts.getD k 0)) (s.gating.xAt (traj.ts.getD k 0)) =
      .ok (s.forced (vscale ((s.gating.xAt (traj.ts.getD k 0)).getD 0 0) (targets.getD k []))) := by
    unfold forcing
    rw [hph, predictions_single hp (by rw [T.phases]; simpa using hk), except_ok_bind]
    exact scaleForcing_ok w T.force (by simpa using T.row k hk)
  have hvf := diffEq_run w sd
  have hv : s.vf (traj.ys.rows.getD k []) (vscale s.tau (traj.yds.rows.getD k []))
      (s.goalAt (traj.ts.getD k 0)) (s.phase.xAt (traj.ts.getD k 0)) (s.gating.xAt (traj.ts.getD k 0))
      (s.dampAt (traj.ts.getD k 0)) = .ok (pack (vdivs (vscale s.tau (traj.yds.rows.getD k [])) s.spring.tau)
        ((List.range s.dimY).map (s.zRate (s.scaled (s.goalAt (traj.ts.getD k 0)))
          (s.dampingAt (s.dampAt (traj.ts.getD k 0)))
          (s.forced (vscale ((s.gating.xAt (traj.ts.getD k 0)).getD 0 0) (targets.getD k [])))
          (traj.ys.rows.getD k []) (vscale s.tau (traj.yds.rows.getD k []))))
        (s.goalRate (s.goalAt (traj.ts.getD k 0))) (s.phase.rate (s.phase.xAt (traj.ts.getD k 0)))
        (s.gating.rate (s.gating.xAt (traj.ts.getD k 0)))
        (s.dampingRate (s.dampAt (traj.ts.getD k 0)))) := by
    unfold vf
    rw [hgoal, except_ok_bind, hforce, except_ok_bind]
    rfl
  refine ⟨_, (congrArg Prod.fst hvf).trans hv, ?_⟩
  have sr : Sizes s.dimY (vdivs (vscale s.tau (traj.yds.rows.getD k [])) s.spring.tau)
        ((List.range s.dimY).map (s.zRate (s.scaled (s.goalAt (traj.ts.getD k 0)))
          (s.dampingAt (s.dampAt (traj.ts.getD k 0)))
          (s.forced (vscale ((s.gating.xAt (traj.ts.getD k 0)).getD 0 0) (targets.getD k [])))
          (traj.ys.rows.getD k []) (vscale s.tau (traj.yds.rows.getD k []))))
        (s.goalRate (s.goalAt (traj.ts.getD k 0))) (s.phase.rate (s.phase.xAt (traj.ts.getD k 0)))
        (s.gating.rate (s.gating.xAt (traj.ts.getD k 0)))
        (s.dampingRate (s.dampAt (traj.ts.getD k 0))) := by
    refine ⟨(length_vdivs _ _).trans ((length_vscale _ _).trans l2), by simp, goalRate_length w sx.g, ?_, ?_, dampingRate_length w sx.c⟩
    · rw [Sub.length_rate w.phase (sx.p.trans w.phaseDim.symm), w.phaseDim]
    · rw [Sub.length_rate w.gating (sx.q.trans w.gatingDim.symm), w.gatingDim]
  unfold posVelAcc
  rw [sd.pick_SPRING_Y, sr.pick_SPRING_Y, sr.pick_SPRING_Z]
  refine Prod.ext rfl (Prod.ext ?_ ?_)
  · apply ext_getD 0
    · simp
    · intro j _
      rw [getD_vdivs, getD_vscale, hτ]
      field_simp
  · apply ext_getD 0
    · rw [length_vdivs, l3]; simp
    · intro j hj
      have hj : j < s.dimY := by simpa using hj
      rw [getD_vdivs, getD_range_map hj]
      have hval := T.value k hk j hj
      have hdamp : (s.dampingAt (s.dampAt (traj.ts.getD k 0))).at' j =
          (s.dampAt (traj.ts.getD k 0)).getD j 0 := by
        unfold dampingAt
        cases ed : s.damping with
        | none =>
          unfold dampAt
          rw [ed]
          simp only
          rw [full, getD_range_map hj]
        | some g => rfl
      unfold zRate
      rw [hdamp, forced, getD_range_map hj, getD_vscale, getD_vscale, hval, hτ]
      unfold needed
      by_cases hm : s.spring.mass.at' j = 0
      · rw [hm]; field_simp; simp
      · field_simp; ring

/-- C17: if the function approximators reproduce the targets that are computed for a demonstration,
the Dmp has the demonstrated velocity and acceleration at each sample. (Targets are computed only for
gating and scaling factors that are not 0, `C17_computable`.) `fas0` are the function approximators
when the targets are computed, before they are trained.
Missing for C17: dmp_types whose goal is scaled, with goal system None (`C17_refuted`). -/
theorem C17_targets_invert_partial (s : Dmp) (w : s.Wf) (h0 : s.tau ≠ 0) (hτ : s.spring.tau = s.tau)
    (hg : s.goal = none → s.requiresScaling = false) (traj : Trajectory ℝ) (hs : traj.Shape)
    (fas0 : Option (List Fa)) (phases : List ℝ) (targets : List (List ℝ))
    (ht : (computeTargets traj { s with fas := fas0 }).1 = .ok (phases, targets))
    (hp : s.predictions phases = .ok targets) : s.FollowsDemo traj := by
  have w' : ({ s with fas := fas0 } : Dmp).Wf := ⟨w.dimX, w.yAttr, w.yInit, w.spring, w.springDim, w.phase,
    w.phaseDim, w.gating, w.gatingDim, w.goal, w.goalDim, w.damping, w.dampingDim, w.amplitudes⟩
  exact followsDemo_of w h0 hτ hg hs (targetsFor_of w' (sameStart_of_tau (s := { s with fas := fas0 }) hτ) ht).fas hp

/-- The targets can be computed when gating and scaling factors are not 0 at the times of the
demonstration. -/
theorem C17_computable (s : Dmp) (w : s.Wf) (hτ : s.spring.tau = s.tau) (traj : Trajectory ℝ)
    (hd : s.dimY = traj.ys.cols) (hc : s.CanScale) (hf : s.CanForce) (hts : traj.ts ≠ [])
    {fa : List (List ℝ)} (hfa : s.faUsed traj.ts false = .ok fa)
    (hq : ∀ t ∈ traj.ts, s.dimY ≠ 0 → (s.gating.xAt t).getD 0 0 ≠ 0)
    (hs : ∀ j, j < s.dimY → s.forcingFactor j ≠ 0) :
    ∃ phases targets, (computeTargets traj s).1 = .ok (phases, targets) :=
  computeTargets_exists w (sameStart_of_tau hτ) hd hc hf hts hfa hq hs

/-! ### Objects with consistent time constants -/

/-- Objects with positive time constant, which the spring-damper system shares. -/
structure Timed (d : Nat) (s : Dmp) : Prop where
  inv : Inv d s
  tau : 0 < s.tau
  springTau : s.spring.tau = s.tau

theorem kept_timed : Kept d (Timed d) where
  inv _ h := h.inv
  core s t h i hc := ⟨i, by rw [core_tau hc]; exact h.tau,
    by rw [core_springTau hc, core_tau hc]; exact h.springTau⟩
  tau s t h ht := ⟨inv_retimed h.inv t, ht, springTau_retimed t h.tau h.springTau⟩
  place s y h hy := ⟨inv_placed h.inv hy, h.tau, h.springTau⟩
  aim s y h hy := ⟨inv_aimed h.inv hy, h.tau, h.springTau⟩
  other s f a ts sel h i := ⟨i, h.tau, h.springTau⟩
  decouple s h := ⟨inv_decoupled h.inv, h.tau, h.springTau⟩

/-- Constructor arguments: positive time constant (also of a transformation system that is passed); an
exponential goal system that is passed has the attractor of the Dmp. -/
def Consistent (tau : ℝ) (yInit yAttr : List ℝ) (o : Options) (s : Dmp) : Prop :=
  DefaultLike tau yInit yAttr o s ∧ 0 < tau ∧ ∀ t, o.transformation = some t → t.tau = tau

theorem init_timed (tau : ℝ) (yInit yAttr : List ℝ) (fas : Option (List Fa)) (o : Options) (s : Dmp)
    (h : init tau yInit yAttr fas o = .ok s) (hi : yInit.length = d) (ha : yAttr.length = d)
    (ho : o.Fits d) (hg : Consistent tau yInit yAttr o s) : Timed d s := by
  subst hi
  obtain ⟨hl, hτ, htr⟩ := hg
  refine ⟨init_inv h ha ho hl, ?_, ?_⟩
  · obtain ⟨dflt, hd, rfl⟩ := init_eq h
    exact hτ
  · obtain ⟨dflt, hd, rfl⟩ := init_eq h
    change (o.transformation.getD _).tau = tau
    cases e : o.transformation with
    | none => rfl
    | some t => exact htr t e

/-- A scaled goal is the goal of a goal system. -/
structure GoalGiven (d : Nat) (s : Dmp) : Prop where
  timed : Timed d s
  goal : s.goal = none → s.requiresScaling = false

theorem kept_goalGiven : Kept d (GoalGiven d) where
  inv _ h := h.timed.inv
  core s t h i hc := ⟨kept_timed.core s t h.timed i hc, by
    have h1 : t.core.goal = s.core.goal := by rw [hc]
    have h2 : t.core.requiresScaling = s.core.requiresScaling := by rw [hc]
    change t.goal.map Sub.touch = s.goal.map Sub.touch at h1
    change t.requiresScaling = s.requiresScaling at h2
    intro hn
    rw [hn] at h1
    rw [h2]
    exact h.goal (Option.map_eq_none_iff.mp h1.symm)⟩
  tau s t h ht := ⟨kept_timed.tau s t h.timed ht, fun hn => h.goal (Option.map_eq_none_iff.mp hn)⟩
  place s y h hy := ⟨kept_timed.place s y h.timed hy, fun hn => by
    change (if s.requiresScaling then s.goal else s.goal.map (Sub.withInit y)) = none at hn
    by_cases hr : s.requiresScaling = true
    · rw [if_pos hr] at hn; exact h.goal hn
    · exact Bool.eq_false_iff.mpr hr⟩
  aim s y h hy := ⟨kept_timed.aim s y h.timed hy, fun hn => by
    change (if s.requiresScaling then s.goal else s.goal.map (Sub.withAttr y)) = none at hn
    by_cases hr : s.requiresScaling = true
    · rw [if_pos hr] at hn; exact h.goal hn
    · exact Bool.eq_false_iff.mpr hr⟩
  other s f a ts sel h i := ⟨kept_timed.other s f a ts sel h.timed i, h.goal⟩
  decouple s h := ⟨kept_timed.decouple s h.timed, fun hn => h.goal (Option.map_eq_none_iff.mp hn)⟩

/-- Moreover, the goal system is not switched off for a dmp_type whose goal is scaled. -/
def ConsistentGoal (tau : ℝ) (yInit yAttr : List ℝ) (o : Options) (s : Dmp) : Prop :=
  Consistent tau yInit yAttr o s ∧ (s.goal = none → s.requiresScaling = false)

theorem init_goalGiven (tau : ℝ) (yInit yAttr : List ℝ) (fas : Option (List Fa)) (o : Options) (s : Dmp)
    (h : init tau yInit yAttr fas o = .ok s) (hi : yInit.length = d) (ha : yAttr.length = d)
    (ho : o.Fits d) (hg : ConsistentGoal tau yInit yAttr o s) : GoalGiven d s :=
  ⟨init_timed tau yInit yAttr fas o s h hi ha ho hg.1, hg.2⟩

/-! ### Training -/

/-- The data with which the function approximators of a Dmp were trained: function approximator number
`dd` was obtained by training on `phases` and column `dd` of `targets`. -/
def TrainedOn (d : Nat) (fas0 fas1 : List Fa) (phases : List ℝ) (targets : List (List ℝ)) : Prop :=
  targets.length = phases.length ∧ ∀ dd, dd < d → ∃ fa fa', fas0[dd]? = some fa ∧ fas1[dd]? = some fa' ∧
    Fa.train (fun (t : Fin phases.length) (_ : Fin 1) => phases[t])
      (fun t => (targets.getD t []).getD dd 0) none fa = (.ok (), fa')

/-- What a successful training with function approximators leaves. -/
theorem trained {s t : Dmp} (hT : Timed d s) {traj : Trajectory ℝ} (hs : traj.Shape)
    (hlast : ∀ T, traj.ts.getLast? = some T → 0 < T)
    {newFas : Option (Option (List Fa))} (h : train traj newFas s = (.ok (), t)) {fas0 : List Fa}
    (hf : newFas.getD s.fas = some fas0) :
    Timed d t ∧ traj.yInit = .ok (t.spring.xInit.take d) ∧ t.spring.xInit.drop d = vzeros d ∧
    t.tsTrain = some traj.ts ∧ t.requiresScaling = s.requiresScaling ∧
    ∃ fas1 phases targets, t.fas = some fas1 ∧ TrainedOn d fas0 fas1 phases targets ∧
      t.TargetsFor traj phases targets := by
  have hT' : Timed d t := by
    have : Change.Forward (.train traj newFas) := ⟨hs, hlast⟩
    have := kept_timed.change this s hT
    change Timed d (train traj newFas s).2 at this
    rw [h] at this
    exact this
  obtain ⟨tau, y0, yg, range, h1, h2, h3, h4, h5, h6, h7, hi, hc⟩ := train_inv hT.inv hs h
  refine ⟨hT', ?_⟩
  rcases hc with ⟨hn, -⟩ | ⟨f0, fas1, phases, targets, e0, e1, e2, e3⟩
  · rw [hf] at hn; cases hn
  · rw [hf] at e0
    cases e0
    obtain ⟨hi1, hi2, hi3⟩ := hi
    have hτ' : (s.prepared tau y0 yg range (some fas0)).spring.tau =
        (s.prepared tau y0 yg range (some fas0)).tau := springTau_retimed tau hT.tau hT.springTau
    have T := (targetsFor_of (by rw [hf] at hi1; exact hi1) (sameStart_of_tau hτ') e1)
    have hx : t.spring.xInit = y0 ++ vzeros s.dimY := by rw [e3]; rfl
    have hx1 : t.spring.xInit.take d = y0 := by rw [hx, List.take_left' h6]
    have hx2 : t.spring.xInit.drop d = vzeros d := by rw [hx, List.drop_left' h6, hT.inv.dim]
    refine ⟨by rw [hx1]; exact h2, hx2, by rw [e3]; rfl, by rw [e3]; rfl, fas1, phases, targets,
      by rw [e3]; rfl, ⟨?_, fun dd hdd => ?_⟩, ?_⟩
    · rw [T.length, T.phases]; simp
    · exact (trainFas_ok (List.range d) List.nodup_range e2).2.2 dd (List.mem_range.mpr hdd)
    · rw [e3]; exact T.refreshed (some fas1) (some traj.ts)

/-- C17 for the training of a Dmp with function approximators: if they reproduce their training targets,
the Dmp has the demonstrated velocity and acceleration at each sample.
Missing for C17: dmp_types whose goal is scaled, with goal system None (`C17_refuted`). -/
theorem C17_training_partial (d : Nat) (s : Dmp) (h : Reachable ConsistentGoal Change.Forward d s)
    (traj : Trajectory ℝ) (hs : traj.Shape) (hlast : ∀ T, traj.ts.getLast? = some T → 0 < T)
    (newFas : Option (Option (List Fa))) (fas0 : List Fa) (hf : newFas.getD s.fas = some fas0) (t : Dmp)
    (ht : train traj newFas s = (.ok (), t)) :
    ∃ fas1 phases targets, t.fas = some fas1 ∧ TrainedOn d fas0 fas1 phases targets ∧
      (t.predictions phases = .ok targets → t.FollowsDemo traj) := by
  have hG := kept_goalGiven.reachable init_goalGiven h
  obtain ⟨hT, -, -, -, -, fas1, phases, targets, h1, h2, T⟩ := trained hG.timed hs hlast ht hf
  have hG' : GoalGiven d t := by
    have := kept_goalGiven.change (c := .train traj newFas) ⟨hs, hlast⟩ s hG
    change GoalGiven d (train traj newFas s).2 at this
    rw [ht] at this
    exact this
  exact ⟨fas1, phases, targets, h1, h2,
    fun hp => followsDemo_of hT.inv.wf hT.tau.ne' hT.springTau hG'.goal hs T hp⟩

theorem gpr_reproduces {s : Dmp} {fas0 fas1 : List Fa} {phases : List ℝ} {targets : List (List ℝ)}
    (hf : s.fas = some fas1) (h : TrainedOn s.dimY fas0 fas1 phases targets)
    (hr : ∀ k, k < phases.length → (targets.getD k []).length = s.dimY)
    (hg : ∀ fa ∈ fas0, ∃ c lengths, fa.params = .gpr c lengths) :
    s.predictions phases = .ok targets := by
  refine predictions_of_columns hf h.1 hr fun dd hdd => ?_
  obtain ⟨fa, fa', h1, h2, h3⟩ := h.2 dd hdd
  obtain ⟨c, lengths, hp⟩ := hg fa (List.mem_of_getElem? h1)
  exact ⟨fa', h2, C38_object c lengths _ _ none fa fa' hp h3⟩

/-- C17 without assumption on the predictions: function approximators of type GPR. -/
theorem C17_gpr (d : Nat) (s : Dmp) (h : Reachable ConsistentGoal Change.Forward d s)
    (traj : Trajectory ℝ) (hs : traj.Shape) (hlast : ∀ T, traj.ts.getLast? = some T → 0 < T)
    (newFas : Option (Option (List Fa))) (fas0 : List Fa) (hf : newFas.getD s.fas = some fas0)
    (hg : ∀ fa ∈ fas0, ∃ c lengths, fa.params = .gpr c lengths) (t : Dmp)
    (ht : train traj newFas s = (.ok (), t)) : t.FollowsDemo traj := by
  have hG := kept_goalGiven.reachable init_goalGiven h
  obtain ⟨hT, -, -, -, -, fas1, phases, targets, h1, h2, T⟩ := trained hG.timed hs hlast ht hf
  have hG' : GoalGiven d t := by
    have := kept_goalGiven.change (c := .train traj newFas) ⟨hs, hlast⟩ s hG
    change GoalGiven d (train traj newFas s).2 at this
    rw [ht] at this
    exact this
  refine followsDemo_of hT.inv.wf hT.tau.ne' hT.springTau hG'.goal hs T
    (gpr_reproduces h1 (by rw [hT.inv.dim]; exact h2) ?_ hg)
  intro k hk
  exact T.row k (by rw [T.phases] at hk; simpa using hk)

/-! ### C18 -/

/-- The trajectory `r` of a Dmp deviates from a demonstration as a spring-damper system does that is
disturbed by the residuals of the demonstration. `damping` are the damping coefficients at each time. -/
def DeviatesFrom (s : Dmp) (r traj : Trajectory ℝ) (damping : List (List ℝ)) : Prop :=
  ∀ j, j < s.dimY → Spec.Deviation traj.ts.length (fun k => traj.ts.getD k 0)
    (s.spring.spring.at' j) (s.spring.mass.at' j) s.tau (fun k => (damping.getD k []).getD j 0)
    (fun k => (traj.ys.rows.getD k []).getD j 0) (fun k => (traj.yds.rows.getD k []).getD j 0)
    (fun k => (traj.ydds.rows.getD k []).getD j 0)
    (fun k => (r.ys.rows.getD k []).getD j 0 - (traj.ys.rows.getD k []).getD j 0)
    (fun k => (r.yds.rows.getD k []).getD j 0 - (traj.yds.rows.getD k []).getD j 0)
    (fun k => (r.ydds.rows.getD k []).getD j 0 - (traj.ydds.rows.getD k []).getD j 0)

theorem asTrajectory_ok (s : Dmp) {ts : List ℝ} {xs xds : List (List ℝ)} (h1 : xs.length = ts.length)
    (h2 : xds.length = ts.length) : s.asTrajectory ts xs xds = .ok
      { ts := ts
        dtMean := meanDiff ts
        ys := ⟨s.dimY, xs.map fun x => pickAt x (SPRING_Y s.dimY)⟩
        yds := ⟨s.dimY, xds.map fun xd => pickAt xd (SPRING_Y s.dimY)⟩
        ydds := ⟨s.dimY, xds.map fun xd => vdivs (pickAt xd (SPRING_Z s.dimY)) s.tau⟩
        misc := none
        dim := s.dimY } := by
  unfold asTrajectory Trajectory.init
  simp [Arr.len, Arr.asColumns, Trajectory.derivative, Arr2.shape, h1, h2, bind, Except.bind]

theorem pick_xRow_Y {s : Dmp} (w : s.Wf) (ts : List ℝ) (F : List (List ℝ)) (k : Nat) :
    pickAt (s.xRow ts F k) (SPRING_Y s.dimY) = (List.range s.dimY).map fun j => (s.mot ts F j k).1 :=
  (xRow_sizes w ts F k).pick_SPRING_Y

theorem pick_xRow_DAMPING {s : Dmp} (w : s.Wf) (ts : List ℝ) (F : List (List ℝ)) (k : Nat) :
    pickAt (s.xRow ts F k) (DAMPING s.dimY) = s.dampAt (ts.getD k 0) :=
  (xRow_sizes w ts F k).pick_DAMPING

theorem pick_xdRow_Y {s : Dmp} (w : s.Wf) (ts : List ℝ) (F : List (List ℝ)) (k : Nat) :
    pickAt (s.xdRow ts F k) (SPRING_Y s.dimY) =
      (List.range s.dimY).map fun j => (s.mot ts F j k).2 / s.tau :=
  (xdRow_sizes w ts F k).pick_SPRING_Y

theorem pick_xdRow_Z {s : Dmp} (w : s.Wf) (ts : List ℝ) (F : List (List ℝ)) (k : Nat) :
    pickAt (s.xdRow ts F k) (SPRING_Z s.dimY) = (List.range s.dimY).map fun j => s.motAcc ts F j k :=
  (xdRow_sizes w ts F k).pick_SPRING_Z

theorem deviates {s : Dmp} (w : s.Wf) (h0 : s.tau ≠ 0) (hτ : s.spring.tau = s.tau)
    {traj : Trajectory ℝ} (hs : traj.Shape) (hy : traj.yInit = .ok (s.spring.xInit.take s.dimY))
    (hz : s.spring.xInit.drop s.dimY = vzeros s.dimY)
    {phases : List ℝ} {targets : List (List ℝ)} (T : s.TargetsFor traj phases targets)
    (hp : s.predictions phases = .ok targets) :
    ∃ sol r, (analytical (some traj.ts) false s).1 = .ok sol ∧
      s.asTrajectory traj.ts sol.xs sol.xds = .ok r ∧
      s.DeviatesFrom r traj (sol.xs.map fun x => pickAt x (DAMPING s.dimY)) ∧
      r.ts = traj.ts ∧ r.ys.cols = traj.ys.cols ∧ r.yds.cols = traj.yds.cols ∧
      r.ydds.cols = traj.ydds.cols ∧ r.ys.rows.length = traj.ts.length ∧
      r.yds.rows.length = traj.ts.length ∧ r.ydds.rows.length = traj.ts.length ∧
      ∀ k, k < traj.ts.length → (r.ys.rows.getD k []).length = s.dimY ∧
        (r.yds.rows.getD k []).length = s.dimY ∧ (r.ydds.rows.getD k []).length = s.dimY := by
  refine ⟨_, _, (analytical_iff w (sameStart_of_tau hτ)).mpr ⟨T.scale, T.force, T.times, _,
    faUsed_exists T hp false, rfl⟩, asTrajectory_ok s (by simp) (by simp), ?_, rfl, T.dim,
      T.dim.trans hs.ydsShape.symm, T.dim.trans hs.yddsShape.symm, by simp, by simp, by simp, ?_⟩
  · intro j hj
    simp only [Bool.false_eq_true, if_false, List.map_map, Function.comp_def]
    have hgat : ∀ k, k < traj.ts.length → ((s.gated traj.ts targets).getD k []).getD j 0 =
        s.needed (traj.ts.getD k 0) (traj.ys.rows.getD k []) (traj.yds.rows.getD k [])
        (traj.ydds.rows.getD k []) j := fun k hk => by
      rw [gated_getD T.length hk hj, T.value k hk j hj]
    generalize s.gated traj.ts targets = F at hgat
    have e1 : ∀ k, k < traj.ts.length → (((List.range traj.ts.length).map fun k =>
        pickAt (s.xRow traj.ts F k) (SPRING_Y s.dimY)).getD k []).getD j 0 = (s.mot traj.ts F j k).1 := by
      intro k hk
      rw [getD_range_map hk, pick_xRow_Y w, getD_range_map hj]
    have e2 : ∀ k, k < traj.ts.length → (((List.range traj.ts.length).map fun k =>
        pickAt (s.xdRow traj.ts F k) (SPRING_Y s.dimY)).getD k []).getD j 0 =
          (s.mot traj.ts F j k).2 / s.tau := by
      intro k hk
      rw [getD_range_map hk, pick_xdRow_Y w, getD_range_map hj]
    have e3 : ∀ k, k < traj.ts.length → (((List.range traj.ts.length).map fun k =>
        vdivs (pickAt (s.xdRow traj.ts F k) (SPRING_Z s.dimY)) s.tau).getD k []).getD j 0 =
          s.motAcc traj.ts F j k / s.tau := by
      intro k hk
      rw [getD_range_map hk, pick_xdRow_Z w, getD_vdivs, getD_range_map hj]
    have e4 : ∀ k, k < traj.ts.length → (((List.range traj.ts.length).map fun k =>
        pickAt (s.xRow traj.ts F k) (DAMPING s.dimY)).getD k []).getD j 0 =
          (s.dampAt (traj.ts.getD k 0)).getD j 0 := by
      intro k hk
      rw [getD_range_map hk, pick_xRow_DAMPING w]
    have hpos : 0 < traj.ts.length := List.length_pos_iff.mpr T.times
    have hacc : ∀ k, k < traj.ts.length → s.motAcc traj.ts F j k / s.tau -
        (traj.ydds.rows.getD k []).getD j 0 =
        -(s.spring.spring.at' j * ((s.mot traj.ts F j k).1 - (traj.ys.rows.getD k []).getD j 0) +
          s.tau * (s.dampAt (traj.ts.getD k 0)).getD j 0 *
            ((s.mot traj.ts F j k).2 / s.tau - (traj.yds.rows.getD k []).getD j 0)) /
          (s.spring.mass.at' j * s.tau ^ 2) := by
      intro k hk
      unfold motAcc acc
      simp only
      rw [hgat k hk, hτ]
      unfold needed
      by_cases hm : s.spring.mass.at' j = 0
      · rw [hm]; field_simp; simp
      · field_simp; ring
    constructor
    · rw [e1 0 hpos]
      have hr : traj.ys.rows.getD 0 [] = s.spring.xInit.take s.dimY := by
        unfold Trajectory.yInit at hy
        cases e : traj.ys.rows with
        | nil => rw [e] at hy; cases hy
        | cons a l => rw [e] at hy; exact Except.ok.inj hy
      rw [hr, getD_take' hj]
      simp [mot]
    · rw [e2 0 hpos]
      have : (s.mot traj.ts F j 0).2 = 0 := by
        change s.spring.xInit.getD (s.dimY + j) 0 = 0
        have h := congrArg (fun l => l.getD j 0) hz
        simp only [getD_vzeros] at h
        rw [getD_drop'] at h
        exact h
      rw [this]; simp
    · intro k hk
      rw [e1 k hk, e2 k hk, e3 k hk, e4 k hk, hacc k hk]
    · intro k hk
      rw [e1 k (by omega), e1 (k + 1) hk, e2 k (by omega)]
      simp only [mot]
      ring
    · intro k hk
      rw [e2 k (by omega), e2 (k + 1) hk, e3 k (by omega)]
      have : (s.mot traj.ts F j (k + 1)).2 = (s.mot traj.ts F j k).2 +
        (traj.ts.getD (k + 1) 0 - traj.ts.getD k 0) * s.motAcc traj.ts F j k := rfl
      rw [this]
      ring
  · intro k hk
    simp only [Bool.false_eq_true, if_false, List.map_map, Function.comp_def]
    refine ⟨?_, ?_, ?_⟩
    · rw [getD_range_map hk, pick_xRow_Y w]; simp
    · rw [getD_range_map hk, pick_xdRow_Y w]; simp
    · rw [getD_range_map hk, pick_xdRow_Z w]; simp

/-- C18: the trajectory of a trained Dmp on the training times (also when these are not given again)
deviates from the demonstration as a free spring-damper system does that is disturbed by the residuals of
the demonstration in each Euler step. -/
theorem C18_deviation (d : Nat) (s : Dmp) (h : Reachable Consistent Change.Forward d s)
    (traj : Trajectory ℝ) (hs : traj.Shape) (hlast : ∀ T, traj.ts.getLast? = some T → 0 < T)
    (newFas : Option (Option (List Fa))) (fas0 : List Fa) (hf : newFas.getD s.fas = some fas0) (t : Dmp)
    (ht : train traj newFas s = (.ok (), t)) :
    ∃ fas1 phases targets, t.fas = some fas1 ∧ TrainedOn d fas0 fas1 phases targets ∧
      (t.predictions phases = .ok targets → ∃ sol r, (analytical (some traj.ts) false t).1 = .ok sol ∧
        (analytical none false t).1 = .ok sol ∧ t.asTrajectory traj.ts sol.xs sol.xds = .ok r ∧
        t.DeviatesFrom r traj (sol.xs.map fun x => pickAt x (DAMPING d))) := by
  have hT0 := kept_timed.reachable init_timed h
  obtain ⟨hT, hy, hz, hts, -, fas1, phases, targets, h1, h2, T⟩ := trained hT0 hs hlast ht hf
  refine ⟨fas1, phases, targets, h1, h2, fun hp => ?_⟩
  have hd := hT.inv.dim
  obtain ⟨sol, r, h3, h4, h5, -⟩ := deviates hT.inv.wf hT.tau.ne' hT.springTau hs
    (by rw [hd]; exact hy) (by rw [hd]; exact hz) T hp
  refine ⟨sol, r, h3, ?_, h4, by rw [← hd]; exact h5⟩
  rw [analytical_none, hts]
  exact h3

/-- The demonstration starts at rest and follows by Euler steps from its accelerations. -/
def EulerConsistent (traj : Trajectory ℝ) : Prop :=
  ∀ j, j < traj.ys.cols → Spec.EulerDemo traj.ts.length (fun k => traj.ts.getD k 0)
    (fun k => (traj.ys.rows.getD k []).getD j 0) (fun k => (traj.yds.rows.getD k []).getD j 0)
    (fun k => (traj.ydds.rows.getD k []).getD j 0)

theorem rows_ext {a b : List (List ℝ)} {n d : Nat} (ha : a.length = n) (hb : b.length = n)
    (la : ∀ k, k < n → (a.getD k []).length = d) (lb : ∀ k, k < n → (b.getD k []).length = d)
    (h : ∀ k, k < n → ∀ j, j < d → (a.getD k []).getD j 0 = (b.getD k []).getD j 0) : a = b := by
  refine ext_getD [] (ha.trans hb.symm) fun k hk => ?_
  rw [ha] at hk
  refine ext_getD 0 ((la k hk).trans (lb k hk).symm) fun j hj => ?_
  rw [la k hk] at hj
  exact h k hk j hj

theorem reproduces {s : Dmp} (w : s.Wf) (h0 : s.tau ≠ 0) (hτ : s.spring.tau = s.tau)
    {traj : Trajectory ℝ} (hs : traj.Shape) (hy : traj.yInit = .ok (s.spring.xInit.take s.dimY))
    (hz : s.spring.xInit.drop s.dimY = vzeros s.dimY)
    {phases : List ℝ} {targets : List (List ℝ)} (T : s.TargetsFor traj phases targets)
    (hp : s.predictions phases = .ok targets) (he : EulerConsistent traj) :
    ∃ sol r, (analytical (some traj.ts) false s).1 = .ok sol ∧
      s.asTrajectory traj.ts sol.xs sol.xds = .ok r ∧
      r.ts = traj.ts ∧ r.ys = traj.ys ∧ r.yds = traj.yds ∧ r.ydds = traj.ydds := by
  obtain ⟨sol, r, h1, h2, h3, h4, c1, c2, c3, l1, l2, l3, hl⟩ := deviates w h0 hτ hs hy hz T hp
  have key : ∀ k, k < traj.ts.length → ∀ j, j < s.dimY → _ := fun k hk j hj =>
    (h3 j hj).zero (he j (by rw [← T.dim]; exact hj)) k hk
  have hd := T.dim
  refine ⟨sol, r, h1, h2, h4, ?_, ?_, ?_⟩
  · have := rows_ext l1 hs.ys (fun k hk => (hl k hk).1) (fun k hk => by rw [hd]; exact (shape_row hs hk).1)
      (fun k hk j hj => sub_eq_zero.mp (key k hk j hj).1)
    cases e : r.ys; cases e' : traj.ys; rw [e, e'] at this c1; cases this; cases c1; rfl
  · have := rows_ext l2 hs.yds (fun k hk => (hl k hk).2.1)
      (fun k hk => by rw [hd]; exact (shape_row hs hk).2.1)
      (fun k hk j hj => sub_eq_zero.mp (key k hk j hj).2.1)
    cases e : r.yds; cases e' : traj.yds; rw [e, e'] at this c2; cases this; cases c2; rfl
  · have := rows_ext l3 hs.ydds (fun k hk => (hl k hk).2.2)
      (fun k hk => by rw [hd]; exact (shape_row hs hk).2.2)
      (fun k hk j hj => sub_eq_zero.mp (key k hk j hj).2.2)
    cases e : r.ydds; cases e' : traj.ydds; rw [e, e'] at this c3; cases this; cases c3; rfl

/-- C18: a trained Dmp whose function approximators reproduce the training targets returns exactly the
demonstration, if that starts at rest and follows by Euler steps from its accelerations. -/
theorem C18_reproduces (d : Nat) (s : Dmp) (h : Reachable Consistent Change.Forward d s)
    (traj : Trajectory ℝ) (hs : traj.Shape) (hlast : ∀ T, traj.ts.getLast? = some T → 0 < T)
    (newFas : Option (Option (List Fa))) (fas0 : List Fa) (hf : newFas.getD s.fas = some fas0) (t : Dmp)
    (ht : train traj newFas s = (.ok (), t)) (he : EulerConsistent traj) :
    ∃ fas1 phases targets, t.fas = some fas1 ∧ TrainedOn d fas0 fas1 phases targets ∧
      (t.predictions phases = .ok targets → ∃ sol r, (analytical (some traj.ts) false t).1 = .ok sol ∧
        t.asTrajectory traj.ts sol.xs sol.xds = .ok r ∧
        r.ts = traj.ts ∧ r.ys = traj.ys ∧ r.yds = traj.yds ∧ r.ydds = traj.ydds) := by
  have hT0 := kept_timed.reachable init_timed h
  obtain ⟨hT, hy, hz, hts, -, fas1, phases, targets, h1, h2, T⟩ := trained hT0 hs hlast ht hf
  have hd := hT.inv.dim
  exact ⟨fas1, phases, targets, h1, h2, fun hp => reproduces hT.inv.wf hT.tau.ne' hT.springTau hs
    (by rw [hd]; exact hy) (by rw [hd]; exact hz) T hp he⟩

/-- C18 without assumption on the predictions: function approximators of type GPR. -/
theorem C18_gpr (d : Nat) (s : Dmp) (h : Reachable Consistent Change.Forward d s)
    (traj : Trajectory ℝ) (hs : traj.Shape) (hlast : ∀ T, traj.ts.getLast? = some T → 0 < T)
    (newFas : Option (Option (List Fa))) (fas0 : List Fa) (hf : newFas.getD s.fas = some fas0)
    (hg : ∀ fa ∈ fas0, ∃ c lengths, fa.params = .gpr c lengths) (t : Dmp)
    (ht : train traj newFas s = (.ok (), t)) (he : EulerConsistent traj) :
    ∃ sol r, (analytical (some traj.ts) false t).1 = .ok sol ∧
      t.asTrajectory traj.ts sol.xs sol.xds = .ok r ∧
      r.ts = traj.ts ∧ r.ys = traj.ys ∧ r.yds = traj.yds ∧ r.ydds = traj.ydds := by
  have hT0 := kept_timed.reachable init_timed h
  obtain ⟨hT, hy, hz, hts, -, fas1, phases, targets, h1, h2, T⟩ := trained hT0 hs hlast ht hf
  have hd := hT.inv.dim
  refine reproduces hT.inv.wf hT.tau.ne' hT.springTau hs (by rw [hd]; exact hy) (by rw [hd]; exact hz) T
    (gpr_reproduces h1 (by rw [hd]; exact h2) ?_ hg) he
  intro k hk
  exact T.row k (by rw [T.phases] at hk; simpa using hk)

/-! ### Scaled goal without goal system -/

/-- C17 for all objects with consistent arguments. -/
def C17_statement : Prop :=
  ∀ (d : Nat) (s : Dmp), Reachable Consistent Change.Forward d s → ∀ traj : Trajectory ℝ, traj.Shape →
    ∀ (fas0 : Option (List Fa)) (phases : List ℝ) (targets : List (List ℝ)),
    (computeTargets traj { s with fas := fas0 }).1 = .ok (phases, targets) →
    s.predictions phases = .ok targets → s.FollowsDemo traj

theorem demoState_xRow {s : Dmp} (w : s.Wf) {traj : Trajectory ℝ} (hs : traj.Shape)
    (hd : s.dimY = traj.ys.cols) {k : Nat} (hk : k < traj.ts.length) (F : List (List ℝ)) :
    s.demoState (s.xRow traj.ts F k) traj k =
      pack (traj.ys.rows.getD k []) (vscale s.tau (traj.yds.rows.getD k []))
        (s.goalAt (traj.ts.getD k 0)) (s.phase.xAt (traj.ts.getD k 0))
        (s.gating.xAt (traj.ts.getD k 0)) (s.dampAt (traj.ts.getD k 0)) ∧
    Sizes s.dimY (traj.ys.rows.getD k []) (vscale s.tau (traj.yds.rows.getD k []))
      (s.goalAt (traj.ts.getD k 0)) (s.phase.xAt (traj.ts.getD k 0)) (s.gating.xAt (traj.ts.getD k 0))
      (s.dampAt (traj.ts.getD k 0)) := by
  obtain ⟨l1, l2, l3⟩ := shape_row hs hk
  rw [← hd] at l1 l2 l3
  have sx := xRow_sizes w traj.ts F k
  have sd : Sizes s.dimY (traj.ys.rows.getD k []) (vscale s.tau (traj.yds.rows.getD k []))
      (s.goalAt (traj.ts.getD k 0)) (s.phase.xAt (traj.ts.getD k 0)) (s.gating.xAt (traj.ts.getD k 0))
      (s.dampAt (traj.ts.getD k 0)) := ⟨l1, (length_vscale _ _).trans l2, sx.g, sx.p, sx.q, sx.c⟩
  refine ⟨?_, sd⟩
  unfold demoState xRow
  simp only
  rw [sx.put_SPRING_Y l1]
  have sy : Sizes s.dimY (traj.ys.rows.getD k [])
    ((List.range s.dimY).map fun j => (s.mot traj.ts F j k).2)
    (s.goalAt (traj.ts.getD k 0)) (s.phase.xAt (traj.ts.getD k 0)) (s.gating.xAt (traj.ts.getD k 0))
    (s.dampAt (traj.ts.getD k 0)) := ⟨l1, sx.z, sx.g, sx.p, sx.q, sx.c⟩
  rw [sy.put_SPRING_Z ((length_vscale _ _).trans l2)]

/-- A demonstration with one sample. -/
noncomputable def demo1 : Trajectory ℝ :=
  { ts := [0]
    dtMean := none
    ys := ⟨1, [[0]]⟩
    yds := ⟨1, [[0]]⟩
    ydds := ⟨1, [[400]]⟩
    misc := none
    dim := 1 }

/-- The options of the counterexample: scaled goal, but goal_system=None. -/
noncomputable def noGoal : Options :=
  { dmpType := "2022"
    goal := some none
    gating := some (.exponential (.init 1 [1] [0] (.scalar 4))) }

/-- C17 is false for a dmp_type whose goal is scaled, if the goal system is None:
`_compute_targets` uses the scaled goal y0+(g-y0)*g (Dmp.py:187-191, 498), `differential_equation`
the goal g (Dmp.py:249-252). -/
theorem C17_refuted : ¬ C17_statement := by
  intro H
  obtain ⟨s0, hs⟩ := (C16_types 1 [0] [2] none noGoal).1 (Or.inr (Or.inl ⟨"", "", rfl⟩))
  have hfit : noGoal.Fits 1 := ⟨(fun _ h => nomatch h), trivial, (fun _ h => nomatch h),
    (fun _ h => by cases h; exact ⟨exponential_fits 1 [1] [0] 4 rfl, rfl⟩), (fun _ h => nomatch h), (fun _ h => nomatch h),
    (fun _ h => nomatch h)⟩
  have hc : Consistent 1 [0] [2] noGoal s0 :=
    ⟨(fun _ h => nomatch h), one_pos, (fun _ h => nomatch h)⟩
  have hr0 : Reachable Consistent Change.Forward 1 s0 := .init hs rfl rfl hfit hc
  have hr : Reachable Consistent Change.Forward 1 ((Change.yInit [0]).run s0).2 := .change hr0 _ trivial
  have hi0 := (kept_timed.reachable init_timed hr0).inv
  obtain ⟨dflt, hd, hseq⟩ := init_eq hs
  have hdim0 : s0.dimY = 1 := by rw [hseq]; rfl
  have hrun : ((Change.yInit [0]).run s0).2 = s0.placed [0] := by
    change (setYInit [0] s0).2 = _
    rw [setYInit_run hi0.wf (y := [0]) hdim0.symm]
  rw [hrun] at hr
  have hT := kept_timed.reachable init_timed hr
  unfold defaults noGoal at hd
  simp only at hd
  rw [if_neg (by decide), if_neg (by decide), if_pos (by decide)] at hd
  have hd := Except.ok.inj hd
  have hreq0 : s0.requiresScaling = true := by
    rw [hseq]; simp only; rw [← hd]; decide
  have hgoal0 : s0.goal = none := by rw [hseq]; rfl
  have hdamp0 : s0.damping = none := by
    rw [hseq]; simp only; rw [← hd]; simp only [noGoal]; rw [if_neg (by decide)]; rfl
  have hsc : (s0.placed [0]).scaling = .noScaling := by rw [hseq]; rfl
  have hgat : (s0.placed [0]).gating = .exponential (.init 1 [1] [0] (.scalar 4)) := by
    rw [hseq]; rfl
  have hfas : (s0.placed [0]).fas = none := by rw [hseq]; rfl
  have hya : (s0.placed [0]).yAttr = [2] := by rw [hseq]; rfl
  have hyi : (s0.placed [0]).yInit? = some [0] := rfl
  have htau : (s0.placed [0]).tau = 1 := by rw [hseq]; rfl
  have hk : (s0.placed [0]).spring.spring.at' 0 = 100 := by
    rw [hseq]; simp [placed, noGoal, SpringDamper.init, SpringDamper.criticalSpring, Par.at']; norm_num
  have hm : (s0.placed [0]).spring.mass.at' 0 = 1 := by
    rw [hseq]; simp [placed, noGoal, SpringDamper.init, Par.at']
  have hdim : (s0.placed [0]).dimY = 1 := hdim0
  have hreq : (s0.placed [0]).requiresScaling = true := hreq0
  have hgoal : (s0.placed [0]).goal = none := by
    change (if s0.requiresScaling then s0.goal else s0.goal.map (Sub.withInit [0])) = none
    rw [if_pos hreq0, hgoal0]
  have hdamp : (s0.placed [0]).damping = none := hdamp0
  clear hseq hd hreq0 hgoal0 hdamp0 hdim0 hr0 hi0 hrun hc hs
  generalize s0.placed [0] = s at *
  have w := hT.inv.wf
  have hshape : demo1.Shape := ⟨rfl, rfl, rfl, by simp [demo1], by simp [demo1], by simp [demo1], rfl, rfl,
    rfl, fun _ h => nomatch h⟩
  have hx : (s.gating.xAt 0).getD 0 0 = 1 := by
    rw [hgat]
    simp [Sub.xAt, Exponential.xAt, Exponential.init, Exponential.xComp]
  obtain ⟨phases, targets, ht⟩ := C17_computable s w hT.springTau demo1 hdim
    (fun _ => by rw [hyi]; simp) (by unfold CanForce; rw [hsc]; trivial) (by simp [demo1]) (fa := _)
    (by unfold faUsed predictions; rw [hfas]; rfl)
    (fun t h _ => by
      have : t = 0 := by simpa [demo1] using h
      rw [this, hx]; norm_num)
    (fun j _ => by unfold forcingFactor; rw [hsc]; norm_num)
  have T := targetsFor_of w (sameStart_of_tau hT.springTau) ht
  have hga : s.goalAt 0 = [2] := by unfold goalAt; rw [hgoal]; exact hya
  have hf1 : s.forcingFactor 0 = 1 := by unfold forcingFactor; rw [hsc]
  have hval := T.value 0 (by simp [demo1]) 0 (by omega)
  have e0 : demo1.ts.getD 0 0 = 0 := rfl
  have e1 : demo1.ys.rows.getD 0 [] = [0] := rfl
  have e2 : demo1.yds.rows.getD 0 [] = [0] := rfl
  have e3 : demo1.ydds.rows.getD 0 [] = [400] := rfl
  have hsca : (s.scaled [2]).getD 0 0 = 4 := by
    unfold scaled; rw [hreq, hya, hyi]; simp [vadd, vmul, vsub]; norm_num
  rw [e0, e1, e2, e3, hx, hf1, one_mul, one_mul] at hval
  unfold needed at hval
  rw [hga, hsca, htau, hk, hm] at hval
  norm_num at hval
  have hpred : s.predictions phases = .ok targets := by
    have l1 : phases.length = 1 := by rw [T.phases]; simp [demo1]
    have l2 : targets.length = 1 := T.length
    have l3 : (targets.getD 0 []).length = 1 := (T.row 0 (by simp [demo1])).trans hdim
    unfold predictions
    rw [hfas, l1, hdim]
    refine congrArg Except.ok ?_
    refine rows_ext (n := 1) (d := 1) rfl l2 (fun k hk => ?_) (fun k hk => ?_) (fun k hk j hj => ?_)
    · obtain rfl : k = 0 := by omega
      rfl
    · obtain rfl : k = 0 := by omega
      exact l3
    · obtain rfl : k = 0 := by omega
      obtain rfl : j = 0 := by omega
      rw [← List.getD_eq_getElem?_getD, ← List.getD_eq_getElem?_getD] at hval
      rw [hval]
      rfl
  obtain ⟨sol, h1, h2⟩ := H 1 s hr demo1 hshape s.fas phases targets ht hpred false
  obtain ⟨-, -, -, fa, hfa, hsol⟩ := (analytical_iff w (sameStart_of_tau hT.springTau)).mp h1
  obtain ⟨xd, h3, h4⟩ := h2 0 (by simp [demo1])
  have exs : sol.xs.getD 0 [] = s.xRow demo1.ts (s.gated demo1.ts fa) 0 := by
    rw [hsol]; rfl
  obtain ⟨p1, p2⟩ := demoState_xRow w hshape hdim (k := 0) (by simp [demo1]) (s.gated demo1.ts fa)
  rw [exs, p1, diffEq_run w p2] at h3
  simp only at h3
  unfold vf springGoal at h3
  rw [hgoal] at h3
  simp only at h3
  obtain ⟨ga, hga', h3⟩ := except_bind_ok h3
  obtain ⟨f, hf', h3⟩ := except_bind_ok h3
  cases hga'
  have hf0 : f.getD 0 0 = 0 := by
    unfold forcing at hf'
    obtain ⟨pr, hp1, hp2⟩ := except_bind_ok hf'
    unfold predictions at hp1
    rw [hfas] at hp1
    cases hp1
    unfold scaleForcing at hp2
    rw [hsc] at hp2
    cases hp2
    cases s.phase.xAt (demo1.ts.getD 0 0) with
    | nil => simp [vscale]
    | cons a l => simp [List.replicate_succ, vscale, vzeros, hdim]
  cases h3
  have sr : Sizes s.dimY (vdivs (vscale s.tau (demo1.yds.rows.getD 0 [])) s.spring.tau)
      ((List.range s.dimY).map (s.zRate s.yAttr (s.dampingAt (s.dampAt (demo1.ts.getD 0 0))) f
        (demo1.ys.rows.getD 0 []) (vscale s.tau (demo1.yds.rows.getD 0 []))))
      (s.goalRate (s.goalAt (demo1.ts.getD 0 0))) (s.phase.rate (s.phase.xAt (demo1.ts.getD 0 0)))
      (s.gating.rate (s.gating.xAt (demo1.ts.getD 0 0)))
      (s.dampingRate (s.dampAt (demo1.ts.getD 0 0))) := by
    refine ⟨by rw [hdim]; rfl, by simp, goalRate_length w p2.g, ?_, ?_, dampingRate_length w p2.c⟩
    · rw [Sub.length_rate w.phase (p2.p.trans w.phaseDim.symm), w.phaseDim]
    · rw [Sub.length_rate w.gating (p2.q.trans w.gatingDim.symm), w.gatingDim]
  unfold posVelAcc at h4
  have h5 := congrArg (fun p : List ℝ × List ℝ × List ℝ => p.2.2.getD 0 0) h4
  simp only at h5
  rw [sr.pick_SPRING_Z, getD_vdivs, getD_range_map (by omega), e3] at h5
  unfold zRate at h5
  rw [hf0, hk, hm, hT.springTau, htau, hya, e1, e2, getD_vscale] at h5
  norm_num at h5

/-! ### Cases -/

/-- A demonstration with two samples that starts at rest. -/
noncomputable def demo : Trajectory ℝ :=
  { ts := [0, 1]
    dtMean := some 1
    ys := ⟨1, [[3], [3]]⟩
    yds := ⟨1, [[0], [1]]⟩
    ydds := ⟨1, [[1], [5]]⟩
    misc := none
    dim := 1 }

theorem demo_shape : demo.Shape where
  ys := rfl
  yds := rfl
  ydds := rfl
  ysCols := by simp [demo]
  ydsCols := by simp [demo]
  yddsCols := by simp [demo]
  ydsShape := rfl
  yddsShape := rfl
  dim := rfl
  misc := fun _ h => nomatch h

/-- It was made with the constructor of trajectories. -/
example : Trajectory.init [0, 1] (.two ⟨1, [[3], [3]]⟩) (some (.two ⟨1, [[0], [1]]⟩))
    (some (.two ⟨1, [[1], [5]]⟩)) none = .ok demo := by
  unfold Trajectory.init
  simp [Arr.len, Arr.asColumns, Trajectory.derivative, Arr2.shape, bind, Except.bind, meanDiff, diff, demo]

theorem demo_euler : EulerConsistent demo := by
  intro j hj
  have : j = 0 := by change j < 1 at hj; omega
  subst this
  refine ⟨rfl, fun k hk => ?_, fun k hk => ?_⟩
  · have : k = 0 := by change k + 1 < 2 at hk; omega
    subst this; simp [demo]
  · have : k = 0 := by change k + 1 < 2 at hk; omega
    subst this; simp [demo]

theorem gpr_two (a b : ℝ) (h : a ≠ b) (y : Fin [a, b].length → ℝ) : ∃ fa',
    Fa.train (fun (t : Fin [a, b].length) (_ : Fin 1) => [a, b][t]) y none (Fa.new (.gpr 1 [1])) =
      (.ok (), fa') := by
  have key : ∃ m, gprTrain 1 [1] (fun (t : Fin [a, b].length) (_ : Fin 1) => [a, b][t]) y = .ok m := by
    unfold gprTrain gprActivations
    rw [if_neg (by simp)]
    simp only [pure_bind]
    rw [activations_raw_ok _ _ (by intro b i; simp)]
    simp only [except_ok_bind, pure, Except.pure]
    rw [if_neg]
    · exact ⟨_, rfl⟩
    · intro hdet
      have hdet : Matrix.det (Matrix.of fun (s b' : Fin 2) => (1 : ℝ) *
        rawAct (⟨2, fun t _ => [a, b][t], fun _ _ => 1⟩ : Kernels 1)
          (fun (t : Fin 2) (_ : Fin 1) => [a, b][t]) s b') = 0 := hdet
      rw [Matrix.det_fin_two] at hdet
      simp [rawAct, actFactor, ← Real.exp_add] at hdet
      have h1 : Real.exp (-(0.5 * (a - b) ^ 2) + -(0.5 * (b - a) ^ 2)) < 1 := by
        rw [Real.exp_lt_one_iff]
        have : 0 < (a - b) ^ 2 := by
          have := sub_ne_zero.mpr h
          positivity
        nlinarith
      linarith
  obtain ⟨m, hm⟩ := key
  refine ⟨_, train_of (by simp) (m := .gpr m) ?_⟩
  change (gprTrain 1 [1] _ _ >>= _) = _
  rw [hm]
  rfl

/-- The hypotheses of C17 and C18 hold for the Ijspeert Dmp and the demonstration above, with function
approximators from the constructor or from the call. -/
theorem demo_trains (y0 yg : ℝ) (f0 : Option (List Fa)) (newFas : Option (Option (List Fa)))
    (hn : newFas.getD f0 = some [Fa.new (.gpr 1 [1])]) :
    ∃ s t, init 1 [y0] [yg] f0 { dmpType := "Ijs02" } = .ok s ∧
    Reachable ConsistentGoal Change.Forward 1 s ∧ Reachable Consistent Change.Forward 1 s ∧
    train demo newFas s = (.ok (), t) := by
  obtain ⟨s, hs⟩ := (C16_types 1 [y0] [yg] f0 { dmpType := "Ijs02" }).1 (by simp [known])
  have hf : (({ dmpType := "Ijs02" } : Options)).Fits 1 := ⟨(fun _ h => nomatch h), trivial,
    (fun _ h => nomatch h), (fun _ h => nomatch h), (fun _ h => nomatch h), (fun _ h => nomatch h),
    (fun _ h => nomatch h)⟩
  have hc : Consistent 1 [y0] [yg] { dmpType := "Ijs02" } s :=
    ⟨(fun _ h => nomatch h), one_pos, (fun _ h => nomatch h)⟩
  obtain ⟨dflt, hd, hseq⟩ := init_eq hs
  unfold defaults at hd
  simp only at hd
  rw [if_pos (by decide)] at hd
  have hd := Except.ok.inj hd
  have hreq : s.requiresScaling = false := by rw [hseq]; simp only; rw [← hd]
  have hgoal : s.goal = none := by rw [hseq]; simp only; rw [← hd]; rfl
  have hsc : s.scaling = .noScaling := by rw [hseq]
  have hgat : s.gating = .exponential (.init 1 [1] [0] (.scalar 4)) := by
    rw [hseq]; simp only; rw [← hd]; rfl
  have hph : s.phase = .exponential (.init 1 [1] [0] (.scalar 4)) := by
    rw [hseq]; simp only; rw [← hd]; rfl
  have htau : s.tau = 1 := by rw [hseq]
  have hdim : s.dimY = 1 := by rw [hseq]; rfl
  have hfas : s.fas = f0 := by rw [hseq]
  have hT := init_timed 1 [y0] [yg] f0 _ s hs rfl rfl hf hc
  clear hseq hd
  have hx : ∀ t : ℝ, ((Sub.exponential (.init 1 [1] [0] (.scalar 4))).xAt t).getD 0 0 = Real.exp (-4 * t) := by
    intro t
    simp [Sub.xAt, Exponential.xAt, Exponential.init, Exponential.xComp]
  have hi : Inv 1 s := hT.inv
  have r1 : demo.ts.getLast? = some 1 := rfl
  have r2 : demo.yInit = .ok [3] := rfl
  have r3 : demo.yFinal = .ok [3] := rfl
  have r4 : demo.rangePerDim = .ok [0] := by simp [Trajectory.rangePerDim, demo]
  have hP : (s.prepared 1 [3] [3] [0] (some [Fa.new (.gpr 1 [1])])).phase = s.phase := by
    change (s.retimed 1).phase = s.phase
    unfold retimed; simp only [hph, htau]; simp [Sub.withTau, Sub.base, Exponential.init]
  have hG : (s.prepared 1 [3] [3] [0] (some [Fa.new (.gpr 1 [1])])).gating = s.gating := by
    change (s.retimed 1).gating = s.gating
    unfold retimed; simp only [hgat, htau]; simp [Sub.withTau, Sub.base, Exponential.init]
  have i4 : Inv 1 (s.prepared 1 [3] [3] [0] (some [Fa.new (.gpr 1 [1])])) := by
    have i3 := inv_aimed (inv_placed (inv_retimed hi 1) (y := [3]) hdim.symm) (y := [3]) hdim.symm
    refine i3.congr rfl rfl rfl rfl rfl rfl rfl rfl rfl ?_
    rintro a ⟨⟩
    rfl
  have hτ4 : (s.prepared 1 [3] [3] [0] (some [Fa.new (.gpr 1 [1])])).spring.tau =
      (s.prepared 1 [3] [3] [0] (some [Fa.new (.gpr 1 [1])])).tau :=
    springTau_retimed 1 hT.tau hT.springTau
  have hfs : (s.prepared 1 [3] [3] [0] (some [Fa.new (.gpr 1 [1])])).scaling = .noScaling := hsc
  have hfd : (s.prepared 1 [3] [3] [0] (some [Fa.new (.gpr 1 [1])])).dimY = 1 := hdim
  have hfr : (s.prepared 1 [3] [3] [0] (some [Fa.new (.gpr 1 [1])])).requiresScaling = false := hreq
  have hff : (s.prepared 1 [3] [3] [0] (some [Fa.new (.gpr 1 [1])])).fas = some [Fa.new (.gpr 1 [1])] := rfl
  obtain ⟨phases, targets, h7⟩ := C17_computable (s.prepared 1 [3] [3] [0] (some [Fa.new (.gpr 1 [1])]))
    i4.wf hτ4 demo hdim (fun h => by rw [hfr] at h; cases h) (by unfold CanForce; rw [hfs]; trivial)
    (by simp [demo]) (fa := _) (by
      unfold faUsed predictions
      rw [hff, hfd]
      rfl)
    (fun t _ _ => by rw [hG, hgat, hx]; exact (Real.exp_pos _).ne')
    (fun j _ => by unfold forcingFactor; rw [hfs]; norm_num)
  have T := targetsFor_of i4.wf (sameStart_of_tau hτ4) h7
  have hph2 : phases = [Real.exp (-4 * 0), Real.exp (-4 * 1)] := by
    rw [T.phases, hP, hph, demo]
    simp only [List.map_cons, List.map_nil, hx]
  obtain ⟨fa', hfa'⟩ := gpr_two (Real.exp (-4 * 0)) (Real.exp (-4 * 1))
    (by intro h; have := Real.exp_injective h; norm_num at this)
    (fun t => (targets.getD t []).getD 0 0)
  subst hph2
  obtain ⟨t, ht⟩ := train_exists hi demo_shape (newFas := newFas) r1 r2 r3 r4 rfl
    (by rw [hfas]; exact hn) h7 (fas1 := [fa']) (by
      change (trainFa _ targets 0 >>= fun _ => pure ()) [Fa.new (.gpr 1 [1])] = _
      have : trainFa [Real.exp (-4 * 0), Real.exp (-4 * 1)] targets 0 [Fa.new (.gpr 1 [1])] =
          (.ok (), [fa']) := by
        unfold trainFa
        simp only [List.getElem?_cons_zero]
        rw [hfa']
        rfl
      rw [PyM.bind_ok this]
      rfl)
  exact ⟨s, t, hs, .init hs rfl rfl hf ⟨hc, fun _ => hreq⟩, .init hs rfl rfl hf hc, ht⟩

/-- The case of function approximators that are passed to train. -/
theorem demo_trained : ∃ s t, Reachable ConsistentGoal Change.Forward 1 s ∧
    Reachable Consistent Change.Forward 1 s ∧
    train demo (some (some [Fa.new (.gpr 1 [1])])) s = (.ok (), t) := by
  obtain ⟨s, t, -, h⟩ := demo_trains 0 1 none (some (some [Fa.new (.gpr 1 [1])])) rfl
  exact ⟨s, t, h⟩

end Dmp

end Verif
