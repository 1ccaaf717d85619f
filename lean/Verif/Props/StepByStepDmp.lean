import Verif.Props.TaskSolverDmp
import Verif.Proofs.TunableDmp
import Verif.Props.StepEquals
import Verif.Props.FromTraj

/-
C93: step-by-step optimisation of the Dmps of Dmp.py, with the rollouts of TaskSolverDmp.py. In C62 the dmps
and the rollouts are arbitrary objects and functions with some laws; here it is proved that Dmps and
TaskSolverDmp have these laws.
-/

set_option autoImplicit false

namespace Verif

noncomputable section

/-- Dmps as they occur in an optimisation: objects that can occur (any sequence of calls after the
constructor), whose selected parameters are `n` numbers in arrays. -/
structure TunableDmp (n : Nat) where
  dmp : Dmp
  reachable : ∃ d, Dmp.Reachable Dmp.DefaultLike Dmp.Change.Valid d dmp
  selects : dmp.Selects
  size : dmp.paramVectorSize = .ok n

/-- step_by_step_optimization.py:85-88: the matrix of the trajectory at the times of the training
trajectory. `analytical_solution(None)` raises ValueError (Dmp.py:333-336). The objects that the solution is
computed with (time, outputs of subsystems) are not part of the result. -/
def Dmp.trainMatrix (s : Dmp) : Except PyErr (Arr2 ℝ) :=
  match s.tsTrain with
  | none => .error .valueError
  | some ts => do
    let sol ← (Dmp.analytical (some ts) false s).1
    let traj ← s.asTrajectory ts sol.xs sol.xds
    traj.asMatrix

/-- The rows of a matrix, if there is one. -/
def rowsOr : Except PyErr (Arr2 ℝ) → List (List ℝ)
  | .ok m => m.rows
  | .error _ => []

namespace TunableDmp

variable {n : Nat}

theorem params_run (s : TunableDmp n) (x : Fin n → ℝ) : ∃ s', Dmp.setParamVector (List.ofFn x) s.dmp = (.ok (), s') ∧
    s'.getParamVector = .ok (List.ofFn x) ∧ s'.paramVectorSize = .ok n ∧ s'.Selects ∧
    ∃ d, Dmp.Reachable Dmp.DefaultLike Dmp.Change.Valid d s' := by
  obtain ⟨d, hd⟩ := s.reachable
  obtain ⟨v0, h1, h2, -, h4, -⟩ := Dmp.C27_roundtrip d s.dmp hd s.selects
  have hn : v0.length = n := by
    rw [s.size] at h2
    exact (Except.ok.inj h2).symm
  obtain ⟨s', a1, a2, a3⟩ := h4 (List.ofFn x) (by rw [List.length_ofFn, hn])
  rw [List.length_ofFn] at a3
  refine ⟨s', a1, a2, a3, ?_, d, ?_⟩
  · have := Dmp.selects_setParamVector hd.inv.wf s.selects s.size (v := List.ofFn x) (by simp)
    rw [a1] at this
    exact this
  · have := Dmp.Reachable.change hd (.params (List.ofFn x)) trivial
    change Dmp.Reachable _ _ d (Dmp.setParamVector (List.ofFn x) s.dmp).2 at this
    rw [a1] at this
    exact this

/-- `dmp.set_param_vector(x)`. -/
def tuned (s : TunableDmp n) (x : Fin n → ℝ) : TunableDmp n where
  dmp := (Dmp.setParamVector (List.ofFn x) s.dmp).2
  reachable := by
    obtain ⟨s', h, -, -, -, hr⟩ := s.params_run x
    rw [h]
    exact hr
  selects := by
    obtain ⟨s', h, -, -, hs, -⟩ := s.params_run x
    rw [h]
    exact hs
  size := by
    obtain ⟨s', h, -, hn, -, -⟩ := s.params_run x
    rw [h]
    exact hn

/-- `dmp.get_param_vector()`. -/
def params (s : TunableDmp n) : Fin n → ℝ := fun i =>
  match s.dmp.getParamVector with
  | .ok v => v.getD i 0
  | .error _ => 0

/-- Dmp.py:679-704 (set_param_vector, get_param_vector), step_by_step_optimization.py:85-88 (trajectory). If
the trajectory cannot be computed, the code raises an exception, and `trajMatrix` is of no significance. -/
instance : DmpLike n (TunableDmp n) where
  setParams := tuned
  getParams := params
  trajMatrix s := rowsOr s.dmp.trainMatrix

theorem tuned_run (s : TunableDmp n) (x : Fin n → ℝ) :
    Dmp.setParamVector (List.ofFn x) s.dmp = (.ok (), (s.tuned x).dmp) := by
  obtain ⟨s', h, -⟩ := s.params_run x
  change _ = (Except.ok (), (Dmp.setParamVector (List.ofFn x) s.dmp).2)
  rw [h]

theorem ext {s t : TunableDmp n} (h : s.dmp = t.dmp) : s = t := by
  cases s; cases t; cases h; rfl

/-- C93: the parameters of a Dmp in an optimisation can be set, can be read back, and only the last ones
matter: setting other parameters in between has no effect on any part of the object. -/
theorem C93_laws (s : TunableDmp n) (x y : Fin n → ℝ) :
    Dmp.setParamVector (List.ofFn x) s.dmp = (.ok (), (s.tuned x).dmp) ∧
    (s.tuned x).dmp.getParamVector = .ok (List.ofFn x) ∧ (s.tuned x).params = x ∧
    (s.tuned x).tuned y = s.tuned y := by
  obtain ⟨s', h, h2, h3, h4, d, hr⟩ := s.params_run x
  have e : (s.tuned x).dmp = s' := by
    change (Dmp.setParamVector (List.ofFn x) s.dmp).2 = s'
    rw [h]
  have e2 : (s.tuned x).dmp.getParamVector = .ok (List.ofFn x) := by rw [e]; exact h2
  refine ⟨s.tuned_run x, e2, ?_, ext ?_⟩
  · funext i
    unfold params
    rw [e2]
    simp
  · obtain ⟨d', hd⟩ := s.reachable
    change (Dmp.setParamVector (List.ofFn y) (s.tuned x).dmp).2 = (Dmp.setParamVector (List.ofFn y) s.dmp).2
    rw [e, Dmp.setParamVector_twice hd.inv.wf s.selects s.size (by simp) (by simp) h hr.inv.wf h4 h3]

end TunableDmp

namespace TaskSolverDmp

variable {n : Nat}

/-- `task_solver.perform_rollout_dmp(dmp)` (TaskSolverDmp.py:37-51) for a dmp that is read from the session:
an object of its own. -/
def rolloutOf (solver : TaskSolverDmp) (s : TunableDmp n) : List (List ℝ) :=
  rowsOr (performRolloutDmp solver 0 ⟨[s.dmp]⟩).1

/-- perform_rollout_dmp, where only one Dmp is involved. -/
theorem performRolloutDmp_eq {solver : TaskSolverDmp} {mem : Memory} {r : Nat} {s : Dmp}
    (h : mem.dmps[r]? = some s) :
    (performRolloutDmp solver r mem).1 = (performRolloutDmp solver 0 ⟨[s]⟩).1 := by
  have key : ∀ (mem : Memory) (r : Nat), mem.dmps[r]? = some s →
      performRolloutDmp solver r mem = Memory.onDmp r (do
        let ts ← PyM.lift (linspaceInt 0 solver.integrateTime solver.nTimeSteps)
        let sol ← Dmp.analytical (some ts)
        let dmp ← PyM.self
        let traj ← PyM.lift (dmp.asTrajectory ts sol.xs sol.xds)
        PyM.lift traj.asMatrix) mem := by
    intro mem r h
    unfold performRolloutDmp
    refine Memory.lift_bind h _ fun _ _ _ h => ?_
    refine Memory.onDmp_bind h _ fun _ _ _ h => ?_
    refine Memory.onDmp_bind h _ fun _ _ _ h => ?_
    refine Memory.lift_bind h _ fun _ _ _ h => ?_
    exact Memory.lift_eq h _
  rw [key mem r h, key ⟨[s]⟩ 0 rfl, Memory.onDmp_run h, Memory.onDmp_run (s := s) rfl]

/-- The Dmp of the task solver directly after the constructor. -/
theorem init_dmp {r : Nat} {dt factor : ℝ} {mem mem' : Memory} {solver : TaskSolverDmp} {s : Dmp}
    (hr : mem.dmps[r]? = some s) (h : init r dt factor mem = (.ok solver, mem')) :
    mem'.dmps[solver.dmp]? = some s := by
  obtain ⟨s', h1, rfl, rfl, -⟩ := init_run h
  cases hr.symm.trans h1
  simp

/-- C93: a rollout with a sample and a rollout with a Dmp that has the sample as parameters have the same
result, be it a matrix or an exception. -/
theorem C93_rollouts {r : Nat} {dt factor : ℝ} {mem mem' : Memory} {solver : TaskSolverDmp} (s : TunableDmp n)
    (hr : mem.dmps[r]? = some s.dmp) (h : init r dt factor mem = (.ok solver, mem')) (x : Fin n → ℝ)
    {mem2 : Memory} {r2 : Nat} (h2 : mem2.dmps[r2]? = some (s.tuned x).dmp) :
    (performRollout solver (List.ofFn x) mem').1 = (performRolloutDmp solver r2 mem2).1 := by
  have hs := init_dmp hr h
  rw [performRolloutDmp_eq h2]
  unfold performRollout
  have e : Memory.onDmp solver.dmp (Dmp.setParamVector (List.ofFn x)) mem' =
      (.ok (), ⟨mem'.dmps.set solver.dmp (s.tuned x).dmp⟩) := by
    rw [Memory.onDmp_run hs, s.tuned_run x]
  rw [PyM.bind_ok e]
  have hl : solver.dmp < mem'.dmps.length := (List.getElem?_eq_some_iff.mp hs).1
  refine performRolloutDmp_eq ?_
  simp [hl]

theorem rolloutOf_eq {r : Nat} {dt factor : ℝ} {mem mem' : Memory} {solver : TaskSolverDmp} (s : TunableDmp n)
    (hr : mem.dmps[r]? = some s.dmp) (h : init r dt factor mem = (.ok solver, mem')) (x : Fin n → ℝ) {m : Arr2 ℝ}
    (hm : (performRollout solver (List.ofFn x) mem').1 = .ok m) : m.rows = solver.rolloutOf (s.tuned x) := by
  unfold rolloutOf
  rw [← C93_rollouts s hr h x (mem2 := ⟨[(s.tuned x).dmp]⟩) (r2 := 0) rfl, hm]
  rfl

end TaskSolverDmp

namespace TunableDmp

open TaskSolverDmp

variable {n : Nat}

/-- C93: optimising a Dmp step by step, where the rollouts are performed with the Dmps that are stored in the
session, leads to the same distributions, samples and weights as run_optimization_task with a TaskSolverDmp
for the Dmp and the same random numbers. `rolled x` is the result of perform_rollout for the sample `x`; the
memory is the one directly after the task solver was made, but by C29 earlier rollouts make no difference. -/
theorem C93_same {nSamples : Nat} {r : Nat} {dt factor : ℝ} {mem mem' : Memory} {ts : TaskSolverDmp}
    (dmp0 : TunableDmp n) (hr : mem.dmps[r]? = some dmp0.dmp)
    (hi : TaskSolverDmp.init r dt factor mem = (.ok ts, mem'))
    (rolled : (Fin n → ℝ) → Arr2 ℝ) (hok : ∀ x, (performRollout ts (List.ofFn x) mem').1 = .ok (rolled x))
    (task : Task n) (u : Updater) (argsort : List ℝ → List Nat) (hasDir : Bool) (N : Nat)
    (draws : Nat → Fin nSamples → Fin n → ℝ) (reopen : Nat → Bool × Bool) (d0 dN : Dist n)
    (wm0 wm : World (Obj n (TunableDmp n)))
    (h : runOptimizationTask task (fun x => (rolled x).rows) argsort u d0 N hasDir draws wm0 = (.ok dN, wm))
    (hb : d0.bounds ≠ some (none, none))
    (hre : (∃ i < N, (reopen i).1 = true ∨ (reopen i).2 = true) → nSamples ≠ 1 ∧ n ≠ 1)
    (w0 : World (Obj n (TunableDmp n))) (hf : w0.files = []) :
    ∃ w, stepByStep task (fun x => (rolled x).rows) ts.rolloutOf argsort u d0 dmp0 false N draws reopen w0 = (.ok (), w) ∧
      asked w "distribution" (some N) none = .ok (.dist dN) ∧
      ∀ i : Nat, i < N → ∀ name ∈ ["distribution", "samples", "weights", "distribution_new"],
        asked w name (some i) none = asked wm name (some i) none ∧
        ∃ v, asked wm name (some i) none = .ok v :=
  C62_same (fun s x y => (s.C93_laws x y).2.2.2) (fun s x => (s.C93_laws x x).2.2.1) task
    (fun x => (rolled x).rows) ts.rolloutOf u dmp0 (fun x => rolloutOf_eq dmp0 hr hi x (hok x)) argsort false hasDir N draws reopen d0 dN wm0 wm h
    hb hre w0 hf

/-- C93: the session of such an optimisation. For each update the Dmps of the samples and of the mean are
stored: they have these parameters, and are the initial Dmp otherwise. If trajectories are to be saved, they
are those of these Dmps at the times of the training trajectory. The cost-relevant variables are the matrices
of the rollouts, and the costs are those of the task. -/
theorem C93_files {nSamples : Nat} {r : Nat} {dt factor : ℝ} {mem mem' : Memory} {ts : TaskSolverDmp}
    (dmp0 : TunableDmp n) (hr : mem.dmps[r]? = some dmp0.dmp)
    (hi : TaskSolverDmp.init r dt factor mem = (.ok ts, mem'))
    (rolled : (Fin n → ℝ) → Arr2 ℝ) (hok : ∀ x, (performRollout ts (List.ofFn x) mem').1 = .ok (rolled x))
    (save : Bool) (hsave : save = true → ∀ x : Fin n → ℝ, ∃ m, (dmp0.tuned x).dmp.trainMatrix = .ok m)
    (task : Task n) (u : Updater) (argsort : List ℝ → List Nat) (N : Nat)
    (draws : Nat → Fin nSamples → Fin n → ℝ) (reopen : Nat → Bool × Bool) (d0 : Dist n) (d : Nat → Dist n)
    (samples : Nat → List (Fin n → ℝ)) (weights : Nat → List ℝ)
    (h : IsHistory (fun x => task (rolled x).rows x) argsort u d0 N draws d samples weights)
    (hb : d0.bounds ≠ some (none, none))
    (hre : (∃ i < N, (reopen i).1 = true ∨ (reopen i).2 = true) → nSamples ≠ 1 ∧ n ≠ 1)
    (w0 : World (Obj n (TunableDmp n))) (hf : w0.files = []) :
    ∃ (dmpOf : (Fin n → ℝ) → TunableDmp n) (trajOf : (Fin n → ℝ) → Arr2 ℝ) (w : World (Obj n (TunableDmp n))),
      (∀ x, Dmp.setParamVector (List.ofFn x) dmp0.dmp = (.ok (), (dmpOf x).dmp)) ∧
      (∀ x, (dmpOf x).dmp.getParamVector = .ok (List.ofFn x)) ∧
      (save = true → ∀ x, (dmpOf x).dmp.trainMatrix = .ok (trajOf x)) ∧
      stepByStep task (fun x => (rolled x).rows) ts.rolloutOf argsort u d0 dmp0 save N draws reopen w0 = (.ok (), w) ∧
      (∀ i : Nat, i ≤ N → asked w "distribution" (some i) none = .ok (.dist (d i)) ∧
        ∃ s, (d i).generateSamples (List.ofFn (draws i)) = .ok s ∧
        asked w "samples" (some i) none = .ok (.samples s) ∧
        ForRollouts w "dmp" i (d i) s (fun x => .dmp (dmpOf x)) ∧
        (save = true → ForRollouts w "traj" i (d i) s (fun x => .array (trajOf x).rows))) ∧
      ∀ i : Nat, i < N →
        ForRollouts w "cost_vars" i (d i) (samples i) (fun x => .array (rolled x).rows) ∧
        ForRollouts w "costs" i (d i) (samples i) (fun x => .vec (task (rolled x).rows x)) ∧
        asked w "weights" (some i) none = .ok (.vec (weights i)) ∧
        asked w "distribution_new" (some i) none = .ok (.dist (d (i + 1))) := by
  have law := fun (s : TunableDmp n) x y => (s.C93_laws x y).2.2.2
  have law2 := fun (s : TunableDmp n) x => (s.C93_laws x x).2.2.1
  obtain ⟨w, a1, a2, a3⟩ := C62_files law law2 task (fun x => (rolled x).rows) ts.rolloutOf u dmp0
    (fun x => rolloutOf_eq dmp0 hr hi x (hok x)) argsort save N draws reopen d0 d samples weights h hb hre w0 hf
  obtain ⟨w', b1, b2, b3⟩ := C62_history law law2 task (fun x => (rolled x).rows) ts.rolloutOf u dmp0
    (fun x => rolloutOf_eq dmp0 hr hi x (hok x)) argsort save N draws reopen d0 d samples weights h hb hre w0 hf
  cases (Prod.mk.inj (a1.symm.trans b1)).2
  have htraj : ∃ trajOf : (Fin n → ℝ) → Arr2 ℝ, save = true → ∀ x, (dmp0.tuned x).dmp.trainMatrix = .ok (trajOf x) := by
    by_cases hsv : save = true
    · choose f hf using hsave hsv
      exact ⟨f, fun _ => hf⟩
    · exact ⟨fun _ => ⟨0, []⟩, fun h => absurd h hsv⟩
  obtain ⟨trajOf, htraj⟩ := htraj
  refine ⟨dmp0.tuned, trajOf, w, dmp0.tuned_run, fun x => (dmp0.C93_laws x x).2.1, htraj, a1,
    fun i hi => ⟨b2 i hi, ?_⟩, fun i hi => ⟨(a3 i hi).1, (a3 i hi).2, (b3 i hi).2.1, (b3 i hi).2.2⟩⟩
  obtain ⟨s, c1, c2, c3, c4⟩ := a2 i hi
  refine ⟨s, c1, c2, c3, fun hsv => ?_⟩
  have := c4 hsv
  have e : (fun x => (Obj.array (DmpLike.trajMatrix n (DmpLike.setParams dmp0 x)) : Obj n (TunableDmp n))) =
      fun x => .array (trajOf x).rows := by
    funext x
    change Obj.array (rowsOr (dmp0.tuned x).dmp.trainMatrix) = _
    rw [htraj hsv x]
    rfl
  rw [e] at this
  exact this

/-! ### An example -/

/-- Dmps without function approximator and scaling have a solution for all times. -/
theorem plain_matrix {d : Nat} {s : Dmp} (hT : Dmp.Timed d s) (hf : s.fas = none) (hsc : s.scaling = .noScaling)
    (hq : s.requiresScaling = false) {ts : List ℝ} (hne : ts ≠ []) : ∃ sol traj m,
      (Dmp.analytical (some ts) false s).1 = .ok sol ∧ s.asTrajectory ts sol.xs sol.xds = .ok traj ∧
      traj.asMatrix = .ok m := by
  have hfa : s.faUsed ts false = .ok (List.replicate ts.length (vzeros s.dimY)) := by
    unfold Dmp.faUsed Dmp.predictions
    rw [hf]
    simp only [List.length_map]
    rfl
  have hcf : s.CanForce := by
    unfold Dmp.CanForce
    rw [hsc]
    trivial
  have hcs : s.CanScale := by
    intro h
    rw [hq] at h
    cases h
  have han := (Dmp.analytical_iff hT.inv.wf (Dmp.sameStart_of_tau hT.springTau)).mpr
    ⟨hcs, hcf, hne, _, hfa, rfl⟩
  have htr := Dmp.asTrajectory_ok s (ts := ts)
    (xs := (List.range ts.length).map (s.xRow ts (s.gated ts (List.replicate ts.length (vzeros s.dimY)))))
    (xds := (List.range ts.length).map (s.xdRow ts (s.gated ts (List.replicate ts.length (vzeros s.dimY)))))
    (by simp) (by simp)
  have hm : ∀ traj : Trajectory ℝ, traj.ys.rows.length = traj.ts.length →
      traj.yds.rows.length = traj.ts.length → traj.ydds.rows.length = traj.ts.length → traj.misc = none →
      ∃ m, traj.asMatrix = .ok m := by
    intro traj h1 h2 h3 h4
    unfold Trajectory.asMatrix
    simp only
    rw [if_pos ⟨h1, h2, h3⟩, h4]
    exact ⟨_, rfl⟩
  have hfin : ∀ traj, s.asTrajectory ts _ _ = .ok traj → (∃ m, traj.asMatrix = .ok m) →
      ∃ (sol : Dmp.Solution) (traj : Trajectory ℝ) (m : Arr2 ℝ),
        (Dmp.analytical (some ts) false s).1 = .ok sol ∧ s.asTrajectory ts sol.xs sol.xds = .ok traj ∧
        traj.asMatrix = .ok m :=
    fun traj h1 ⟨m, h2⟩ => ⟨_, traj, m, han, h1, h2⟩
  refine hfin _ htr (hm _ ?_ ?_ ?_ rfl) <;> simp

/-- A trained Dmp with the goal as parameter. -/
theorem example_dmp : ∃ s : TunableDmp 1, Dmp.Timed 1 s.dmp ∧ s.dmp.fas = none ∧ s.dmp.scaling = .noScaling ∧
    s.dmp.requiresScaling = false ∧ s.dmp.tsTrain = some [1, 3] ∧ s.dmp.tau = 3 ∧ "goal" ∈ s.dmp.selected := by
  obtain ⟨t, h⟩ := Dmp.lateDemo_made
  obtain ⟨tau, y0, yg, s, he, h1, h2⟩ := Dmp.fromTraj_ok h
  have l0 : y0.length = 1 := (he.lengths Dmp.lateDemo_shape).1
  have lg : yg.length = 1 := (he.lengths Dmp.lateDemo_shape).2
  have hc : Dmp.Consistent tau y0 yg {} s :=
    ⟨(fun _ k => nomatch k), Dmp.lateDemo_last tau he.last, (fun _ k => nomatch k)⟩
  have k0 : Dmp.Reachable Dmp.Consistent Dmp.Change.Forward 1 s := .init h1 l0 lg (Dmp.fits_default 1) hc
  have k1 : Dmp.Reachable Dmp.DefaultLike Dmp.Change.Valid 1 s :=
    .init h1 l0 lg (Dmp.fits_default 1) (fun _ k => nomatch k)
  obtain ⟨_, _, _, range, e1, -, -, -, -, -, -, -, hcase⟩ := Dmp.train_inv k1.inv Dmp.lateDemo_shape h2
  obtain ⟨dflt, hD, hs⟩ := Dmp.init_eq h1
  unfold Dmp.defaults at hD
  rw [if_neg (by simp only; decide), if_pos (by simp only; decide)] at hD
  have hD := Except.ok.inj hD
  have hfs : s.fas = none := by rw [hs]
  obtain ⟨-, ht⟩ : (none : Option (Option (List Fa))).getD s.fas = none ∧ _ := by
    rcases hcase with hc | ⟨fas0, _, _, _, hc, -⟩
    · exact hc
    · rw [Option.getD_none, hfs] at hc
      cases hc
  have r0 := Dmp.Reachable.change (.change k0 (.train Dmp.lateDemo none) ⟨Dmp.lateDemo_shape, Dmp.lateDemo_last⟩)
    (.select ["goal"]) trivial
  have r1 := Dmp.Reachable.change (.change k1 (.train Dmp.lateDemo none) Dmp.lateDemo_shape) (.select ["goal"]) trivial
  change Dmp.Reachable _ _ 1 (Dmp.setSelected ["goal"] (Dmp.train Dmp.lateDemo none s).2).2 at r0
  change Dmp.Reachable _ _ 1 (Dmp.setSelected ["goal"] (Dmp.train Dmp.lateDemo none s).2).2 at r1
  rw [h2] at r0 r1
  obtain ⟨u, hu⟩ : ∃ u, u = (Dmp.setSelected ["goal"] t).2 := ⟨_, rfl⟩
  simp only at r0 r1
  rw [← hu] at r0 r1
  rw [Dmp.setSelected_run, if_pos (by simp)] at hu
  have hT := Dmp.kept_timed.reachable Dmp.init_timed r0
  have hf : u.fas = none := by rw [hu, ht]; rfl
  have hsel : u.selected = ["goal"] := by rw [hu]
  refine ⟨⟨u, ⟨1, r1⟩, fun fa hfa => ?_, ?_⟩, hT, hf, ?_, ?_, ?_, ?_, by rw [hsel]; simp⟩
  · rw [hf] at hfa
    cases hfa
  · unfold Dmp.paramVectorSize
    rw [hf, hsel, hT.inv.dim]
    rfl
  · change u.scaling = _
    rw [hu, ht, hs]
    rfl
  · change u.requiresScaling = _
    rw [hu, ht, hs, ← hD]
    rfl
  · change u.tsTrain = _
    rw [hu, ht]
    rfl
  · change u.tau = _
    rw [hu, ht]
    have : (3 : ℝ) = _ := Option.some.inj e1
    rw [this]
    rfl

/-- The hypotheses of C93 hold for this Dmp, with a time step of 1/4: rollouts and trajectories succeed for
all samples, and C93_files applies to an optimisation with 4 updates. -/
example (draws : Nat → Fin 3 → Fin 1 → ℝ) : ∃ (dmp0 : TunableDmp 1) (ts : TaskSolverDmp) (mem' : Memory)
    (rolled : (Fin 1 → ℝ) → Arr2 ℝ), TaskSolverDmp.init 0 (1 / 4) (11 / 10) ⟨[dmp0.dmp]⟩ = (.ok ts, mem') ∧
    (∀ x, (performRollout ts (List.ofFn x) mem').1 = .ok (rolled x)) ∧
    (∀ x, ∃ m, (dmp0.tuned x).dmp.trainMatrix = .ok m) ∧
    ∃ d samples weights, IsHistory (fun x => [((rolled x).rows.map List.sum).sum]) (fun _ => [])
      ⟨.float 10, "PI-BB", .decay (9 / 10)⟩ ⟨fun _ => 5, 1, none⟩ 4 draws d samples weights := by
  obtain ⟨s, hT, hf, hsc, hq, hts, htau, hsel⟩ := example_dmp
  have hinit : ∃ solver, (TaskSolverDmp.init 0 (1 / 4) (11 / 10) ⟨[s.dmp]⟩).1 = .ok solver :=
    (C29_init _ _ _ _).mpr ⟨by simp, by norm_num⟩
  obtain ⟨ts, hinit⟩ := hinit
  have hi : TaskSolverDmp.init 0 (1 / 4) (11 / 10) ⟨[s.dmp]⟩ =
    (.ok ts, (TaskSolverDmp.init 0 (1 / 4) (11 / 10) ⟨[s.dmp]⟩).2) := Prod.ext hinit rfl
  have htuned : ∀ x, Dmp.Timed 1 (s.tuned x).dmp ∧ (s.tuned x).dmp.fas = none ∧
      (s.tuned x).dmp.scaling = .noScaling ∧ (s.tuned x).dmp.requiresScaling = false ∧
      (s.tuned x).dmp.tsTrain = some [1, 3] := by
    intro x
    obtain ⟨fas, g, -, -, h3, h4⟩ := Dmp.setParamVector_split hT.inv.wf s.selects s.size (v := List.ofFn x) (by simp)
    rw [if_pos hsel, hf] at h4
    have e : ({ s.dmp with fas := (none : Option (List Fa)).map fun _ => fas } : Dmp) = s.dmp := by
      rw [Option.map_none, ← hf]
    rw [e] at h4
    have e2 : (s.tuned x).dmp = s.dmp.aimed g := by
      change (Dmp.setParamVector (List.ofFn x) s.dmp).2 = _
      rw [h4]
    rw [e2]
    exact ⟨Dmp.kept_timed.aim _ _ hT (h3 hsel), hf, hsc, hq, hts⟩
  obtain ⟨grid, hg, hres⟩ := C29_result _ _ 0 _ _ _ s.dmp rfl hT.inv.wf hi (by norm_num) (by rw [htau]; norm_num)
  have hok : ∀ x : Fin 1 → ℝ, ∃ m, (performRollout ts (List.ofFn x)
      (TaskSolverDmp.init 0 (1 / 4) (11 / 10) ⟨[s.dmp]⟩).2).1 = .ok m := by
    intro x
    obtain ⟨k1, k2, k3, k4, k5⟩ := htuned x
    obtain ⟨sol, traj, m, a1, a2, a3⟩ := plain_matrix k1 k2 k3 k4 (ts := grid) (by rintro rfl; cases hg.first)
    exact ⟨m, ((hres (List.ofFn x)).1 m).mpr ⟨_, sol, traj, s.tuned_run x, a1, a2, a3⟩⟩
  choose rolled hrolled using hok
  refine ⟨s, ts, _, rolled, hi, hrolled, fun x => ?_, ?_⟩
  · obtain ⟨k1, k2, k3, k4, k5⟩ := htuned x
    obtain ⟨sol, traj, m, a1, a2, a3⟩ := plain_matrix k1 k2 k3 k4 (ts := [1, 3]) (by simp)
    refine ⟨m, ?_⟩
    unfold Dmp.trainMatrix
    rw [k5]
    simp only
    rw [a1, Dmp.except_ok_bind, a2, Dmp.except_ok_bind]
    exact a3
  · obtain ⟨dN, w, h⟩ := C55_succeeds (D := TunableDmp 1)
      (fun x => [((rolled x).rows.map List.sum).sum]) (fun _ => [])
      ⟨.float 10, "PI-BB", .decay (9 / 10)⟩
      ⟨fun _ => 5, 1, none⟩ 4 true draws ⟨0, true, true, [], none, [], []⟩ (by norm_num) (by simp) (by simp) (by simp)
      (by simp) (fun samples w d => ⟨_, rfl⟩)
    obtain ⟨d, samples, weights, hh, _⟩ := runOptimization_ok h
    exact ⟨d, samples, weights, hh⟩

end TunableDmp

end

end Verif
