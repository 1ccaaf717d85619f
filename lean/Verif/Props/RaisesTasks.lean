import Verif.Spec.Raises
import Verif.Props.RaisesDmp
import Verif.Model.Arm2D
import Verif.Model.ForceField
import Verif.Model.ThrowBall
import Verif.Model.Optimization

/-
C88 for the tasks and task solvers.
-/

noncomputable section

set_option autoImplicit false

namespace Verif

open Spec

/-! ### Task solvers -/

theorem onDmp_run {α : Type} {r : Nat} {m : PyM Dmp α} {mem : Memory} {s : Dmp} (h : mem.dmps[r]? = some s) :
    Memory.onDmp r m mem = ((m s).1, { dmps := mem.dmps.set r (m s).2 }) := by
  unfold Memory.onDmp
  simp only [h]

theorem set_self {α : Type} {l : List α} {r : Nat} {x : α} (h : l[r]? = some x) : l.set r x = l := by
  obtain ⟨hr, rfl⟩ := List.getElem?_eq_some_iff.mp h
  exact List.set_getElem_self hr

/-- C88: a task solver with time step 0 raises ZeroDivisionError; the Dmp has been copied by then. With any
other time step it is constructed, around the copy. -/
theorem C88_solver {mem : Memory} {r : Nat} {s : Dmp} (h : mem.dmps[r]? = some s) (dt factor : ℝ) :
    (dt = 0 → TaskSolverDmp.init r dt factor mem = (.error .zeroDivision, { dmps := mem.dmps ++ [s] })) ∧
    (dt ≠ 0 → TaskSolverDmp.init r dt factor mem =
      (.ok ⟨mem.dmps.length, s.tau * factor, ⌊s.tau * factor / dt⌋ + 1⟩, { dmps := mem.dmps ++ [s] })) := by
  have hc : Memory.deepcopy r mem = (.ok mem.dmps.length, { dmps := mem.dmps ++ [s] }) := by
    unfold Memory.deepcopy
    simp only [h]
  have hr : (mem.dmps ++ [s])[r]? = some s := by
    rw [List.getElem?_append_left (List.getElem?_eq_some_iff.mp h).1]
    exact h
  have ht : Memory.onDmp r (PyM.reads fun s => s.tau) (⟨mem.dmps ++ [s]⟩ : Memory) =
      (.ok s.tau, ⟨mem.dmps ++ [s]⟩) := by
    rw [onDmp_run hr]
    refine Prod.ext rfl ?_
    change Memory.mk _ = _
    congr 1
    exact set_self hr
  refine ⟨fun h0 => ?_, fun h0 => ?_⟩
  · unfold TaskSolverDmp.init
    rw [PyM.bind_ok hc, PyM.bind_ok ht]
    simp only [if_pos h0]
    rfl
  · unfold TaskSolverDmp.init
    rw [PyM.bind_ok hc, PyM.bind_ok ht]
    simp only [if_neg h0]
    rfl

/-- C88: a negative number of time steps (for a negative time step) raises ValueError, and no Dmp changes. -/
theorem C88_rollout_steps (solver : TaskSolverDmp) (dmp : Nat) (mem : Memory) (h : solver.nTimeSteps < 0) :
    Raises (solver.performRolloutDmp dmp) .valueError mem := by
  unfold Raises TaskSolverDmp.performRolloutDmp TaskSolverDmp.linspaceInt
  rw [if_pos h]
  rfl

/-- C88: the rollout raises what the analytical solution raises; all other Dmps remain. -/
theorem C88_rollout {mem : Memory} {dmp : Nat} {s t : Dmp} {e : PyErr} (solver : TaskSolverDmp)
    (h : mem.dmps[dmp]? = some s) (hn : 0 ≤ solver.nTimeSteps)
    (ha : (Dmp.analytical (some (linspace 0 solver.integrateTime solver.nTimeSteps.toNat))).run s = (.error e, t)) :
    solver.performRolloutDmp dmp mem = (.error e, { dmps := mem.dmps.set dmp t }) := by
  unfold TaskSolverDmp.performRolloutDmp TaskSolverDmp.linspaceInt
  rw [if_neg (by omega), PyM.lift_ok_bind]
  refine PyM.bind_error ?_
  rw [onDmp_run h, ha]

/-- C88: the default link lengths of the arm cannot be computed: TypeError (TaskSolverDmpArm2D.py:33). For a Dmp
without dimensions, ZeroDivisionError. -/
theorem C88_arm {mem : Memory} {r : Nat} {s : Dmp} (h : mem.dmps[r]? = some s) (dt factor : ℝ) (h0 : dt ≠ 0) :
    ArmSolver.init r dt factor none mem = (.error .typeError, { dmps := mem.dmps ++ [s] }) ∧
    (∀ l, s.dimY = 0 →
      ArmSolver.init r dt factor (some l) mem = (.error .zeroDivision, { dmps := mem.dmps ++ [s] })) ∧
    (∀ l, s.dimY ≠ 0 → ∃ solver, ArmSolver.init r dt factor (some l) mem =
      (.ok solver, { dmps := mem.dmps ++ [s] }) ∧ solver.linkLengths.length = s.dimY) := by
  have hi := (C88_solver h dt factor).2 h0
  have hr : (mem.dmps ++ [s])[r]? = some s := by
    rw [List.getElem?_append_left (List.getElem?_eq_some_iff.mp h).1]
    exact h
  have hd : Memory.onDmp r (PyM.reads fun s => s.dimY) (⟨mem.dmps ++ [s]⟩ : Memory) =
      (.ok s.dimY, ⟨mem.dmps ++ [s]⟩) := by
    rw [onDmp_run hr]
    refine Prod.ext rfl ?_
    change Memory.mk _ = _
    congr 1
    exact set_self hr
  refine ⟨?_, fun l h1 => ?_, fun l h1 => ?_⟩
  · unfold ArmSolver.init
    rw [PyM.bind_ok hi]
    rfl
  · unfold ArmSolver.init
    rw [PyM.bind_ok hi]
    simp only
    rw [PyM.bind_ok hd]
    simp only [if_pos h1]
    rfl
  · unfold ArmSolver.init
    rw [PyM.bind_ok hi]
    simp only
    rw [PyM.bind_ok hd]
    simp only [if_neg h1, List.length_replicate, ne_eq, not_true_eq_false, if_false]
    exact ⟨_, rfl, by simp⟩

/-- C88: more angles than links raise IndexError, and this is the only exception. -/
theorem C88_links (angles lengths : List ℝ) :
    (Arm2D.linkPositions angles lengths = .error .indexError ↔ lengths.length < angles.length) ∧
    (∀ e, Arm2D.linkPositions angles lengths = .error e → e = .indexError) := by
  have key : ∀ (angles lengths : List ℝ) (sum x y : ℝ),
      (lengths.length < angles.length → Arm2D.linkLoop sum x y angles lengths = .error .indexError) ∧
      (angles.length ≤ lengths.length → ∃ l, Arm2D.linkLoop sum x y angles lengths = .ok l) := by
    intro angles
    induction angles with
    | nil => exact fun lengths sum x y => ⟨fun h => absurd h (by simp), fun _ => ⟨[], rfl⟩⟩
    | cons a angles ih =>
      intro lengths sum x y
      cases lengths with
      | nil => exact ⟨fun _ => rfl, fun h => absurd h (by simp)⟩
      | cons l lengths =>
        obtain ⟨i1, i2⟩ := ih lengths (sum + a) (x + Real.cos (sum + a) * l) (y + Real.sin (sum + a) * l)
        refine ⟨fun h => ?_, fun h => ?_⟩
        · unfold Arm2D.linkLoop
          simp only [i1 (by simpa using h)]
        · obtain ⟨r, hr⟩ := i2 (by simpa using h)
          unfold Arm2D.linkLoop
          simp only [hr]
          exact ⟨_, rfl⟩
  obtain ⟨k1, k2⟩ := key angles lengths 0 0 0
  unfold Arm2D.linkPositions
  by_cases h : lengths.length < angles.length
  · rw [k1 h]
    exact ⟨iff_of_true rfl h, fun e he => (Except.error.inj he).symm⟩
  · obtain ⟨l, hl⟩ := k2 (by omega)
    rw [hl]
    exact ⟨iff_of_false (by simp) h, fun e he => by cases he⟩

/-! ### Costs -/

namespace TaskViapoint

/-- C88: a rollout without time steps. Looking for the waypoint raises ValueError. Without weight for the
viapoint, the costs are not numbers with a weight for accelerations and at least one dimension (and so they are without
any dimension), and a ZeroDivisionError without. -/
theorem C88_no_rows (task : TaskViapoint) (sample : List ℝ) (hg : ¬ 0 < task.goalWeight) :
    (0 < task.viapointWeight → task.evaluateLocal [] [] [] sample = .error .valueError) ∧
    (¬ 0 < task.viapointWeight → 0 < task.accelerationWeight →
      task.evaluateLocal [] [] [] sample = .error .nanResult) ∧
    (¬ 0 < task.viapointWeight → ¬ 0 < task.accelerationWeight →
      task.evaluateLocal [] [] [] sample = .error .zeroDivision) := by
  have hd : task.delayCost [] [] = .ok (some 0, 0) := by
    unfold delayCost
    cases task.goal with
    | none => rfl
    | some g => exact if_neg hg
  refine ⟨fun h => ?_, fun h ha => ?_, fun h ha => ?_⟩
  · unfold evaluateLocal
    have : task.viapointDist [] [] = .error .valueError := by
      unfold viapointDist
      rw [if_pos h]
      have : task.getWaypoint [] [] = .error .valueError := by
        unfold getWaypoint
        cases task.viapointTime with
        | none => rfl
        | some t => rfl
      rw [this]
      rfl
    rw [this]
    rfl
  · unfold evaluateLocal
    rw [show task.viapointDist [] [] = .ok 0 from if_neg h, ok_then]
    unfold sumYdd
    rw [if_pos ha]
    by_cases h0 : task.nDims = 0
    · rw [if_pos h0]
      rfl
    · rw [if_neg h0, ok_then]
      simp only
      rw [hd, ok_then, if_pos rfl, if_pos ha]
  · unfold evaluateLocal
    rw [show task.viapointDist [] [] = .ok 0 from if_neg h, ok_then]
    rw [show task.sumYdd [] = .ok 0 from if_neg ha, ok_then]
    simp only
    rw [hd, ok_then, if_pos rfl, if_neg ha]

/-- C88: with a weight for the goal, but without goal time: TypeError. If no time is after the goal time, the
costs are not numbers (ZeroDivisionError without weight for accelerations). -/
theorem C88_goal_time (task : TaskViapoint) (ts : List ℝ) (ys ydds : List (List ℝ)) (sample goal : List ℝ)
    (dist acc : ℝ) (h1 : task.viapointDist ts ys = .ok dist) (h2 : task.sumYdd ydds = .ok acc)
    (hgoal : task.goal = some goal) (hw : 0 < task.goalWeight) :
    (task.goalTime = none → task.evaluateLocal ts ys ydds sample = .error .typeError) ∧
    (∀ g, task.goalTime = some g → (∀ t ∈ ts, t < g) →
      (0 < task.accelerationWeight → task.evaluateLocal ts ys ydds sample = .error .nanResult) ∧
      (¬ 0 < task.accelerationWeight → task.evaluateLocal ts ys ydds sample = .error .zeroDivision)) := by
  have hstart : ∀ r, task.delayCost ts ys = r → task.evaluateLocal ts ys ydds sample = (do
      let delay ← r
      if delay.2 = 0 then
        if task.accelerationWeight > 0 then .error .nanResult else .error .zeroDivision
      else
        match delay.1 with
        | none => .error .nanResult
        | some delayMean => do
          let c1 := task.viapointWeight * dist
          let c2 := task.accelerationWeight * acc / delay.2
          let c3 := task.goalWeight * delayMean
          let c4 := task.regularizationWeight * (if task.regularizationWeight > 0 then l2norm sample else 0)
          return [[c1, c2, c3, c4].sum, c1, c2, c3, c4]) := by
    rintro r rfl
    unfold evaluateLocal
    rw [h1, ok_then, h2, ok_then]
    rfl
  refine ⟨fun h => ?_, fun g h ht => ?_⟩
  · have : task.delayCost ts ys = .error .typeError := by
      unfold delayCost
      rw [hgoal]
      simp only
      rw [if_pos hw, h]
    rw [hstart _ this]
    rfl
  · have : task.delayCost ts ys = .ok (none, 0) := by
      unfold delayCost
      rw [hgoal]
      simp only
      rw [if_pos hw, h]
      simp only
      have he : (List.zip ts ys).filter (fun ty => decide (g ≤ ty.1)) = [] := by
        rw [List.filter_eq_nil_iff]
        intro ty hty
        have := ht ty.1 (List.of_mem_zip hty).1
        simpa using this
      rw [he]
      rfl
    rw [hstart _ this, ok_then, if_pos rfl]
    exact ⟨fun ha => if_pos ha, fun ha => if_neg ha⟩

/-- C88: tasks are only constructed with a goal of the size of the viapoint; a table with fewer columns than
the trajectory has raises ValueError. -/
theorem C88_sizes (viapoint : List ℝ) (o : Options) (task : TaskViapoint) (m : Arr2 ℝ) (sample : List ℝ) :
    (init viapoint o = .error .valueError ↔ ∃ g, o.goal = some (some g) ∧ g.length ≠ viapoint.length) ∧
    (m.cols < 1 + 3 * task.viapoint.length → task.evaluateRollout m sample = .error .valueError) := by
  refine ⟨?_, fun h => if_pos (by unfold nDims; omega)⟩
  unfold init
  cases hg : o.goal with
  | none =>
    refine iff_of_false ?_ (by simp)
    simp [vzeros]
  | some og =>
    cases og with
    | none => exact iff_of_false (by simp) (by simp)
    | some g =>
      simp only [Option.getD_some]
      split_ifs with h
      · exact iff_of_true rfl ⟨g, rfl, h⟩
      · refine iff_of_false (by simp) ?_
        rintro ⟨g', h1, h2⟩
        cases h1
        exact h h2

end TaskViapoint

/-! ### Force field -/

namespace ForceField

/-- C88: the simulator needs at least two times; a negative number of times raises ValueError. The time step of
the solver must not be 0. -/
theorem C88_times (s : DmpWithSchedules) (time strength maxTime tau factor : ℝ) (n : Int) (st : Bool) :
    (n < 0 → Raises (performRollout time n strength maxTime) .valueError s) ∧
    (n = 0 ∨ n = 1 → Raises (performRollout time n strength maxTime) .indexError s) ∧
    (∀ dt, Solver.init tau dt factor st = .error .zeroDivision ↔ dt = 0) := by
  refine ⟨fun h => ?_, fun h => ?_, fun dt => ?_⟩
  · unfold Raises performRollout TaskSolverDmp.linspaceInt
    rw [if_pos h]
    rfl
  · unfold Raises performRollout TaskSolverDmp.linspaceInt
    rw [if_neg (by omega), PyM.lift_ok_bind]
    have hl : (linspace 0 time n.toNat).length = n.toNat := by
      rcases h with rfl | rfl <;> simp [linspace]
    match hts : linspace 0 time n.toNat with
    | [] => rfl
    | [a] => rfl
    | a :: b :: l =>
      rw [hts] at hl
      simp only [List.length_cons] at hl
      omega
  · unfold Solver.init
    split_ifs with h
    · exact iff_of_true rfl h
    · exact iff_of_false (by simp) h

/-- C88: a negative gain, and a negative time of the maximum (or 0 at time 0), give results that are not
numbers. -/
theorem C88_not_numbers (gain y yd : List ℝ) (des : List ℝ × List ℝ × List ℝ) (strength maxTime time : ℝ) :
    (control gain des y yd = .error .nanResult ↔ ∃ g ∈ gain, g < 0) ∧
    (field strength maxTime time = .error .nanResult ↔ maxTime < 0 ∨ (maxTime = 0 ∧ time = 0)) := by
  refine ⟨?_, ?_⟩
  · unfold control
    split_ifs with h
    · refine iff_of_true rfl ?_
      simpa using h
    · refine iff_of_false (by simp) ?_
      simpa using h
  · unfold field
    split_ifs with h1 h2 h3
    · exact iff_of_true rfl (.inl h1)
    · exact iff_of_true rfl (.inr ⟨h2, h3⟩)
    · exact iff_of_false (by simp) (by tauto)
    · exact iff_of_false (by simp) (by tauto)

/-- C88: gains must be one number, or one per dimension; a matrix of gains must have one row. -/
theorem C88_gains (n : Nat) (v : List ℝ) (a : Arr2 ℝ) :
    (gainsRow n (.one v) = .error .valueError ↔ v.length ≠ n ∧ v.length ≠ 1) ∧
    (a.rows.length ≠ 1 → gainsRow n (.two a) = .error .valueError) ∧
    (a.rows = [v] → gainsRow n (.two a) = gainsRow n (.one v)) := by
  refine ⟨?_, fun h => ?_, fun h => ?_⟩
  · change fill n v = .error .valueError ↔ _
    unfold fill
    split_ifs with h
    · exact iff_of_false (by simp) (by simp [h])
    · match v, h with
      | [], h => exact iff_of_true rfl ⟨h, by simp⟩
      | [x], h => exact iff_of_false (by simp) (by simp)
      | x :: y :: l, h => exact iff_of_true rfl ⟨h, by simp⟩
  · unfold gainsRow
    match hr : a.rows, h with
    | [], _ => simp only [hr]
    | x :: y :: l, _ => simp only [hr]
    | [x], h => simp at h
  · unfold gainsRow
    simp only [h]

/-- C88: the position and the viapoint must have the same size, or one of them one entry. -/
theorem C88_difference (y v : List ℝ) : difference y v = .error .valueError ↔
    y.length ≠ v.length ∧ y.length ≠ 1 ∧ v.length ≠ 1 := by
  unfold difference
  split_ifs with h
  · exact iff_of_false (by simp) (by simp [h])
  · match y, v, h with
    | _, [b], _ => exact iff_of_false (by simp) (by simp)
    | [a], [], _ => exact iff_of_false (by simp) (by simp)
    | [a], _ :: _ :: _, _ => exact iff_of_false (by simp) (by simp)
    | [], [], h => simp at h
    | [], _ :: _ :: _, h => exact iff_of_true rfl ⟨h, by simp, by simp⟩
    | _ :: _ :: _, [], h => exact iff_of_true rfl ⟨h, by simp, by simp⟩
    | _ :: _ :: _, _ :: _ :: _, h => exact iff_of_true rfl ⟨h, by simp, by simp⟩

end ForceField

/-! ### Throwing a ball -/

namespace ThrowBall

/-- C88: the simulation without times (a time constant that is not positive) raises IndexError. -/
theorem C88_no_times (s t : Dmp) (yFloor : ℝ) (r : List ℝ × List ℝ) (h : Dmp.integrateStart.run s = (.ok r, t))
    (ht : s.tau ≤ 0) : runPythonSimulation yFloor s = (.error .indexError, t) := by
  unfold runPythonSimulation
  rw [PyM.self_bind]
  simp only
  rw [PyM.bind_ok h, PyM.self_bind]
  have : arange (1.5 * s.tau) 0.01 = [] := by
    unfold arange
    rw [Nat.ceil_eq_zero.mpr (div_nonpos_of_nonpos_of_nonneg (by linarith) (by norm_num))]
    rfl
  simp only [this]
  rfl

/-- C88: a ball with fewer than two coordinates raises IndexError when it leaves the hand. -/
theorem C88_one_dimension (sim : Sim) (row : Nat) (dt yFloor t : ℝ) (p : List ℝ × List ℝ × List ℝ)
    (h1 : sim.inHand = false) (h2 : sim.inAir = true) (hrow : sim.yddBall = some row)
    (hr : row < sim.ydds.length) (hd : (sim.ydds.getD row []).length < 2) :
    sim.step dt yFloor t p = .error .indexError := by
  unfold Sim.step Sim.record
  simp only [h1, h2, if_true]
  unfold Sim.fly
  simp only [hrow]
  have : (sim.ydds ++ [p.2.2]).getD row [] = sim.ydds.getD row [] := by
    rw [List.getD_eq_getElem?_getD, List.getD_eq_getElem?_getD, List.getElem?_append_left hr]
  rw [this, if_pos hd]
  rfl

end ThrowBall

/-- C88 in C++: states of the simulator have two coordinates. -/
theorem Cpp.C88_simulator (s : Cpp.Simulator) :
    (∀ dt, s.fly dt = .error .assertion ↔
      ¬(2 ≤ s.yddBall.length ∧ s.ydBall.length = s.yddBall.length ∧ s.yBall.length = s.ydBall.length)) ∧
    (s.getState = .error .assertion ↔ ¬(s.yEndeff.length = 2 ∧ s.ydEndeff.length = 2 ∧
      s.yddEndeff.length = 2 ∧ s.yBall.length = 2 ∧ s.ydBall.length = 2 ∧ s.yddBall.length = 2)) := by
  refine ⟨fun dt => ?_, ?_⟩
  · unfold Cpp.Simulator.fly
    split_ifs with h
    · exact iff_of_true rfl (by omega)
    · simp only
      split_ifs
      · exact iff_of_false (by simp) (by omega)
      · exact iff_of_false (by simp) (by omega)
  · unfold Cpp.Simulator.getState
    split_ifs with h
    · exact iff_of_false (by simp) (not_not.mpr h)
    · exact iff_of_true rfl h

/-! ### Objects of another class in the session -/

/-- C88: an object of another class than the one that is needed raises TypeError; an object that is not there
raises what ask raises. -/
theorem C88_other_class {n : Nat} {D α : Type} [DmpLike n D] (get : Obj n D → Option α) (name : String)
    (i : Option Int) (l : Option Label) (w t : World (Obj n D)) :
    (∀ v, World.askValue name i l w = (.ok v, t) → get v = none →
      askAs get name i l w = (.error .typeError, t)) ∧
    (∀ e, World.askValue (V := Obj n D) name i l w = (.error e, t) → askAs get name i l w = (.error e, t)) := by
  refine ⟨fun v h hv => ?_, fun e h => ?_⟩
  · unfold askAs
    rw [PyM.bind_ok h]
    simp only [hv]
    rfl
  · unfold askAs
    exact PyM.bind_error h

/-- C88: asking a session without directory for what it was not told raises KeyError, and one with a directory
without such a file IOError. The session does not change. -/
theorem C88_ask {V : Type} [Storable V] (w : World V) (name : String) (i : Option Int) (l : Option Label)
    (h : w.cache.lookup (baseName name i l) = none) :
    (w.hasDir = false → Raises (World.ask name i l) .keyError w) ∧
    (w.hasDir = true → (∀ ext, w.read ⟨(baseName name i l).parts, ext⟩ = none) →
      Raises (World.ask name i l) .ioError w) := by
  refine ⟨fun hd => ?_, fun hd hf => ?_⟩
  · unfold Raises World.ask
    rw [PyM.self_bind]
    simp only [h, hd]
    rfl
  · have : w.load (baseName name i l) = .error .ioError := by
      unfold World.load
      simp only [hf]
    unfold Raises World.ask
    rw [PyM.self_bind]
    simp only [h, hd, if_true, this]
    rfl

/-- C88: telling a task session about a dmp before its directory exists raises IOError, and nothing is
stored. -/
theorem C88_tell {V : Type} [Storable V] (w : World V) (v : V) (name : String) (i : Option Int)
    (l : Option Label) (ht : w.task = true) (hd : w.hasDir = true) (hn : dmpIn name = true)
    (hdir : w.dirExists (baseName name i l).parts.dropLast = false) :
    Raises (World.tell v name i l) .ioError w := by
  unfold Raises World.tell
  rw [PyM.self_bind]
  simp only [ht, hd, hn, Bool.and_self, if_true]
  refine PyM.bind_error ?_
  unfold World.savejson
  rw [PyM.self_bind, hdir]
  rfl

/-! ### Examples -/

/-- Example: three angles for two links. -/
example : Arm2D.linkPositions [1, 2, 3] [1, 1] = .error .indexError := (C88_links _ _).1.mpr (by simp)

/-- Example: a goal weight without goal time, and a rollout with three time steps. -/
example : ∃ (task : TaskViapoint) (ts : List ℝ) (ys ydds : List (List ℝ)) (dist acc : ℝ),
    task.viapointDist ts ys = .ok dist ∧ task.sumYdd ydds = .ok acc ∧ task.goal = some [0] ∧
    0 < task.goalWeight ∧ task.goalTime = none ∧ ts.length = 3 :=
  ⟨⟨[1], none, 0, some [0], none, 0, 0, 0, 1⟩, [0, 1, 2], [[0], [1], [2]], [[0], [0], [0]], 0, 0,
    if_neg (by simp), if_neg (by simp), rfl, by simp, rfl, rfl⟩

/-- Example: gains that are not as many as dimensions. -/
example : ForceField.gainsRow 3 (.one [1, 2]) = .error .valueError := (ForceField.C88_gains 3 [1, 2] ⟨0, []⟩).1.mpr
  (by simp)

/-- Example: the task session of the demo before the first update. -/
example : Raises (World.tell (Obj.vec [1]) "dmp" (some 0) none) .ioError
    (⟨3, true, true, [], none, [], []⟩ : World (Obj 1 Unit)) :=
  C88_tell _ _ _ _ _ rfl rfl rfl rfl

end Verif
