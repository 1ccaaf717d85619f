import Verif.Model.DmpWithSchedules
import Verif.Model.TaskSolverDmp
import Verif.Model.TaskViapoint
import Mathlib.Analysis.SpecialFunctions.Exp

/-
Model of the demo of gain schedules: demos/python/bbo_of_dmps/with_schedules/force_field_simulator.py
(perform_rollout) and demo_bbo_of_dmps_with_gains.py (task and task solver). The scripts that make plots,
and the optimization itself (see Model/Optimization), are not modelled here.
-/

set_option autoImplicit false

namespace Verif

noncomputable section

namespace ForceField

/-- force_field_simulator.py:40-43: the arrays with the rollout; the rows that have been assigned. -/
structure Rollout where
  ts : List ℝ
  ysDes : List (List ℝ)
  ydsDes : List (List ℝ)
  yddsDes : List (List ℝ)
  schedules : List (List ℝ)
  ysCur : List (List ℝ)
  ydsCur : List (List ℝ)
  yddsCur : List (List ℝ)
  fields : List ℝ

/-- A vector is assigned to a row with `n` entries (`row[:] = v`): it has as many entries, or one entry. -/
def fill (n : Nat) (v : List ℝ) : Except PyErr (List ℝ) :=
  if v.length = n then .ok v
  else match v with
    | [x] => .ok (List.replicate n x)
    | _ => .error .valueError

/-- force_field_simulator.py:50, 64: the schedules are assigned to a row with `n` entries. A matrix is
accepted if it has one row. Lines 65-66 use the schedules and not the row, with the same result. -/
def gainsRow (n : Nat) : Arr ℝ → Except PyErr (List ℝ)
  | .one v => fill n v
  | .two a => match a.rows with
    | [v] => fill n v
    | _ => .error .valueError

/-- force_field_simulator.py:60-66: the accelerations by the controller. The square root of a negative
number is not a number. -/
def control (gain : List ℝ) (des : List ℝ × List ℝ × List ℝ) (y yd : List ℝ) : Except PyErr (List ℝ) :=
  open Classical in
  if gain.any fun g => decide (g < 0) then .error .nanResult
  else
    let yErr := vsub y des.1
    let ydErr := vsub yd des.2.1
    .ok (vsub (vsub des.2.2 (vmul gain yErr)) (vmul (gain.map Real.sqrt) ydErr))

/-- force_field_simulator.py:69-72: the force field at a time. With a width of zero the quotient is infinite
(or, at the mode itself, not a number); a negative width is not a number. -/
def field (strength maxTime time : ℝ) : Except PyErr ℝ :=
  open Classical in
  if maxTime < 0 then .error .nanResult
  else if maxTime = 0 then
    if time = 0 then .error .nanResult else .ok 0
  else
    let w := √(0.05 * maxTime)
    .ok (strength * Real.exp (-0.5 * (time - maxTime) ^ 2 / (w * w)))

/-- force_field_simulator.py:46-50: the rows for the first time. The field of the first time remains 0. -/
def start (n : Nat) (ts : List ℝ) (p : List ℝ × List ℝ × List ℝ) (sch : Arr ℝ) : Except PyErr Rollout := do
  let gain ← gainsRow n sch
  return { ts := ts
           ysDes := [p.1]
           ydsDes := [p.2.1]
           yddsDes := [p.2.2]
           schedules := [gain]
           ysCur := [p.1]
           ydsCur := [p.2.1]
           yddsCur := [p.2.2]
           fields := [0] }

/-- force_field_simulator.py:55-77: the rows for one of the other times. -/
def Rollout.step (n : Nat) (strength maxTime dt time : ℝ) (p : List ℝ × List ℝ × List ℝ) (sch : Arr ℝ)
    (r : Rollout) : Except PyErr Rollout := do
  let y := r.ysCur.getLastD []
  let yd := r.ydsCur.getLastD []
  let gain ← gainsRow n sch
  let ydd ← control gain p y yd
  let f ← field strength maxTime time
  let ydd := ydd.map (· + f)
  let yd := vadd yd (vscale dt ydd)
  let y := vadd y (vscale dt yd)
  return { r with
    ysDes := r.ysDes ++ [p.1]
    ydsDes := r.ydsDes ++ [p.2.1]
    yddsDes := r.yddsDes ++ [p.2.2]
    schedules := r.schedules ++ [gain]
    ysCur := r.ysCur ++ [y]
    ydsCur := r.ydsCur ++ [yd]
    yddsCur := r.yddsCur ++ [ydd]
    fields := r.fields ++ [f] }

/-- force_field_simulator.py:52-77: the loop over the remaining times, from state `x`. -/
def loop (strength maxTime dt : ℝ) : List ℝ → List ℝ → Rollout → PyM DmpWithSchedules Rollout
  | [], _, r => pure r
  | time :: times, x, r => do
    let q ← DmpWithSchedules.integrateStepSched .rungeKutta dt x
    let s ← PyM.self
    let r ← PyM.lift (r.step s.dmp.dimY strength maxTime dt time (s.dmp.posVelAcc q.1 q.2.1) q.2.2)
    loop strength maxTime dt times q.1 r

/-- force_field_simulator.py:27-86 perform_rollout. With fewer than two times, line 38 raises IndexError. -/
def performRollout (integrateTime : ℝ) (nTimeSteps : Int) (strength maxTime : ℝ) :
    PyM DmpWithSchedules Rollout := do
  let ts ← PyM.lift (TaskSolverDmp.linspaceInt 0 integrateTime nTimeSteps)
  match ts with
  | _ :: dt :: rest => do
    let q ← DmpWithSchedules.integrateStartSched none
    let s ← PyM.self
    let r ← PyM.lift (start s.dmp.dimY ts (s.dmp.posVelAcc q.1 q.2.1) q.2.2)
    loop strength maxTime dt (dt :: rest) q.1 r
  | _ => PyM.raise .indexError

/-! ### Task solver -/

/-- demo_bbo_of_dmps_with_gains.py:138-142: the attributes of the task solver, without the Dmp. (The task
solver has its own copy of the Dmp: the state of the methods below.) -/
structure Solver where
  integrateTime : ℝ
  nTimeSteps : Int
  stochasticField : Bool

/-- demo_bbo_of_dmps_with_gains.py:138-142 `__init__`, for a Dmp of duration `tau`. Division by zero raises
an exception for Python floats. -/
def Solver.init (tau dt factor : ℝ) (stochasticField : Bool) : Except PyErr Solver :=
  open Classical in
  if dt = 0 then .error .zeroDivision
  else .ok { integrateTime := tau * factor
             nTimeSteps := ⌊tau * factor / dt⌋ + 1
             stochasticField := stochasticField }

/-- demo_bbo_of_dmps_with_gains.py:160-171: one row for each time. -/
def costVars (n : Nat) (r : Rollout) : Arr2 ℝ :=
  ⟨1 + 7 * n, (List.range r.ts.length).map fun i =>
    r.ts.getD i 0 :: (r.ysCur.getD i [] ++ r.ydsCur.getD i [] ++ r.yddsCur.getD i [] ++
      r.schedules.getD i [] ++ r.ysDes.getD i [] ++ r.ydsDes.getD i [] ++ r.yddsDes.getD i [])⟩

/-- demo_bbo_of_dmps_with_gains.py:144-173 perform_rollout_dmp_sched. `draw` is the random number of line
153. -/
def Solver.performRolloutDmpSched (solver : Solver) (draw : ℝ) : PyM DmpWithSchedules (Arr2 ℝ) := do
  let strength := if solver.stochasticField then draw else -20
  let s ← PyM.self
  let maxTime := 0.5 * s.dmp.tau
  let r ← ForceField.performRollout solver.integrateTime solver.nTimeSteps strength maxTime
  let s ← PyM.self
  return costVars s.dmp.dimY r

/-- demo_bbo_of_dmps_with_gains.py:176-184 perform_rollout. -/
def Solver.performRollout (solver : Solver) (sample : List ℝ) (draw : ℝ) : PyM DmpWithSchedules (Arr2 ℝ) := do
  DmpWithSchedules.setParamVector sample
  solver.performRolloutDmpSched draw

/-! ### Task -/

/-- demo_bbo_of_dmps_with_gains.py:40-47: the attributes of the task. -/
structure Task where
  viapoint : Arr ℝ
  viapointTime : ℝ
  minGain : ℝ
  maxGain : ℝ
  viapointWeight : ℝ := 1
  accelerationWeight : ℝ := 0.0001
  gainWeight : ℝ := 0

/-- demo_bbo_of_dmps_with_gains.py:49-56 get_cost_labels. -/
def Task.costLabels (_ : Task) : List String := ["viapoint", "acceleration", "gains"]

/-- `y - v` for two vectors, with broadcasting. -/
def difference (y v : List ℝ) : Except PyErr (List ℝ) :=
  if y.length = v.length then .ok (vsub y v)
  else match y, v with
    | _, [b] => .ok (y.map fun a => a - b)
    | [a], _ => .ok (v.map fun b => a - b)
    | _, _ => .error .valueError

/-- demo_bbo_of_dmps_with_gains.py:84: the norm of the difference to the viapoint. -/
def Task.distance (t : Task) (y : List ℝ) : Except PyErr ℝ :=
  match t.viapoint with
  | .one v => do return TaskViapoint.l2norm (← difference y v)
  | .two a => do return TaskViapoint.l2norm (← a.rows.mapM (difference y)).flatten

open Classical in
/-- demo_bbo_of_dmps_with_gains.py:58-93 evaluate_rollout, for cost-relevant variables with at least one
column. Division by zero gives a result that is not a number or infinite. -/
def Task.evaluateRollout (t : Task) (costVars : Arr2 ℝ) : Except PyErr (List ℝ) := do
  let n := t.viapoint.len
  let steps := costVars.rows.length
  let ts := costVars.rows.map fun r => r.getD 0 0
  let ys := costVars.rows.map fun r => (r.take (1 + n)).drop 1
  let ydds := costVars.rows.map fun r => (r.take (1 + n * 3)).drop (1 + n * 2)
  let gains := costVars.rows.map fun r => (r.take (1 + n * 4)).drop (1 + n * 3)
  let step ← TaskViapoint.firstFrom t.viapointTime ts
  let dist ← t.distance (ys.getD step [])
  if decide ((steps : ℝ) * t.maxGain = 0) then .error .nanResult
  else
    let viapoint := t.viapointWeight * dist
    let acceleration := t.accelerationWeight * (ydds.flatten.map fun x => |x|).sum / steps
    let gain := t.gainWeight * ((gains.flatten.sum - t.minGain) / (steps * t.maxGain))
    .ok [viapoint + acceleration + gain, viapoint, acceleration, gain]

end ForceField

end

end Verif
