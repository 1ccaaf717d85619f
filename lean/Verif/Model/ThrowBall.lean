import Verif.Model.Dmp
import Verif.Model.CppDmp
import Verif.Model.CppTrajectory
import Mathlib.Algebra.Order.Floor.Semiring

/-
Model of the task of throwing a ball: demos/robot/TaskThrowBall.py (simulation and costs),
demos/robot/runSimulationThrowBall.cpp (simulator), demos/robot/robotExecuteDmp.cpp and
demos/robot/robotExecuteTrajectory.cpp. Plotting, reading and writing of files are not modelled here.
-/

set_option autoImplicit false

namespace Verif

noncomputable section

/-! ### Simulation in Python -/

namespace ThrowBall

/-- The variables of run_python_simulation (TaskThrowBall.py:121-132). Of the arrays ys, yds, ydds and
ys_ball, the rows that have been assigned. ydd_ball is, after line 141, a view of a row of ydds: the number
of that row. (None: the array of line 126, which is never read.) yd_ball is also a view, of a row of yds,
but never written to: its entries. -/
structure Sim where
  ys : List (List ℝ)
  yds : List (List ℝ)
  ydds : List (List ℝ)
  ysBall : List (List ℝ)
  ydBall : List ℝ
  yddBall : Option Nat
  inHand : Bool
  inAir : Bool

/-- TaskThrowBall.py:125-132, with position, velocity and acceleration of the first time. -/
def start (n : Nat) (p : List ℝ × List ℝ × List ℝ) : Sim where
  ys := [p.1]
  yds := [p.2.1]
  ydds := [p.2.2]
  ysBall := [p.1]
  ydBall := vzeros n
  yddBall := none
  inHand := true
  inAir := false

/-- TaskThrowBall.py:135: the rows for time `ii`. -/
def Sim.record (sim : Sim) (p : List ℝ × List ℝ × List ℝ) : Sim :=
  { sim with
    ys := sim.ys ++ [p.1]
    yds := sim.yds ++ [p.2.1]
    ydds := sim.ydds ++ [p.2.2] }

/-- TaskThrowBall.py:148-160: the ball is in the air. Lines 150-151 write to the array that ydd_ball is a
view of; with fewer than two dimensions this is an IndexError. -/
def Sim.fly (sim : Sim) (dt yFloor : ℝ) : Except PyErr Sim :=
  match sim.yddBall with
  | none => .error .indexError
  | some row =>
    let ydd := sim.ydds.getD row []
    if ydd.length < 2 then .error .indexError
    else
      let ydd := (ydd.set 0 0).set 1 (-9.81)
      let yd := vadd sim.ydBall (vscale dt ydd)
      let ball := vadd (sim.ysBall.getLastD []) (vscale dt yd)
      let sim := { sim with ydds := sim.ydds.set row ydd, ydBall := yd }
      if ball.getD 1 0 < yFloor then
        .ok { sim with ysBall := sim.ysBall ++ [ball.set 1 yFloor], inAir := false }
      else
        .ok { sim with ysBall := sim.ysBall ++ [ball] }

/-- TaskThrowBall.py:135-164: the body of the loop after the integration step; `t` is ts[ii], `p` the
position, velocity and acceleration. -/
def Sim.step (dt yFloor t : ℝ) (p : List ℝ × List ℝ × List ℝ) (sim : Sim) : Except PyErr Sim :=
  let sim := sim.record p
  if sim.inHand then
    let sim := { sim with
      ysBall := sim.ysBall ++ [p.1]
      ydBall := p.2.1
      yddBall := some (sim.ydds.length - 1) }
    if t > 0.6 then .ok { sim with inHand := false, inAir := true } else .ok sim
  else if sim.inAir then sim.fly dt yFloor
  else .ok { sim with ysBall := sim.ysBall ++ [sim.ysBall.getLastD []] }

/-- TaskThrowBall.py:133-164: the loop over the remaining times, from state `x`. -/
def loop (dt yFloor : ℝ) : List ℝ → List ℝ → Sim → PyM Dmp Sim
  | [], _, sim => pure sim
  | t :: ts, x, sim => do
    let r ← DynSys.integrateStep dt x
    let s ← PyM.self
    let sim ← PyM.lift (sim.step dt yFloor t (s.posVelAcc r.1 r.2))
    loop dt yFloor ts r.1 sim

/-- `np.arange(0, stop, dt)`: `ceil(stop / dt)` numbers (none if that is negative). -/
def arange (stop dt : ℝ) : List ℝ := (List.range ⌈stop / dt⌉₊).map fun (i : ℕ) => i * dt

/-- TaskThrowBall.py:166-167: one row for each time. -/
def costVars (ts : List ℝ) (sim : Sim) : List (List ℝ) :=
  (List.range ts.length).map fun i =>
    ts.getD i 0 :: (sim.ys.getD i [] ++ sim.yds.getD i [] ++ sim.ydds.getD i [] ++ sim.ysBall.getD i [])

/-- TaskThrowBall.py:103-168 run_python_simulation. Without times, line 128 raises IndexError. -/
def runPythonSimulation (yFloor : ℝ := -0.3) : PyM Dmp (Arr2 ℝ) := do
  let dt : ℝ := 0.01
  let s ← PyM.self
  let ts := arange (1.5 * s.tau) dt
  let r ← Dmp.integrateStart
  let s ← PyM.self
  match ts with
  | [] => PyM.raise .indexError
  | _ :: rest => do
    let sim ← loop dt yFloor rest r.1 (start s.dimY (s.posVelAcc r.1 r.2))
    pure ⟨1 + 4 * s.dimY, costVars ts sim⟩

/-! ### Costs -/

/-- TaskThrowBall.py:12-17: the attributes of a task. -/
structure Task where
  xGoal : ℝ
  xMargin : ℝ
  yFloor : ℝ
  accelerationWeight : ℝ := 0.0001

/-- TaskThrowBall.py:19-26 get_cost_labels. -/
def Task.costLabels (_ : Task) : List String := ["landing site", "acceleration"]

/-- TaskThrowBall.py:28-60 evaluate_rollout. Line 45 raises IndexError if there are no rows or fewer than
eight columns. -/
def Task.evaluateRollout (t : Task) (costVars : Arr2 ℝ) : Except PyErr (List ℝ) :=
  let n := costVars.rows.length
  let ydd := costVars.rows.map fun r => (r.take 7).drop 5
  let ball := costVars.rows.map fun r => (r.take 9).drop 7
  match ball.getLast? with
  | none => .error .indexError
  | some last =>
    match last[0]? with
    | none => .error .indexError
    | some x =>
      let dist := |x - t.xGoal|
      let dist := dist - t.xMargin
      let dist := if dist < 0 then 0 else dist
      let sumYdd := if t.accelerationWeight > 0 then
        (ydd.map fun r => (r.map fun a => a ^ 2).sum).sum else 0
      let acceleration := t.accelerationWeight * sumYdd / n
      .ok [dist + acceleration, dist, acceleration]

end ThrowBall

/-! ### Simulation in C++ -/

namespace Cpp

/-- runSimulationThrowBall.hpp:34-52: the attributes of the simulator. -/
structure Simulator where
  time : ℝ
  yEndeff : List ℝ
  ydEndeff : List ℝ
  yddEndeff : List ℝ
  yBall : List ℝ
  ydBall : List ℝ
  yddBall : List ℝ
  ballInHand : Bool
  yFloor : ℝ

namespace Simulator

/-- runSimulationThrowBall.cpp:37-52, the constructor. -/
def init : Simulator where
  time := 0
  yEndeff := vzeros 2
  ydEndeff := vzeros 2
  yddEndeff := vzeros 2
  yBall := vzeros 2
  ydBall := vzeros 2
  yddBall := vzeros 2
  ballInHand := true
  yFloor := -0.3

/-- runSimulationThrowBall.cpp:74-89: the ball is not in the hand. Access to a missing entry and sums of
vectors of different sizes violate assertions. -/
def fly (s : Simulator) (dt : ℝ) : CppResult Simulator :=
  if s.yddBall.length < 2 ∨ s.ydBall.length ≠ s.yddBall.length ∨ s.yBall.length ≠ s.ydBall.length then
    .error .assertion
  else
    let ydd := (s.yddBall.set 0 0).set 1 (-9.81)
    let yd := vadd s.ydBall (vscale dt ydd)
    let y := vadd s.yBall (vscale dt yd)
    if y.getD 1 0 < s.yFloor then
      .ok { s with
        yBall := y.set 1 s.yFloor
        ydBall := vzeros 2
        yddBall := vzeros 2 }
    else
      .ok { s with
        yBall := y
        ydBall := yd
        yddBall := ydd }

/-- runSimulationThrowBall.cpp:54-91 integrateStep. -/
def integrateStep (dt : ℝ) (p : List ℝ × List ℝ × List ℝ) (s : Simulator) : CppResult Simulator := do
  let s := { s with
    yEndeff := p.1
    ydEndeff := p.2.1
    yddEndeff := p.2.2 }
  let s ←
    if s.ballInHand then
      let s := { s with
        yBall := s.yEndeff
        ydBall := s.ydEndeff
        yddBall := s.yddEndeff }
      pure (if s.time > 0.6 then { s with ballInHand := false } else s)
    else s.fly dt
  return { s with time := s.time + dt }

/-- runSimulationThrowBall.cpp:120-133 getState. Vectors whose size is not 2 violate assertions. -/
def getState (s : Simulator) : CppResult (List ℝ) :=
  if s.yEndeff.length = 2 ∧ s.ydEndeff.length = 2 ∧ s.yddEndeff.length = 2 ∧
      s.yBall.length = 2 ∧ s.ydBall.length = 2 ∧ s.yddBall.length = 2 then
    .ok (s.time :: (s.yEndeff ++ s.ydEndeff ++ s.yddEndeff ++ s.yBall ++ s.ydBall ++ s.yddBall ++
      [if s.ballInHand then 1 else 0]))
  else .error .assertion

end Simulator

/-- demos/robot/robotExecuteDmp.cpp:90-95, the loop with `n` repetitions left. -/
def robotDmpLoop (dt : ℝ) : Nat → List ℝ → List ℝ → Dmp → Simulator → CppResult (List (List ℝ))
  | 0, _, _, _, _ => .ok []
  | n + 1, x, xd, s, sim => do
    let p ← s.posVelAcc x xd
    let sim ← sim.integrateStep dt p
    let row ← sim.getState
    let ((x, xd), s) ← System.rungeKuttaStep dt x s
    let rest ← robotDmpLoop dt n x xd s sim
    return row :: rest

/-- demos/robot/robotExecuteDmp.cpp:73-95: the rows of cost_vars. For a negative time constant, the matrix
of cost_vars has a negative number of rows, which violates an assertion. -/
def robotExecuteDmp (s : Dmp) : CppResult (List (List ℝ)) := do
  let dt : ℝ := 0.01
  let integrationTime := 1.5 * s.tau
  if ⌊integrationTime / dt⌋ < 0 then throw .assertion
  let ((x, xd), s) ← s.integrateStart
  robotDmpLoop dt ⌊integrationTime / dt⌋₊ x xd s Simulator.init

/-- demos/robot/robotExecuteTrajectory.cpp:83-87, the loop over the remaining samples (time, position,
velocity, acceleration), where `dt` is the last length of a step, and `prev` the previous time, if there is
one. -/
def robotTrajectoryLoop (dt : ℝ) (prev : Option ℝ) :
    List (ℝ × List ℝ × List ℝ × List ℝ) → Simulator → CppResult (List (List ℝ))
  | [], _ => .ok []
  | (t, p) :: rest, sim => do
    let dt := match prev with
      | none => dt
      | some prev => t - prev
    let sim ← sim.integrateStep dt p
    let row ← sim.getState
    let rows ← robotTrajectoryLoop dt (some t) rest sim
    return row :: rows

/-- demos/robot/robotExecuteTrajectory.cpp:72-87: the rows of cost_vars. `ts[1]` of a trajectory with fewer
than two samples violates an assertion. The samples are zipped, as the constructor of Trajectory ensures
that there are as many rows as times. -/
def robotExecuteTrajectory (t : Trajectory) : CppResult (List (List ℝ)) :=
  match t.ts with
  | t0 :: t1 :: _ =>
    robotTrajectoryLoop (t1 - t0) none (t.ts.zip (t.ys.rows.zip (t.yds.rows.zip t.ydds.rows))) Simulator.init
  | _ => .error .assertion

end Cpp

end

end Verif
