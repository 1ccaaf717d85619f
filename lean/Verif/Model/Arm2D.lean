import Verif.Model.TaskSolverDmp
import Verif.Model.TaskViapoint
import Mathlib.Analysis.SpecialFunctions.Trigonometric.Basic

/-
Model of demos/python/bbo_of_dmps/arm2D/TaskSolverDmpArm2D.py and TaskViapointArm2D.py: a planar arm whose
joint angles follow a Dmp. Plotting is not modelled.
-/

set_option autoImplicit false

namespace Verif

noncomputable section

namespace Arm2D

/-- TaskSolverDmpArm2D.py:76-80: the inner loop. `sum` is sum_angles, `(x, y)` the position of the last
link so far; the positions of the further links. A missing link length raises IndexError. -/
def linkLoop (sum x y : ℝ) : List ℝ → List ℝ → Except PyErr (List (ℝ × ℝ))
  | [], _ => .ok []
  | _ :: _, [] => .error .indexError
  | angle :: angles, ll :: lengths =>
    let sum := sum + angle
    let x := x + Real.cos sum * ll
    let y := y + Real.sin sum * ll
    match linkLoop sum x y angles lengths with
    | .error e => .error e
    | .ok rest => .ok ((x, y) :: rest)

/-- TaskSolverDmpArm2D.py:72-80 for one row: the base is at the origin. -/
def linkPositions (angles lengths : List ℝ) : Except PyErr (List (ℝ × ℝ)) :=
  match linkLoop 0 0 0 angles lengths with
  | .error e => .error e
  | .ok rest => .ok ((0, 0) :: rest)

/-- TaskSolverDmpArm2D.py:68-87 angles_to_link_positions: each row is x_0, y_0, x_1, y_1, ... -/
def anglesToLinkPositions (angles : Arr2 ℝ) (lengths : List ℝ) : Except PyErr (Arr2 ℝ) := do
  let rows ← angles.rows.mapM fun a => linkPositions a lengths
  return ⟨2 * (angles.cols + 1), rows.map fun ps => ps.flatMap fun p => [p.1, p.2]⟩

/-- `np.column_stack((a, b))` of two 2-D arrays. -/
def columnStack (a b : Arr2 ℝ) : Except PyErr (Arr2 ℝ) :=
  if a.rows.length = b.rows.length then .ok ⟨a.cols + b.cols, List.zipWith (· ++ ·) a.rows b.rows⟩
  else .error .valueError

end Arm2D

/-- The object of class TaskSolverDmpArm2D. -/
structure ArmSolver where
  base : TaskSolverDmp
  linkLengths : List ℝ

namespace ArmSolver

/-- TaskSolverDmpArm2D.py:31-40 `__init__`. The condition in line 33 is
`link_lengths is not None or len(link_lengths) > 0`: for None the second part raises TypeError, and
anything else is overwritten. -/
def init (dmp : Nat) (dt factor : ℝ) (linkLengths : Option (List ℝ) := none) : PyM Memory ArmSolver := do
  let base ← TaskSolverDmp.init dmp dt factor
  match linkLengths with
  | none => PyM.raise .typeError
  | some _ => do
    let nDofs ← Memory.onDmp dmp (PyM.reads fun s => s.dimY)
    if nDofs = 0 then PyM.raise .zeroDivision
    else
      let linkLengths : List ℝ := List.replicate nDofs (1 / (nDofs : ℝ))
      if linkLengths.length ≠ nDofs then PyM.raise .runtimeError
      else return { base := base, linkLengths := linkLengths }

/-- TaskSolverDmpArm2D.py:42-56 perform_rollout_dmp. -/
def performRolloutDmp (solver : ArmSolver) (dmp : Nat) : PyM Memory (Arr2 ℝ) := do
  let ts ← PyM.lift (TaskSolverDmp.linspaceInt 0 solver.base.integrateTime solver.base.nTimeSteps)
  let sol ← Memory.onDmp dmp (Dmp.analytical (some ts))
  let dmp ← Memory.onDmp dmp PyM.self
  let traj ← PyM.lift (dmp.asTrajectory ts sol.xs sol.xds)
  let links ← PyM.lift (Arm2D.anglesToLinkPositions traj.ys solver.linkLengths)
  let m ← PyM.lift traj.asMatrix
  PyM.lift (Arm2D.columnStack m links)

/-- TaskSolverDmpArm2D.py:58-66 perform_rollout. -/
def performRollout (solver : ArmSolver) (sample : List ℝ) : PyM Memory (Arr2 ℝ) := do
  Memory.onDmp solver.base.dmp (Dmp.setParamVector sample)
  performRolloutDmp solver solver.base.dmp

end ArmSolver

/-- The object of class TaskViapointArm2D. -/
structure ArmTask where
  task : TaskViapoint
  nDofs : Nat

namespace ArmTask

/-- TaskViapointArm2D.py:28-31 `__init__`, without the flag for plotting. -/
def init (nDofs : Nat) (viapoint : List ℝ) (o : TaskViapoint.Options := {}) : Except PyErr ArmTask := do
  let task ← TaskViapoint.init viapoint o
  return { task := task, nDofs := nDofs }

/-- TaskViapointArm2D.py:33-55 evaluate_rollout, for viapoints with two entries (numpy rejects most others
when it subtracts them). The assertion is the error `runtimeError`. -/
def evaluateRollout (t : ArmTask) (costVars : Arr2 ℝ) (sample : List ℝ) : Except PyErr (List ℝ) :=
  let nCostVars := 1 + t.nDofs * 3 + (t.nDofs + 1) * 2
  if nCostVars ≠ costVars.cols then .error .runtimeError
  else
    let offset := 1 + t.nDofs * 2
    t.task.evaluateLocal (costVars.rows.map fun row => row.getD 0 0)
      (TaskViapoint.columns (costVars.cols - 2) costVars.cols costVars)
      (TaskViapoint.columns offset (offset + t.nDofs) costVars) sample

end ArmTask

end

end Verif
