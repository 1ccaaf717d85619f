import Verif.Model.Py
import Verif.Model.Vec
import Verif.Model.Trajectory
import Mathlib.Analysis.SpecialFunctions.Sqrt

/-
Model of demos/python/bbo_of_dmps/TaskViapoint.py.

Cost-relevant variables are a numpy array; the variant with a pandas data frame and plotting are not
modelled. The printed warning in get_waypoint is left out.
-/

set_option autoImplicit false

namespace Verif

noncomputable section

/-- TaskViapoint.py:29-42: the fields. -/
structure TaskViapoint where
  viapoint : List ℝ
  viapointTime : Option ℝ
  viapointRadius : ℝ
  goal : Option (List ℝ)
  goalTime : Option ℝ
  viapointWeight : ℝ
  accelerationWeight : ℝ
  regularizationWeight : ℝ
  goalWeight : ℝ

namespace TaskViapoint

/-- TaskViapoint.py:31-38: the keyword arguments. For `goal`, `none` stands for a missing argument and
`some none` for the argument None. -/
structure Options where
  viapointTime : Option ℝ := none
  viapointRadius : ℝ := 0
  goal : Option (Option (List ℝ)) := none
  goalTime : Option ℝ := none
  viapointWeight : ℝ := 1
  accelerationWeight : ℝ := 1 / 10000
  regularizationWeight : ℝ := 0
  goalWeight : ℝ := 0

/-- TaskViapoint.py:29-42 `__init__`, for viapoints that are arrays with one dimension. -/
def init (viapoint : List ℝ) (o : Options := {}) : Except PyErr TaskViapoint :=
  let goal := o.goal.getD (some (vzeros viapoint.length))
  let task : TaskViapoint :=
    { viapoint := viapoint
      viapointTime := o.viapointTime
      viapointRadius := o.viapointRadius
      goal := goal
      goalTime := o.goalTime
      viapointWeight := o.viapointWeight
      accelerationWeight := o.accelerationWeight
      regularizationWeight := o.regularizationWeight
      goalWeight := o.goalWeight }
  match goal with
  | none => .ok task
  | some g => if g.length ≠ viapoint.length then .error .valueError else .ok task

/-- TaskViapoint.py:44-45 n_dims. -/
def nDims (task : TaskViapoint) : Nat := task.viapoint.length

/-- `np.linalg.norm(x)` -/
def l2norm (x : List ℝ) : ℝ := Real.sqrt (x.map fun v => v ^ 2).sum

/-- `argmin()`: position of the first smallest entry of `xs`, if `best` is the position of the smallest
entry `m` so far and `xs` begins at position `i`. -/
def argminFrom (best : Nat) (m : ℝ) (i : Nat) : List ℝ → Nat
  | [] => best
  | x :: xs => if x < m then argminFrom i x (i + 1) xs else argminFrom best m (i + 1) xs

/-- `xs.argmin()`, which raises ValueError for an empty array. -/
def argmin : List ℝ → Except PyErr Nat
  | [] => .error .valueError
  | x :: xs => .ok (argminFrom 0 x 1 xs)

/-- `np.argmax(ts >= t)`: position of the first entry that is at least `t`, or 0; ValueError for an
empty array. -/
def firstFrom (t : ℝ) (ts : List ℝ) : Except PyErr Nat :=
  if ts = [] then .error .valueError
  else .ok ((ts.findIdx? fun x => decide (t ≤ x)).getD 0)

/-- TaskViapoint.py:56-80 get_waypoint: time and position. (`ys` has as many rows as `ts`.) -/
def getWaypoint (task : TaskViapoint) (ts : List ℝ) (ys : List (List ℝ)) : Except PyErr (ℝ × List ℝ) :=
  match task.viapointTime with
  | none => do
    let dists := ys.map fun y => l2norm (vsub y task.viapoint)
    let i ← argmin dists
    return (ts.getD i 0, ys.getD i [])
  | some t => do
    let i ← firstFrom t ts
    return (t, ys.getD i [])

/-- TaskViapoint.py:126-137: the distance to the viapoint. -/
def viapointDist (task : TaskViapoint) (ts : List ℝ) (ys : List (List ℝ)) : Except PyErr ℝ :=
  if task.viapointWeight > 0 then do
    let w ← task.getWaypoint ts ys
    let dist := l2norm (vsub w.2 task.viapoint)
    if task.viapointRadius > 0 then
      let dist := dist - task.viapointRadius
      return if dist < 0 then 0 else dist
    else return dist
  else .ok 0

/-- TaskViapoint.py:139-144: the sum of squared accelerations, divided by the number of dimensions. (The
result of a division by 0 dimensions is not a number.) -/
def sumYdd (task : TaskViapoint) (ydds : List (List ℝ)) : Except PyErr ℝ :=
  if task.accelerationWeight > 0 then
    if task.nDims = 0 then .error .nanResult
    else .ok ((ydds.flatten.map fun v => v ^ 2).sum / task.nDims)
  else .ok 0

/-- TaskViapoint.py:150-156: the mean distance to the goal after goal_time, and the number of time steps,
which is overwritten here. Comparison with a missing goal_time raises TypeError. The mean of an empty
array is not a number; it is None here. -/
def delayCost (task : TaskViapoint) (ts : List ℝ) (ys : List (List ℝ)) : Except PyErr (Option ℝ × Nat) :=
  match task.goal with
  | none => .ok (some 0, ts.length)
  | some goal =>
    if task.goalWeight > 0 then
      match task.goalTime with
      | none => .error .typeError
      | some goalTime =>
        let after := ((List.zip ts ys).filter fun ty => decide (goalTime ≤ ty.1)).map Prod.snd
        if after.length = 0 then .ok (none, 0)
        else .ok (some ((after.map fun y => l2norm (vsub y goal)).sum / after.length), after.length)
    else .ok (some 0, ts.length)

/-- TaskViapoint.py:122-164 evaluate_rollout_local. `ys` and `ydds` are arrays with `n_dims` columns and as
many rows as `ts`. For 0 time steps, line 160 divides by 0: with a positive weight `sum_ydd` is a numpy
number and the result is not a number, otherwise it is a Python float and an exception is raised. -/
def evaluateLocal (task : TaskViapoint) (ts : List ℝ) (ys ydds : List (List ℝ)) (sample : List ℝ) :
    Except PyErr (List ℝ) := do
  let dist ← task.viapointDist ts ys
  let sumYdd ← task.sumYdd ydds
  let norm := if task.regularizationWeight > 0 then l2norm sample else 0
  let delay ← task.delayCost ts ys
  if delay.2 = 0 then
    if task.accelerationWeight > 0 then .error .nanResult else .error .zeroDivision
  else
    match delay.1 with
    | none => .error .nanResult
    | some delayMean => do
      let c1 := task.viapointWeight * dist
      let c2 := task.accelerationWeight * sumYdd / delay.2
      let c3 := task.goalWeight * delayMean
      let c4 := task.regularizationWeight * norm
      return [[c1, c2, c3, c4].sum, c1, c2, c3, c4]

/-- TaskViapoint.py:109-118: the columns `a`, ..., `b - 1` of an array. -/
def columns (a b : Nat) (m : Arr2 ℝ) : List (List ℝ) := m.rows.map fun row => (row.take b).drop a

/-- TaskViapoint.py:82-95 evaluate_rollout with 97-118 _extract_cost_vars. An array with too few columns
raises an exception here (numpy gives narrower slices, which are rejected or broadcast later). -/
def evaluateRollout (task : TaskViapoint) (costVars : Arr2 ℝ) (sample : List ℝ) : Except PyErr (List ℝ) :=
  let n := task.nDims
  if costVars.cols < 1 + n * 3 then .error .valueError
  else task.evaluateLocal (costVars.rows.map fun row => row.getD 0 0) (columns 1 (1 + n) costVars)
    (columns (1 + n * 2) (1 + n * 3) costVars) sample

/-- TaskViapoint.py:47-54 get_cost_labels. -/
def costLabels : List String := ["viapoint", "acceleration", "goal", "regularization"]

end TaskViapoint

end

end Verif
