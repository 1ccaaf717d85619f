import Mathlib.Data.List.Infix
import Verif.Model.CppTrajectory
import Verif.Model.ThrowBall

/-
The script demos/robot/plot_rollouts.py and TaskThrowBall.plot_rollout. Line styles, labels and limits of axes are left out.
-/

set_option autoImplicit false

namespace Verif

noncomputable section

/-- demos/robot/TaskThrowBall.py:82-99: what is drawn for a rollout. -/
structure RolloutPlot where
  hand : List (ℝ × ℝ)
  ball : List (ℝ × ℝ)
  floor : List (ℝ × ℝ)
  goal : ℝ × ℝ

/-- demos/robot/TaskThrowBall.py:62-101 plot_rollout. Slices of columns never raise, but columns 0 and 1 of them are an
IndexError if there are fewer columns (the hand may have been drawn by then, which is left out). -/
def ThrowBall.Task.plotRollout (t : ThrowBall.Task) (costVars : Arr2 ℝ) : Except PyErr RolloutPlot :=
  if costVars.cols < 9 then .error .indexError
  else .ok
    { hand := costVars.rows.map fun r => (r.getD 1 0, r.getD 2 0)
      ball := costVars.rows.map fun r => (r.getD 7 0, r.getD 8 0)
      floor := [(-1, t.yFloor), (t.xGoal - t.xMargin, t.yFloor), (t.xGoal, t.yFloor - 0.05),
        (t.xGoal + t.xMargin, t.yFloor), (0.4, t.yFloor)]
      goal := (t.xGoal, t.yFloor - 0.05) }

/-- `np.loadtxt`, demos/robot/plot_rollouts.py:56, followed by access to columns (TaskThrowBall.py:77), which is an
IndexError for the 1-D arrays that are returned for no row, one row, or one column. Empty lines are skipped, lines of
different lengths are a ValueError. -/
def loadTable (ls : Lines) : Except PyErr (Arr2 ℝ) :=
  match ls.filter fun l => decide (l ≠ []) with
  | [] => .error .indexError
  | r :: rs =>
    if rs.any fun l => l.length != r.length then .error .valueError
    else if rs = [] then .error .indexError
    else if r.length = 1 then .error .indexError
    else .ok ⟨r.length, r :: rs⟩

/-- demos/robot/plot_rollouts.py:42, the pattern "*cost_vars*.txt" of `glob`, which skips hidden files. -/
def isCostVars (name : String) : Bool :=
  decide (name.toList.head? ≠ some '.' ∧ ".txt".toList <:+ name.toList ∧
    "cost_vars".toList <:+: name.toList.take (name.toList.length - 4))

/-- The argument "input" of demos/robot/plot_rollouts.py: a directory with the files in it, in the order of `glob`, or
another path, with the contents of the file if there is one. Text files other than tables of numbers are not modelled. -/
inductive RolloutInput
  | directory (files : List (String × Lines))
  | file (contents : Option Lines)

/-- demos/robot/plot_rollouts.py:55-57, the loop: what has been drawn, and whether an exception was raised. -/
def drawRollouts (t : ThrowBall.Task) : List (Option Lines) → List RolloutPlot × Except PyErr Unit
  | [] => ([], .ok ())
  | none :: _ => ([], .error .ioError)
  | some ls :: rest =>
    match loadTable ls with
    | .error e => ([], .error e)
    | .ok m =>
      match t.plotRollout m with
      | .error e => ([], .error e)
      | .ok p => (p :: (drawRollouts t rest).1, (drawRollouts t rest).2)

/-- How demos/robot/plot_rollouts.py ends: the figure has been shown, or saved in a file of the directory. -/
inductive PlotResult
  | shown
  | saved (file : String)
  deriving DecidableEq

/-- demos/robot/plot_rollouts.py:39-64, with the task that was read. `save` is the option --save. If the input is no
directory, `Path(None, …)` in line 60 raises a TypeError. -/
def plotRollouts (t : ThrowBall.Task) (input : RolloutInput) (save : Bool) : List RolloutPlot × Except PyErr PlotResult :=
  let files := match input with
    | .directory files => (files.filter fun f => isCostVars f.1).map fun f => some f.2
    | .file contents => [contents]
  match drawRollouts t files with
  | (drawn, .error e) => (drawn, .error e)
  | (drawn, .ok ()) =>
    if save then
      match input with
      | .directory _ => (drawn, .ok (.saved "plot_rollouts.png"))
      | .file _ => (drawn, .error .typeError)
    else (drawn, .ok .shown)

end

end Verif
