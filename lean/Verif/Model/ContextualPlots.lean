import Verif.Model.DmpContextual
import Verif.Model.DmpPlots

/-
Model of the data that is drawn by DmpContextualTwoStep.plot and plot_policy_parameter_function, and of the
methods of DmpContextualTwoStep that only call the methods of the Dmp.

Axes are numbers as in `Model/DmpPlots.lean`. The colour of a curve is represented by the number that is passed to
the colour map; `none` stands for nan.
-/

noncomputable section

set_option autoImplicit false

namespace Verif

namespace DmpContextual

/-- DmpContextualTwoStep.py:206-207 states_as_trajectory. -/
def asTrajectory (s : DmpContextual) (ts : List ℝ) (xs xds : List (List ℝ)) : Except PyErr (Trajectory ℝ) :=
  s.dmp.asTrajectory ts xs xds

/-- DmpContextualTwoStep.py:209-210 decouple_parameters. -/
def decouple : PyM DmpContextual Unit := onDmp Dmp.decouple

/-- DmpContextualTwoStep.py:234-240: the loop body for one demonstration, with the largest duration so far and
the curves. With at least two axes `axs[1:4]` is not empty, so that no new axes are made. -/
def drawDemo (axs : List Nat) (longest : ℝ) (traj : Trajectory ℝ) : Except PyErr (ℝ × List Drawing) := do
  let longest := max longest (← traj.duration)
  return (longest, (← traj.plot (some (Dmp.axesFrom axs 1 4))).1)

/-- DmpContextualTwoStep.py:231-240: the loop over the demonstrations; the largest duration, the mean time step
of the last demonstration (`none` for nan, and for None without demonstrations) and the curves. -/
def drawDemos (axs : List Nat) : List (List ℝ × Trajectory ℝ) → ℝ → Option ℝ →
    Except PyErr (ℝ × Option ℝ × List (List Drawing))
  | [], longest, dt => .ok (longest, dt, [])
  | demo :: demos, longest, _ => do
    let (longest, lines) ← drawDemo axs longest demo.2
    let (longest, dt, rest) ← drawDemos axs demos longest demo.2.dtMean
    return (longest, dt, lines :: rest)

/-- DmpContextualTwoStep.py:242 `np.arange(0.0, stop, dt)`. A step that is nan or zero is rejected by numpy.
(Without demonstrations `dt` is None and the result is empty, but line 245 raises ValueError then.) -/
def times (stop : ℝ) : Option ℝ → Except PyErr (List ℝ)
  | none => .error .valueError
  | some dt => if dt = 0 then .error .valueError
      else .ok ((List.range ⌈stop / dt⌉₊).map fun (i : Nat) => (i : ℝ) * dt)

/-- DmpContextualTwoStep.py:244-246: smallest and largest value of the first task parameter. The other entries
of the minimum and maximum are not used; without any entry `tp[0]` raises an exception later. -/
def firstRange (params : List (List ℝ)) : Except PyErr (ℝ × ℝ) := do
  rectangular params
  match params.map fun p => p.headD 0 with
  | [] => .error .valueError
  | v :: vs => return (vs.foldl min v, vs.foldl max v)

/-- DmpContextualTwoStep.py:260-262: the position in the colour map. Division of zero by zero gives nan. -/
def colour (range : ℝ × ℝ) : List ℝ → Except PyErr (Option ℝ)
  | [] => .error .indexError
  | p :: _ => if range.2 - range.1 = 0 then .ok none
      else .ok (some (max 0 (min 1 ((p - range.1) / (range.2 - range.1)))))

/-- The picture of the Dmp for one demonstration, its colour, and the vertical lines. -/
structure Reproduction where
  picture : Dmp.Picture
  colour : Option ℝ
  taus : List (Nat × ℝ)

/-- DmpContextualTwoStep.py:253-268: the loop body for one demonstration. -/
def plotDemo (axs : List Nat) (ts : List ℝ) (range : ℝ × ℝ) (demo : List ℝ × Trajectory ℝ) :
    PyM DmpContextual Reproduction := do
  onDmp (Dmp.setTau (← PyM.lift demo.2.duration))
  onDmp (Dmp.setYInit (← PyM.lift demo.2.yInit))
  onDmp (Dmp.setYAttr (← PyM.lift demo.2.yFinal))
  setTaskParams fun (_ : Fin 1) (j : Fin demo.1.length) => demo.1.getD j 0
  let picture ← onDmp (Dmp.plot (some ts) none { axs := some axs, unforced := true })
  let colour ← PyM.lift (colour range demo.1)
  let s ← PyM.self
  return { picture := picture, colour := colour, taus := axs.map fun ax => (ax, s.dmp.tau) }

/-- DmpContextualTwoStep.py:251-268: the loop over the demonstrations. -/
def plotDemos (axs : List Nat) (ts : List ℝ) (range : ℝ × ℝ) :
    List (List ℝ × Trajectory ℝ) → PyM DmpContextual (List Reproduction)
  | [] => pure []
  | demo :: demos => do
    let first ← plotDemo axs ts range demo
    let rest ← plotDemos axs ts range demos
    return first :: rest

/-- What DmpContextualTwoStep.plot draws: the demonstrations and the motions of the Dmp. -/
structure ContextPicture where
  axs : List Nat
  demos : List (List Drawing)
  reproductions : List Reproduction

/-- DmpContextualTwoStep.py:224-272 plot. -/
def plot (demos : List (List ℝ × Trajectory ℝ)) (axs? : Option (List Nat) := none) :
    PyM DmpContextual ContextPicture := do
  let axs := axs?.getD (Dmp.getDmpAxes)
  let (longest, dt, lines) ← PyM.lift (drawDemos axs demos 0 none)
  let ts ← PyM.lift (times (1.1 * longest) dt)
  let range ← PyM.lift (firstRange (demos.map Prod.fst))
  let prevTau := (← PyM.self).dmp.tau
  let reproductions ← plotDemos axs ts range demos
  onDmp (Dmp.setTau prevTau)
  return { axs := axs, demos := lines, reproductions := reproductions }

/-- DmpContextualTwoStep.py:212-222 plot_policy_parameter_function: the axes on which the function approximators
are drawn. `plt.subplots(n, n)` returns an array of axes for n > 1 only: for one row it returns one object, which
has no `flatten`, and it rejects zero rows. What is drawn on the axes is modelled in `Model/FaPlots.lean`. -/
def ppfAxes (s : DmpContextual) (axs? : Option (List Nat) := none) : Except PyErr (List Nat) :=
  match s.ppf with
  | none => .error .typeError
  | some fas => do
    let axs ← (match axs? with
      | some axs => .ok axs
      | none =>
        let rows := ⌈Real.sqrt fas.length⌉₊
        if rows = 0 then .error .valueError
        else if rows = 1 then .error .attributeError
        else .ok (List.range (rows * rows)) : Except PyErr (List Nat))
    if axs.length < fas.length then .error .indexError
    return axs.take fas.length

end DmpContextual

end Verif
