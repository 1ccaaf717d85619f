import Verif.Model.Optimization
import Verif.Model.Ellipse
import Verif.Model.BasisFunctions
import Mathlib.Algebra.Order.Round

/- LearningSession.py and LearningSessionTask.py: the data that is shown in the plots of a learning session. Lines are
lists of points. Widths of lines, axes, titles and heights of texts are not modelled. -/

set_option autoImplicit false

namespace Verif

noncomputable section

/-! ### Update lines -/

/-- `l[::5]` -/
def stepFive {α : Type} : List α → List α
  | [] => []
  | x :: xs => x :: stepFive (xs.drop 4)
termination_by l => l.length
decreasing_by simp only [List.length_drop, List.length_cons]; omega

/-- `l[0:-1:5]` -/
def everyFifth {α : Type} (l : List α) : List α := stepFive l.dropLast

theorem stepFive_length {α : Type} (l : List α) : (stepFive l).length = (l.length + 4) / 5 := by
  fun_induction stepFive l with
  | case1 => simp
  | case2 x xs ih =>
    simp only [List.length_cons, ih, List.length_drop]
    omega

theorem everyFifth_length {α : Type} (l : List α) : (everyFifth l).length = (l.length + 3) / 5 := by
  unfold everyFifth
  rw [stepFive_length, List.length_dropLast]
  omega

/-- LearningSession.py:48-50: the while loop. -/
def thinUpdates (n : List ℝ) (updates : List Nat) : List ℝ × List Nat :=
  if n.length > 20 then thinUpdates (everyFifth n) (everyFifth updates) else (n, updates)
termination_by n.length
decreasing_by rw [everyFifth_length]; omega

/-- The lines and texts of plot_update_lines. -/
structure UpdateLines where
  /-- positions of the vertical lines -/
  lines : List ℝ
  /-- positions and contents of the texts -/
  texts : List (ℝ × Nat)

/-- LearningSession.py:39-67 plot_update_lines. The first line has no text. -/
def plotUpdateLines (nSamplesPerUpdate : List ℝ) : UpdateLines :=
  let r := thinUpdates nSamplesPerUpdate (List.range nSamplesPerUpdate.length)
  { lines := r.1, texts := (r.1.zip r.2).tail }

/-! ### Learning curve -/

/-- What plot_learning_curve draws. -/
structure CurvePlot where
  /-- the line of the total cost, and those of the components -/
  lines : List (List (ℝ × ℝ))
  /-- the entries of the legend, with their lines -/
  legend : Option (List (String × List (ℝ × ℝ)))
  updates : UpdateLines

/-- LearningSession.py:81-120 plot_learning_curve. `np.array` of rows with different lengths raises a ValueError, as in
recent versions of numpy. Without rows, or without costs, `[:, 0]` raises an IndexError. `plt.legend` pairs lines and
labels, as `zip` does. That "total cost" is inserted in the list of labels of the caller is not modelled. -/
def plotLearningCurve (curve : List (List ℝ)) (costLabels : Option (List String)) : Except PyErr CurvePlot :=
  match curve with
  | [] => .error .indexError
  | row :: rows =>
    if ∃ r ∈ rows, r.length ≠ row.length then .error .valueError
    else if row.length < 2 then .error .indexError
    else
      let column (j : Nat) : List (ℝ × ℝ) := (row :: rows).map fun r => (r.getD 0 0, r.getD j 0)
      let lines := column 1 :: if row.length - 1 > 1
        then (List.range (row.length - 2)).map fun j => column (j + 2) else []
      .ok {
        lines := lines
        legend := costLabels.map fun labels => ("total cost" :: labels).zip lines
        updates := plotUpdateLines ((row :: rows).map fun r => r.getD 0 0) }

variable {n : Nat} {D : Type}

/-- LearningSession.py:524-525: the costs of the samples of an update of which the sum is plotted. An array with one
component per sample, read from file, is one-dimensional; `c[0]` then raises an IndexError. -/
def World.sampleTotals (i : Int) : PyM (World (Obj n D)) (List ℝ) := do
  if (← PyM.self).exists "costs" (some i) then
    match ← World.askValue "costs" (some i) with
    | .vec xs => if xs = [] then return [] else PyM.raise .indexError
    | v => match Storable.rows v with
      | some rows => rows.mapM fun c => match c with
        | [] => PyM.raise .indexError
        | total :: _ => return total
      | none => PyM.raise .typeError
  else
    let rows ← World.getSampleCosts i
    rows.mapM fun c => match c with
      | [] => PyM.raise .indexError
      | total :: _ => return total

/-- LearningSession.py:501-507: the labels of the costs. `getLabels` is the method get_cost_labels of the objects. -/
def World.costLabels (getLabels : Obj n D → Except PyErr (Option (List String))) :
    PyM (World (Obj n D)) (Option (List String)) := do
  if (← PyM.self).exists "cost_function" then
    PyM.lift (getLabels (← World.askValue "cost_function"))
  else if (← PyM.self).exists "task" then
    PyM.lift (getLabels (← World.askValue "task"))
  else return some []

/-- LearningSession.py:511-530 plot_learning_curve: the dots for the samples (at 0, 1, …), and the curve. `range(None)`
raises a TypeError. -/
def World.plotLearningCurve (getLabels : Obj n D → Except PyErr (Option (List String))) :
    PyM (World (Obj n D)) (List ℝ × CurvePlot) := do
  match ← PyM.lift (← PyM.self).getNUpdates with
  | none => PyM.raise .typeError
  | some nUpdates =>
    let costs ← (List.range nUpdates.toNat).mapM fun (i : Nat) => World.sampleTotals (n := n) (D := D) i
    let curve ← World.getLearningCurve
    let labels ← World.costLabels getLabels
    let plot ← PyM.lift (Verif.plotLearningCurve curve labels)
    return (costs.flatten, plot)

/-! ### Updates of the distribution -/

/-- What plot_update draws. -/
structure UpdatePlot where
  old : ℝ × ℝ
  new : ℝ × ℝ
  ellipse : EllipsePatch
  ellipseNew : EllipsePatch
  /-- positions of the samples and sizes of their markers -/
  samples : List ((ℝ × ℝ) × ℝ)
  highlight : Bool

/-- LearningSession.py:148-231 plot_update, for samples that are not None. With one dimension nothing is plotted; with
two or more, the first two. (For no dimensions at all, nothing is plotted either.) -/
def plotUpdate (svd : Matrix (Fin 2) (Fin 2) ℝ → SvdResult) (d : Dist n) (samples : List (Fin n → ℝ)) (weights : List ℝ)
    (dNew : Dist n) (highlight plotSamples : Bool) : Except PyErr (Option UpdatePlot) :=
  if h : 2 ≤ n then do
    let point (x : Fin n → ℝ) : ℝ × ℝ := (x ⟨0, by omega⟩, x ⟨1, by omega⟩)
    let markers ← if plotSamples then
      (List.range weights.length).mapM fun i => match samples[i]? with
        | some x => .ok (point x, 80 * weights.getD i 0)
        | none => .error .indexError
      else .ok []
    let patch ← d.plot svd
    let patchNew ← dNew.plot svd
    .ok (some { old := point d.mean, new := point dNew.mean, ellipse := patch, ellipseNew := patchNew,
                samples := markers, highlight := highlight })
  else .ok none

/-- LearningSession.py:569-597 plot_distribution_update. That objects of another class than expected are used is
modelled by a TypeError. -/
def World.plotDistributionUpdate (svd : Matrix (Fin 2) (Fin 2) ℝ → SvdResult) (i : Nat) (highlight plotSamples : Bool) :
    PyM (World (Obj n D)) (Option UpdatePlot) := do
  let d ← World.askValue "distribution" (some i)
  let samples ← World.askValue "samples" (some i)
  let weights ← World.askValue "weights" (some i)
  let dNew ← World.askValue "distribution_new" (some i)
  match d, samples, weights, dNew with
  | .dist d, .samples samples, .vec weights, .dist dNew =>
    PyM.lift (plotUpdate svd d samples weights dNew highlight plotSamples)
  | _, _, _, _ => PyM.raise .typeError

/-- LearningSession.py:551-567 plot_distribution_updates. Only the first update is highlighted. -/
def World.plotDistributionUpdates (svd : Matrix (Fin 2) (Fin 2) ℝ → SvdResult) :
    PyM (World (Obj n D)) (List (Option UpdatePlot)) := do
  match ← PyM.lift (← PyM.self).getNUpdates with
  | none => PyM.raise .typeError
  | some nUpdates =>
    (List.range nUpdates.toNat).mapM fun (i : Nat) => World.plotDistributionUpdate svd i (i == 0) false

/-! ### Rollouts -/

/-- `np.round` to an integer: halves are rounded to even numbers. -/
def npRound (x : ℝ) : ℤ :=
  if x - ⌊x⌋ < 1 / 2 then ⌊x⌋
  else if 1 / 2 < x - ⌊x⌋ then ⌊x⌋ + 1
  else if Even ⌊x⌋ then ⌊x⌋ else ⌊x⌋ + 1

/-- LearningSessionTask.py:113-116: the updates of which the rollouts are plotted. `linspace` with a negative number of
points raises a ValueError. -/
def updatesList (nUpdates maxNUpdates : Int) : Except PyErr (List Int) :=
  if nUpdates > maxNUpdates then
    if maxNUpdates < 0 then .error .valueError
    else .ok ((linspace 0 nUpdates maxNUpdates.toNat).map npRound)
  else .ok ((List.range (nUpdates + 1).toNat).map fun (i : Nat) => (i : Int))

/-- LearningSessionTask.py:88-101 set_style: the color. -/
def rolloutColor (iUpdate nUpdates : Int) : Except PyErr (ℝ × ℝ × ℝ) :=
  if iUpdate = 0 then .ok (0.8, 0, 0)
  else if nUpdates = 0 then .error .zeroDivision
  else
    let c : ℝ := 1 * iUpdate / nUpdates
    .ok (0.3 - 0.3 * c, 0 + 1 * c, 0 - 0 * c)

/-- LearningSessionTask.py:137-146: the cost-relevant variables of the evaluation, if there is one. -/
def World.evalRollout (i : Int) (plotEval : Bool) : PyM (World (Obj n D)) (Option (Obj n D)) := do
  if plotEval ∧ (← PyM.self).exists "cost_vars" (some i) (some (.str "eval")) then
    return some (← World.askValue "cost_vars" (some i) (some (.str "eval")))
  else return none

/-- LearningSessionTask.py:149-157: the cost-relevant variables of the samples. -/
def World.sampleRollouts (i : Int) (plotSamples : Bool) : PyM (World (Obj n D)) (List (Obj n D)) := do
  if plotSamples then
    match ← World.askValue "n_samples_per_update" with
    | .int k => (List.range k).mapM fun (s : Nat) => World.askValue "cost_vars" (some i) (some (.int s))
    | _ => PyM.raise .typeError
  else return []

/-- LearningSessionTask.py:126-159 plot_rollouts_update: the cost-relevant variables that are plotted, of the evaluation
and of the samples. The task is never None, so that its plot_rollout is used, which is not modelled here. -/
def World.plotRolloutsUpdate (i : Int) (plotEval plotSamples : Bool) :
    PyM (World (Obj n D)) (Option (Obj n D) × List (Obj n D)) := do
  let _ ← World.askValue "task"
  let eval ← World.evalRollout i plotEval
  let samples ← World.sampleRollouts i plotSamples
  return (eval, samples)

/-- LearningSessionTask.py:103-124 plot_rollouts: for each update that is shown, its number, the evaluation (if there is
one), and the color. -/
def World.plotRollouts (maxNUpdates : Int) :
    PyM (World (Obj n D)) (List (Int × Option (Obj n D) × (ℝ × ℝ × ℝ))) := do
  match ← PyM.lift (← PyM.self).getNUpdates with
  | none => PyM.raise .typeError
  | some nUpdates =>
    (← PyM.lift (updatesList nUpdates maxNUpdates)).mapM fun i => do
      let r ← World.plotRolloutsUpdate i true false
      return (i, r.1, ← PyM.lift (rolloutColor i nUpdates))

end

end Verif
