import Verif.Model.SessionPlots
import Verif.Model.Exploration

/- demos/robot/plot_optimization.py, the last program of demo_robot.bash, and LearningSessionTask.plot. -/

set_option autoImplicit false

namespace Verif

noncomputable section

variable {n : Nat} {D : Type}

/-- What LearningSessionTask.plot draws in its four subplots. -/
structure TaskSessionPlot (n : Nat) (D : Type) where
  updates : List (Option UpdatePlot)
  rollouts : List (Int × Option (Obj n D) × (ℝ × ℝ × ℝ))
  exploration : List (ℝ × ℝ)
  explorationLines : UpdateLines
  dots : List ℝ
  curve : CurvePlot

/-- LearningSession.py:535-551 plot_exploration_curve, with the function of the same name (lines 133-145): the curve, and
the vertical lines of the updates. Axes and labels of axes are not modelled. -/
def World.plotExplorationCurve : PyM (World (Obj n D)) (List (ℝ × ℝ) × UpdateLines) := do
  let curve ← World.explorationCurve
  return (curve, plotUpdateLines (curve.map Prod.fst))

/-- LearningSessionTask.py:162-179 plot, without arguments. The rollouts are plotted by the task, see
`ThrowBall.Task.plotRollout`; figure and axes are not modelled. -/
def World.plotTaskSession (svd : Matrix (Fin 2) (Fin 2) ℝ → SvdResult)
    (getLabels : Obj n D → Except PyErr (Option (List String))) : PyM (World (Obj n D)) (TaskSessionPlot n D) := do
  let updates ← World.plotDistributionUpdates svd
  let rollouts ← World.plotRollouts 20
  let exploration ← World.plotExplorationCurve
  let learning ← World.plotLearningCurve getLabels
  return ⟨updates, rollouts, exploration.1, exploration.2, learning.1, learning.2⟩

/-- plot_optimization.py:36-37: open the session of a directory, and plot it. Saving the figure (lines 38-44) is not
modelled. -/
def plotOptimization (svd : Matrix (Fin 2) (Fin 2) ℝ → SvdResult)
    (getLabels : Obj n D → Except PyErr (Option (List String))) : PyM (World (Obj n D)) (TaskSessionPlot n D) := do
  World.fromDir true
  World.plotTaskSession svd getLabels

end

end Verif
