import Verif.Model.DmpPlots
import Verif.Model.TrainScript

/-
The script demos/python/dmps/demo_dmp.py.
-/

set_option autoImplicit false

namespace Verif

noncomputable section

/-- What demos/python/dmps/demo_dmp.py computes and draws for one type of Dmp. -/
structure DmpDemo where
  analytical : Dmp.Solution
  steps : List (List ℝ × List ℝ)
  picture : Dmp.Picture
  pictureSteps : Dmp.Picture
  demonstration : List Drawing
  reproducedSteps : List Drawing
  reproduced : List Drawing
  axs : List Nat

/-- demos/python/dmps/demo_dmp.py:51-83, with the trained Dmp and the times `ts`. There are as many steps as times. Styles,
labels and titles are not modelled. -/
def runDmpDemo (traj : Trajectory ℝ) (ts : List ℝ) : PyM Dmp DmpDemo := do
  let sol ← Dmp.analytical (some ts)
  let dt ← PyM.lift (match ts[1]? with | some dt => .ok dt | none => .error .indexError)
  let start ← Dmp.integrateStart none
  let rest ← integrateRows dt (ts.length - 1) start.1
  let steps := start :: rest
  let picture ← Dmp.plot (some ts) none { unforced := true, demonstration := some traj }
  let pictureSteps ← Dmp.plot (some ts) (some (steps.map Prod.fst, steps.map Prod.snd)) {}
  let (demonstration, axs) ← PyM.lift traj.plot
  let s ← PyM.self
  let trajSteps ← PyM.lift (s.asTrajectory ts (steps.map Prod.fst) (steps.map Prod.snd))
  let reproducedSteps ← PyM.lift (trajSteps.plot (some axs))
  let trajAnalytical ← PyM.lift (s.asTrajectory ts sol.xs sol.xds)
  let reproduced ← PyM.lift (trajAnalytical.plot (some axs))
  return ⟨sol, steps, picture, pictureSteps, demonstration, reproducedSteps.1, reproduced.1, axs⟩

/-- demos/python/dmps/demo_dmp.py:30-40: the demonstration. `ts[-1]` is `tau`. -/
def dmpDemoTrajectory : Except PyErr (Trajectory ℝ) :=
  Trajectory.fromViapointPolynomial (linspace 0 0.5 101) (linspace 0 0.7 2) [-0.2, 0.4, 0, 0, 0, 0] (0.4 * 0.5)
    (linspace 0.4 0.5 2)

/-- demos/python/dmps/demo_dmp.py:46-47: the Dmp that is trained. -/
def dmpDemoTrain (traj : Trajectory ℝ) (dmpType : String) : Except PyErr Dmp :=
  Dmp.fromTraj traj (some (List.replicate 2 (Fa.new (.rbfn [10] 0.7 0)))) { dmpType := dmpType }

/-- demos/python/dmps/demo_dmp.py:30-83, for one of the types of Dmps. -/
def dmpDemo (dmpType : String) : Except PyErr DmpDemo := do
  let traj ← dmpDemoTrajectory
  let dmp ← dmpDemoTrain traj dmpType
  (runDmpDemo traj (linspace 0 0.7 141) dmp).1

end

end Verif
