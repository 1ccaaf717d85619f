import Verif.Model.DemoBbo
import Verif.Model.RobotWorkflow
import Verif.Model.TrainScript

/-
The script demos/robot/demo_robot.bash: what is passed from one program to the next.
-/

set_option autoImplicit false

namespace Verif

noncomputable section

/-- demos/robot/step2_define_task.py:36-40: the task that is saved in task.json. -/
def robotTask : ThrowBall.Task where
  xGoal := -0.70
  xMargin := 0.01
  yFloor := -0.3
  accelerationWeight := 0.001

/-- The contents of the file dmp_trained_N.json (demos/robot/step1_train_dmp_from_trajectory_file.py:70-72), after the
given files have been written in turn. -/
def writtenDmp (nBfs : Nat) : List TrainFile → Option Dmp
  | [] => none
  | .dmp n dmp :: rest => (writtenDmp nBfs rest).or (if n = nBfs then some dmp else none)
  | _ :: rest => writtenDmp nBfs rest

/-- demos/robot/demo_robot.bash:7-9: train Dmps with up to 15 basis functions and choose the one with 10 as
dmp_initial.json. If the training script fails, or if there is no such file, there is no such Dmp (bash would go on,
which is not modelled). -/
def robotTrain (trajectoryFile : Lines) : Option Dmp :=
  match trainScript trajectoryFile 15 [] with
  | (.ok _, files) => writtenDmp 10 files
  | (.error _, _) => none

/-- demos/robot/demo_robot.bash:32, 50: distribution_initial.json, from the exploration with sigma 20 and 10 samples,
whose plot is saved. -/
def robotExplore (dmp : Dmp) (draws : (k : Nat) → Fin 10 → Fin k → ℝ) : Option (Σ k, Dist k) :=
  match (tuneExploration 20 false true (fun k => List.ofFn (draws k)) dmp).1 with
  | .ok (d, _) => some d
  | .error _ => none

end

end Verif
