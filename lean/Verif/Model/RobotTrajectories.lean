import Verif.Model.RobotDemo

/-
The script demos/robot/demo_robot_with_trajectories.bash, in which the program for the robot reads trajectories instead of
Dmps.
-/

set_option autoImplicit false

namespace Verif

noncomputable section

/-- demos/robot/robotExecuteTrajectory.cpp:61-92, from the file with the trajectory to the matrix that is written (whose
numbers are not rounded here). Messages are left out. -/
def Cpp.robotTrajectoryProgram (name : String) (k : Cpp.Disk) : CppResult (List (List ℝ)) := do
  let trajectory ← Cpp.Trajectory.readFile name 0 k
  Cpp.robotExecuteTrajectory trajectory

/-- A file system in which each file has the given lines. -/
def Cpp.Disk.only (lines : Lines) : Cpp.Disk := ⟨fun _ => some lines, fun _ => true, fun _ => true, fun _ => true⟩

/-- demos/robot/demo_robot_with_trajectories.bash:30-35, 49: the distribution that is chosen as distribution_initial.json,
from the exploration with sigma 20 and 10 samples and option --traj, and the results of the program for the robot for
the trajectories of the samples. They have been saved by savetxt of Trajectory.py with 7 decimals. `none` if
step3_tune_exploration.py fails (bash would go on, which is not modelled). -/
def robotExploreTraj (dmp : Dmp) (draws : (k : Nat) → Fin 10 → Fin k → ℝ) :
    Option ((Σ k, Dist k) × List (Option (CppResult (List (List ℝ))))) :=
  match (tuneExploration 20 true false (fun k => List.ofFn (draws k)) dmp).1 with
  | .ok (d, fs) => some (d, fs.map fun f => f.traj.map fun m =>
      Cpp.robotTrajectoryProgram "traj.txt" (.only (m.rows.map (List.map (roundTo 7)))))
  | .error _ => none

/-- demos/robot/demo_robot_with_trajectories.bash:59-70: the cost_vars for a Dmp that is stored in the session, from the
program for the robot, which reads the trajectory that is stored with the Dmp. `np.savetxt` has written it with all
digits. If the program fails, there is no file; this does not happen in the theorems. -/
def robotRolloutTraj {D : Type} (n : Nat) [DmpLike n D] (dmp : D) : List (List ℝ) :=
  match Cpp.robotTrajectoryProgram "traj.txt" (.only (DmpLike.trajMatrix n dmp)) with
  | .ok rows => rows
  | .error _ => []

end

end Verif
