import Verif.Model.RobotTrajectories
import Verif.Model.RolloutPlots

/-
The exploration in the demos for the robot: demo_robot.bash and demo_robot_with_trajectories.bash, step 3.
-/

set_option autoImplicit false

namespace Verif

noncomputable section

/-- demos/robot/step3_tune_exploration.py:80, 89 `{i_sample:02}`, and the loops with `seq -f "%02g"` in the scripts. -/
def twoDigits (i : Nat) : String := if i < 10 then "0" ++ toString i else toString i

/-- demos/robot/demo_robot.bash:25, demo_robot_with_trajectories.bash:25 (`traj`): what the program for the robot computes from
the file of a sample. The trajectory has been saved with 7 decimals. `none` if the program fails, or if there is no file. -/
def robotExecute (traj : Bool) (f : SavedSample) : Option (List (List ℝ)) :=
  let result := if traj
    then match f.traj with
      | some m => Cpp.robotTrajectoryProgram "traj.txt" (.only (m.rows.map (List.map (roundTo 7))))
      | none => .error .assertion
    else Cpp.robotProgram f.forCpp
  match result with
  | .ok rows => some rows
  | .error _ => none

/-- The text files of a sample in the directory of the exploration: demos/robot/step3_tune_exploration.py:89-91 and
demo_robot.bash:25. The results of the program have been written with 6 decimals (eigen_file_io.tpp:131). The other
files have the extensions .json and .png, and are left out, as plot_rollouts.py ignores them. -/
def sampleFiles (traj : Bool) (i : Nat) (f : SavedSample) : List (String × Lines) :=
  (f.traj.toList.map fun m => (twoDigits i ++ "_traj.txt", m.rows.map (List.map (roundTo 7)))) ++
  ((robotExecute traj f).toList.map fun rows => (twoDigits i ++ "_cost_vars.txt", rows.map (List.map (roundTo 6))))

/-- demos/robot/demo_robot.bash:21-27, 30-36, 39-45 and demo_robot_with_trajectories.bash:21-27, 30-36, 39-45 (`traj`): the
exploration with a given sigma and 10 samples, the execution of the samples, and the plot of the rollouts, for the task of
step 2. Its results are the distribution that is saved, what is drawn, and how plot_rollouts.py ends. Only demo_robot.bash saves a plot of the exploration.
The directory is assumed to be empty before. `none` if step3_tune_exploration.py fails (bash would go on, which is not modelled). -/
def robotExploration (traj : Bool) (sigma : ℝ) (dmp : Dmp) (draws : (k : Nat) → Fin 10 → Fin k → ℝ) :
    Option ((Σ k, Dist k) × List RolloutPlot × Except PyErr PlotResult) :=
  match (tuneExploration sigma traj (!traj) (fun k => List.ofFn (draws k)) dmp).1 with
  | .ok (d, fs) => some (d, plotRollouts robotTask (.directory (fs.mapIdx (sampleFiles traj)).flatten) true)
  | .error _ => none

end

end Verif
