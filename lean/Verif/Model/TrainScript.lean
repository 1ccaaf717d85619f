import Verif.Model.CppJson
import Verif.Model.CppTrajectory
import Verif.Model.Dmp

/-
The script demos/robot/step1_train_dmp_from_trajectory_file.py, which trains Dmps from a trajectory. Plots and
printing are not modelled.
-/

set_option autoImplicit false

namespace Verif

noncomputable section

/-- The files that the script writes. -/
inductive TrainFile
  /-- trajectory.txt, demos/robot/step1_train_dmp_from_trajectory_file.py:50-51 -/
  | trajectory (lines : Lines)
  /-- dmp_trained_N.json, lines 70-72 (jsonpickle keeps the whole object) -/
  | dmp (nBfs : Nat) (dmp : Dmp)
  /-- dmp_trained_N_for_cpp.json, line 73 -/
  | forCpp (nBfs : Nat) (json : Json)

/-- `np.mean(abs(a - b))` for matrices of equal shapes; `none` is nan. -/
def meanAbsError (a b : Arr2 ℝ) : Option ℝ :=
  let errors := (List.zipWith (fun r r' => List.zipWith (fun u v => |u - v|) r r') a.rows b.rows).flatten
  if errors.length = 0 then none else some (errors.sum / errors.length)

/-- demos/robot/step1_train_dmp_from_trajectory_file.py:62-66: a trained Dmp with selected parameters. -/
def trainDmp (traj : Trajectory ℝ) (nBfs : Nat) : Except PyErr Dmp := do
  let fas := List.replicate traj.dim (Fa.new (.rbfn [nBfs] 0.7 0))
  let dmp ← Dmp.fromTraj traj (some fas) { dmpType := "KULVICIUS_2012_JOINING" }
  let r := Dmp.setSelected ["weights"] dmp
  let _ ← r.1
  return r.2

/-- demos/robot/step1_train_dmp_from_trajectory_file.py:105-107: `k` further steps from state `x`. -/
def integrateRows (dt : ℝ) : Nat → List ℝ → PyM Dmp (List (List ℝ × List ℝ))
  | 0, _ => pure []
  | k + 1, x => do
    let r ← DynSys.integrateStep dt x
    let rest ← integrateRows dt k r.1
    return r :: rest

/-- demos/robot/step1_train_dmp_from_trajectory_file.py:75-109: the error of the reproduced trajectory, and the trajectory
of a longer integration. Negative sizes are rejected by `np.zeros` (ValueError), with no time steps there is no row 0
(IndexError). The times have the shape (n, 1), so that `np.diff` is empty and the mean time step is nan. -/
def reproduce (traj : Trajectory ℝ) : PyM Dmp (Option ℝ × Trajectory ℝ) := do
  let sol ← Dmp.analytical (some traj.ts)
  let s ← PyM.self
  let reproduced ← PyM.lift (s.asTrajectory traj.ts sol.xs sol.xds)
  let mae := meanAbsError traj.ys reproduced.ys
  let tauExec := 1.3 * (← PyM.lift traj.duration)
  let dt := 0.01
  if tauExec / dt ≤ -1 then PyM.raise .valueError
  else do
    let n := ⌊tauExec / dt⌋₊
    let start ← Dmp.integrateStart none
    if n = 0 then PyM.raise .indexError
    else do
      let rows ← integrateRows dt (n - 1) start.1
      let all := start :: rows
      let s ← PyM.self
      let longer ← PyM.lift (s.asTrajectory ((List.range n).map fun i : Nat => dt * i) (all.map (·.1)) (all.map (·.2)))
      return (mae, { longer with dtMean := none })

/-- A file is written. -/
def writeFile (f : TrainFile) : PyM (List TrainFile) Unit := PyM.modify fun fs => fs ++ [f]

/-- demos/robot/step1_train_dmp_from_trajectory_file.py:60-109, for one number of basis functions. -/
def trainAndSave (traj : Trajectory ℝ) (nBfs : Nat) : PyM (List TrainFile) (Option ℝ × Trajectory ℝ) := do
  let dmp ← PyM.lift (trainDmp traj nBfs)
  writeFile (.dmp nBfs dmp)
  writeFile (.forCpp nBfs dmp.json)
  PyM.lift (reproduce traj dmp).1

/-- demos/robot/step1_train_dmp_from_trajectory_file.py:60-109, the loop. -/
def trainAll (traj : Trajectory ℝ) : List Nat → PyM (List TrainFile) (List (Option ℝ × Trajectory ℝ))
  | [] => pure []
  | nBfs :: rest => do
    let r ← trainAndSave traj nBfs
    let rs ← trainAll traj rest
    return r :: rs

/-- demos/robot/step1_train_dmp_from_trajectory_file.py:48-109, for the contents of the trajectory file and the option --n
(negative numbers are as 0). The state are the files that were written. -/
def trainScript (file : Lines) (n : Nat := 15) : PyM (List TrainFile) (List (Option ℝ × Trajectory ℝ)) := do
  let traj ← PyM.lift (Trajectory.loadtxt file)
  let ls ← PyM.lift traj.savetxt
  writeFile (.trajectory ls)
  let _ ← PyM.lift traj.rangePerDim
  trainAll traj (List.range' 3 (n + 1 - 3))

end

end Verif
