import Verif.Model.CppJson
import Verif.Model.CppTrajectory
import Verif.Model.DmpPlots

/-
The script demos/python/dmps/demo_dmp_training.py.
-/

set_option autoImplicit false

namespace Verif

noncomputable section

/-- demos/python/dmps/demo_dmp_training.py:42-45: positions, velocities and accelerations in `k` steps from state `x`. The
script does not keep them. -/
def integrateEndEffector (dt : ℝ) : Nat → List ℝ → PyM Dmp (List (List ℝ × List ℝ × List ℝ))
  | 0, _ => pure []
  | k + 1, x => do
    let r ← DynSys.integrateStep dt x
    let s ← PyM.self
    let rest ← integrateEndEffector dt k r.1
    return s.posVelAcc r.1 r.2 :: rest

/-- What demos/python/dmps/demo_dmp_training.py computes: `json` are the contents of dmp_for_cpp.json. -/
structure TrainingDemo where
  reproduced : Trajectory ℝ
  motion : List (List ℝ × List ℝ × List ℝ)
  json : Json
  picture : Dmp.Picture
  comparison : List Drawing × List Drawing × List Nat

/-- demos/python/dmps/demo_dmp_training.py:34-53, with the trained Dmp. `int` of a negative number of steps gives no steps,
as 0 does. -/
def runTrainingDemo (traj : Trajectory ℝ) : PyM Dmp TrainingDemo := do
  let sol ← Dmp.analytical (some traj.ts)
  let s ← PyM.self
  let reproduced ← PyM.lift (s.asTrajectory traj.ts sol.xs sol.xds)
  let dt := 0.001
  let n := ⌊1.3 * (← PyM.lift traj.duration) / dt⌋₊
  let start ← Dmp.integrateStart none
  let motion ← integrateEndEffector dt (n - 1) start.1
  let s ← PyM.self
  let json := s.json
  let picture ← Dmp.plot none none { demonstration := some traj }
  let comparison ← Dmp.plotComparison traj
  return ⟨reproduced, motion, json, picture, comparison⟩

/-- demos/python/dmps/demo_dmp_training.py:31-32: the Dmp that is trained. -/
def demoDmp (traj : Trajectory ℝ) : Except PyErr Dmp :=
  Dmp.fromTraj traj (some (List.replicate traj.dim (Fa.new (.rbfn [10] 0.7 0)))) { dmpType := "KULVICIUS_2012_JOINING" }

/-- demos/python/dmps/demo_dmp_training.py:29-53, for the contents of trajectory.txt. -/
def demoTraining (file : Lines) : Except PyErr TrainingDemo := do
  let traj ← Trajectory.loadtxt file
  let dmp ← demoDmp traj
  (runTrainingDemo traj dmp).1

end

end Verif
