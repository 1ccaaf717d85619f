import Verif.Model.CppJson
import Verif.Model.ThrowBall
import Verif.Model.Updaters

/-
The programs of demos/robot that sample Dmps, and execute them on the robot (simulator). Plotting is not
modelled, except for what it needs. Files are exact: numbers are not rounded.
-/

set_option autoImplicit false

namespace Verif

noncomputable section

/-- demos/robot/step3_tune_exploration.py:84-90: the files that are written for a sample. -/
structure SavedSample where
  /-- NN_dmp.json, written by savejson (jsonpickle keeps the whole object) -/
  dmp : Dmp
  /-- NN_dmp_for_cpp.json -/
  forCpp : Json
  /-- NN_traj.txt -/
  traj : Option (Arr2 ℝ)

/-- demos/robot/step3_tune_exploration.py:75-76, 89-90: trajectory at the times `ts` with which the Dmp was
trained. Without such times, analytical_solution() raises a ValueError, so that states_as_trajectory is never
called without times. -/
def trainTrajectory (ts : Option (List ℝ)) : PyM Dmp (Trajectory ℝ) := do
  let sol ← Dmp.analytical none
  let s ← PyM.self
  match ts with
  | none => PyM.raise .typeError
  | some ts => PyM.lift (s.asTrajectory ts sol.xs sol.xds)

/-- demos/robot/step3_tune_exploration.py:80-97, for one sample. `withTraj` is the option --traj, `plots`
whether one of the options --show and --save is given. -/
def saveSample (withTraj plots : Bool) (ts : Option (List ℝ)) (sample : List ℝ) : PyM Dmp SavedSample := do
  Dmp.setParamVector sample
  let s ← PyM.self
  if plots || withTraj then
    let traj ← trainTrajectory ts
    if withTraj then
      let m ← PyM.lift traj.asMatrix
      return ⟨s, s.json, some m⟩
    else return ⟨s, s.json, none⟩
  else return ⟨s, s.json, none⟩

/-- demos/robot/step3_tune_exploration.py:78-97, the loop over the samples. -/
def saveSamples (withTraj plots : Bool) (ts : Option (List ℝ)) : List (List ℝ) → PyM Dmp (List SavedSample)
  | [] => pure []
  | sample :: rest => do
    let f ← saveSample withTraj plots ts sample
    let fs ← saveSamples withTraj plots ts rest
    return f :: fs

/-- demos/robot/step3_tune_exploration.py:48-97: the distribution that is saved, and the files of the samples.
The object is the Dmp that was loaded. `draws k` is the result of the random generator for a mean of size `k`;
the number of samples is its length. Plotting of the distribution needs two parameters (`x, y = mu` in
DistributionGaussian.py:49 raises a ValueError otherwise), and the trajectory of the mean is plotted too. -/
def tuneExploration (sigma : ℝ) (withTraj plots : Bool) (draws : (k : Nat) → List (Fin k → ℝ)) :
    PyM Dmp ((Σ k, Dist k) × List SavedSample) := do
  let s ← PyM.self
  let mean ← PyM.lift s.getParamVector
  let d ← PyM.lift (Dist.init (n := mean.length) mean.get ((sigma * sigma) • 1) none)
  let samples ← PyM.lift (d.generateSamples (draws mean.length))
  if plots then
    if mean.length < 2 then PyM.raise .valueError
    let _ ← trainTrajectory s.tsTrain
  let saved ← saveSamples withTraj plots s.tsTrain (samples.map List.ofFn)
  return (⟨_, d⟩, saved)

/-- demos/robot/robotExecuteDmp.cpp:66-101, from the contents of the file with the Dmp to the matrix that is
written. -/
def Cpp.robotProgram (file : Json) : CppResult (List (List ℝ)) := do
  let c ← Cpp.Dmp.fromJson file
  Cpp.robotExecuteDmp c

end

end Verif
