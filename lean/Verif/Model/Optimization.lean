import Verif.Model.Session
import Verif.Model.Updaters

/- bbo/run_optimization.py, bbo_of_dmps/run_optimization_task.py and
bbo_of_dmps/step_by_step_optimization.py. -/

set_option autoImplicit false

namespace Verif

noncomputable section

/-- A task and its cost function (bbo_of_dmps/Task.py): from the cost-relevant variables (one row per
time step) and the sample to the costs. -/
abbrev Task (n : Nat) := List (List ℝ) → (Fin n → ℝ) → List ℝ

/-- A task solver (bbo_of_dmps/TaskSolver.py): from a sample to the cost-relevant variables. -/
abbrev Solver (n : Nat) := (Fin n → ℝ) → List (List ℝ)

/-- What step-by-step optimisation needs to know about dmps: the parameter vector can be set and read
(Dmp.py:679-704), and a trajectory can be computed (Dmp.py:315-439 and 547-566). -/
class DmpLike (n : Nat) (D : Type) where
  setParams : D → (Fin n → ℝ) → D
  getParams : D → (Fin n → ℝ)
  trajMatrix : D → List (List ℝ)

/-- The objects that are stored. `D` is the type of dmps. -/
inductive Obj (n : Nat) (D : Type)
  | int (k : Nat)
  /-- one-dimensional array -/
  | vec (xs : List ℝ)
  /-- two-dimensional array, with several rows and columns -/
  | array (rows : List (List ℝ))
  /-- one-dimensional array of size `n` -/
  | params (x : Fin n → ℝ)
  /-- two-dimensional array with `n` columns -/
  | samples (l : List (Fin n → ℝ))
  /-- list of one-dimensional arrays -/
  | costs (l : List (List ℝ))
  | dist (d : Dist n)
  | updater (u : Updater)
  | costFunction (f : (Fin n → ℝ) → List ℝ)
  | task (t : Task n)
  | solver (s : Solver n)
  | dmp (d : D)

/-- LearningSession.py:422-430 and 378-386 for these objects. `np.savetxt` and `np.loadtxt` reproduce
numbers exactly, but arrays with a single row or column come back as one-dimensional arrays, and
integers as arrays. Json files reproduce the object. -/
instance {n : Nat} {D : Type} : Storable (Obj n D) where
  kind
    | .int _ => .txt
    | .vec _ => .txt
    | .array _ => .txt
    | .params _ => .txt
    | .samples _ => .txt
    | .costs _ => .txt
    | _ => .json
  reload
    | .int k => .vec [(k : ℝ)]
    | .array rows => .array rows
    | .samples l =>
      if l.length = 1 ∨ n = 1 then .vec (l.map List.ofFn).flatten else .samples l
    | .costs l =>
      if l.length = 1 ∨ ∀ r ∈ l, r.length = 1 then .vec l.flatten else .costs l
    | v => v
  ofNat k := .int k
  toNat
    | .int k => some k
    | .vec (x :: _) => some ⌊x⌋₊
    | _ => none
  rows
    | .costs l => some l
    | .array l => some l
    | .vec xs => some (xs.map fun x => [x])
    | _ => none
  row
    | .vec xs => some xs
    | .params x => some (List.ofFn x)
    | _ => none

variable {n : Nat} {D : Type}

/-! ### run_optimization -/

/-- run_optimization.py:50-66: one iteration. `draw` is the result of the random generator. The
updater may change the distribution object it gets, which is what the bookkeeping then sees. -/
def optStep (f : (Fin n → ℝ) → List ℝ) (argsort : List ℝ → List Nat) (u : Updater)
    (draw : List (Fin n → ℝ)) (i : Nat) (d : Dist n) : PyM (World (Obj n D)) (Dist n) := do
  let costEval := f d.mean
  let samples ← PyM.lift (d.generateSamples draw)
  let costs := samples.map f
  let r := u.update argsort samples costs d
  let d := r.2
  let new ← PyM.lift r.1
  World.addEval i (.params d.mean) (.vec costEval)
  World.addUpdate i (.dist d) (.samples samples) (.costs costs) (.vec new.2) (some (.dist new.1))
  return new.1

/-- run_optimization.py:23-68. `draws i` is the result of the random generator in update `i`. -/
def runOptimization {nSamples : Nat} (f : (Fin n → ℝ) → List ℝ) (argsort : List ℝ → List Nat)
    (u : Updater) (d0 : Dist n) (nUpdates : Nat) (hasDir : Bool)
    (draws : Nat → Fin nSamples → Fin n → ℝ) : PyM (World (Obj n D)) (Dist n) := do
  World.init nSamples hasDir false [("cost_function", .costFunction f), ("updater", .updater u)]
  (List.range nUpdates).foldlM (fun d i => optStep f argsort u (List.ofFn (draws i)) i d) d0

/-! ### run_optimization_task -/

/-- run_optimization_task.py:66-74: rollout and cost of one sample. -/
def taskRollout (task : Task n) (solver : Solver n) (i : Nat) (costs : List (List ℝ))
    (e : Nat × (Fin n → ℝ)) : PyM (World (Obj n D)) (List (List ℝ)) := do
  let costVars := solver e.2
  let curCost := task costVars e.2
  World.addRollout i (.int e.1) (.params e.2) (.array costVars) (.vec curCost)
  return costs ++ [curCost]

/-- run_optimization_task.py:52-82: one iteration. -/
def taskStep (task : Task n) (solver : Solver n) (argsort : List ℝ → List Nat) (u : Updater)
    (draw : List (Fin n → ℝ)) (i : Nat) (d : Dist n) : PyM (World (Obj n D)) (Dist n) := do
  let costVarsEval := solver d.mean
  let costEval := task costVarsEval d.mean
  World.addEvalTask i (.params d.mean) (.array costVarsEval) (.vec costEval)
  let samples ← PyM.lift (d.generateSamples draw)
  let costs ← ((List.range samples.length).zip samples).foldlM (taskRollout task solver i) []
  let r := u.update argsort samples costs d
  let d := r.2
  let new ← PyM.lift r.1
  World.addUpdate i (.dist d) (.samples samples) (.costs costs) (.vec new.2) (some (.dist new.1))
  return new.1

/-- run_optimization_task.py:22-84. -/
def runOptimizationTask {nSamples : Nat} (task : Task n) (solver : Solver n)
    (argsort : List ℝ → List Nat) (u : Updater) (d0 : Dist n) (nUpdates : Nat) (hasDir : Bool)
    (draws : Nat → Fin nSamples → Fin n → ℝ) : PyM (World (Obj n D)) (Dist n) := do
  World.init nSamples hasDir true [("task", .task task), ("task_solver", .solver solver),
    ("updater", .updater u)]
  (List.range nUpdates).foldlM
    (fun d i => taskStep task solver argsort u (List.ofFn (draws i)) i d) d0

/-! ### Step-by-step optimisation -/

variable [DmpLike n D]

/-- Asking for an object of a certain class. That using an object of another class fails is modelled
by a TypeError. -/
def askAs {α : Type} (get : Obj n D → Option α) (name : String) (i : Option Int := none)
    (s : Option Label := none) : PyM (World (Obj n D)) α := do
  match get (← World.askValue name i s) with
  | some a => return a
  | none => PyM.raise .typeError

def Obj.asDmp : Obj n D → Option D
  | .dmp d => some d
  | _ => none

def Obj.asDist : Obj n D → Option (Dist n)
  | .dist d => some d
  | _ => none

def Obj.asUpdater : Obj n D → Option Updater
  | .updater u => some u
  | _ => none

def Obj.asTask : Obj n D → Option (Task n)
  | .task t => some t
  | _ => none

def Obj.asArray : Obj n D → Option (List (List ℝ))
  | .array a => some a
  | _ => none

def Obj.asSamples : Obj n D → Option (List (Fin n → ℝ))
  | .samples l => some l
  | _ => none

/-- `range(n_samples)` fails if n_samples was read from file (a float array). -/
def Obj.asInt : Obj n D → Option Nat
  | .int k => some k
  | _ => none

/-- step_by_step_optimization.py:72-73, 111-112. -/
def sampleLabels (nSamples : Nat) : List Label :=
  (List.range nSamples).map (fun (i : Nat) => Label.int i) ++ [.str "eval"]

/-- step_by_step_optimization.py:77-81: the parameters for a label. -/
def labelParams (d : Dist n) (samples : List (Fin n → ℝ)) : Label → Except PyErr (Fin n → ℝ)
  | .str _ => .ok d.mean
  | .int i => match samples[i.toNat]? with
    | some x => .ok x
    | none => .error .indexError

/-- step_by_step_optimization.py:75-89: set the parameters of the dmp and store it. -/
def storeDmp (d : Dist n) (samples : List (Fin n → ℝ)) (i : Int) (saveTrajectory : Bool) (dmp : D)
    (label : Label) : PyM (World (Obj n D)) D := do
  let dmp := DmpLike.setParams dmp (← PyM.lift (labelParams d samples label))
  let _ ← World.tell (.dmp dmp) "dmp" (some i) (some label)
  if saveTrajectory then
    let _ ← World.tell (.array (DmpLike.trajMatrix n dmp)) "traj" (some i) (some label)
  return dmp

/-- step_by_step_optimization.py:61-92 _generate_samples. The file names that are printed are not
modelled. Computing the trajectory does not change the parameters of the dmp. -/
def generateSamplesStep (d : Dist n) (draw : List (Fin n → ℝ)) (i : Int)
    (saveTrajectory : Bool) : PyM (World (Obj n D)) Unit := do
  let samples ← PyM.lift (d.generateSamples draw)
  let _ ← World.tell (.dist d) "distribution" (some i)
  let _ ← World.tell (.samples samples) "samples" (some i)
  let dmp ← askAs Obj.asDmp "dmp_initial"
  let _ ← (sampleLabels samples.length).foldlM (storeDmp d samples i saveTrajectory) dmp

/-- step_by_step_optimization.py:22-58 prepare_optimization. -/
def prepareOptimization {nSamples : Nat} (task : Task n) (solver : Solver n) (d0 : Dist n)
    (u : Updater) (dmpInitial : Option D) (saveTrajectory : Bool)
    (draw : Fin nSamples → Fin n → ℝ) : PyM (World (Obj n D)) Unit := do
  World.init nSamples true true ([("task", .task task), ("task_solver", .solver solver),
    ("distribution_initial", .dist d0), ("updater", .updater u)] ++
    match dmpInitial with
    | some dmp => [("dmp_initial", .dmp dmp)]
    | none => [])
  generateSamplesStep d0 (List.ofFn draw) 0 saveTrajectory

/-- step_by_step_optimization.py:113-124: evaluate one rollout. -/
def evaluateRollout (task : Task n) (i : Int) (costs : List (List ℝ)) (label : Label) :
    PyM (World (Obj n D)) (List (List ℝ)) := do
  let costVars ← askAs Obj.asArray "cost_vars" (some i) (some label)
  let dmp ← askAs Obj.asDmp "dmp" (some i) (some label)
  let c := task costVars (DmpLike.getParams dmp)
  let _ ← World.tell (.vec c) "costs" (some i) (some label)
  match label with
  | .str _ => return costs
  | .int _ => match c with
    | [] => PyM.raise .indexError
    | total :: _ => return costs ++ [[total]]

/-- step_by_step_optimization.py:95-142 update_step. `draw` is the result of the random generator. -/
def updateStep (argsort : List ℝ → List Nat) (i : Int) (saveTrajectory : Bool)
    (draw : List (Fin n → ℝ)) : PyM (World (Obj n D)) Unit := do
  let nSamples ← askAs Obj.asInt "n_samples_per_update"
  let task ← askAs Obj.asTask "task"
  let costs ← (sampleLabels nSamples).foldlM (evaluateRollout task i) []
  let d ← askAs Obj.asDist "distribution" (some i)
  let samples ← askAs Obj.asSamples "samples" (some i)
  let u ← askAs Obj.asUpdater "updater"
  let new ← PyM.lift (u.update argsort samples costs d).1
  let _ ← World.tell (.vec new.2) "weights" (some i)
  let _ ← World.tell (.dist new.1) "distribution_new" (some i)
  generateSamplesStep new.1 draw (i + 1) saveTrajectory

/-- demo_bbo_of_dmps_step_by_step.py:94-101: perform the rollouts of an update. `rollout` is
`task_solver.perform_rollout_dmp`. -/
def performRollouts (rollout : D → List (List ℝ)) (nSamples : Nat) (i : Int) :
    PyM (World (Obj n D)) Unit :=
  ([Label.str "eval"] ++ (List.range nSamples).map (fun (k : Nat) => Label.int k)).forM fun label => do
    let dmp ← askAs Obj.asDmp "dmp" (some i) (some label)
    let _ ← World.tell (.array (rollout dmp)) "cost_vars" (some i) (some label)

/-- Continue in a new process, as demos/robot/step5_one_optimization_update.py:35 does. -/
def reopenIf (b : Bool) : PyM (World (Obj n D)) Unit :=
  if b then World.fromDir true else pure ()

/-- demo_bbo_of_dmps_step_by_step.py:89-103: prepare_optimization, then rollouts and update_step in
turn. `reopen i` tells whether the session is re-opened before the rollouts and before update_step. -/
def stepByStep {nSamples : Nat} (task : Task n) (solver : Solver n) (rollout : D → List (List ℝ))
    (argsort : List ℝ → List Nat) (u : Updater) (d0 : Dist n) (dmp0 : D) (saveTrajectory : Bool)
    (nUpdates : Nat) (draws : Nat → Fin nSamples → Fin n → ℝ) (reopen : Nat → Bool × Bool) :
    PyM (World (Obj n D)) Unit := do
  prepareOptimization task solver d0 u (some dmp0) saveTrajectory (draws 0)
  (List.range nUpdates).forM fun (i : Nat) => do
    reopenIf (reopen i).1
    performRollouts rollout nSamples i
    reopenIf (reopen i).2
    updateStep argsort i saveTrajectory (List.ofFn (draws (i + 1)))

end

end Verif
