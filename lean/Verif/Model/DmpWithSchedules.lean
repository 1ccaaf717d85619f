import Verif.Model.Dmp
import Verif.Model.Trajectory
import Verif.Model.FunctionApproximator

/-
Model of dmpbbo/dmps/DmpWithSchedules.py. Plotting is not modelled.
-/

set_option autoImplicit false

namespace Verif

noncomputable section

/-- Arguments min_schedules and max_schedules of the constructor: a number, a list or a numpy array
(None is `none` of the type `Option BoundArg`). -/
inductive BoundArg
  | scalar (x : ℝ)
  | list (v : List ℝ)
  | array (v : List ℝ)

/-- Attributes min_schedules and max_schedules: a list or a numpy array. -/
inductive Bounds
  | list (v : List ℝ)
  | array (v : List ℝ)

/-- DmpWithSchedules.py:44-47: numbers become arrays. -/
def BoundArg.stored (n : Nat) : BoundArg → Bounds
  | .scalar x => .array (List.replicate n x)
  | .list v => .list v
  | .array v => .array v

namespace Bounds

/-- The truth value of a list or of a numpy array. The truth value of an array with several entries is
ambiguous. (That of an empty array is False, which is deprecated.) -/
def truthy : Bounds → Except PyErr Bool
  | .list v => .ok (!v.isEmpty)
  | .array [] => .ok false
  | .array [x] => .ok (decide (x ≠ 0))
  | .array _ => .error .valueError

/-- `bounds[i]` -/
def get (b : Bounds) (i : Nat) : Except PyErr ℝ :=
  match (match b with | .list v => v | .array v => v)[i]? with
  | none => .error .indexError
  | some x => .ok x

/-- DmpWithSchedules.py:145-146: `bounds[i_dim] if bounds else None`. -/
def pick (b : Option Bounds) (i : Nat) : Except PyErr (Option ℝ) :=
  match b with
  | none => .ok none
  | some b => do
    if ← b.truthy then return some (← b.get i) else return none

end Bounds

/-- `np.clip(x, lo, hi)` for one number. -/
def clipTo (lo hi : Option ℝ) (x : ℝ) : ℝ :=
  let y := match lo with
    | none => x
    | some l => max x l
  match hi with
  | none => y
  | some h => min y h

/-- The object of class DmpWithSchedules. -/
structure DmpWithSchedules where
  dmp : Dmp
  sched : List Fa
  lo : Option Bounds
  hi : Option Bounds

namespace DmpWithSchedules

/-- A method of the superclass. -/
def onDmp {α : Type} (m : PyM Dmp α) : PyM DmpWithSchedules α := ⟨fun s =>
  ((m s.dmp).1, { s with dmp := (m s.dmp).2 })⟩

/-- A change of the function approximators for the schedules. -/
def onSched {α : Type} (m : PyM (List Fa) α) : PyM DmpWithSchedules α := ⟨fun s =>
  ((m s.sched).1, { s with sched := (m s.sched).2 })⟩

/-- DmpWithSchedules.py:35-47 `__init__`. -/
def init (tau : ℝ) (yInit yAttr : List ℝ) (fas : Option (List Fa)) (sched : List Fa) (lo hi : Option BoundArg)
    (o : Dmp.Options := {}) : Except PyErr DmpWithSchedules := do
  let dmp ← Dmp.init tau yInit yAttr fas o
  return { dmp := dmp
           sched := sched
           lo := lo.map (BoundArg.stored sched.length)
           hi := hi.map (BoundArg.stored sched.length) }

/-- DmpWithSchedules.py:147: clipping of one column of an array. Without any bound np.clip raises a
ValueError (before NumPy 2.1). -/
def clipColumn (lo hi : Option ℝ) (i : Nat) (a : Arr2 ℝ) : Except PyErr (Arr2 ℝ) :=
  if a.cols ≤ i then .error .indexError
  else if lo = none ∧ hi = none then .error .valueError
  else .ok { a with rows := a.rows.map fun r => r.set i (clipTo lo hi (r.getD i 0)) }

/-- DmpWithSchedules.py:144-147: the loop over the schedules. -/
def clipColumns (s : DmpWithSchedules) : List Nat → Arr2 ℝ → Except PyErr (Arr2 ℝ)
  | [], a => .ok a
  | i :: rest, a => do
    let lo ← Bounds.pick s.lo i
    let hi ← Bounds.pick s.hi i
    let a ← clipColumn lo hi i a
    s.clipColumns rest a

/-- DmpWithSchedules.py:138-148 _enforce_schedule_bounds. -/
def enforce (s : DmpWithSchedules) (a : Arr ℝ) : Except PyErr (Arr ℝ) :=
  if s.lo.isNone ∧ s.hi.isNone then .ok a
  else do
    let a := match a with
      | .one v => ⟨1, v.map fun x => [x]⟩
      | .two a => a
    return .two (← s.clipColumns (List.range s.sched.length) a)

/-- `fa.predict(phases)` for a vector of phases. -/
def predictAt (phases : List ℝ) (fa : Fa) : Except PyErr (List ℝ) := do
  return List.ofFn (← fa.predict fun (t : Fin phases.length) (_ : Fin 1) => phases[t])

/-- DmpWithSchedules.py:131-134: schedules for several phases, one row for each phase. -/
def schedulesAt (s : DmpWithSchedules) (phases : List ℝ) : Except PyErr (Arr ℝ) := do
  let cols ← s.sched.mapM (predictAt phases)
  s.enforce (.two ⟨s.sched.length, (List.range phases.length).map fun t => cols.map fun c => c.getD t 0⟩)

/-- DmpWithSchedules.py:159-163 and 177-180: schedules for one state. -/
def schedulesNow (s : DmpWithSchedules) (x : List ℝ) : Except PyErr (Arr ℝ) := do
  let values ← s.sched.mapM (predictAt (pickAt x (Dmp.PHASE s.dmp.dimY)))
  s.enforce (.one (values.map fun v => v.getD 0 0))

/-- DmpWithSchedules.py:111-136 analytical_solution_sched. -/
def analyticalSched (ts? : Option (List ℝ)) : PyM DmpWithSchedules (Dmp.Solution × Arr ℝ) := do
  let s ← PyM.self
  let ts ← match ts? with
    | some ts => pure ts
    | none => match s.dmp.tsTrain with
      | none => PyM.raise .valueError
      | some ts => pure ts
  let sol ← onDmp (Dmp.analytical (some ts))
  let s ← PyM.self
  let schedules ← PyM.lift (s.schedulesAt (sol.xs.map fun x => (pickAt x (Dmp.PHASE s.dmp.dimY)).getD 0 0))
  return (sol, schedules)

/-- DmpWithSchedules.py:150-165 integrate_start_sched. -/
def integrateStartSched (yInit : Option (List ℝ)) : PyM DmpWithSchedules (List ℝ × List ℝ × Arr ℝ) := do
  let r ← onDmp (Dmp.integrateStart yInit)
  let s ← PyM.self
  let schedules ← PyM.lift (s.schedulesNow r.1)
  return (r.1, r.2, schedules)

/-- DmpWithSchedules.py:167-182 integrate_step_sched, for each of the integration methods of the base
class. -/
def integrateStepSched (m : DynSys.Method) (dt : ℝ) (x : List ℝ) :
    PyM DmpWithSchedules (List ℝ × List ℝ × Arr ℝ) := do
  let r ← onDmp (DynSys.step m dt x)
  let s ← PyM.self
  let schedules ← PyM.lift (s.schedulesNow r.1)
  return (r.1, r.2, schedules)

/-- DmpWithSchedules.py:184-205 states_as_trajectory_sched. Only matrices are accepted as misc
variables, Trajectory.py:149-153 (an array with one dimension with as many entries is accepted by the
code, too). -/
def asTrajectorySched (s : DmpWithSchedules) (ts : List ℝ) (xs xds : List (List ℝ)) (schedules : Arr2 ℝ) :
    Except PyErr (Trajectory ℝ) := do
  let traj ← s.dmp.asTrajectory ts xs xds
  match Trajectory.setMisc schedules traj with
  | (.ok _, traj) => .ok traj
  | (.error e, _) => .error e

/-! ### Training -/

/-- `schedules or trajectory.misc`, DmpWithSchedules.py:95: the truth value of an array with several
entries is ambiguous. -/
def orMisc (schedules : Option (Arr2 ℝ)) (misc : Option (Arr2 ℝ)) : Except PyErr (Option (Arr2 ℝ)) :=
  match schedules with
  | none => .ok misc
  | some a =>
    match a.rows.flatten with
    | [] => .ok misc
    | [x] => .ok (if x ≠ 0 then some a else misc)
    | _ => .error .valueError

/-- DmpWithSchedules.py:83-109 train_sched. Targets with another number of rows than the trajectory are
not followed. (The misc variables of a trajectory always have the right number.) -/
def trainSched (traj : Trajectory ℝ) (schedules : Option (Arr2 ℝ)) : PyM DmpWithSchedules Unit := do
  onDmp (Dmp.train traj)
  let sol ← onDmp (Dmp.analytical none)
  let s ← PyM.self
  let inputs := sol.xs.map fun x => (pickAt x (Dmp.PHASE s.dmp.dimY)).getD 0 0
  match ← PyM.lift (orMisc schedules traj.misc) with
  | none => PyM.raise .valueError
  | some targets =>
    if targets.cols ≠ s.sched.length then PyM.raise .valueError
    else if targets.rows.length ≠ inputs.length then PyM.raise .valueError
    else onSched (Dmp.trainFas inputs targets.rows (List.range s.sched.length))

/-- DmpWithSchedules.py:49-74 from_traj_sched. -/
def fromTrajSched (traj : Trajectory ℝ) (fas : Option (List Fa)) (sched : List Fa) (lo hi : Option BoundArg)
    (schedules : Option (Arr2 ℝ)) (o : Dmp.Options := {}) : Except PyErr DmpWithSchedules := do
  match traj.ts.getLast? with
  | none => .error .indexError
  | some tau => do
    let yInit ← traj.yInit
    let yAttr ← traj.yFinal
    let s ← init tau yInit yAttr fas sched lo hi o
    match trainSched traj schedules s with
    | (.ok _, s) => .ok s
    | (.error e, _) => .error e

/-! ### Parameter vectors -/

/-- DmpWithSchedules.py:207-223 set_selected_param_names; a single string stands for the list with this
string. -/
def setSelected (names : List String) : PyM DmpWithSchedules Unit := do
  let schedNames := (names.filter fun n => Dmp.isIn "sched_" n).map fun n => String.ofList (n.toList.drop 6)
  onSched (PyM.modify fun fas => fas.map fun fa => (Fa.setSelected schedNames fa).2)
  onDmp (Dmp.setSelected (names.filter fun n => !Dmp.isIn "sched_" n))

/-- DmpWithSchedules.py:225-231 get_param_vector. -/
def getParamVector (s : DmpWithSchedules) : Except PyErr (List ℝ) := do
  let values ← s.dmp.getParamVector
  let more ← s.sched.mapM Dmp.faValues
  return values ++ more.flatten

/-- DmpWithSchedules.py:254-260 get_param_vector_size. -/
def paramVectorSize (s : DmpWithSchedules) : Except PyErr Nat := do
  let size ← s.dmp.paramVectorSize
  let sizes ← s.sched.mapM fun fa => if fa.model.isSome then fa.paramVectorSize else .ok 0
  return size + sizes.sum

/-- Is the size of the parameter vector of the superclass a float? (Sizes of numpy scalars are
floats.) -/
def floatSize (s : Dmp) : Bool :=
  (s.fas.getD []).any fun fa =>
    fa.model.isSome && (fa.selected.getD []).any fun label => Dmp.isScalar (fa.param label)

/-- DmpWithSchedules.py:233-252 set_param_vector. A float as index of a slice raises TypeError. -/
def setParamVector (values : List ℝ) : PyM DmpWithSchedules Unit := do
  let s ← PyM.self
  let size ← PyM.lift s.paramVectorSize
  if values.length ≠ size then PyM.raise .valueError
  else do
    let sizeSuper ← PyM.lift s.dmp.paramVectorSize
    if floatSize s.dmp then PyM.raise .typeError
    else do
      if sizeSuper > 0 then onDmp (Dmp.setParamVector (values.take sizeSuper)) else pure ()
      let _ ← onSched ⟨Dmp.setFas (values.drop sizeSuper)⟩
      pure ()

end DmpWithSchedules

end

end Verif
