import Verif.Model.Dmp

/-
Model of dmpbbo/dmps/DmpContextualTwoStep.py.

`copy.deepcopy` gives an equal value; objects are not shared. (In the code `from_dmp` selects parameters
in the Dmp of the caller, and a list of function approximators that is passed is trained in place.)
The fields of the base class, which only the constructor uses, and the training data saved for plotting
are left out.
-/

set_option autoImplicit false

namespace Verif

noncomputable section

/-- DmpContextualTwoStep.py:42-59: the fields `dmp` and `ppf` (policy parameter function). -/
structure DmpContextual where
  dmp : Dmp
  ppf : Option (List Fa)

namespace DmpContextual

/-- DmpContextualTwoStep.py:42-59 `__init__`. -/
def init (tau : ℝ) (yInit yAttr : List ℝ) (fas : Option (List Fa)) (o : Dmp.Options := {}) :
    Except PyErr DmpContextual := do
  let _ ← Base.init 1 tau yInit (some (3 * yInit.length + 2 + yInit.length))
  let dmp ← Dmp.init tau yInit yAttr fas o
  return { dmp := dmp, ppf := none }

/-- A call of a method of `self.dmp`. -/
def onDmp {α : Type} (m : PyM Dmp α) : PyM DmpContextual α := ⟨fun s =>
  ((m s.dmp).1, { s with dmp := (m s.dmp).2 })⟩

/-- DmpContextualTwoStep.py:79-83: a copy of the Dmp is trained with one demonstration; the result is
the copy with its parameter vector. -/
def trainedCopy (dmp : Dmp) (traj : Trajectory ℝ) : Except PyErr (Dmp × List ℝ) :=
  match Dmp.train traj none dmp with
  | (.error e, _) => .error e
  | (.ok _, cur) => do
    let params ← cur.getParamVector
    return (cur, params)

/-- `np.mean(values)`, for at least one value. -/
def mean (values : List ℝ) : ℝ := values.sum / values.length

/-- `np.mean(rows, axis=0)`, for at least one row. -/
def meanRows (rows : List (List ℝ)) : List ℝ :=
  (List.range (rows.headD []).length).map fun j => mean (rows.map fun r => r.getD j 0)

/-- `np.array(rows)`: for rows of different lengths an exception is raised (numpy 1.24 and later). -/
def rectangular (rows : List (List ℝ)) : Except PyErr Unit :=
  if rows.all fun r => r.length = (rows.headD []).length then .ok () else .error .valueError

/-- DmpContextualTwoStep.py:101-110: one function approximator for each parameter. The argument
`ppf_function_app` is one function approximator or a list of them. -/
def approximators (nParams : Nat) : Fa ⊕ List Fa → Except PyErr (List Fa)
  | .inl fa => .ok (List.replicate nParams fa)
  | .inr fas => if fas.length = nParams then .ok fas else .error .runtimeError

/-- DmpContextualTwoStep.py:113-115: training of the function approximator for one parameter. -/
def trainPpf (inputs targets : List (List ℝ)) (i : Nat) : PyM DmpContextual Unit := ⟨fun s =>
  match s.ppf with
  | none => (.error .typeError, s)
  | some fas =>
    match fas[i]? with
    | none => (.error .indexError, s)
    | some fa =>
      let r := Fa.train (fun (t : Fin inputs.length) (j : Fin (inputs.headD []).length) =>
        (inputs.getD t []).getD j 0) (fun t => (targets.getD t []).getD i 0) none fa
      (r.1, { s with ppf := some (fas.set i r.2) })⟩

/-- DmpContextualTwoStep.py:112-115: the loop over the parameters. -/
def trainPpfs (inputs targets : List (List ℝ)) : List Nat → PyM DmpContextual Unit
  | [] => pure ()
  | i :: rest => do
    trainPpf inputs targets i
    trainPpfs inputs targets rest

/-- DmpContextualTwoStep.py:61-117 train. A demonstration has task parameters (scalars stand for lists
with one entry, line 75) and a trajectory. Without demonstrations line 91 raises an exception (the
field `dmp` is None then, which is not modelled). -/
def train (demos : List (List ℝ × Trajectory ℝ)) (names : List String) (ppf : Fa ⊕ List Fa) :
    PyM DmpContextual Unit := do
  onDmp (Dmp.setSelected names)
  let s ← PyM.self
  let copies ← PyM.lift (demos.mapM fun demo => trainedCopy s.dmp demo.2)
  match copies.getLast? with
  | none => PyM.raise .attributeError
  | some (cur, params) => do
    PyM.modify fun s => { s with dmp := cur }
    onDmp (Dmp.setTau (mean (copies.map fun c => c.1.tau)))
    onDmp (Dmp.setYInit (meanRows (copies.map fun c => c.1.toBase.yInit)))
    onDmp (Dmp.setYAttr (meanRows (copies.map fun c => c.1.yAttr)))
    let targets := copies.map Prod.snd
    let inputs := demos.map Prod.fst
    PyM.lift (rectangular targets)
    PyM.lift (rectangular inputs)
    let fas ← PyM.lift (approximators params.length ppf)
    PyM.modify fun s => { s with ppf := some fas }
    trainPpfs inputs targets (List.range params.length)

/-- The result of a constructor followed by a method. -/
def afterwards (m : PyM DmpContextual Unit) (s : DmpContextual) : Except PyErr DmpContextual :=
  match m s with
  | (.ok _, s') => .ok s'
  | (.error e, _) => .error e

/-- DmpContextualTwoStep.py:119-145 from_trajs. -/
def fromTrajs (demos : List (List ℝ × Trajectory ℝ)) (fas : Option (List Fa)) (names : List String)
    (ppf : Fa ⊕ List Fa) (o : Dmp.Options := {}) : Except PyErr DmpContextual :=
  match demos with
  | [] => .error .indexError
  | demo :: _ =>
    match demo.2.ts.getLast? with
    | none => .error .indexError
    | some tau => do
      let yInit ← demo.2.yInit
      let yAttr ← demo.2.yFinal
      let s ← init tau yInit yAttr fas o
      afterwards (train demos names ppf) s

/-- DmpContextualTwoStep.py:147-166 from_dmp. -/
def fromDmp (demos : List (List ℝ × Trajectory ℝ)) (dmp : Dmp) (names : List String)
    (ppf : Fa ⊕ List Fa) : Except PyErr DmpContextual := do
  let s ← init dmp.tau dmp.toBase.yInit dmp.yAttr dmp.fas
  afterwards (train demos names ppf) { s with dmp := dmp }

/-- `fa.predict(task_params)`, assigned to an entry of an array: the array of outputs must have one
entry. `taskParams` has one row for each sample (FunctionApproximator.py reshapes an array with one
dimension to a column). -/
def predicted {N k : Nat} (taskParams : Fin N → Fin k → ℝ) (fa : Fa) : Except PyErr ℝ := do
  let out ← fa.predict taskParams
  if h : N = 1 then return out ⟨0, by omega⟩ else .error .valueError

/-- DmpContextualTwoStep.py:173-174: the loop over the policy parameter function. -/
def fill {N k : Nat} (taskParams : Fin N → Fin k → ℝ) : Nat → List Fa → List ℝ → Except PyErr (List ℝ)
  | _, [], params => .ok params
  | i, fa :: fas, params => do
    let value ← predicted taskParams fa
    if i < params.length then fill taskParams (i + 1) fas (params.set i value) else .error .indexError

/-- DmpContextualTwoStep.py:171-175 set_task_params. Before training `ppf` is None, which cannot be
enumerated. -/
def setTaskParams {N k : Nat} (taskParams : Fin N → Fin k → ℝ) : PyM DmpContextual Unit := do
  let s ← PyM.self
  let params ← PyM.lift s.dmp.getParamVector
  match s.ppf with
  | none => PyM.raise .typeError
  | some fas => do
    let params ← PyM.lift (fill taskParams 0 fas params)
    onDmp (Dmp.setParamVector params)

/-- DmpContextualTwoStep.py:177-179 analytical_solution. -/
def analytical {N k : Nat} (taskParams : Fin N → Fin k → ℝ) (ts : Option (List ℝ))
    (suppress : Bool := false) : PyM DmpContextual Dmp.Solution := do
  setTaskParams taskParams
  onDmp (Dmp.analytical ts suppress)

/-- DmpContextualTwoStep.py:191-193: the entries of `self.ppf` from position `i` on. -/
def fillStart {N k : Nat} (taskParams : Fin N → Fin k → ℝ) (ppf : Option (List Fa)) :
    List Nat → Except PyErr (List ℝ)
  | [] => .ok []
  | i :: rest => do
    let fas ← (match ppf with | none => .error .typeError | some fas => .ok fas : Except PyErr (List Fa))
    let fa ← (match fas[i]? with | none => .error .indexError | some fa => .ok fa : Except PyErr Fa)
    let value ← predicted taskParams fa
    let values ← fillStart taskParams ppf rest
    return value :: values

/-- DmpContextualTwoStep.py:181-198 integrate_start. The code passes a matrix with one column; the model
passes the list of its entries. (If "goal" is selected, the attractor of the code becomes a column,
which is not modelled; the theorem about this method is for Dmps without selected goal.) -/
def integrateStart {N k : Nat} (taskParams : Fin N → Fin k → ℝ) (yInit : Option (List ℝ) := none) :
    PyM DmpContextual (List ℝ × List ℝ) := do
  let s ← PyM.self
  let n ← PyM.lift s.dmp.paramVectorSize
  let params ← PyM.lift (fillStart taskParams s.ppf (List.range n))
  onDmp (Dmp.setParamVector params)
  onDmp (Dmp.integrateStart yInit)

/-- DmpContextualTwoStep.py:200-201 differential_equation. -/
def diffEq (x : List ℝ) : PyM DmpContextual (List ℝ) := onDmp (Dmp.diffEq x)

end DmpContextual

end

end Verif
