import Verif.Model.BasisFunctions
import Mathlib.LinearAlgebra.Matrix.NonsingularInverse

/- functionapproximators/FunctionApproximator*.py: weighted least squares (WLS), radial basis function
networks (RBFN), locally weighted regression (LWR), Gaussian process regression (GPR).
Training targets are one-dimensional arrays, with as many entries as there are inputs; other sizes
(which FunctionApproximatorWLS.py:50 reinterprets) are not modelled. -/

set_option autoImplicit false

namespace Verif

noncomputable section

open Matrix

/-! ### Training -/

/-- FunctionApproximatorWLS.py:66-81: regularised weighted least squares, with design matrix `X` and
weights `w`. `np.linalg.inv` raises an exception for singular matrices. -/
def solveWls {N p : Nat} (X : Matrix (Fin N) (Fin p) ℝ) (w : Fin N → ℝ) (reg : ℝ)
    (targets : Fin N → ℝ) : Except PyErr (Fin p → ℝ) :=
  let W : Matrix (Fin N) (Fin N) ℝ := diagonal w
  let Gamma : Matrix (Fin p) (Fin p) ℝ := reg • 1
  let toInvert := Xᵀ * W * X + Gamma
  if toInvert.det = 0 then .error .linAlgError
  else .ok ((toInvert⁻¹ * Xᵀ * W) *ᵥ targets)

/-- Model parameters of a FunctionApproximatorWLS. -/
structure WlsModel (d : Nat) where
  slope : Fin d → ℝ
  offset : Option ℝ

/-- FunctionApproximatorWLS.py:43-88 _train. -/
def wlsTrain {N d : Nat} (useOffset : Bool) (reg : ℝ) (inputs : Fin N → Fin d → ℝ)
    (targets : Fin N → ℝ) (weights : Option (Fin N → ℝ)) : Except PyErr (WlsModel d) := do
  let w : Fin N → ℝ := match weights with
    | none => fun _ => 1
    | some w => w
  if useOffset then
    -- a last column with ones
    let beta ← solveWls (of fun s => (Fin.snoc (inputs s) 1 : Fin (d + 1) → ℝ)) w reg targets
    return { slope := fun i => beta i.castSucc, offset := some (beta (Fin.last d)) }
  else
    let beta ← solveWls (of inputs) w reg targets
    return { slope := beta, offset := none }

/-- Model parameters of a FunctionApproximatorRBFN. The weights form an array. -/
structure RbfnModel (d : Nat) where
  kernels : Kernels d
  rows : Nat
  cols : Nat
  weights : Fin rows → Fin cols → ℝ

/-- Entry `j` of `values.reshape(rows, cols)[i]`, numpy's order. -/
def reshaped {rows cols : Nat} (values : List ℝ) (i : Fin rows) (j : Fin cols) : ℝ :=
  values.getD (i * cols + j) 0

/-- FunctionApproximatorRBFN.py:51-75 _train. Centres and widths in the meta parameters (61-62) are
not modelled, as the constructor does not set them. -/
def rbfnTrain {N d : Nat} (nBfsPerDim : List Nat) (height reg : ℝ) (inputs : Fin N → Fin d → ℝ)
    (targets : Fin N → ℝ) : Except PyErr (RbfnModel d) := do
  let nBfs := nBfsPerDim.prod
  let kernels ← getCentersAndWidths inputs nBfsPerDim height
  let act ← kernels.activations false inputs
  let wls ← wlsTrain false reg act targets none
  -- slope.reshape(n_bfs, -1)
  if nBfs = 0 ∨ kernels.n % nBfs ≠ 0 then throw .valueError
  return { kernels := kernels
           rows := nBfs
           cols := kernels.n / nBfs
           weights := reshaped (List.ofFn wls.slope) }

/-- Model parameters of a FunctionApproximatorLWR. -/
structure LwrModel (d : Nat) where
  kernels : Kernels d
  lines : Nat
  slopes : Fin lines → Fin d → ℝ
  offsets : Fin lines → ℝ

/-- FunctionApproximatorLWR.py:65-71: one regression for each of the first `n` kernels. Line 61
passes the meta parameters of the regression as argument `use_offset`, which thus is true, and the
regularisation of the regression is its default 0. -/
def lwrLines {N d : Nat} (kernels : Kernels d) (act : Fin N → Fin kernels.n → ℝ)
    (inputs : Fin N → Fin d → ℝ) (targets : Fin N → ℝ) :
    (n : Nat) → Except PyErr ((Fin n → Fin d → ℝ) × (Fin n → ℝ))
  | 0 => .ok (fun i => i.elim0, fun i => i.elim0)
  | n + 1 => do
    let (slopes, offsets) ← lwrLines kernels act inputs targets n
    if h : n < kernels.n then
      let wls ← wlsTrain true 0 inputs targets (some fun s => act s ⟨n, h⟩)
      -- wls_model_params["offset"] is there, as use_offset is true
      return (Fin.snoc slopes wls.slope, Fin.snoc offsets (wls.offset.getD 0))
    else throw .indexError

/-- FunctionApproximatorLWR.py:44-76 _train. The regularisation is not used (see `lwrLines`). -/
def lwrTrain {N d : Nat} (nBfsPerDim : List Nat) (height _reg : ℝ) (inputs : Fin N → Fin d → ℝ)
    (targets : Fin N → ℝ) : Except PyErr (LwrModel d) := do
  let nBfs := nBfsPerDim.prod
  let kernels ← getCentersAndWidths inputs nBfsPerDim height
  let act ← kernels.activations true inputs
  let (slopes, offsets) ← lwrLines kernels act inputs targets nBfs
  return { kernels := kernels, lines := nBfs, slopes := slopes, offsets := offsets }

/-- Model parameters of a FunctionApproximatorGPR. The kernels are the training inputs, with the
lengths as widths. -/
structure GprModel (d : Nat) where
  kernels : Kernels d
  maxCovariance : ℝ
  weights : Fin kernels.n → ℝ

/-- FunctionApproximatorGPR.py:42-46 _activations. -/
def gprActivations {N d : Nat} (kernels : Kernels d) (maxCovariance : ℝ) (inputs : Fin N → Fin d → ℝ) :
    Except PyErr (Fin N → Fin kernels.n → ℝ) := do
  let act ← kernels.activations false inputs
  return fun s b => maxCovariance * act s b

/-- FunctionApproximatorGPR.py:49-66 _train. `np.full` accepts one length, or one for each
dimension. -/
def gprTrain {N d : Nat} (maxCovariance : ℝ) (lengths : List ℝ) (inputs : Fin N → Fin d → ℝ)
    (targets : Fin N → ℝ) : Except PyErr (GprModel d) := do
  if lengths.length ≠ 1 ∧ lengths.length ≠ d then throw .valueError
  let kernels : Kernels d :=
    { n := N
      centers := inputs
      widths := fun _ i => if lengths.length = 1 then lengths.getD 0 0 else lengths.getD i 0 }
  let gram ← gprActivations kernels maxCovariance inputs
  if (of gram).det = 0 then throw .linAlgError
  return { kernels := kernels
           maxCovariance := maxCovariance
           weights := (of gram)⁻¹ *ᵥ targets }

/-! ### Prediction -/

/-- FunctionApproximatorWLS.py:91-103 _predict. -/
def WlsModel.predict {N d : Nat} (m : WlsModel d) (inputs : Fin N → Fin d → ℝ) : Fin N → ℝ :=
  fun s => ∑ i, inputs s i * m.slope i + m.offset.getD 0

/-- FunctionApproximatorRBFN.py:84-89 _predict. If the weights have several columns, the product in
line 88 has the wrong shape, or the weights run out (they have fewer rows than there are kernels). -/
def RbfnModel.predict {N d : Nat} (m : RbfnModel d) (inputs : Fin N → Fin d → ℝ) :
    Except PyErr (Fin N → ℝ) := do
  let act ← m.kernels.activations false inputs
  if h : m.cols = 1 ∧ m.rows = m.kernels.n then
    return fun s => ∑ b, act s b * m.weights (Fin.cast h.2.symm b) (Fin.cast h.1.symm 0)
  else if m.cols = 1 ∨ m.cols = N then throw .indexError
  else throw .valueError

/-- FunctionApproximatorLWR.py:91-107 _get_lines. -/
def LwrModel.getLines {N d : Nat} (m : LwrModel d) (inputs : Fin N → Fin d → ℝ) :
    Fin N → Fin m.lines → ℝ :=
  fun s l => ∑ i, inputs s i * m.slopes l i + m.offsets l

/-- FunctionApproximatorLWR.py:110-121 _predict. If the number of lines is not that of the kernels
(then both are greater than 1), the arrays in line 120 cannot be multiplied. -/
def LwrModel.predict {N d : Nat} (m : LwrModel d) (inputs : Fin N → Fin d → ℝ) :
    Except PyErr (Fin N → ℝ) := do
  let lines := m.getLines inputs
  let act ← m.kernels.activations true inputs
  if h : m.lines = m.kernels.n then
    return fun s => ∑ l, lines s l * act s (Fin.cast h l)
  else throw .valueError

/-- FunctionApproximatorGPR.py:69-78 _predict. -/
def GprModel.predict {N d : Nat} (m : GprModel d) (inputs : Fin N → Fin d → ℝ) :
    Except PyErr (Fin N → ℝ) := do
  let act ← gprActivations m.kernels m.maxCovariance inputs
  return fun s => ∑ b, act s b * m.weights b

/-! ### The objects -/

/-- Meta parameters: the arguments of the constructors, which make arrays of `n_bfs_per_dim` and
`lengths` (FunctionApproximatorRBFN.py:32-48, FunctionApproximatorLWR.py:31-41,
FunctionApproximatorWLS.py:28-40, FunctionApproximatorGPR.py:29-39). -/
inductive FaMeta
  | rbfn (nBfsPerDim : List Nat) (height reg : ℝ)
  | lwr (nBfsPerDim : List Nat) (height reg : ℝ)
  | wls (useOffset : Bool) (reg : ℝ)
  | gpr (maxCovariance : ℝ) (lengths : List ℝ)

/-- Model parameters of a trained function approximator, for inputs of dimension `d`. -/
inductive FaModel (d : Nat)
  | rbfn (m : RbfnModel d)
  | lwr (m : LwrModel d)
  | wls (m : WlsModel d)
  | gpr (m : GprModel d)

/-- FunctionApproximator.py:34-40. `model` has the fields `_dim_input` and `_model_params`, once
these are set in training. The training data, which are only used for plotting, are left out. -/
structure Fa where
  params : FaMeta
  model : Option (Σ d, FaModel d)
  selected : Option (List String)

/-- The constructors. -/
def Fa.new (params : FaMeta) : Fa := ⟨params, none, none⟩

/-- The methods `_train` of the subclasses. -/
def FaMeta.train {N d : Nat} (params : FaMeta) (inputs : Fin N → Fin d → ℝ) (targets : Fin N → ℝ)
    (weights : Option (Fin N → ℝ)) : Except PyErr (FaModel d) :=
  match params with
  | .rbfn n h r => return .rbfn (← rbfnTrain n h r inputs targets)
  | .lwr n h r => return .lwr (← lwrTrain n h r inputs targets)
  | .wls o r => return .wls (← wlsTrain o r inputs targets weights)
  | .gpr c l => return .gpr (← gprTrain c l inputs targets)

/-- FunctionApproximator.py:42-56 train. `reshape` raises an exception if there are no inputs.
`weights` is the keyword argument that FunctionApproximatorWLS uses. -/
def Fa.train {N d : Nat} (inputs : Fin N → Fin d → ℝ) (targets : Fin N → ℝ)
    (weights : Option (Fin N → ℝ)) : PyM Fa Unit := do
  if N = 0 then PyM.raise .valueError
  else
    let fa ← PyM.self
    let m ← PyM.lift (fa.params.train inputs targets weights)
    PyM.modify fun fa => { fa with model := some ⟨d, m⟩ }

/-- The methods `_predict` of the subclasses. -/
def FaModel.predict {N d : Nat} (m : FaModel d) (inputs : Fin N → Fin d → ℝ) :
    Except PyErr (Fin N → ℝ) :=
  match m with
  | .rbfn m => m.predict inputs
  | .lwr m => m.predict inputs
  | .wls m => .ok (m.predict inputs)
  | .gpr m => m.predict inputs

/-- FunctionApproximator.py:58-74 predict. `reshape` raises an exception if there are no inputs. -/
def Fa.predict {N d : Nat} (fa : Fa) (inputs : Fin N → Fin d → ℝ) : Except PyErr (Fin N → ℝ) :=
  match fa.model with
  | none => .error .valueError
  | some ⟨dim, m⟩ =>
    if N = 0 then .error .valueError
    else if h : d = dim then m.predict fun s => inputs s ∘ Fin.cast h.symm
    else .error .valueError

/-! ### Parameter vectors -/

/-- The entries of a two-dimensional array, in the order of `flatten`. -/
def flat {rows cols : Nat} (a : Fin rows → Fin cols → ℝ) : List ℝ :=
  (List.ofFn fun i => List.ofFn (a i)).flatten

/-- A value in the dictionary `_model_params`. -/
inductive Param
  /-- An array with its shape and its entries. -/
  | array (shape : List Nat) (values : List ℝ)
  /-- A numpy scalar, whose shape is `()`. -/
  | scalar (x : ℝ)
  /-- A Python float. -/
  | float (x : ℝ)
  /-- None. -/
  | none

/-- The dictionary `_model_params` after training. -/
def FaModel.param {d : Nat} : FaModel d → String → Option Param
  | .rbfn m, s =>
    if s = "centers" then some (.array [m.kernels.n, d] (flat m.kernels.centers))
    else if s = "widths" then some (.array [m.kernels.n, d] (flat m.kernels.widths))
    else if s = "weights" then some (.array [m.rows, m.cols] (flat m.weights))
    else none
  | .lwr m, s =>
    if s = "centers" then some (.array [m.kernels.n, d] (flat m.kernels.centers))
    else if s = "widths" then some (.array [m.kernels.n, d] (flat m.kernels.widths))
    else if s = "offsets" then some (.array [m.lines, 1] (List.ofFn m.offsets))
    else if s = "slopes" then some (.array [m.lines, d] (flat m.slopes))
    else none
  | .wls m, s =>
    if s = "slope" then some (.array [d] (List.ofFn m.slope))
    else if s = "offset" then m.offset.map .scalar
    else none
  | .gpr m, s =>
    if s = "inputs" then some (.array [m.kernels.n, d] (flat m.kernels.centers))
    else if s = "lengths" then some (.array [m.kernels.n, d] (flat m.kernels.widths))
    else if s = "max_covariance" then some (.float m.maxCovariance)
    else if s = "gram_inv_targets" then some (.array [m.kernels.n] (List.ofFn m.weights))
    else none

/-- The dictionary `_model_params` before training (second argument of `super().__init__` in the
constructors). -/
def FaMeta.paramNames : FaMeta → List String
  | .rbfn .. => ["centers", "widths", "weights"]
  | .lwr .. => ["centers", "widths", "slopes", "offsets"]
  | .wls useOffset _ => if useOffset then ["slope", "offset"] else ["slope"]
  | .gpr .. => ["gram_inv", "gram_inv_targets"]

/-- `self._model_params[label]`, if there. -/
def Fa.param (fa : Fa) (label : String) : Option Param :=
  match fa.model with
  | none => if label ∈ fa.params.paramNames then some .none else none
  | some ⟨_, m⟩ => m.param label

/-- `self._model_params[label] = np.reshape(values, shape)` for an array, FunctionApproximator.py:146.
The new array shares its entries with the argument of set_param_vector; this is not modelled. -/
def FaModel.setParam {d : Nat} (values : List ℝ) (s : String) : FaModel d → FaModel d
  | .rbfn m =>
    if s = "centers" then .rbfn { m with kernels := { m.kernels with centers := reshaped values } }
    else if s = "widths" then .rbfn { m with kernels := { m.kernels with widths := reshaped values } }
    else if s = "weights" then .rbfn { m with weights := reshaped values }
    else .rbfn m
  | .lwr m =>
    if s = "centers" then .lwr { m with kernels := { m.kernels with centers := reshaped values } }
    else if s = "widths" then .lwr { m with kernels := { m.kernels with widths := reshaped values } }
    else if s = "offsets" then .lwr { m with offsets := fun i => values.getD i 0 }
    else if s = "slopes" then .lwr { m with slopes := reshaped values }
    else .lwr m
  | .wls m =>
    if s = "slope" then .wls { m with slope := fun i => values.getD i 0 }
    else .wls m
  | .gpr m =>
    if s = "inputs" then
      .gpr { m with kernels := { m.kernels with centers := reshaped values } }
    else if s = "lengths" then
      .gpr { m with kernels := { m.kernels with widths := reshaped values } }
    else if s = "gram_inv_targets" then .gpr { m with weights := fun i => values.getD i 0 }
    else .gpr m

/-- FunctionApproximator.py:146, for the object: assignment to an entry of `_model_params`. -/
def Fa.setParam (values : List ℝ) (label : String) (fa : Fa) : Fa :=
  { fa with model := fa.model.map fun ⟨d, m⟩ => ⟨d, m.setParam values label⟩ }

/-- FunctionApproximator.py:108-115 set_selected_param_names; a single string stands for the list
with this string. -/
def Fa.setSelected (names : List String) : PyM Fa Unit :=
  PyM.modify fun fa => { fa with selected := some names }

/-- FunctionApproximator.py:127: `self._model_params[label].flatten()`. -/
def Fa.flatten (fa : Fa) (label : String) : Except PyErr (List ℝ) :=
  match fa.param label with
  | none => .error .keyError
  | some (.array _ values) => .ok values
  | some (.scalar x) => .ok [x]
  | some (.float _) => .error .attributeError
  | some .none => .error .attributeError

/-- FunctionApproximator.py:117-128 get_param_vector; `none` stands for `np.array(0)`. -/
def Fa.getParamVector (fa : Fa) : Except PyErr (Option (List ℝ)) :=
  match fa.selected with
  | none => .ok none
  | some names =>
    match fa.model with
    | none => .error .valueError
    | some _ => do return some (← names.mapM fa.flatten).flatten

/-- FunctionApproximator.py:149-157 get_param_vector_size. (For a scalar numpy returns the float 1.0,
which makes a difference in set_param_vector only.) -/
def Fa.paramVectorSize (fa : Fa) : Except PyErr Nat :=
  match fa.selected with
  | none => .ok 0
  | some names => do
    return (← names.mapM fun label =>
      match fa.param label with
      | none => .ok 0
      | some (.array shape _) => .ok shape.prod
      | some (.scalar _) => .ok 1
      | some (.float _) => .error PyErr.attributeError
      | some .none => .error .attributeError).sum

/-- FunctionApproximator.py:141-147: the loop of set_param_vector; the first argument has the values
that are not yet used. For a scalar, the size is the float 1.0, and slicing raises an exception. -/
def Fa.setLoop : List ℝ → List String → PyM Fa Unit
  | _, [] => pure ()
  | values, label :: names => do
    match (← PyM.self).param label with
    | none => PyM.raise .keyError
    | some (.array shape _) =>
      PyM.modify (Fa.setParam (values.take shape.prod) label)
      Fa.setLoop (values.drop shape.prod) names
    | some (.scalar _) => PyM.raise .typeError
    | some (.float _) => PyM.raise .attributeError
    | some .none => PyM.raise .attributeError

/-- FunctionApproximator.py:130-147 set_param_vector, for a one-dimensional array. -/
def Fa.setParamVector (values : List ℝ) : PyM Fa Unit := do
  let fa ← PyM.self
  if fa.model.isNone then PyM.raise .valueError
  else
    let size ← PyM.lift fa.paramVectorSize
    if values.length ≠ size then PyM.raise .valueError
    else
      match fa.selected with
      -- iterating over None
      | none => PyM.raise .typeError
      | some names => Fa.setLoop values names

end

end Verif
