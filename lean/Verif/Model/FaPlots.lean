import Verif.Model.FunctionApproximator
import Mathlib.Order.ConditionallyCompleteLattice.Finset

/- functionapproximators/FunctionApproximator*.py: what is drawn in plots of function approximators. -/

set_option autoImplicit false

namespace Verif

noncomputable section

/-- A function approximator with the training data that it saves (FunctionApproximator.py:39-40): inputs with `N`
rows and `d` columns, and one target for each row. -/
structure FaData where
  fa : Fa
  training : Option (Σ (N d : Nat), (Fin N → Fin d → ℝ) × (Fin N → ℝ))

/-- FunctionApproximator.py:34-40: the constructors. -/
def FaData.new (params : FaMeta) : FaData := ⟨Fa.new params, none⟩

/-- FunctionApproximator.py:42-56 train, with the argument `save_training_data`. -/
def FaData.train {N d : Nat} (inputs : Fin N → Fin d → ℝ) (targets : Fin N → ℝ)
    (weights : Option (Fin N → ℝ)) (save : Bool) : PyM FaData Unit := do
  let self ← PyM.self
  match Fa.train inputs targets weights self.fa with
  | (.error e, fa) => do
    PyM.modify fun s => { s with fa := fa }
    PyM.raise e
  | (.ok (), fa) =>
    PyM.modify fun s =>
      { fa := fa, training := if save then some ⟨N, d, inputs, targets⟩ else s.training }

/-- FunctionApproximator.py:159-167 _get_axis. Only whether there are axes is modelled: for one input, or for two. An
untrained object has no `_dim_input`. -/
def Fa.getAxis (fa : Fa) : Except PyErr Unit :=
  match fa.model with
  | none => .error .valueError
  | some m => if m.1 = 1 then .ok () else if m.1 = 2 then .ok () else .error .valueError

/-- `kwargs.get("ax") or self._get_axis()`, e.g. FunctionApproximator.py:252. -/
def Fa.axisOr (fa : Fa) (hasAx : Bool) : Except PyErr Unit :=
  if hasAx then .ok () else fa.getAxis

/-- FunctionApproximator.py:182-190: the loop that fills the grid row by row. -/
def gridTwo (x1s x2s : List ℝ) : List (Fin 2 → ℝ) :=
  x1s.flatMap fun x1 => x2s.map fun x2 => ![x1, x2]

/-- FunctionApproximator.py:169-194 _get_grid, for the default of `n_samples_per_dim` (no function of the package gives
another). Bounds are arrays with `d` elements. -/
def getGrid : {d : Nat} → (inputsMin inputsMax : Fin d → ℝ) → Except PyErr (List (Fin d → ℝ) × List Nat)
  | 1, lo, hi => .ok ((linspace (lo 0) (hi 0) 101).map fun x => ![x], [101])
  | 2, lo, hi => .ok (gridTwo (linspace (lo 0) (hi 0) 21) (linspace (lo 1) (hi 1) 21), [21, 21])
  | _, _, _ => .error .valueError

/-- `np.reshape(values, (n1, n2))`, of an array with one dimension. -/
def reshapeRows {α : Type} (n1 n2 : Nat) (values : List α) : List (List α) :=
  (List.range n1).map fun i => (values.drop (i * n2)).take n2

/-- The points of a line (one input: `ax.plot`, one row here) or of a wireframe (two inputs: rows of points on the
grid), FunctionApproximator.py:203, 209-226 and 259-266. -/
def onGrid {α : Type} (shape : List Nat) (points : List α) : List (List α) :=
  match shape with
  | [n1, n2] => reshapeRows n1 n2 points
  | _ => [points]

/-- Calling predict with an array that has the rows of a list, as list. -/
def Fa.predictRows {d : Nat} (fa : Fa) (inputs : List (Fin d → ℝ)) : Except PyErr (List ℝ) := do
  let outputs ← fa.predict fun s : Fin inputs.length => inputs.get s
  return List.ofFn outputs

/-- FunctionApproximator.py:245-272 plot_predictions_grid. A point is an input with the predicted output. Lines 267-268
are never reached, as _get_grid and predict accept no other dimensions. -/
def Fa.plotPredictionsGrid {d : Nat} (fa : Fa) (hasAx : Bool) (inputsMin inputsMax : Fin d → ℝ) :
    Except PyErr (List (List ((Fin d → ℝ) × ℝ))) := do
  fa.axisOr hasAx
  let (inputs, shape) ← getGrid inputsMin inputsMax
  let outputs ← fa.predictRows inputs
  return onGrid shape (inputs.zip outputs)

/-- What is drawn in FunctionApproximator.py:274-322: the style of markers, the points of the targets and of the
outputs, and the lines between them. -/
structure PredictionsPlot (d : Nat) where
  style : String
  targets : List ((Fin d → ℝ) × ℝ)
  residuals : List (((Fin d → ℝ) × ℝ) × ((Fin d → ℝ) × ℝ))
  outputs : List ((Fin d → ℝ) × ℝ)

/-- `ax.plot` with inputs and targets, FunctionApproximator.py:293 and 304. matplotlib raises an exception if there are
not as many targets as inputs. In three dimensions it accepts one target for all inputs. -/
def targetPoints {d : Nat} (inputs : List (Fin d → ℝ)) (targets : List ℝ) :
    Except PyErr (List ((Fin d → ℝ) × ℝ)) :=
  if targets.length = inputs.length then .ok (inputs.zip targets)
  else if d = 2 then
    match targets with
    | [t] => .ok (inputs.map fun x => (x, t))
    | _ => .error .valueError
  else .error .valueError

/-- FunctionApproximator.py:296-299 and 307-311: the line from a target to the output. -/
def residualLine {d : Nat} (inputs : List (Fin d → ℝ)) (targets outputs : List ℝ) (i : Nat) :
    Except PyErr (((Fin d → ℝ) × ℝ) × ((Fin d → ℝ) × ℝ)) :=
  match inputs[i]?, targets[i]?, outputs[i]? with
  | some x, some t, some o => .ok ((x, t), (x, o))
  | _, _, _ => .error .indexError

/-- FunctionApproximator.py:295-299 and 306-311. -/
def residualLines {d : Nat} (inputs : List (Fin d → ℝ)) (targets outputs : List ℝ) :
    Except PyErr (List (((Fin d → ℝ) × ℝ) × ((Fin d → ℝ) × ℝ))) :=
  (List.range inputs.length).mapM (residualLine inputs targets outputs)

/-- FunctionApproximator.py:292-299, 303-311. -/
def drawTargets {d : Nat} (inputs : List (Fin d → ℝ)) (targets outputs : List ℝ) (plotResiduals : Bool) :
    Except PyErr (List ((Fin d → ℝ) × ℝ) × List (((Fin d → ℝ) × ℝ) × ((Fin d → ℝ) × ℝ))) :=
  if targets.length = 0 then .ok ([], [])
  else do
    let points ← targetPoints inputs targets
    if plotResiduals then return (points, ← residualLines inputs targets outputs)
    else return (points, [])

/-- FunctionApproximator.py:274-322 plot_predictions. `targets` is `none` if they are None (the default is an empty
list). The dimension of the inputs is that of the object when `predict` has succeeded. -/
def Fa.plotPredictions {d : Nat} (fa : Fa) (hasAx : Bool) (inputs : List (Fin d → ℝ)) (targets : Option (List ℝ))
    (plotResiduals : Bool) : Except PyErr (PredictionsPlot d) := do
  fa.axisOr hasAx
  let outputs ← fa.predictRows inputs
  if d ≠ 1 ∧ d ≠ 2 then throw .valueError
  match targets with
  | none => throw .typeError
  | some targets =>
    let drawn ← drawTargets inputs targets outputs plotResiduals
    return { style := if inputs.length < 40 then "o" else "-"
             targets := drawn.1
             residuals := drawn.2
             outputs := inputs.zip outputs }

/-! ### Model parameters -/

/-- FunctionApproximatorRBFN.py:100-102: weighted activations, one column for each basis function. The exceptions are
those of `_predict`, which has the same loop. -/
def RbfnModel.weighted {N d : Nat} (m : RbfnModel d) (inputs : Fin N → Fin d → ℝ) :
    Except PyErr (List (Fin N → ℝ)) := do
  let act ← m.kernels.activations false inputs
  if h : m.cols = 1 ∧ m.rows = m.kernels.n then
    return List.ofFn fun b => fun s => act s b * m.weights (Fin.cast h.2.symm b) (Fin.cast h.1.symm 0)
  else if m.cols = 1 ∨ m.cols = N then throw .indexError
  else throw .valueError

/-- FunctionApproximatorGPR.py:89-94. -/
def GprModel.weighted {N d : Nat} (m : GprModel d) (inputs : Fin N → Fin d → ℝ) :
    Except PyErr (List (Fin N → ℝ)) := do
  let act ← gprActivations m.kernels m.maxCovariance inputs
  return List.ofFn fun b => fun s => act s b * m.weights b

/-- `np.max(activations, axis=1)`, FunctionApproximatorLWR.py:146, for a row with at least one element. -/
def rowMax {n : Nat} (row : Fin n → ℝ) : ℝ := ⨆ b, row b

/-- FunctionApproximatorLWR.py:132 and 141-150: the activations and the values of the lines, where a value is `nan`
(`none`) if the basis function is not among the most active. The maximum of an empty row raises an exception. If there
are fewer lines than basis functions, the index in line 150 is out of bounds (numpy may accept this if no element of
`smaller` is true, which is not modelled). -/
def LwrModel.drawn {N d : Nat} (m : LwrModel d) (inputs : Fin N → Fin d → ℝ) :
    Except PyErr (List (Fin N → ℝ) × List (Fin N → Option ℝ)) := do
  let act ← m.kernels.activations true inputs
  let lines := m.getLines inputs
  if m.kernels.n = 0 then throw .valueError
  if m.lines < m.kernels.n then throw .indexError
  return (List.ofFn fun b => fun s => act s b,
    List.ofFn fun l : Fin m.lines => fun s =>
      if h : l.val < m.kernels.n then
        if act s ⟨l, h⟩ < 0.2 * rowMax (act s) then none else some (lines s l)
      else some (lines s l))

/-- What plot_model_parameters draws: the activations (only FunctionApproximatorLWR) and the lines. -/
structure ModelPlot (d : Nat) where
  activations : List (List (List ((Fin d → ℝ) × ℝ)))
  lines : List (List (List ((Fin d → ℝ) × Option ℝ)))

/-- FunctionApproximator.py:196-233 _plot_grid_values: one line or wireframe for each column of the values. The other
dimensions (lines 229-231) do not occur, as _get_grid raises an exception. -/
def gridValues {d : Nat} {α : Type} (inputs : List (Fin d → ℝ)) (shape : List Nat)
    (columns : List (Fin inputs.length → α)) : List (List (List ((Fin d → ℝ) × α))) :=
  columns.map fun c => onGrid shape (inputs.zip (List.ofFn c))

/-- The columns of the plots of the subclasses. -/
def FaModel.drawn {N d : Nat} (m : FaModel d) (inputs : Fin N → Fin d → ℝ) :
    Except PyErr (List (Fin N → ℝ) × List (Fin N → Option ℝ)) :=
  match m with
  | .rbfn m => do return ([], (← m.weighted inputs).map fun c s => some (c s))
  | .gpr m => do return ([], (← m.weighted inputs).map fun c s => some (c s))
  | .lwr m => m.drawn inputs
  | .wls _ => .ok ([], [])

/-- The exception for a grid whose dimension is not that of the model: in `Gaussian._activations`
(basis_functions.py:70-74, 91-96) inputs with two columns cannot be reshaped to one, and inputs with one column have no
second one; with only one normalised basis function the inputs are first used in FunctionApproximatorLWR.py:104. -/
def FaModel.otherDim {dim : Nat} (m : FaModel dim) (d : Nat) : PyErr :=
  match m with
  | .lwr m => if m.kernels.n = 1 then .valueError else if d < dim then .indexError else .valueError
  | _ => if d < dim then .indexError else .valueError

/-- The key or attribute that is missing in an object that is not trained: FunctionApproximatorGPR.py:44 and
basis_functions.py:67. -/
def FaMeta.untrained : FaMeta → PyErr
  | .gpr _ _ => .keyError
  | _ => .attributeError

/-- plot_model_parameters for objects with basis functions: FunctionApproximatorRBFN.py:91-111,
FunctionApproximatorLWR.py:123-157, FunctionApproximatorGPR.py:80-103. The axes always exist at this point: the
dimension is that of a grid. -/
def Fa.plotBasisFunctions {d : Nat} (fa : Fa) (inputsMin inputsMax : Fin d → ℝ) :
    Except PyErr (ModelPlot d) := do
  let (inputs, shape) ← getGrid inputsMin inputsMax
  match fa.model with
  | none => throw fa.params.untrained
  | some ⟨dim, m⟩ =>
    if h : d = dim then
      let c ← m.drawn fun s : Fin inputs.length => inputs.get s ∘ Fin.cast h.symm
      return { activations := gridValues inputs shape c.1, lines := gridValues inputs shape c.2 }
    else throw (m.otherDim d)

/-- plot_model_parameters; FunctionApproximatorWLS.py:105-114 draws nothing. -/
def Fa.plotModelParameters {d : Nat} (fa : Fa) (hasAx : Bool) (inputsMin inputsMax : Fin d → ℝ) :
    Except PyErr (ModelPlot d) :=
  match fa.params with
  | .wls _ _ => do
    fa.axisOr hasAx
    return { activations := [], lines := [] }
  | _ => fa.plotBasisFunctions inputsMin inputsMax

/-! ### The whole plot -/

/-- What `plot` draws. -/
structure FaPlot (d : Nat) where
  predictions : PredictionsPlot d
  modelParameters : Option (ModelPlot d)
  grid : List (List ((Fin d → ℝ) × ℝ))

/-- FunctionApproximator.py:350-351. -/
def Fa.plotParametersIf {d : Nat} (fa : Fa) (wanted : Bool) (inputsMin inputsMax : Fin d → ℝ) :
    Except PyErr (Option (ModelPlot d)) :=
  if wanted then (fa.plotModelParameters true inputsMin inputsMax).map some else .ok none

/-- FunctionApproximator.py:342-352, for an array of inputs with `N` rows and `d` columns (the minimum of no inputs
raises an exception). -/
def Fa.plotFor {N d : Nat} (fa : Fa) (hasAx : Bool) (inputs : Fin N → Fin d → ℝ) (targets : Option (List ℝ))
    (plotResiduals plotModelParameters : Bool) : Except PyErr (FaPlot d) := do
  fa.axisOr hasAx
  if N = 0 then throw .valueError
  let predictions ← fa.plotPredictions true (List.ofFn inputs) targets plotResiduals
  let modelParameters ← fa.plotParametersIf plotModelParameters (minInput inputs) (maxInput inputs)
  let grid ← fa.plotPredictionsGrid true (minInput inputs) (maxInput inputs)
  return { predictions := predictions, modelParameters := modelParameters, grid := grid }

/-- FunctionApproximator.py:324-352 plot. Arguments `inputs` and `targets` are optional; `none` as result is
`(None, None)`. -/
def FaData.plot (s : FaData) (hasAx : Bool) (inputs : Option (Σ (N d : Nat), Fin N → Fin d → ℝ))
    (targets : Option (List ℝ)) (plotResiduals plotModelParameters : Bool) :
    Except PyErr (Option (Σ d, FaPlot d)) :=
  let targets := match targets with
    | some t => some t
    | none => s.training.map fun t => List.ofFn t.2.2.2
  match inputs with
  | some i => do
    let p ← s.fa.plotFor hasAx i.2.2 targets plotResiduals plotModelParameters
    return some ⟨_, p⟩
  | none =>
    match s.training with
    | none => .ok none
    | some t => do
      let p ← s.fa.plotFor hasAx t.2.2.1 targets plotResiduals plotModelParameters
      return some ⟨_, p⟩

end

end Verif
