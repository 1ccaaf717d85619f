import Verif.Model.CppDmp

/-
Model of dmpbbo/json_for_cpp.py (DmpBboJSONEncoder), of src/eigenutils/eigen_json.hpp and eigen_json.tpp,
and of the functions from_json and to_json of the C++ classes, at the level of json values.
Simplification: the text of a json file is not modelled. Printing a value and parsing the text again is
taken to give the value again, with real numbers in place of doubles.
-/

noncomputable section

set_option autoImplicit false

namespace Verif

/-- A json value. The members of an object are a list, in which the first member with a key counts. -/
inductive Json
  | null
  | bool (b : Bool)
  | num (x : ℝ)
  | str (s : String)
  | arr (l : List Json)
  | obj (l : List (String × Json))

namespace Json

/-! ### What Python writes -/

/-- json_for_cpp.py:46-47: `tolist()` of an array with one dimension. -/
def ofList (l : List ℝ) : Json := .arr (l.map .num)

/-- json_for_cpp.py:46-47: `tolist()` of an array with two dimensions. -/
def ofRows {n d : Nat} (a : Fin n → Fin d → ℝ) : Json := .arr (List.ofFn fun i => ofList (List.ofFn (a i)))

/-- A number, or an array of numbers. -/
def ofPar : Par ℝ → Json
  | .scalar c => .num c
  | .array l => ofList l

/-- None, or a value. -/
def ofOption {α : Type} (f : α → Json) : Option α → Json
  | none => .null
  | some a => f a

/-- json_for_cpp.py:48-52: an object is written as its class and its attributes. -/
def ofObject (cls : String) (attributes : List (String × Json)) : Json :=
  .obj (("class", .str cls) :: attributes)

end Json

open Json

/-- DynamicalSystem.py:41-50, attributes. -/
def Base.attributes (s : Base) : List (String × Json) :=
  [("_tau", .num s.tau), ("_dim_y", .num s.dimY), ("_dim_x", .num s.dimX), ("_x_init", ofList s.xInit)]

/-- TimeSystem.py:36. -/
def TimeSystem.json (s : TimeSystem) : Json :=
  ofObject "TimeSystem" (s.attributes ++ [("_count_down", .bool s.countDown)])

/-- ExponentialSystem.py:38-39. -/
def Exponential.json (s : Exponential) : Json :=
  ofObject "ExponentialSystem" (s.attributes ++ [("_x_attr", ofList s.xAttr), ("alpha", ofPar s.alpha)])

/-- SigmoidSystem.py:39-46. -/
def Sigmoid.json (s : Sigmoid) : Json :=
  ofObject "SigmoidSystem" (s.attributes ++ [("_max_rate", ofPar s.maxRate),
    ("_inflection_ratio", ofPar s.inflRatio), ("_Ks_cached", ofOption ofList s.ksCached)])

/-- RichardsSystem.py:31-36. -/
def Richards.json (s : Richards) : Json :=
  ofObject "RichardsSystem" (s.attributes ++ [("alpha", ofPar s.alpha), ("v", ofPar s.v),
    ("right_asymp", ofPar s.rightAsymp), ("t_infl_ratio", ofPar s.tInflRatio),
    ("left_asymp", ofOption ofPar s.leftAsymp)])

/-- SpringDamperSystem.py:48-54. -/
def SpringDamper.json (s : SpringDamper) : Json :=
  ofObject "SpringDamperSystem" (s.attributes ++ [("_y_attr", ofList s.yAttr),
    ("damping_coefficient", ofPar s.damping), ("mass", ofPar s.mass), ("spring_constant", ofPar s.spring)])

/-- The subsystems of a Dmp. -/
def Sub.json : Sub → Json
  | .time s => s.json
  | .exponential s => s.json
  | .sigmoid s => s.json
  | .richards s => s.json

/-- FunctionApproximatorRBFN.py:40-44, FunctionApproximatorLWR.py:33-37, FunctionApproximatorWLS.py:34 and
FunctionApproximatorGPR.py:37: `meta_params`. -/
def FaMeta.json : FaMeta → Json
  | .rbfn n h r | .lwr n h r =>
    .obj [("n_basis_functions_per_dim", .arr (n.map fun k => .num k)), ("intersection_height", .num h),
      ("regularization", .num r)]
  | .wls o r => .obj [("use_offset", .bool o), ("regularization", .num r)]
  | .gpr c l => .obj [("max_covariance", .num c), ("lengths", ofList l)]

/-- The names of the classes of function approximators. -/
def FaMeta.className : FaMeta → String
  | .rbfn .. => "FunctionApproximatorRBFN"
  | .lwr .. => "FunctionApproximatorLWR"
  | .wls .. => "FunctionApproximatorWLS"
  | .gpr .. => "FunctionApproximatorGPR"

/-- The dictionary `_model_params` after training (FunctionApproximatorRBFN.py:60-75,
FunctionApproximatorLWR.py:50-76, FunctionApproximatorWLS.py:83-88, FunctionApproximatorGPR.py:51-66). -/
def FaModel.json {d : Nat} : FaModel d → Json
  | .rbfn m => .obj [("centers", ofRows m.kernels.centers), ("widths", ofRows m.kernels.widths),
      ("weights", ofRows m.weights)]
  | .lwr m => .obj [("centers", ofRows m.kernels.centers), ("widths", ofRows m.kernels.widths),
      ("offsets", ofRows fun i (_ : Fin 1) => m.offsets i), ("slopes", ofRows m.slopes)]
  | .wls m => .obj (("slope", ofList (List.ofFn m.slope)) ::
      (m.offset.map fun x => ("offset", Json.num x)).toList)
  | .gpr m => .obj [("inputs", ofRows m.kernels.centers), ("lengths", ofRows m.kernels.widths),
      ("max_covariance", .num m.maxCovariance), ("gram_inv_targets", ofList (List.ofFn m.weights))]

/-- FunctionApproximator.py:34-40. The class of a function approximator is that of its meta parameters.
The training data `_inputs_training` and `_targets_training` are left out. -/
def Fa.json (fa : Fa) : Json :=
  ofObject fa.params.className [("_meta_params", fa.params.json),
    ("_model_params", match fa.model with
      | none => .obj (fa.params.paramNames.map fun name => (name, .null))
      | some ⟨_, m⟩ => m.json),
    ("_dim_input", ofOption (fun m => .num m.1) fa.model),
    ("_selected_param_names", ofOption (fun l => .arr (l.map .str)) fa.selected)]

/-- Dmp.py:136: the strings for the scaling of forcing terms. -/
def ForcingScaling.name : ForcingScaling → String
  | .noScaling => "NO_SCALING"
  | .gMinusY0 => "G_MINUS_Y0_SCALING"
  | .amplitude => "AMPLITUDE_SCALING"

/-- Dmp.py:68-158. The attribute `_y_init` exists once the setter was used (Dmp.py:594).
`_trajectory_train` and the slices of lines 144-158 are left out. -/
def Dmp.json (s : Dmp) : Json :=
  ofObject "Dmp" (s.attributes ++ [("_y_attr", ofList s.yAttr),
    ("_function_approximators", ofOption (fun l => .arr (l.map Fa.json)) s.fas),
    ("_spring_system", s.spring.json), ("goal_system_requires_scaling", .bool s.requiresScaling),
    ("_phase_system", s.phase.json), ("_gating_system", s.gating.json),
    ("_goal_system", ofOption Sub.json s.goal), ("_damping_system", ofOption Sub.json s.damping),
    ("_forcing_term_scaling", .str s.scaling.name), ("_scaling_amplitudes", ofOption ofList s.amplitudes),
    ("_ts_train", ofOption ofList s.tsTrain), ("_selected_param_names", .arr (s.selected.map .str))] ++
    (s.yInit?.map fun y => ("_y_init", ofList y)).toList)

namespace Cpp

namespace Json

/-! ### nlohmann::json -/

/-- `j.at(key)`: throws if j is not an object, or has no such member. -/
def get (key : String) : Json → CppResult Json
  | .obj l =>
    match l.lookup key with
    | some v => .ok v
    | none => .error .json
  | _ => .error .json

/-- `j.at(i)`: throws if j is not an array, or has no such element. -/
def elem (i : Nat) : Json → CppResult Json
  | .arr l =>
    match l[i]? with
    | some v => .ok v
    | none => .error .json
  | _ => .error .json

/-- `j.size()`: 0 for null, the number of elements or members, 1 for the other values. -/
def size : Json → Nat
  | .null => 0
  | .arr l => l.length
  | .obj l => l.length
  | _ => 1

/-- `double d = j`. -/
def double : Json → CppResult ℝ
  | .num x => .ok x
  | _ => .error .json

/-- `int i = j` (TimeSystem.cpp:121): a number is truncated, and a bool is 0 or 1. -/
def int : Json → CppResult Int
  | .num x => .ok (if 0 ≤ x then ⌊x⌋ else ⌈x⌉)
  | .bool b => .ok (if b then 1 else 0)
  | _ => .error .json

/-- `string s = j`. -/
def string : Json → CppResult String
  | .str s => .ok s
  | _ => .error .json

/-! ### eigen_json.hpp, eigen_json.tpp -/

/-- A matrix as the list of its rows. The number of columns is given separately, as there may be no row. -/
structure Matrix where
  rows : List (List ℝ)
  cols : Nat

/-- The entries of a matrix. -/
def Matrix.entries (m : Matrix) (n d : Nat) : Fin n → Fin d → ℝ := fun i k => (m.rows.getD i []).getD k 0

/-- eigen_json.tpp:26-30: the entries of a row from column `col` on. Eigen asserts that the indices are
within the matrix. -/
def fillRow (cols : Nat) : Nat → List Json → CppResult (List ℝ)
  | _, [] => .ok []
  | col, v :: vs => do
    let x ← double v
    if cols ≤ col then throw .assertion
    return x :: (← fillRow cols (col + 1) vs)

/-- eigen_json.tpp:20-38: a row of a matrix that has been resized. Simplification: the entries that a
shorter row leaves unspecified are reported as nan. -/
def readRow (cols : Nat) (jrow : Json) : CppResult (List ℝ) := do
  let row ← match jrow with
    | .arr l => fillRow cols 0 l
    | v => fillRow cols 0 [v]
  if row.length < cols then throw .nan
  return row

/-- eigen_json.tpp:21-24 and 32-36: the number of columns, given by the first row. -/
def rowSize : Json → Nat
  | .arr l => l.length
  | _ => 1

/-- eigen_json.tpp:11-40 from_json, for MatrixXd, whose size is 0 x 0 unless there is a row. -/
def matrix (j : Json) : CppResult Matrix := do
  if size j = 0 then return ⟨[], 0⟩
  let first ← elem 0 j
  let rows ← (List.range (size j)).mapM fun i => do readRow (rowSize first) (← elem i j)
  return ⟨rows, rowSize first⟩

/-- eigen_json.tpp:11-40 from_json, for VectorXd: Eigen asserts that the number of columns is 1. -/
def vector (j : Json) : CppResult (List ℝ) := do
  if size j = 0 then return []
  let first ← elem 0 j
  if rowSize first ≠ 1 then throw .assertion
  (List.range (size j)).mapM fun i => do return (← readRow 1 (← elem i j)).getD 0 0

/-- eigen_json.hpp:47-57 to_json. Without rows the value is not changed and is null. -/
def ofMatrix (rows : List (List ℝ)) : Json :=
  if rows = [] then .null else .arr (rows.map fun r => .arr (r.map .num))

/-- eigen_json.hpp:47-57 to_json for VectorXd: one array with one entry for each row. -/
def ofVector (v : List ℝ) : Json := ofMatrix (v.map fun x => [x])

/-- The rows of a matrix. -/
def rowsOf {n d : Nat} (a : Fin n → Fin d → ℝ) : List (List ℝ) := List.ofFn fun i => List.ofFn (a i)

end Json

open Json

/-! ### Systems -/

/-- TimeSystem.cpp:118-125 from_json. -/
def TimeSystem.fromJson (j : Json) : CppResult TimeSystem := do
  let tau ← double (← get "_tau" j)
  let countDown ← int (← get "_count_down" j)
  TimeSystem.make tau (0 < countDown)

/-- ExponentialSystem.cpp:91-99 from_json. -/
def Exponential.fromJson (j : Json) : CppResult Exponential := do
  let tau ← double (← get "_tau" j)
  let alpha ← double (← get "alpha" j)
  let xInit ← vector (← get "_x_init" j)
  let xAttr ← vector (← get "_x_attr" j)
  Exponential.make tau xInit xAttr alpha

/-- SigmoidSystem.cpp:165-173 from_json. -/
def Sigmoid.fromJson (j : Json) : CppResult Sigmoid := do
  let tau ← double (← get "_tau" j)
  let maxRate ← double (← get "_max_rate" j)
  let inflRatio ← double (← get "_inflection_ratio" j)
  let xInit ← vector (← get "_x_init" j)
  Sigmoid.make tau xInit maxRate inflRatio

/-- SpringDamperSystem.cpp:164-177 from_json. -/
def Spring.fromJson (j : Json) : CppResult Spring := do
  let tau ← double (← get "_tau" j)
  let damping ← double (← get "damping_coefficient" j)
  let spring ← double (← get "spring_constant" j)
  let mass ← double (← get "mass" j)
  let yAttr ← vector (← get "_y_attr" j)
  let xInit ← vector (← get "_x_init" j)
  -- x_init.segment(0, y_attr.size())
  if xInit.length < yAttr.length then throw .assertion
  Spring.make tau (xInit.take yAttr.length) yAttr damping spring mass

/-- DynamicalSystem.cpp:150-171 from_json. The result is NULL for an unknown class. -/
def AnySystem.fromJson (j : Json) : CppResult (Option AnySystem) := do
  let cls ← string (← get "class" j)
  if cls = "ExponentialSystem" then return some (.exponential (← Exponential.fromJson j))
  else if cls = "SigmoidSystem" then return some (.sigmoid (← Sigmoid.fromJson j))
  else if cls = "SpringDamperSystem" then return some (.spring (← Spring.fromJson j))
  else if cls = "TimeSystem" then return some (.time (← TimeSystem.fromJson j))
  else return none

/-- DynamicalSystem.cpp:173-180 to_json_base. The member `class`, which the callers replace, is left out. -/
def Base.toJson (s : Base) : CppResult (List (String × Json)) :=
  -- x_init_.segment(0, dim_y_)
  if s.xInit.length < s.dimY then .error .assertion
  else .ok [("_dim_x", .num s.dimX), ("_dim_y", .num s.dimY), ("_tau", .num s.tau),
    ("_y_init", ofVector (s.xInit.take s.dimY))]

/-- TimeSystem.cpp:127-132 to_json_helper. -/
def TimeSystem.toJson (s : TimeSystem) : CppResult Json := do
  return .obj ((← s.toBase.toJson) ++ [("_count_down", .bool s.countDown), ("class", .str "TimeSystem")])

/-- ExponentialSystem.cpp:101-107 to_json_helper. -/
def Exponential.toJson (s : Exponential) : CppResult Json := do
  return .obj ((← s.toBase.toJson) ++ [("alpha", .num s.alpha), ("_y_attr", ofVector s.xAttr),
    ("class", .str "ExponentialSystem")])

/-- SigmoidSystem.cpp:175-182 to_json_helper. -/
def Sigmoid.toJson (s : Sigmoid) : CppResult Json := do
  return .obj ((← s.toBase.toJson) ++ [("_max_rate", .num s.maxRate), ("_inflection_ratio", .num s.inflRatio),
    ("class", .str "SigmoidSystem")])

/-- SpringDamperSystem.cpp:179-188 to_json_helper. -/
def Spring.toJson (s : Spring) : CppResult Json := do
  return .obj ((← s.toBase.toJson) ++ [("damping_coefficient", .num s.damping),
    ("spring_constant", .num s.spring), ("mass", .num s.mass), ("_y_attr", ofVector s.yAttr),
    ("class", .str "SpringDamperSystem")])

/-- The virtual method to_json_helper. -/
def AnySystem.toJson : AnySystem → CppResult Json
  | .time s => s.toJson
  | .exponential s => s.toJson
  | .sigmoid s => s.toJson
  | .spring s => s.toJson

/-! ### Function approximators -/

/-- FunctionApproximatorRBFN.cpp:98-105 from_json and 40-55, constructor. The member `weights_` is a
vector, so that Eigen asserts that the matrix has one column. -/
def Rbfn.fromJson (j : Json) : CppResult Rbfn := do
  let jm ← get "_model_params" j
  let centers ← matrix (← get "centers" jm)
  let widths ← matrix (← get "widths" jm)
  let weights ← matrix (← get "weights" jm)
  let n := centers.rows.length
  if weights.cols ≠ 1 then throw .assertion
  if n ≠ widths.rows.length then throw .assertion
  if n ≠ weights.rows.length then throw .assertion
  if centers.cols ≠ widths.cols then throw .assertion
  return { d := centers.cols
           n := n
           centers := centers.entries n centers.cols
           widths := widths.entries n centers.cols
           weights := fun b => weights.entries n 1 b 0 }

/-- FunctionApproximatorLWR.cpp:214-222 from_json and 42-66, constructor. The member `offsets_` is a
vector. -/
def Lwr.fromJson (j : Json) : CppResult Lwr := do
  let jm ← get "_model_params" j
  let centers ← matrix (← get "centers" jm)
  let widths ← matrix (← get "widths" jm)
  let slopes ← matrix (← get "slopes" jm)
  let offsets ← matrix (← get "offsets" jm)
  let n := centers.rows.length
  if offsets.cols ≠ 1 then throw .assertion
  if n ≠ widths.rows.length then throw .assertion
  if centers.cols ≠ widths.cols then throw .assertion
  if n ≠ slopes.rows.length then throw .assertion
  if centers.cols ≠ slopes.cols then throw .assertion
  if n ≠ offsets.rows.length then throw .assertion
  return { d := centers.cols
           n := n
           centers := centers.entries n centers.cols
           widths := widths.entries n centers.cols
           slopes := slopes.entries n centers.cols
           offsets := fun b => offsets.entries n 1 b 0 }

/-- FunctionApproximator.cpp:38-53 from_json. The result is NULL for an unknown class. -/
def AnyFa.fromJson (j : Json) : CppResult (Option AnyFa) := do
  let cls ← string (← get "class" j)
  if cls = "FunctionApproximatorRBFN" then return some (.rbfn (← Rbfn.fromJson j))
  else if cls = "FunctionApproximatorLWR" then return some (.lwr (← Lwr.fromJson j))
  else return none

/-- FunctionApproximatorRBFN.cpp:107-113 to_json_helper. -/
def Rbfn.toJson (m : Rbfn) : Json :=
  .obj [("_model_params", .obj [("centers", ofMatrix (rowsOf m.centers)), ("widths", ofMatrix (rowsOf m.widths)),
    ("weights", ofVector (List.ofFn m.weights))]), ("class", .str "FunctionApproximatorRBFN")]

/-- FunctionApproximatorLWR.cpp:224-231 to_json_helper. -/
def Lwr.toJson (m : Lwr) : Json :=
  .obj [("_model_params", .obj [("centers", ofMatrix (rowsOf m.centers)), ("widths", ofMatrix (rowsOf m.widths)),
    ("offsets", ofVector (List.ofFn m.offsets)), ("slopes", ofMatrix (rowsOf m.slopes))]),
    ("class", .str "FunctionApproximatorLWR")]

/-- The virtual method to_json_helper. -/
def AnyFa.toJson : AnyFa → Json
  | .rbfn m => m.toJson
  | .lwr m => m.toJson

/-! ### Dmp -/

namespace Dmp

/-- Dmp.cpp:321, 326, 432 and 436 compare the string with these two; any other string means that there is
no scaling. -/
def scalingOf (s : String) : ForcingScaling :=
  if s = "G_MINUS_Y0_SCALING" then .gMinusY0
  else if s = "AMPLITUDE_SCALING" then .amplitude
  else .noScaling

/-- Dmp.cpp:565-573: the function approximators. -/
def fasFromJson (nDims : Nat) : Json → CppResult (List (Option AnyFa))
  | .arr l => (List.range nDims).mapM fun i => do AnyFa.fromJson (← elem i (.arr l))
  | _ => .ok []

/-- Dmp.cpp:545-578 from_json. -/
def fromJson (j : Json) : CppResult Dmp := do
  let tau ← double (← get "_tau" j)
  let alpha ← double (← get "damping_coefficient" (← get "_spring_system" j))
  let yInit ← vector (← get "_y_init" j)
  let yAttr ← vector (← get "_y_attr" j)
  let goal ← Exponential.fromJson (← get "_goal_system" j)
  let phase ← AnySystem.fromJson (← get "_phase_system" j)
  let gating ← AnySystem.fromJson (← get "_gating_system" j)
  let scaling ← string (← get "_forcing_term_scaling" j)
  let amplitudes ← vector (← get "_scaling_amplitudes" j)
  let fas ← fasFromJson yAttr.length (← get "_function_approximators" j)
  make tau yInit yAttr fas alpha (some goal) phase gating (scalingOf scaling) amplitudes

/-- Dmp.cpp:580-592 to_json_helper. Pointers that are NULL are dereferenced (DynamicalSystem.hpp:317,
ExponentialSystem.hpp:120, FunctionApproximator.hpp:99). An empty list of function approximators is an
empty array. -/
def toJson (s : Dmp) : CppResult Json := do
  let base ← s.toBase.toJson
  let goal ← (← deref s.goal).toJson
  let phase ← (← deref s.phase).toJson
  let gating ← (← deref s.gating).toJson
  let fas ← s.fas.mapM fun fa => do return (← deref fa).toJson
  return .obj (base ++ [("_spring_system", .obj [("damping_coefficient", .num s.spring.damping)]),
    ("_goal_system", goal), ("_phase_system", phase), ("_gating_system", gating),
    ("_forcing_term_scaling", .str s.scaling.name), ("_function_approximators", .arr fas),
    ("class", .str "Dmp")])

end Dmp

end Cpp

end Verif
