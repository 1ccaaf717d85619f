import Verif.Model.CppJson

/-
What it means that a json value has a member, and that it represents a vector or a matrix, and which
members the objects of the C++ classes have.
-/

noncomputable section

set_option autoImplicit false

namespace Verif.Spec

/-- `j` is an object whose first member with the key is `v`. -/
def Member (j : Json) (key : String) (v : Json) : Prop :=
  ∃ before after, j = .obj (before ++ (key, v) :: after) ∧ ∀ p ∈ before, p.1 ≠ key

/-- `j` has nothing in it: null, or an empty array or object. -/
def Nothing (j : Json) : Prop := j = .null ∨ j = .arr [] ∨ j = .obj []

/-- One entry of a vector: a number, or an array with a number. -/
def IsEntry (j : Json) (x : ℝ) : Prop := j = .num x ∨ j = .arr [.num x]

/-- `j` represents the vector `v`. -/
def IsVector (j : Json) (v : List ℝ) : Prop :=
  (Nothing j ∧ v = []) ∨ ∃ l, j = .arr l ∧ l ≠ [] ∧ List.Forall₂ IsEntry l v

/-- One row of a matrix: an array of numbers, or a number if there is one column. -/
def IsRow (j : Json) (row : List ℝ) : Prop := j = .arr (row.map .num) ∨ ∃ x, j = .num x ∧ row = [x]

/-- `j` represents the matrix with these rows, each with `cols` entries. -/
def IsMatrix (j : Json) (rows : List (List ℝ)) (cols : Nat) : Prop :=
  (Nothing j ∧ rows = [] ∧ cols = 0) ∨
    ∃ l, j = .arr l ∧ l ≠ [] ∧ List.Forall₂ IsRow l rows ∧ ∀ r ∈ rows, r.length = cols

/-- `j` has a member that represents the vector `v`. -/
def HasVector (j : Json) (key : String) (v : List ℝ) : Prop := ∃ w, Member j key w ∧ IsVector w v

/-- `j` has a member that represents the rows of an array. -/
def HasArray (j : Json) (key : String) {n d : Nat} (a : Fin n → Fin d → ℝ) : Prop :=
  ∃ w, Member j key w ∧ IsMatrix w (List.ofFn fun i => List.ofFn (a i)) d

/-- A system of order 1 or 2 whose initial state starts with `y`, followed by zeros. -/
structure StartsWith (b : Cpp.Base) (order : Nat) (y : List ℝ) : Prop where
  dimY : b.dimY = y.length
  dimX : b.dimX = order * y.length
  xInit : b.xInit = y ++ List.replicate ((order - 1) * y.length) 0

/-- The time system that `j` describes. -/
structure DescribesTime (j : Json) (s : Cpp.TimeSystem) : Prop where
  tau : Member j "_tau" (.num s.tau)
  down : s.countDown = true → ∃ v, Member j "_count_down" v ∧ (v = .bool true ∨ ∃ x, v = .num x ∧ 1 ≤ x)
  up : s.countDown = false → ∃ v, Member j "_count_down" v ∧ (v = .bool false ∨ ∃ x, v = .num x ∧ x < 1)
  start : StartsWith s.toBase 1 [if s.countDown then 1 else 0]

/-- The exponential system that `j` describes. -/
structure DescribesExponential (j : Json) (s : Cpp.Exponential) : Prop where
  tau : Member j "_tau" (.num s.tau)
  alpha : Member j "alpha" (.num s.alpha)
  xInit : HasVector j "_x_init" s.xInit
  xAttr : HasVector j "_x_attr" s.xAttr
  start : StartsWith s.toBase 1 s.xInit

/-- The sigmoid system that `j` describes. The carrying capacity is such that the state has half its value
at the inflection time. -/
structure DescribesSigmoid (j : Json) (s : Cpp.Sigmoid) : Prop where
  tau : Member j "_tau" (.num s.tau)
  maxRate : Member j "_max_rate" (.num s.maxRate)
  inflRatio : Member j "_inflection_ratio" (.num s.inflRatio)
  xInit : HasVector j "_x_init" s.xInit
  start : StartsWith s.toBase 1 s.xInit
  ks : s.ks = s.xInit.map fun x => x * (1 + Real.exp (s.maxRate * (s.inflRatio * s.tau)))

/-- The spring-damper system that `j` describes. Of the initial state only the positions are used. A spring
constant of -1 stands for critical damping. -/
structure DescribesSpring (j : Json) (s : Cpp.Spring) : Prop where
  tau : Member j "_tau" (.num s.tau)
  damping : Member j "damping_coefficient" (.num s.damping)
  spring : ∃ k, Member j "spring_constant" (.num k) ∧ s.spring = if k = -1 then s.damping ^ 2 / 4 else k
  mass : Member j "mass" (.num s.mass)
  yAttr : HasVector j "_y_attr" s.yAttr
  xInit : ∃ y rest, HasVector j "_x_init" (y ++ rest) ∧ y.length = s.yAttr.length ∧ StartsWith s.toBase 2 y

/-- The system that `j` describes, if the class is known. -/
def DescribesSystem (j : Json) : Option Cpp.AnySystem → Prop
  | some (.time s) => Member j "class" (.str "TimeSystem") ∧ DescribesTime j s
  | some (.exponential s) => Member j "class" (.str "ExponentialSystem") ∧ DescribesExponential j s
  | some (.sigmoid s) => Member j "class" (.str "SigmoidSystem") ∧ DescribesSigmoid j s
  | some (.spring s) => Member j "class" (.str "SpringDamperSystem") ∧ DescribesSpring j s
  | none => ∃ c, Member j "class" (.str c) ∧
      c ∉ ["TimeSystem", "ExponentialSystem", "SigmoidSystem", "SpringDamperSystem"]

/-- The radial basis function network that `j` describes. -/
def DescribesRbfn (j : Json) (m : Cpp.Rbfn) : Prop :=
  ∃ p, Member j "_model_params" p ∧ 0 < m.n ∧ HasArray p "centers" m.centers ∧ HasArray p "widths" m.widths ∧
    HasArray p "weights" fun i (_ : Fin 1) => m.weights i

/-- The locally weighted regression that `j` describes. -/
def DescribesLwr (j : Json) (m : Cpp.Lwr) : Prop :=
  ∃ p, Member j "_model_params" p ∧ 0 < m.n ∧ HasArray p "centers" m.centers ∧ HasArray p "widths" m.widths ∧
    HasArray p "slopes" m.slopes ∧ HasArray p "offsets" fun i (_ : Fin 1) => m.offsets i

/-- The function approximator that `j` describes, if the class is known. -/
def DescribesFa (j : Json) : Option Cpp.AnyFa → Prop
  | some (.rbfn m) => Member j "class" (.str "FunctionApproximatorRBFN") ∧ DescribesRbfn j m
  | some (.lwr m) => Member j "class" (.str "FunctionApproximatorLWR") ∧ DescribesLwr j m
  | none => ∃ c, Member j "class" (.str c) ∧ c ≠ "FunctionApproximatorRBFN" ∧ c ≠ "FunctionApproximatorLWR"

/-- The members that every system writes. -/
structure WritesBase (j : Json) (b : Cpp.Base) (cls : String) : Prop where
  cls : Member j "class" (.str cls)
  tau : Member j "_tau" (.num b.tau)
  dimX : Member j "_dim_x" (.num b.dimX)
  dimY : Member j "_dim_y" (.num b.dimY)
  yInit : HasVector j "_y_init" (b.xInit.take b.dimY)

/-- The members that a system writes in C++. -/
def WritesSystem (j : Json) : Cpp.AnySystem → Prop
  | .time s => WritesBase j s.toBase "TimeSystem" ∧ Member j "_count_down" (.bool s.countDown)
  | .exponential s => WritesBase j s.toBase "ExponentialSystem" ∧ Member j "alpha" (.num s.alpha) ∧
      HasVector j "_y_attr" s.xAttr
  | .sigmoid s => WritesBase j s.toBase "SigmoidSystem" ∧ Member j "_max_rate" (.num s.maxRate) ∧
      Member j "_inflection_ratio" (.num s.inflRatio)
  | .spring s => WritesBase j s.toBase "SpringDamperSystem" ∧ Member j "damping_coefficient" (.num s.damping) ∧
      Member j "spring_constant" (.num s.spring) ∧ Member j "mass" (.num s.mass) ∧ HasVector j "_y_attr" s.yAttr

/-- The members that a Dmp writes in C++. -/
structure WritesDmp (j : Json) (s : Cpp.Dmp) : Prop where
  base : WritesBase j s.toBase "Dmp"
  spring : ∃ v, Member j "_spring_system" v ∧ Member v "damping_coefficient" (.num s.spring.damping)
  goal : ∃ v g, Member j "_goal_system" v ∧ s.goal = some g ∧ WritesSystem v (.exponential g)
  phase : ∃ v g, Member j "_phase_system" v ∧ s.phase = some g ∧ WritesSystem v g
  gating : ∃ v g, Member j "_gating_system" v ∧ s.gating = some g ∧ WritesSystem v g
  scaling : ∃ c, Member j "_forcing_term_scaling" (.str c) ∧
    (s.scaling = .noScaling → c = "NO_SCALING") ∧ (s.scaling = .gMinusY0 → c = "G_MINUS_Y0_SCALING") ∧
    (s.scaling = .amplitude → c = "AMPLITUDE_SCALING")
  fas : ∃ l, Member j "_function_approximators" (.arr l) ∧
    List.Forall₂ (fun v fa => ∃ f, fa = some f ∧ v = Cpp.AnyFa.toJson f) l s.fas

/-- The model parameters are those of the class of the function approximator. -/
def OwnModel (fa : Fa) : Prop :=
  match fa.params, fa.model with
  | _, none => True
  | .rbfn .., some ⟨_, .rbfn _⟩ => True
  | .lwr .., some ⟨_, .lwr _⟩ => True
  | .wls .., some ⟨_, .wls _⟩ => True
  | .gpr .., some ⟨_, .gpr _⟩ => True
  | _, _ => False

end Verif.Spec
