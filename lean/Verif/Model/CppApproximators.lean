import Verif.Model.CppSystems
import Verif.Model.FunctionApproximator

/-
The C++ implementation: src/functionapproximators/*.cpp. See CppSystems.lean for what is simplified.
Asymmetric kernels (no caller asks for them), Gaussians with covariance matrices and cosine basis functions
(not used) are in CppBasisFunctions.lean.
-/

noncomputable section

set_option autoImplicit false

namespace Verif

namespace Cpp

/-- BasisFunction.cpp:166 `exp(-0.5 * pow(x - c, 2) / (w * w))`. For a zero width this is `exp(-inf)`,
which is 0, and NaN if also `x = c`, see `activations`. -/
def gauss (x c w : ℝ) : ℝ := if w = 0 then 0 else Real.exp (-0.5 * (x - c) ^ 2 / (w * w))

/-- BasisFunction.cpp:154-168: the entry for one sample and one basis function is filled with 1, and
multiplied with one factor for each dimension. -/
def rawActivation {d : Nat} (center width x : Fin d → ℝ) : ℝ :=
  (List.finRange d).foldl (fun a i => a * gauss (x i) (center i) (width i)) 1

open Classical in
/-- BasisFunction.cpp:108-188 Gaussian::activations. -/
def activations {n d N : Nat} (centers widths : Fin n → Fin d → ℝ) (inputs : Fin N → Fin d → ℝ)
    (normalized : Bool) : CppResult (Fin N → Fin n → ℝ) :=
  if normalized = true ∧ n = 1 then .ok fun _ _ => 1
  else if ∃ s b i, widths b i = 0 ∧ inputs s i = centers b i then .error .nan
  else
    let act : Fin N → Fin n → ℝ := fun s b => rawActivation (centers b) (widths b) (inputs s)
    if normalized then
      .ok fun s b =>
        let sum := (List.ofFn (act s)).sum
        if sum = 0 then 1 / (n : ℝ) else act s b / sum
    else .ok act

/-- FunctionApproximatorRBFN.hpp, members. -/
structure Rbfn where
  d : Nat
  n : Nat
  centers : Fin n → Fin d → ℝ
  widths : Fin n → Fin d → ℝ
  weights : Fin n → ℝ

/-- FunctionApproximatorRBFN.cpp:78-96 predict. -/
def Rbfn.predict {N : Nat} (m : Rbfn) (inputs : Fin N → Fin m.d → ℝ) : CppResult (Fin N → ℝ) := do
  let act ← activations m.centers m.widths inputs false
  return fun s => (List.ofFn fun b => act s b * m.weights b).sum

/-- FunctionApproximatorRBFN.cpp:57-76 predictRealTime. -/
def Rbfn.predictRealTime (m : Rbfn) (input : Fin m.d → ℝ) : CppResult ℝ := do
  let act ← activations m.centers m.widths (fun _ : Fin 1 => input) false
  return (List.ofFn fun b => act 0 b * m.weights b).sum

/-- FunctionApproximatorLWR.hpp, members. -/
structure Lwr where
  d : Nat
  n : Nat
  centers : Fin n → Fin d → ℝ
  widths : Fin n → Fin d → ℝ
  slopes : Fin n → Fin d → ℝ
  offsets : Fin n → ℝ

/-- FunctionApproximatorLWR.cpp:145-170 getLines. -/
def Lwr.getLines {N : Nat} (m : Lwr) (inputs : Fin N → Fin m.d → ℝ) : Fin N → Fin m.n → ℝ :=
  fun s l => (List.ofFn fun i => inputs s i * m.slopes l i).sum + m.offsets l

/-- FunctionApproximatorLWR.cpp:92-109 predict. -/
def Lwr.predict {N : Nat} (m : Lwr) (inputs : Fin N → Fin m.d → ℝ) : CppResult (Fin N → ℝ) := do
  let lines := m.getLines inputs
  let act ← activations m.centers m.widths inputs true
  return fun s => (List.ofFn fun b => lines s b * act s b).sum

/-- FunctionApproximatorLWR.cpp:68-90 predictRealTime. -/
def Lwr.predictRealTime (m : Lwr) (input : Fin m.d → ℝ) : CppResult ℝ := do
  let lines := m.getLines fun _ : Fin 1 => input
  let act ← activations m.centers m.widths (fun _ : Fin 1 => input) true
  return (List.ofFn fun b => lines 0 b * act 0 b).sum

/-- What a `FunctionApproximator*` that is not NULL points to. -/
inductive AnyFa
  | rbfn (m : Rbfn)
  | lwr (m : Lwr)

namespace AnyFa

/-- The virtual method predict. BasisFunction.cpp:126 asserts the number of columns. -/
def predict {N d : Nat} (inputs : Fin N → Fin d → ℝ) : AnyFa → CppResult (Fin N → ℝ)
  | .rbfn m => if h : m.d = d then m.predict fun s => inputs s ∘ Fin.cast h else .error .assertion
  | .lwr m => if h : m.d = d then m.predict fun s => inputs s ∘ Fin.cast h else .error .assertion

/-- The virtual method predictRealTime. -/
def predictRealTime {d : Nat} (input : Fin d → ℝ) : AnyFa → CppResult ℝ
  | .rbfn m => if h : m.d = d then m.predictRealTime (input ∘ Fin.cast h) else .error .assertion
  | .lwr m => if h : m.d = d then m.predictRealTime (input ∘ Fin.cast h) else .error .assertion

end AnyFa

/-! ### Reading what Python has written -/

/-- FunctionApproximatorRBFN.cpp:98-105 from_json, with the assertions of the constructor in lines
48-52. An array without rows is read as a matrix without columns, so that the number of columns of the
weights is not 1. -/
def readRbfn {d : Nat} (m : RbfnModel d) : CppResult Rbfn :=
  if m.kernels.n = 0 ∨ m.rows = 0 then .error .assertion
  else if h : m.rows = m.kernels.n ∧ m.cols = 1 then
    .ok { d := d
          n := m.kernels.n
          centers := m.kernels.centers
          widths := m.kernels.widths
          weights := fun b => m.weights (Fin.cast h.1.symm b) (Fin.cast h.2.symm 0) }
  else .error .assertion

/-- FunctionApproximatorLWR.cpp:214-222 from_json, with the assertions of the constructor in lines
57-62. -/
def readLwr {d : Nat} (m : LwrModel d) : CppResult Lwr :=
  if m.kernels.n = 0 ∨ m.lines = 0 then .error .assertion
  else if h : m.lines = m.kernels.n then
    .ok { d := d
          n := m.kernels.n
          centers := m.kernels.centers
          widths := m.kernels.widths
          slopes := fun b => m.slopes (Fin.cast h.symm b)
          offsets := fun b => m.offsets (Fin.cast h.symm b) }
  else .error .assertion

/-- FunctionApproximator.cpp:38-53 from_json. The result is NULL for a class that C++ does not have.
Before training the model parameters are None, read as empty matrices, which violate the assertions
about the number of columns of weights and offsets. -/
def readFa (fa : Fa) : CppResult (Option AnyFa) :=
  match fa.model with
  | some ⟨_, .rbfn m⟩ => return some (.rbfn (← readRbfn m))
  | some ⟨_, .lwr m⟩ => return some (.lwr (← readLwr m))
  | some ⟨_, .wls _⟩ => return none
  | some ⟨_, .gpr _⟩ => return none
  | none =>
    match fa.params with
    | .rbfn .. => .error .assertion
    | .lwr .. => .error .assertion
    | .wls .. => return none
    | .gpr .. => return none

end Cpp

end Verif
