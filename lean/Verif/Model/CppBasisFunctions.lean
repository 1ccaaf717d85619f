import Verif.Model.CppApproximators
import Mathlib.LinearAlgebra.Matrix.NonsingularInverse
import Mathlib.Analysis.SpecialFunctions.Trigonometric.Basic

/-
The functions of src/functionapproximators/BasisFunction.cpp that `CppApproximators.lean` does not have:
asymmetric kernels, Gaussians with covariance matrices, and cosines. Sizes of vectors and matrices that must be
the same are the same by their type; that the code asserts only some of them is not modelled. Numbers are exact.
-/

noncomputable section

set_option autoImplicit false

namespace Verif

namespace Cpp

/-- BasisFunction.cpp:158-164: the width of a kernel at `x`. Left of its center an asymmetric kernel has the width of
the previous kernel. -/
def kernelWidth {n d : Nat} (asymmetric : Bool) (centers widths : Fin n → Fin d → ℝ) (b : Fin n) (i : Fin d) (x : ℝ) : ℝ :=
  if asymmetric = true ∧ x < centers b i ∧ 0 < b.val then widths ⟨b.val - 1, by omega⟩ i else widths b i

/-- BasisFunction.cpp:154-168: the entry for one sample and one basis function. -/
def kernelActivation {n d : Nat} (asymmetric : Bool) (centers widths : Fin n → Fin d → ℝ) (x : Fin d → ℝ) (b : Fin n) : ℝ :=
  (List.finRange d).foldl
    (fun a i => a * gauss (x i) (centers b i) (kernelWidth asymmetric centers widths b i (x i))) 1

open Classical in
/-- BasisFunction.cpp:108-188 Gaussian::activations, with the argument `asymmetric_kernels`. The result is NaN for a
zero width at the center only: left of the center, a zero width of the previous kernel gives `exp(-inf)`. -/
def kernelActivations {n d N : Nat} (centers widths : Fin n → Fin d → ℝ) (inputs : Fin N → Fin d → ℝ)
    (normalized asymmetric : Bool) : CppResult (Fin N → Fin n → ℝ) :=
  if normalized = true ∧ n = 1 then .ok fun _ _ => 1
  else if ∃ s b i, widths b i = 0 ∧ inputs s i = centers b i then .error .nan
  else
    let act : Fin N → Fin n → ℝ := fun s b => kernelActivation asymmetric centers widths (inputs s) b
    if normalized then
      .ok fun s b =>
        let sum := (List.ofFn (act s)).sum
        if sum = 0 then 1 / (n : ℝ) else act s b / sum
    else .ok act

/-- BasisFunction.cpp:84-87: the entry for one sample and one basis function. -/
def covarActivation {d : Nat} (mu : Fin d → ℝ) (covar : Matrix (Fin d) (Fin d) ℝ) (prior : ℝ) (x : Fin d → ℝ) : ℝ :=
  let diff : Fin d → ℝ := x - mu
  prior * Real.exp (-0.5 * (diff ⬝ᵥ covar⁻¹.mulVec diff))

open Classical in
/-- BasisFunction.cpp:91-105: normalisation. If a sum is zero, to all sums is added a fraction of the largest. The
division by zero gives nan (or an infinite number). -/
def normalizeRows {n N : Nat} (act : Fin N → Fin n → ℝ) : CppResult (Fin N → Fin n → ℝ) :=
  let sums : Fin N → ℝ := fun s => (List.ofFn (act s)).sum
  let sums : Fin N → ℝ := if ∃ s, sums s = 0 then fun s => sums s + (⨆ t, sums t) / 100000 else sums
  if ∃ s, sums s = 0 then .error .nan else .ok fun s b => act s b / sums s

open Classical in
/-- BasisFunction.cpp:39-106 Gaussian::activations with covariance matrices. Reading a prior that is not there is
undefined, reported as `null`. Simplification: the inverse of a singular matrix is reported as nan, although (one
dimension) the result can be exp(-inf). -/
def covarActivations {d N : Nat} (mus : List (Fin d → ℝ)) (covars : List (Matrix (Fin d) (Fin d) ℝ))
    (priors : List ℝ) (inputs : Fin N → Fin d → ℝ) (normalized : Bool) :
    CppResult (Fin N → Fin mus.length → ℝ) :=
  if mus.length = 0 then .error .assertion
  else if h : covars.length = mus.length then
    if normalized = true ∧ mus.length = 1 then .ok fun _ _ => 1
    else if hp : mus.length ≤ priors.length then
      if 0 < N ∧ ∃ covar ∈ covars, covar.det = 0 then .error .nan
      else
        let act : Fin N → Fin mus.length → ℝ := fun s b =>
          covarActivation (mus.get b) (covars.get (b.cast h.symm)) (priors.get (b.castLE hp)) (inputs s)
        if normalized then normalizeRows act else .ok act
    else .error .null
  else .error .assertion

/-- BasisFunction.cpp:190-213 Cosine::activations with vectors. Each matrix has one row. -/
def cosineActivations {d N : Nat} (frequencies : List (Fin d → ℝ)) (phases : List ℝ) (inputs : Fin N → Fin d → ℝ) :
    CppResult (Fin N → Fin frequencies.length → ℝ) :=
  if frequencies.length = 0 then .error .assertion
  else if h : phases.length = frequencies.length then
    .ok fun s b => Real.cos (frequencies.get b ⬝ᵥ inputs s + phases.get (b.cast h.symm))
  else .error .assertion

/-- BasisFunction.cpp:215-225 Cosine::activations with matrices. Eigen asserts that the sizes of a row and of the
vector that is added are the same. -/
def cosineMatrix {n m d N : Nat} (frequencies : Matrix (Fin n) (Fin d) ℝ) (phases : Fin m → ℝ)
    (inputs : Matrix (Fin N) (Fin d) ℝ) : CppResult (Matrix (Fin N) (Fin n) ℝ) :=
  if h : m = n then
    .ok ((inputs * frequencies.transpose + Matrix.of fun _ b => phases (Fin.cast h.symm b)).map Real.cos)
  else .error .assertion

end Cpp

end Verif
