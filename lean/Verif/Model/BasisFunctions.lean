import Verif.Model.Py
import Mathlib.Analysis.SpecialFunctions.Log.Basic
import Mathlib.Data.Matrix.Mul

/- functionapproximators/basis_functions.py: Gaussian basis functions. -/

set_option autoImplicit false

namespace Verif

noncomputable section

/-- Centres and widths of `n` basis functions, both arrays with `n` rows and `d` columns. -/
structure Kernels (d : Nat) where
  n : Nat
  centers : Fin n → Fin d → ℝ
  widths : Fin n → Fin d → ℝ

/-- `np.exp(-0.5 * np.square(x - c) / (w * w))`, basis_functions.py:96. A zero width leads to
`exp(-inf)`, which is 0 (for `x = c` see `activations`). -/
def actFactor (x c w : ℝ) : ℝ :=
  if w = 0 then 0 else Real.exp (-0.5 * (x - c) ^ 2 / (w * w))

/-- basis_functions.py:54-110 Gaussian._activations. The loop multiplies one factor per dimension to
the activation. A zero width together with an input at the centre gives `nan`.
Arrays in which a dimension is missing (reshaped in lines 70-74) are not modelled: all arrays are
two-dimensional and inputs and centres have the same number of columns. -/
def Kernels.activations {d N : Nat} (k : Kernels d) (normalized : Bool) (inputs : Fin N → Fin d → ℝ) :
    Except PyErr (Fin N → Fin k.n → ℝ) :=
  if normalized = true ∧ k.n = 1 then .ok fun _ _ => 1
  else
    open Classical in
    if ∃ s b i, k.widths b i = 0 ∧ inputs s i = k.centers b i then .error .nanResult
    else
      let act : Fin N → Fin k.n → ℝ := fun s b =>
        ∏ i : Fin d, actFactor (inputs s i) (k.centers b i) (k.widths b i)
      if normalized then
        .ok fun s b =>
          if ∑ b', act s b' = 0 then 1 / (k.n : ℝ)
          else act s b / ∑ b', act s b'
      else .ok act

/-- `np.linspace(lo, hi, n)`. -/
def linspace (lo hi : ℝ) (n : Nat) : List ℝ :=
  (List.range n).map fun (k : Nat) => lo + (k : ℝ) * ((hi - lo) / ((n : ℝ) - 1))

/-- basis_functions.py:143-160: widths of the basis functions of one dimension. For a height outside
(0,1) numpy's widths contain `nan` or `inf` (height 0: zero widths, which the model does not follow
either). -/
def widthsOf (height : ℝ) (centers : List ℝ) : Except PyErr (List ℝ) :=
  let n := centers.length
  if n > 1 then
    open Classical in
    if 0 < height ∧ height < 1 then
      let w := fun cc : Nat => √((centers.getD (cc + 1) 0 - centers.getD cc 0) ^ 2 / (-8 * Real.log height))
      .ok ((List.range (n - 1)).map w ++ [w (n - 2)])
    else .error .nanResult
  else .ok (List.replicate n 1)

/-- basis_functions.py:128-133. -/
def bfsPerDim (d : Nat) (nBfs : List Nat) : Except PyErr (List Nat) :=
  if nBfs.length < d then
    if nBfs.length = 1 then .ok (List.replicate d (nBfs.getD 0 0)) else .error .valueError
  else .ok nBfs

/-- basis_functions.py:182-187: the next digits. -/
def nextDigits (digitMax digit : List Nat) : List Nat :=
  let n := digit.length
  (List.range' 1 (n - 1)).reverse.foldl
    (fun dg i =>
      if dg.getD i 0 ≥ digitMax.getD i 0 then (dg.set i 0).modify (i - 1) (· + 1) else dg)
    (digit.modify (n - 1) (· + 1))

/-- `[l[k] for l, k in zip(lists, digit)]`, as in basis_functions.py:177-179. -/
def pickRow : List (List ℝ) → List Nat → Except PyErr (List ℝ)
  | l :: lists, k :: digit =>
    match l[k]? with
    | some v => do return v :: (← pickRow lists digit)
    | none => .error .indexError
  | _, _ => .ok []

/-- basis_functions.py:176-187: the rows of `centers` and `widths`. The first argument is the number
of rows that are not yet set; the remaining rows are zero, and setting more rows than there are
raises an exception. -/
def gridLoop (centers widths : List (List ℝ)) (digitMax : List Nat) :
    Nat → List Nat → Except PyErr (List (List ℝ × List ℝ))
  | 0, digit => if digit.getD 0 0 < digitMax.getD 0 0 then .error .indexError else .ok []
  | rows + 1, digit =>
    if digit.getD 0 0 < digitMax.getD 0 0 then do
      let c ← pickRow centers digit
      let w ← pickRow widths digit
      let rest ← gridLoop centers widths digitMax rows (nextDigits digitMax digit)
      return (c, w) :: rest
    else .ok (List.replicate (rows + 1) (digit.map fun _ => 0, digit.map fun _ => 0))

/-- Arrays with the given rows. -/
def Kernels.ofRows (d : Nat) (rows : List (List ℝ × List ℝ)) : Kernels d where
  n := rows.length
  centers b i := (rows.get b).1.getD i 0
  widths b i := (rows.get b).2.getD i 0

/-- `inputs.min(axis=0)[i]`, basis_functions.py:123. -/
def minInput {d N : Nat} (inputs : Fin N → Fin d → ℝ) (i : Fin d) : ℝ :=
  ((List.ofFn fun s => inputs s i).min?).getD 0

/-- `inputs.max(axis=0)[i]`, basis_functions.py:124. -/
def maxInput {d N : Nat} (inputs : Fin N → Fin d → ℝ) (i : Fin d) : ℝ :=
  ((List.ofFn fun s => inputs s i).max?).getD 0

/-- basis_functions.py:113-189 Gaussian.get_centers_and_widths, for an array with `N` rows and `d`
columns. Numbers of basis functions are natural numbers here. -/
def getCentersAndWidths {d N : Nat} (inputs : Fin N → Fin d → ℝ) (nBfsPerDim : List Nat)
    (height : ℝ) : Except PyErr (Kernels d) := do
  -- the minimum of an empty array
  if N = 0 then throw .valueError
  let nBfs ← bfsPerDim d nBfsPerDim
  let centers := List.ofFn fun i : Fin d =>
    linspace (minInput inputs i) (maxInput inputs i) (nBfs.getD i 0)
  let widths ← centers.mapM (widthsOf height)
  -- digit[0]
  if d = 0 then throw .indexError
  let rows ← gridLoop centers widths nBfs nBfs.prod (List.replicate d 0)
  return Kernels.ofRows d rows

end

end Verif
