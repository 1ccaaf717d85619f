import Mathlib.Algebra.Field.Basic
import Mathlib.Data.List.GetD

/-
numpy vectors as lists.  Element-wise operations are total functions on lists; equal lengths
are guaranteed at the places of use by the size checks of the modelled code or by explicit
well-formedness hypotheses (numpy raises `ValueError` when lengths differ).
-/

set_option autoImplicit false

namespace Verif

variable {K : Type*} [Field K]

/-- numpy `a + b` for two 1-D arrays of equal size. -/
def vadd (a b : List K) : List K := List.zipWith (· + ·) a b

/-- numpy `a - b` for two 1-D arrays of equal size. -/
def vsub (a b : List K) : List K := List.zipWith (· - ·) a b

/-- numpy `a * b` (element-wise) for two 1-D arrays of equal size. -/
def vmul (a b : List K) : List K := List.zipWith (· * ·) a b

/-- numpy `a / b` (element-wise) for two 1-D arrays of equal size. -/
def vdiv (a b : List K) : List K := List.zipWith (· / ·) a b

/-- numpy `c * a` for a scalar `c`. -/
def vscale (c : K) (a : List K) : List K := a.map (c * ·)

/-- numpy `a / c` for a scalar `c`. -/
def vdivs (a : List K) (c : K) : List K := a.map (· / c)

/-- `np.zeros(n)` -/
def vzeros (n : Nat) : List K := List.replicate n 0

/-- A parameter that is either a Python scalar or a numpy array with one entry per dimension. -/
inductive Par (K : Type*)
  | scalar (c : K)
  | array (l : List K)
  deriving Repr, DecidableEq

namespace Par

/-- `p if np.isscalar(p) else p[i]`.  (Python raises `IndexError` when the array is too short;
well-formedness hypotheses on the length exclude this.) -/
def at' (p : Par K) (i : Nat) : K :=
  match p with
  | scalar c => c
  | array l => l.getD i 0

/-- numpy `p * a` -/
def mul (p : Par K) (a : List K) : List K :=
  match p with
  | scalar c => vscale c a
  | array l => vmul l a

/-- `np.full((n,), p)` for a scalar; arrays are left alone (the pattern used by all
`decouple_parameters` methods: `if np.isscalar(p): p = np.full((n,), p)`). -/
def decouple (p : Par K) (n : Nat) : Par K :=
  match p with
  | scalar c => array (List.replicate n c)
  | array l => array l

/-- The parameter has one entry per dimension if it is an array. -/
def Fits (p : Par K) (n : Nat) : Prop :=
  match p with
  | scalar _ => True
  | array l => l.length = n

end Par

end Verif
