import Verif.Model.Trajectory
import Mathlib.Algebra.Polynomial.Derivative

/- Specifications for trajectory operations: what it means to keep some of the samples. -/

set_option autoImplicit false

namespace Verif.Spec

/-- Times are strictly increasing. -/
def Increasing {K : Type} [LT K] (ts : List K) : Prop := ts.Pairwise (· < ·)

/-- `r` consists of the entries of `l` with index `lo ≤ i < hi`, in order. -/
structure IsSlice {α : Type} (lo hi : Nat) (l r : List α) : Prop where
  length : r.length = min hi l.length - lo
  get : ∀ i, lo + i < hi → r[i]? = l[lo + i]?

/-- The index that a Python index denotes in a list of length `n`: negative indices count from the
end. -/
def pyIndex (n : Nat) (i : Int) : Nat := if 0 ≤ i then i.toNat else n - (-i).toNat

/-- The samples of a trajectory: time, position, velocity and acceleration. -/
def samples {K : Type} (s : Trajectory K) : List (K × List K × List K × List K) :=
  s.ts.zip (s.ys.rows.zip (s.yds.rows.zip s.ydds.rows))

/-- Entry in row `i` and column `j` of a 2-D array, if there is one. -/
def entry {K : Type} (a : Arr2 K) (i j : Nat) : Option K := a.rows[i]?.bind fun r => r[j]?

/-- In dimension `j` the samples of `s` are values of the polynomial `P` and of its first and second
derivative. -/
def Follows {K : Type} [Field K] (s : Trajectory K) (j : Nat) (P : Polynomial K) : Prop :=
  ∀ (i : Nat) (t : K), s.ts[i]? = some t →
    entry s.ys i j = some (P.eval t) ∧
    entry s.yds i j = some ((Polynomial.derivative P).eval t) ∧
    entry s.ydds i j = some ((Polynomial.derivative (Polynomial.derivative P)).eval t)

/-- In dimension `j` the first or last sample (`i`) of `s` has the given position, velocity and
acceleration. -/
def SampleIs {K : Type} (s : Trajectory K) (i j : Nat) (y yd ydd : K) : Prop :=
  entry s.ys i j = some y ∧ entry s.yds i j = some yd ∧ entry s.ydds i j = some ydd

/-- `n` equidistant times. -/
def equidistant {K : Type} [Field K] (t0 dt : K) (n : Nat) : List K :=
  (List.range n).map fun (i : Nat) => t0 + (i : K) * dt

end Verif.Spec
