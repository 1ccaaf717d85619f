import Mathlib.Analysis.SpecialFunctions.Sqrt
import Mathlib.Algebra.BigOperators.Group.Finset.Basic
import Mathlib.Data.List.GetD

/- What the cost components of a viapoint task are. -/

set_option autoImplicit false

namespace Verif.Spec

open Finset

noncomputable section

/-- Euclidean distance of two points with `n` coordinates. -/
def distance (n : Nat) (x y : List ℝ) : ℝ := Real.sqrt (∑ i ∈ range n, (x.getD i 0 - y.getD i 0) ^ 2)

/-- `k` is the first of the samples that are closest to `p`. -/
def IsClosest (n : Nat) (ys : List (List ℝ)) (p : List ℝ) (k : Nat) : Prop :=
  k < ys.length ∧ (∀ j < ys.length, distance n (ys.getD k []) p ≤ distance n (ys.getD j []) p) ∧
    ∀ j < k, distance n (ys.getD k []) p < distance n (ys.getD j []) p

/-- `k` is the first sample at or after time `t`, or 0 if there is none. -/
def IsFirstFrom (ts : List ℝ) (t : ℝ) (k : Nat) : Prop :=
  (k < ts.length ∧ t ≤ ts.getD k 0 ∧ ∀ j < k, ts.getD j 0 < t) ∨ (k = 0 ∧ ∀ j < ts.length, ts.getD j 0 < t)

/-- The samples at or after time `t`. -/
def samplesFrom (ts : List ℝ) (t : ℝ) : Finset Nat := by
  classical exact (range ts.length).filter fun i => t ≤ ts.getD i 0

/-- The samples the mean of the accelerations and of the distances to the goal is taken over: all, or
with an active goal those at or after the time of the goal. -/
def meanOver (ts : List ℝ) : Option ℝ → Finset Nat
  | none => range ts.length
  | some t => samplesFrom ts t

end

end Verif.Spec
