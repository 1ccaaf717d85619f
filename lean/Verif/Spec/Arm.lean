import Mathlib.Analysis.SpecialFunctions.Trigonometric.Basic
import Mathlib.Algebra.BigOperators.Group.Finset.Basic
import Mathlib.Data.List.GetD

/- A planar arm. -/

set_option autoImplicit false

namespace Verif.Spec

open Finset

noncomputable section

/-- The direction of link `i`: angles are relative to the link before. -/
def direction (angles : List ℝ) (i : Nat) : ℝ := ∑ k ∈ range (i + 1), angles.getD k 0

/-- The position of joint `k`, which is the end of the first `k` links; the base is at the origin. -/
def joint (lengths angles : List ℝ) (k : Nat) : ℝ × ℝ :=
  (∑ i ∈ range k, lengths.getD i 0 * Real.cos (direction angles i),
    ∑ i ∈ range k, lengths.getD i 0 * Real.sin (direction angles i))

/-- Distance of two points in the plane. -/
def dist2 (p q : ℝ × ℝ) : ℝ := Real.sqrt ((p.1 - q.1) ^ 2 + (p.2 - q.2) ^ 2)

/-- The point `p`, rotated about the origin. -/
def rotate (angle : ℝ) (p : ℝ × ℝ) : ℝ × ℝ :=
  (Real.cos angle * p.1 - Real.sin angle * p.2, Real.sin angle * p.1 + Real.cos angle * p.2)

end

end Verif.Spec
