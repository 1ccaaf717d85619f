import Mathlib.Analysis.SpecialFunctions.Trigonometric.Basic

/-
What a digital low-pass filter is, independent of the code: its difference equation, its frequency
response, and filtering forward and backward in time.
-/

set_option autoImplicit false

noncomputable section

namespace Verif

namespace Spec

/-- Frequency response of the filter with the difference equation
`∑ a_j y_{k-j} = ∑ b_j x_{k-j}` (`j = 0, …, n`) at the angular frequency `w` per sample. -/
def response (n : Nat) (b a : Nat → ℝ) (w : ℝ) : ℂ :=
  (∑ k ∈ Finset.range (n + 1), b k * Complex.exp (-(Complex.I * w * k))) /
    ∑ k ∈ Finset.range (n + 1), a k * Complex.exp (-(Complex.I * w * k))

/-- A series that had the value `v` at all times before the first sample. -/
def heldBefore (v : ℝ) (l : List ℝ) (k : ℤ) : ℝ := if k < 0 then v else l.getD k.toNat 0

/-- `y` is the output for the input `x` if input and output were equal to the first input at all
times before. -/
structure FilteredFromRest (n : Nat) (b a : Nat → ℝ) (x y : List ℝ) : Prop where
  length : y.length = x.length
  equation : ∀ k : Nat, k < x.length →
    ∑ j ∈ Finset.range (n + 1), a j * heldBefore (x.headD 0) y (k - j) =
      ∑ j ∈ Finset.range (n + 1), b j * heldBefore (x.headD 0) x (k - j)

/-- `e` extends `x` by `m` samples on both sides, by reflecting it in its first and in its last
point. -/
structure Reflected (m : Nat) (x e : List ℝ) : Prop where
  length : e.length = x.length + 2 * m
  inner : ∀ i, i < x.length → e.getD (m + i) 0 = x.getD i 0
  front : ∀ i, i ≤ m → e.getD (m - i) 0 = 2 * x.getD 0 0 - x.getD i 0
  back : ∀ i, i ≤ m → e.getD (m + x.length - 1 + i) 0 =
    2 * x.getD (x.length - 1) 0 - x.getD (x.length - 1 - i) 0

/-- `y` is `x`, extended by `m` samples on both sides, filtered forward in time, then backward in
time, and cut back to the times of `x`. -/
structure FilteredBothWays (n : Nat) (b a : Nat → ℝ) (m : Nat) (x y : List ℝ) : Prop where
  passes : ∃ e u v, Reflected m x e ∧ FilteredFromRest n b a e u ∧
    FilteredFromRest n b a u.reverse v ∧ y.length = x.length ∧
    ∀ i, i < x.length → y.getD i 0 = v.reverse.getD (m + i) 0

end Spec

end Verif
