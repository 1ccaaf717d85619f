import Mathlib.Data.Real.Basic
import Mathlib.Algebra.BigOperators.Group.List.Basic

/- Specifications for weights and updates in black-box optimisation. -/

set_option autoImplicit false

namespace Verif.Spec

/-- `idx` is a possible result of sorting the indices of `costs` by cost (in any order among equal
costs). -/
structure IsArgsort (costs : List ℝ) (idx : List Nat) : Prop where
  perm : idx.Perm (List.range costs.length)
  sorted : idx.Pairwise fun a b => costs.getD a 0 ≤ costs.getD b 0

/-- A probability vector. -/
structure IsProb (w : List ℝ) : Prop where
  nonneg : ∀ x ∈ w, 0 ≤ x
  sum : w.sum = 1

/-- The total costs: the first component of each cost vector. -/
def total (costs : List (List ℝ)) : List ℝ := costs.map fun c => c.headD 0

end Verif.Spec
