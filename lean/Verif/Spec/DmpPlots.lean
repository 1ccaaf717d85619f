import Mathlib.Analysis.Calculus.Deriv.Basic
import Verif.Model.DmpPlots

/- Specification of the pictures of trajectories, systems and Dmps. -/

set_option autoImplicit false

namespace Verif.Spec

/-- The first curve is drawn on the first axes, the second on the second, and so on. Curves without axes are
not drawn. -/
def panels (axs : List Nat) (ts : List ℝ) (curves : List (List (List ℝ))) : List Drawing :=
  List.zipWith (fun ax values => ⟨ax, ts, values⟩) axs curves

/-- The rows of the columns `a, …, a+n-1`. -/
def columns (rows : List (List ℝ)) (a n : Nat) : List (List ℝ) :=
  rows.map fun row => (List.range n).map fun (j : Nat) => row.getD (a + j) 0

/-- A motion over time: positions, velocities and accelerations of each dimension. -/
structure Moving (d : Nat) (y yd ydd : ℝ → List ℝ) : Prop where
  size : ∀ t, (y t).length = d ∧ (yd t).length = d ∧ (ydd t).length = d
  velocity : ∀ i < d, ∀ t, HasDerivAt (fun t => (y t).getD i 0) ((yd t).getD i 0) t
  acceleration : ∀ i < d, ∀ t, HasDerivAt (fun t => (yd t).getD i 0) ((ydd t).getD i 0) t

/-- The axes on which the parts of the picture of a Dmp are drawn. -/
structure Layout where
  goal : Nat
  motion : List Nat
  phase : Option Nat
  gating : Nat
  forcing : Nat
  fa : Nat

/-- Two rows of axes. -/
def Layout.rows (axs : List Nat) : Layout :=
  ⟨axs.getD 0 0, [axs.getD 1 0, axs.getD 2 0, axs.getD 3 0], some (axs.getD 4 0), axs.getD 6 0, axs.getD 7 0, axs.getD 5 0⟩

/-- One row of axes. -/
def Layout.compact (axs : List Nat) : Layout :=
  ⟨axs.getD 0 0, [axs.getD 0 0, axs.getD 1 0, axs.getD 2 0], none, axs.getD 4 0, axs.getD 3 0, axs.getD 3 0⟩

/-- Positions, velocities and accelerations of the states of a Dmp with `d` dimensions. -/
noncomputable def motionCurves (d : Nat) (tau : ℝ) (xs xds : List (List ℝ)) : List (List (List ℝ)) :=
  [columns xs 0 d, columns xds 0 d, (columns xds d d).map fun zd => zd.map (· / tau)]

/-- The picture `p` shows the states, forcing terms and outputs of the function approximators in `sol`, the
demonstration, and the motion without forcing term in `unforced`. -/
structure ShowsDmp (d : Nat) (tau : ℝ) (l : Layout) (axs : List Nat) (ts : List ℝ) (sol : Dmp.Solution)
    (demo : Option (Trajectory ℝ)) (unforced : Option Dmp.Solution) (plotTau : Bool) (p : Dmp.Picture) : Prop where
  axes : p.axs = axs
  systems : p.systems.Perm ([⟨l.goal, ts, columns sol.xs (2 * d) d⟩] ++
    panels l.motion ts (motionCurves d tau sol.xs sol.xds) ++
    (l.phase.toList.map fun ax => ⟨ax, ts, columns sol.xs (3 * d) 1⟩) ++
    [⟨l.gating, ts, columns sol.xs (3 * d + 1) 1⟩])
  demo : p.demonstration = demo.elim [] fun t => panels l.motion t.ts [t.ys.rows, t.yds.rows, t.ydds.rows]
  unforced : p.unforced = unforced.elim [] fun u => panels l.motion ts (motionCurves d tau u.xs u.xds)
  forcing : p.forcing = if 1 < sol.forcing.length then [⟨l.forcing, ts, sol.forcing⟩] else []
  fa : p.fa = if 1 < sol.fa.length then [⟨l.fa, ts, sol.fa⟩] else []
  taus : p.taus = if plotTau then axs.map fun ax => (ax, tau) else []
  limits : p.limits.1 ∈ ts ∧ p.limits.2 ∈ ts ∧ ∀ t ∈ ts, p.limits.1 ≤ t ∧ t ≤ p.limits.2

end Verif.Spec
