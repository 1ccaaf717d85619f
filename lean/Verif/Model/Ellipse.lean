import Verif.Model.Updaters
import Mathlib.LinearAlgebra.UnitaryGroup
import Mathlib.Analysis.SpecialFunctions.Complex.Arg

/-
The ellipse that is drawn for a Gaussian distribution: bbo/DistributionGaussian.py:25-65, 108-116. Colours and axes are
not modelled.
-/

noncomputable section

set_option autoImplicit false

namespace Verif

/-- The arrays `U`, `S` and `V` that np.linalg.svd returns. -/
structure SvdResult where
  U : Matrix (Fin 2) (Fin 2) ℝ
  S : Fin 2 → ℝ
  V : Matrix (Fin 2) (Fin 2) ℝ

/-- What numpy promises about the result of np.linalg.svd: orthogonal matrices, and singular values that are not
negative, the largest one first. (Signs of columns are not determined.) -/
structure IsSvd (A : Matrix (Fin 2) (Fin 2) ℝ) (r : SvdResult) : Prop where
  U : r.U ∈ Matrix.orthogonalGroup (Fin 2) ℝ
  V : r.V ∈ Matrix.orthogonalGroup (Fin 2) ℝ
  eq : A = r.U * Matrix.diagonal r.S * r.V
  nonneg : ∀ i, 0 ≤ r.S i
  sorted : r.S 1 ≤ r.S 0

/-- The arguments of matplotlib.patches.Ellipse; the angle is in degrees. -/
structure EllipsePatch where
  x : ℝ
  y : ℝ
  width : ℝ
  height : ℝ
  angle : ℝ

/-- The curve that matplotlib draws: the unit circle, scaled by half of width and height, then rotated, then moved to
the center. -/
def EllipsePatch.points (e : EllipsePatch) : Set (Fin 2 → ℝ) :=
  { p | ∃ t : ℝ, p = ![
      e.x + e.width / 2 * Real.cos t * Real.cos (e.angle * Real.pi / 180) -
        e.height / 2 * Real.sin t * Real.sin (e.angle * Real.pi / 180),
      e.y + e.width / 2 * Real.cos t * Real.sin (e.angle * Real.pi / 180) +
        e.height / 2 * Real.sin t * Real.cos (e.angle * Real.pi / 180)] }

/-- np.arctan2(y, x) -/
def arctan2 (y x : ℝ) : ℝ := Complex.arg ⟨x, y⟩

/-- np.degrees -/
def degrees (a : ℝ) : ℝ := a * 180 / Real.pi

/-- DistributionGaussian.py:49-60 plot_error_ellipse. Unpacking another number of values than two raises ValueError. -/
def errorEllipse (svd : Matrix (Fin 2) (Fin 2) ℝ → SvdResult) (mu : List ℝ) (cov : Matrix (Fin 2) (Fin 2) ℝ) :
    Except PyErr EllipsePatch :=
  match mu with
  | [x, y] =>
    let r := svd cov
    let theta := degrees (arctan2 (r.U 1 0) (r.U 0 0))
    .ok { x := x, y := y, width := 2 * Real.sqrt (r.S 0), height := 2 * Real.sqrt (r.S 1), angle := theta }
  | _ => .error .valueError

/-- DistributionGaussian.py:108-116 plot. With one dimension, `mean[:2]` has one entry, and unpacking it raises
ValueError (before the covariance matrix is used, which is given as zero here). -/
def Dist.plot {n : Nat} (svd : Matrix (Fin 2) (Fin 2) ℝ → SvdResult) (d : Dist n) : Except PyErr EllipsePatch :=
  errorEllipse svd ((List.ofFn d.mean).take 2)
    (if h : 2 ≤ n then d.covar.submatrix (Fin.castLE h) (Fin.castLE h) else 0)

end Verif
