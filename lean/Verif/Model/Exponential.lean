import Verif.Model.DynamicalSystem
import Mathlib.Analysis.SpecialFunctions.Exp

/-
Model of dmpbbo/dynamicalsystems/ExponentialSystem.py.
-/

noncomputable section

set_option autoImplicit false

namespace Verif

/-- ExponentialSystem.py:37-39, attributes. -/
structure Exponential extends Base where
  xAttr : List ℝ
  alpha : Par ℝ

namespace Exponential

/-- ExponentialSystem.py:29-39 `__init__`.  (The attractor is not size-checked by the code.) -/
def init (tau : ℝ) (xInit xAttr : List ℝ) (alpha : Par ℝ) : Exponential :=
  { tau := tau, dimY := xInit.length, dimX := xInit.length, xInit := xInit
    xAttr := xAttr, alpha := alpha }

/-- ExponentialSystem.py:49-57 y_attr setter. -/
def setYAttr (y : List ℝ) : PyM Exponential Unit := do
  let s ← PyM.self
  if y.length ≠ s.dimY then PyM.raise .valueError
  else PyM.modify fun s => { s with xAttr := y }

/-- ExponentialSystem.py:77-87 differential_equation. -/
def diffEq (s : Exponential) (x : List ℝ) : List ℝ :=
  vdivs (s.alpha.mul (vsub s.xAttr x)) s.tau

/-- ExponentialSystem.py:100-107, column `i` of `xs` at time `t`. -/
def xComp (s : Exponential) (t : ℝ) (i : Nat) : ℝ :=
  let curAlpha := s.alpha.at' i
  let expTerm := Real.exp (-curAlpha * t / s.tau)
  let valRange := s.xInit.getD i 0 - s.xAttr.getD i 0
  valRange * expTerm + s.xAttr.getD i 0

/-- ExponentialSystem.py:100-107, column `i` of `xds` at time `t`. -/
def xdComp (s : Exponential) (t : ℝ) (i : Nat) : ℝ :=
  let curAlpha := s.alpha.at' i
  let expTerm := Real.exp (-curAlpha * t / s.tau)
  let valRange := s.xInit.getD i 0 - s.xAttr.getD i 0
  valRange * -(curAlpha / s.tau) * expTerm

/-- ExponentialSystem.py:100-107, one row of `xs` (loop over `range(self._dim_y)`). -/
def xAt (s : Exponential) (t : ℝ) : List ℝ := (List.range s.dimY).map (s.xComp t)

/-- ExponentialSystem.py:100-107, one row of `xds`. -/
def xdAt (s : Exponential) (t : ℝ) : List ℝ := (List.range s.dimY).map (s.xdComp t)

/-- ExponentialSystem.py:89-109 analytical_solution: `(xs, xds)` as lists of rows. -/
def analytical (s : Exponential) (ts : List ℝ) : List (List ℝ) × List (List ℝ) :=
  (ts.map s.xAt, ts.map s.xdAt)

/-- ExponentialSystem.py:111-113 decouple_parameters. -/
def decouple (s : Exponential) : Exponential := { s with alpha := s.alpha.decouple s.dimX }

/-- Sizes agree: what the constructor and the setters guarantee when called with an attractor (and
an `alpha` array) of the same size as the initial state. -/
structure Wf (s : Exponential) : Prop where
  dim : s.dimX = s.dimY
  xInit : s.xInit.length = s.dimY
  xAttr : s.xAttr.length = s.dimY
  alpha : s.alpha.Fits s.dimY

/-- A method inherited from the base class. -/
def inherit {α : Type} (m : PyM Base α) : PyM Exponential α := ⟨fun s =>
  let r := m s.toBase
  (r.1, { s with toBase := r.2 })⟩

/-- DynamicalSystem.py:60-66 tau setter, inherited. -/
def setTau (tau : ℝ) : PyM Exponential Unit := inherit (Base.setTau tau)

/-- DynamicalSystem.py:92-100 x_init setter, inherited. -/
def setXInit (x : List ℝ) : PyM Exponential Unit := inherit (Base.setXInit x)

/-- DynamicalSystem.py:112-123 y_init setter, inherited. -/
def setYInit (y : List ℝ) : PyM Exponential Unit := inherit (Base.setYInit y)

instance : DynSys Exponential where
  dimX s := s.dimX
  xInit s := s.xInit
  setYInit := setYInit
  diffEq x := ⟨fun s => (.ok (s.diffEq x), s)⟩

end Exponential

end Verif
