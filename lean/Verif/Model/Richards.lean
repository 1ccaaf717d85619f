import Verif.Model.DynamicalSystem
import Mathlib.Analysis.SpecialFunctions.Pow.Real

/-
Model of dmpbbo/dynamicalsystems/RichardsSystem.py.
-/

noncomputable section

set_option autoImplicit false

namespace Verif

/-- RichardsSystem.py:30-36, attributes.  `left_asymp = None` until `set_left_asymp` is called.
Simplification: `right_asymp` may be a Python scalar or an array (`Par`). -/
structure Richards extends Base where
  alpha : Par ℝ
  v : Par ℝ
  rightAsymp : Par ℝ
  tInflRatio : Par ℝ
  leftAsymp : Option (Par ℝ)

namespace Richards

/-- RichardsSystem.py:29-36 `__init__`. -/
def init (tau : ℝ) (xInit : List ℝ) (xAttr : Par ℝ) (tInflRatio : Par ℝ)
    (alpha : Par ℝ := .scalar 1) (v : Par ℝ := .scalar 1) : Richards :=
  { tau := tau, dimY := xInit.length, dimX := xInit.length, xInit := xInit
    alpha := alpha, v := v, rightAsymp := xAttr, tInflRatio := tInflRatio, leftAsymp := none }

/-- RichardsSystem.py:38-39 set_left_asymp. -/
def setLeftAsymp (a : Par ℝ) : PyM Richards Unit :=
  PyM.modify fun s => { s with leftAsymp := some a }

/-- `np.clip(p, lo, None)` for scalar or array. -/
def clipMin (lo : ℝ) : Par ℝ → Par ℝ
  | .scalar c => .scalar (max c lo)
  | .array l => .array (l.map (max · lo))

/-- RichardsSystem.py:45-50, entry `i` of the left asymptote; `v` is the clipped shape parameter.
Simplification: the vectorised expression is written per dimension. -/
def leftComp (s : Richards) (i : Nat) : ℝ :=
  let tInfl := max (s.tau * s.tInflRatio.at' i) 0
  let v := s.v.at' i
  let expTerm := Real.exp (-(s.alpha.at' i) * v * tInfl / s.tau)
  let z := Real.rpow (v / expTerm + 1) (1 / v)
  (z * s.xInit.getD i 0 - s.rightAsymp.at' i) / (z - 1)

/-- RichardsSystem.py:41-51 _get_left_asymptote.  Line 47 overwrites `self.v`. -/
def getLeft : PyM Richards (Par ℝ) := do
  let s ← PyM.self
  match s.leftAsymp with
  | some a => pure a
  | none =>
    PyM.modify fun s => { s with v := clipMin 0.5 s.v }
    let s ← PyM.self
    pure (.array ((List.range s.xInit.length).map s.leftComp))

/-- RichardsSystem.py:62-63, entry `i` of the rate of change; `left` is the left asymptote. -/
def rateComp (s : Richards) (left : Par ℝ) (x : List ℝ) (i : Nat) : ℝ :=
  let a := left.at' i
  let r := (x.getD i 0 - a) / (s.rightAsymp.at' i - a)
  s.alpha.at' i * (1 - Real.rpow r (s.v.at' i)) * (x.getD i 0 - a) / s.tau

/-- RichardsSystem.py:53-63 differential_equation. -/
def diffEq (x : List ℝ) : PyM Richards (List ℝ) := do
  let left ← getLeft
  let s ← PyM.self
  pure ((List.range x.length).map (s.rateComp left x))

/-- RichardsSystem.py:85 `q`. -/
def qComp (s : Richards) (left : Par ℝ) (i : Nat) : ℝ :=
  let a := left.at' i
  let k := s.rightAsymp.at' i
  (-1 : ℝ) + Real.rpow ((k - a) / (s.xInit.getD i 0 - a)) (s.v.at' i)

/-- RichardsSystem.py:76-90, column `dd` of `xs` at time `t`. -/
def xComp (s : Richards) (left : Par ℝ) (t : ℝ) (i : Nat) : ℝ :=
  let a := left.at' i
  let k := s.rightAsymp.at' i
  let v := s.v.at' i
  let q := s.qComp left i
  let expTerm := Real.exp (-(s.alpha.at' i) * v * t / s.tau)
  (k - a) / Real.rpow (1 + q * expTerm) (1 / v) + a

/-- RichardsSystem.py:93-97, column `dd` of `xds` at time `t`. -/
def xdComp (s : Richards) (left : Par ℝ) (t : ℝ) (i : Nat) : ℝ :=
  let a := left.at' i
  let k := s.rightAsymp.at' i
  let v := s.v.at' i
  let q := s.qComp left i
  let expTerm := Real.exp (-(s.alpha.at' i) * v * t / s.tau)
  (q * s.alpha.at' i * (k - a)) * (expTerm / Real.rpow (1 + q * expTerm) (1 + 1 / v)) / s.tau

/-- RichardsSystem.py:65-99 analytical_solution. -/
def analytical (ts : List ℝ) : PyM Richards (List (List ℝ) × List (List ℝ)) := do
  let left ← getLeft
  let s ← PyM.self
  pure (ts.map (fun t => (List.range s.dimX).map (s.xComp left t)),
        ts.map (fun t => (List.range s.dimX).map (s.xdComp left t)))

/-- RichardsSystem.py:101-107 decouple_parameters. -/
def decouple (s : Richards) : Richards :=
  { s with tInflRatio := s.tInflRatio.decouple s.dimX, alpha := s.alpha.decouple s.dimX
           v := s.v.decouple s.dimX }

/-- Sizes agree. -/
structure Wf (s : Richards) : Prop where
  dim : s.dimX = s.dimY
  xInit : s.xInit.length = s.dimX
  alpha : s.alpha.Fits s.dimX
  v : s.v.Fits s.dimX
  rightAsymp : s.rightAsymp.Fits s.dimX
  tInflRatio : s.tInflRatio.Fits s.dimX
  leftAsymp : ∀ a, s.leftAsymp = some a → a.Fits s.dimX

/-- A method inherited from the base class. -/
def inherit {α : Type} (m : PyM Base α) : PyM Richards α := ⟨fun s =>
  let r := m s.toBase
  (r.1, { s with toBase := r.2 })⟩

/-- DynamicalSystem.py:60-66 tau setter, inherited. -/
def setTau (tau : ℝ) : PyM Richards Unit := inherit (Base.setTau tau)

/-- DynamicalSystem.py:92-100 x_init setter, inherited. -/
def setXInit (x : List ℝ) : PyM Richards Unit := inherit (Base.setXInit x)

/-- DynamicalSystem.py:112-123 y_init setter, inherited. -/
def setYInit (y : List ℝ) : PyM Richards Unit := inherit (Base.setYInit y)

instance : DynSys Richards where
  dimX s := s.dimX
  xInit s := s.xInit
  setYInit := setYInit
  diffEq := diffEq

end Richards

end Verif
