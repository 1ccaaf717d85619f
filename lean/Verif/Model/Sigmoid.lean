import Verif.Model.DynamicalSystem
import Mathlib.Analysis.SpecialFunctions.Log.Basic

/-
Model of dmpbbo/dynamicalsystems/SigmoidSystem.py.
-/

noncomputable section

set_option autoImplicit false

namespace Verif

/-- SigmoidSystem.py:38-46, attributes. -/
structure Sigmoid extends Base where
  maxRate : Par ℝ
  inflRatio : Par ℝ
  ksCached : Option (List ℝ)

namespace Sigmoid

/-- SigmoidSystem.py:29-46 `__init__`. -/
def init (tau : ℝ) (xInit : List ℝ) (maxRate inflRatio : Par ℝ) : Sigmoid :=
  { tau := tau, dimY := xInit.length, dimX := xInit.length, xInit := xInit
    maxRate := maxRate, inflRatio := inflRatio, ksCached := none }

/-- SigmoidSystem.py:66-81: `10e-7`, the constant `d` of `for_gating`. -/
def gatingD : ℝ := 10e-7

/-- SigmoidSystem.py:48-84 for_gating. -/
def forGating (tau : ℝ) (ratio : ℝ := 0.1) (nDims : Nat := 1) : Sigmoid :=
  let d := gatingD
  let maxRate := -Real.log ((((1 + d) / ratio) - 1) / d) / tau
  let tInfl := -Real.log (1 / d) / maxRate
  let inflRatio := tInfl / tau
  init tau (List.replicate nDims 1) (.scalar maxRate) (.scalar inflRatio)

/-- SigmoidSystem.py:86-93 tau setter. -/
def setTau (newTau : ℝ) : PyM Sigmoid Unit :=
  PyM.modify fun s => { s with tau := newTau, ksCached := none }

/-- SigmoidSystem.py:95-104 x_init setter.  (Arrays are values here: writing into the array handed
to or obtained from the object without using the setter is not modelled.) -/
def setXInit (new : List ℝ) : PyM Sigmoid Unit := do
  let s ← PyM.self
  if new.length ≠ s.dimX then PyM.raise .valueError
  else PyM.modify fun s => { s with xInit := new, ksCached := none }

/-- SigmoidSystem.py:106-115 y_init setter. -/
def setYInit (new : List ℝ) : PyM Sigmoid Unit := do
  setXInit new
  PyM.modify fun s => { s with ksCached := none }

/-- SigmoidSystem.py:177-185, entry `dd` of the newly computed `Ks`. -/
def kComp (s : Sigmoid) (i : Nat) : ℝ :=
  let r := s.maxRate.at' i
  let inflRatio := s.inflRatio.at' i
  let tInfl := s.tau * inflRatio
  s.xInit.getD i 0 * (1 + 1 / Real.exp (-r * tInfl))

/-- SigmoidSystem.py:154-207 _get_ks (without the printed warning). -/
def getKs : PyM Sigmoid (List ℝ) := do
  let s ← PyM.self
  match s.ksCached with
  | some ks => pure ks
  | none =>
    let ks := (List.range s.xInit.length).map s.kComp
    PyM.modify fun s => { s with ksCached := some ks }
    pure ks

/-- SigmoidSystem.py:126 `self._max_rate * x * (1 - (np.divide(x, ks)))`. -/
def rate (maxRate : Par ℝ) (x ks : List ℝ) : List ℝ :=
  vmul (maxRate.mul x) ((vdiv x ks).map (1 - ·))

/-- SigmoidSystem.py:117-127 differential_equation. -/
def diffEq (x : List ℝ) : PyM Sigmoid (List ℝ) := do
  let ks ← getKs
  let s ← PyM.self
  pure (rate s.maxRate x ks)

/-- SigmoidSystem.py:142-149, column `dd` of `xs` at time `t` for given `Ks`. -/
def xComp (s : Sigmoid) (ks : List ℝ) (t : ℝ) (i : Nat) : ℝ :=
  let r := s.maxRate.at' i
  let expRt := Real.exp (-r * t)
  let K := ks.getD i 0
  let b := K / s.xInit.getD i 0 - 1
  K / (1 + b * expRt)

/-- SigmoidSystem.py:142-150, column `dd` of `xds` at time `t` for given `Ks`. -/
def xdComp (s : Sigmoid) (ks : List ℝ) (t : ℝ) (i : Nat) : ℝ :=
  let r := s.maxRate.at' i
  let expRt := Real.exp (-r * t)
  let K := ks.getD i 0
  let b := K / s.xInit.getD i 0 - 1
  (K * r * b) / (1 + b * expRt) ^ 2 * expRt

/-- SigmoidSystem.py:129-152 analytical_solution. -/
def analytical (ts : List ℝ) : PyM Sigmoid (List (List ℝ) × List (List ℝ)) := do
  let ks ← getKs
  let s ← PyM.self
  pure (ts.map (fun t => (List.range s.dimX).map (s.xComp ks t)),
        ts.map (fun t => (List.range s.dimX).map (s.xdComp ks t)))

/-- SigmoidSystem.py:209-214 decouple_parameters. -/
def decouple : PyM Sigmoid Unit :=
  PyM.modify fun s => { s with maxRate := s.maxRate.decouple s.dimX
                               inflRatio := s.inflRatio.decouple s.dimX
                               ksCached := none }

/-- Sizes agree. -/
structure Wf (s : Sigmoid) : Prop where
  dim : s.dimX = s.dimY
  xInit : s.xInit.length = s.dimX
  maxRate : s.maxRate.Fits s.dimX
  inflRatio : s.inflRatio.Fits s.dimX

instance : DynSys Sigmoid where
  dimX s := s.dimX
  xInit s := s.xInit
  setYInit := setYInit
  diffEq := diffEq

end Sigmoid

end Verif
