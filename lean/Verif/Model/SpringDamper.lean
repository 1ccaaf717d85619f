import Verif.Model.DynamicalSystem
import Mathlib.Analysis.SpecialFunctions.Exp
import Mathlib.Analysis.SpecialFunctions.Sqrt

/-
Model of dmpbbo/dynamicalsystems/SpringDamperSystem.py.
-/

noncomputable section

set_option autoImplicit false

namespace Verif

/-- SpringDamperSystem.py:47-54, attributes. -/
structure SpringDamper extends Base where
  yAttr : List ℝ
  damping : Par ℝ
  spring : Par ℝ
  mass : Par ℝ

namespace SpringDamper

/-- SpringDamperSystem.py:52 `damping_coefficient * damping_coefficient / 4`, for a scalar or an
array of damping coefficients. -/
def criticalSpring : Par ℝ → Par ℝ
  | .scalar d => .scalar (d * d / 4)
  | .array l => .array (l.map fun d => d * d / 4)

/-- SpringDamperSystem.py:29-54 `__init__`.  `spring = none` stands for the default string
"CRITICALLY_DAMPED". -/
def init (tau : ℝ) (yInit yAttr : List ℝ) (damping : Par ℝ)
    (spring : Option (Par ℝ) := none) (mass : Par ℝ := .scalar 1) : SpringDamper :=
  { tau := tau, dimY := yInit.length, dimX := yInit.length * 2
    xInit := yInit ++ vzeros yInit.length
    yAttr := yAttr, damping := damping, mass := mass
    spring := match spring with
      | none => criticalSpring damping
      | some k => k }

/-- SpringDamperSystem.py:62-68 y_attr setter. -/
def setYAttr (y : List ℝ) : PyM SpringDamper Unit := do
  let s ← PyM.self
  if y.length ≠ s.dimY then PyM.raise .valueError
  else PyM.modify fun s => { s with yAttr := y }

/-- SpringDamperSystem.py:92-104, entry `ii` of `zd`. -/
def zdComp (s : SpringDamper) (y z : List ℝ) (i : Nat) : ℝ :=
  let k := s.spring.at' i
  let d := s.damping.at' i
  let m := s.mass.at' i
  (-k * (y.getD i 0 - s.yAttr.getD i 0) - d * z.getD i 0) / (m * s.tau)

/-- SpringDamperSystem.py:70-108 differential_equation. -/
def diffEq (s : SpringDamper) (x : List ℝ) : List ℝ :=
  let y := x.take s.dimY
  let z := x.drop s.dimY
  let yd := vdivs z s.tau
  let zd := (List.range s.dimY).map (s.zdComp y z)
  yd ++ zd

/-- SpringDamperSystem.py:136 natural frequency of dimension `i`. -/
def omega0 (s : SpringDamper) (i : Nat) : ℝ :=
  Real.sqrt (s.spring.at' i / s.mass.at' i) / s.tau

/-- SpringDamperSystem.py:137 damping ratio of dimension `i` (only used for a warning). -/
def zeta (s : SpringDamper) (i : Nat) : ℝ :=
  s.damping.at' i / (2 * Real.sqrt (s.mass.at' i * s.spring.at' i))

/-- SpringDamperSystem.py:147-150 `A`. -/
def coefA (s : SpringDamper) (i : Nat) : ℝ := s.xInit.getD i 0 - s.yAttr.getD i 0

/-- SpringDamperSystem.py:148-151 `B`. -/
def coefB (s : SpringDamper) (i : Nat) : ℝ :=
  let yd0 := s.xInit.getD (s.dimY + i) 0
  yd0 + s.omega0 i * s.coefA i

/-- SpringDamperSystem.py:155-163 column `Y = i` of `xs`. -/
def yComp (s : SpringDamper) (t : ℝ) (i : Nat) : ℝ :=
  s.yAttr.getD i 0 + (s.coefA i + s.coefB i * t) * Real.exp (-s.omega0 i * t)

/-- SpringDamperSystem.py:166 column `Y = i` of `xds`. -/
def ydComp (s : SpringDamper) (t : ℝ) (i : Nat) : ℝ :=
  (s.coefB i - s.omega0 i * (s.coefA i + s.coefB i * t)) * Real.exp (-s.omega0 i * t)

/-- SpringDamperSystem.py:169 `ydds`. -/
def yddComp (s : SpringDamper) (t : ℝ) (i : Nat) : ℝ :=
  (-s.omega0 i * (2 * s.coefB i - s.omega0 i * (s.coefA i + s.coefB i * t))) *
    Real.exp (-s.omega0 i * t)

/-- SpringDamperSystem.py:146-173, one row of `xs`: columns `Y` then columns `Z` (line 172). -/
def xAt (s : SpringDamper) (t : ℝ) : List ℝ :=
  (List.range s.dimY).map (s.yComp t) ++ (List.range s.dimY).map (fun i => s.ydComp t i * s.tau)

/-- SpringDamperSystem.py:146-173, one row of `xds` (lines 166 and 173). -/
def xdAt (s : SpringDamper) (t : ℝ) : List ℝ :=
  (List.range s.dimY).map (s.ydComp t) ++ (List.range s.dimY).map (fun i => s.yddComp t i * s.tau)

/-- SpringDamperSystem.py:110-175 analytical_solution (without the printed warning). -/
def analytical (s : SpringDamper) (ts : List ℝ) : List (List ℝ) × List (List ℝ) :=
  (ts.map s.xAt, ts.map s.xdAt)

/-- SpringDamperSystem.py:177-183 decouple_parameters. -/
def decouple (s : SpringDamper) : SpringDamper :=
  { s with damping := s.damping.decouple s.dimY, spring := s.spring.decouple s.dimY
           mass := s.mass.decouple s.dimY }

/-- Sizes agree. -/
structure Wf (s : SpringDamper) : Prop where
  dim : s.dimX = s.dimY + s.dimY
  xInit : s.xInit.length = s.dimX
  yAttr : s.yAttr.length = s.dimY
  damping : s.damping.Fits s.dimY
  spring : s.spring.Fits s.dimY
  mass : s.mass.Fits s.dimY

/-- A method inherited from the base class. -/
def inherit {α : Type} (m : PyM Base α) : PyM SpringDamper α := ⟨fun s =>
  let r := m s.toBase
  (r.1, { s with toBase := r.2 })⟩

/-- DynamicalSystem.py:60-66 tau setter, inherited. -/
def setTau (tau : ℝ) : PyM SpringDamper Unit := inherit (Base.setTau tau)

/-- DynamicalSystem.py:92-100 x_init setter, inherited. -/
def setXInit (x : List ℝ) : PyM SpringDamper Unit := inherit (Base.setXInit x)

/-- DynamicalSystem.py:112-123 y_init setter, inherited. -/
def setYInit (y : List ℝ) : PyM SpringDamper Unit := inherit (Base.setYInit y)

instance : DynSys SpringDamper where
  dimX s := s.dimX
  xInit s := s.xInit
  setYInit := setYInit
  diffEq x := ⟨fun s => (.ok (s.diffEq x), s)⟩

end SpringDamper

end Verif
