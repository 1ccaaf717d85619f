import Verif.Model.Vec
import Verif.Model.TimeSystem
import Verif.Model.Exponential
import Verif.Model.SpringDamper
import Verif.Model.Sigmoid
import Verif.Model.Dmp

/-
The C++ implementation: src/dynamicalsystems/*.cpp, src/dynamicalsystems/*.hpp.

Numbers are exact. Eigen vectors are lists, matrices are lists of rows. The program is built with
assertions (those in the code and those of Eigen), and an assertion that fails is an error here.
Output arguments are results; the matrices passed for the results of analyticalSolution are empty
(for matrices of size dim x n_time_steps the code returns the transposed results). Objects are values:
functions that change an object return the new one. The preallocated memory and warnings are left out.
-/

noncomputable section

set_option autoImplicit false

namespace Verif

/-- How the C++ program can end instead of computing a result: an assertion fails, the json library
throws, a NULL pointer, an uninitialised variable or an element beyond the end of a std::vector is used, NaNs
are computed, or integers are divided by 0. -/
inductive CppErr
  | assertion
  | json
  | null
  | nan
  | divZero
  deriving DecidableEq

/-- Results of C++ functions. -/
abbrev CppResult (α : Type) := Except CppErr α

namespace Cpp

/-- DynamicalSystem.hpp:337-353, members. -/
structure Base where
  tau : ℝ
  dimX : Nat
  dimY : Nat
  xInit : List ℝ

namespace Base

/-- DynamicalSystem.cpp:83-94 set_y_init. -/
def setYInit (y : List ℝ) (b : Base) : CppResult Base :=
  if y.length ≠ b.dimY then .error .assertion
  else if b.dimX = b.dimY then .ok { b with xInit := y }
  -- the segment of the vector with dim_x_ zeros
  else if b.dimX < b.dimY then .error .assertion
  else .ok { b with xInit := y ++ vzeros (b.dimX - b.dimY) }

/-- DynamicalSystem.hpp:278-282 set_x_init. -/
def setXInit (x : List ℝ) (b : Base) : CppResult Base :=
  if x.length ≠ b.dimX then .error .assertion else .ok { b with xInit := x }

/-- DynamicalSystem.hpp:261 set_tau. -/
def setTau (tau : ℝ) (b : Base) : Base := { b with tau := tau }

/-- DynamicalSystem.cpp:72-81 get_y_init. -/
def yInit (b : Base) : List ℝ := if b.dimX = b.dimY then b.xInit else b.xInit.take b.dimY

/-- DynamicalSystem.cpp:41-47, the constructor with an order. -/
def ofOrder (order : Nat) (tau : ℝ) (yInit : List ℝ) : CppResult Base :=
  if order = 1 ∨ order = 2 then
    setYInit yInit { tau := tau, dimX := yInit.length * order, dimY := yInit.length, xInit := [] }
  else .error .assertion

/-- DynamicalSystem.cpp:49-55, the constructor with the size of the state. -/
def ofDims (tau : ℝ) (yInit : List ℝ) (nDimsX : Nat) : CppResult Base :=
  setYInit yInit { tau := tau, dimX := nDimsX, dimY := yInit.length, xInit := [] }

end Base

/-- What the integration methods of the base class use. The const methods differentialEquation of Dmp
change objects the Dmp points to; this is why there is a new object. -/
class System (σ : Type) where
  base : σ → Base
  setYInit : List ℝ → σ → CppResult σ
  diffEq : List ℝ → σ → CppResult (List ℝ × σ)

namespace System

variable {σ : Type} [System σ]

/-- DynamicalSystem.cpp:104-109 integrateStart. -/
def integrateStart (s : σ) : CppResult ((List ℝ × List ℝ) × σ) := do
  let x := (base s).xInit
  let (xd, s) ← diffEq x s
  return ((x, xd), s)

/-- DynamicalSystem.cpp:96-102 integrateStart with an initial state. -/
def integrateStartFrom (yInit : List ℝ) (s : σ) : CppResult ((List ℝ × List ℝ) × σ) := do
  let s ← setYInit yInit s
  integrateStart s

open Classical in
/-- DynamicalSystem.cpp:111-122 integrateStepEuler: x_updated and xd_updated. -/
def eulerStep (dt : ℝ) (x : List ℝ) (s : σ) : CppResult ((List ℝ × List ℝ) × σ) := do
  if dt ≤ 0 then throw .assertion
  if x.length ≠ (base s).dimX then throw .assertion
  let (xd, s) ← diffEq x s
  return ((vadd x (vscale dt xd), xd), s)

open Classical in
/-- DynamicalSystem.cpp:124-148 integrateStepRungeKutta. -/
def rungeKuttaStep (dt : ℝ) (x : List ℝ) (s : σ) : CppResult ((List ℝ × List ℝ) × σ) := do
  if dt ≤ 0 then throw .assertion
  if x.length ≠ (base s).dimX then throw .assertion
  let (k1, s) ← diffEq x s
  let (k2, s) ← diffEq (vadd x (vscale (dt * 0.5) k1)) s
  let (k3, s) ← diffEq (vadd x (vscale (dt * 0.5) k2)) s
  let (k4, s) ← diffEq (vadd x (vscale dt k3)) s
  let xUpdated := vadd x (vdivs (vscale dt (vadd (vadd k1 (vscale 2 (vadd k2 k3))) k4)) 6)
  let (xd, s) ← diffEq xUpdated s
  return ((xUpdated, xd), s)

end System

/-- The methods integrateStepRungeKutta and integrateStepEuler. -/
def step {σ : Type} [System σ] (k : DynSys.Method) (dt : ℝ) (x : List ℝ) (c : σ) :
    CppResult ((List ℝ × List ℝ) × σ) :=
  match k with
  | .rungeKutta => System.rungeKuttaStep dt x c
  | .euler => System.eulerStep dt x c

/-- tests/integration/testDynamicalSystems.cpp:92-97 and 107-112: the loop over the times. -/
def steps {σ : Type} [System σ] (k : DynSys.Method) (tPrev : ℝ) (x : List ℝ) (c : σ) :
    List ℝ → CppResult (List (List ℝ × List ℝ) × σ)
  | [] => .ok ([], c)
  | t :: ts => do
    let (r, c) ← step k (t - tPrev) x c
    let (rest, c) ← steps k t r.1 c ts
    return (r :: rest, c)

/-- tests/integration/testDynamicalSystems.cpp:88-97 and 104-112: states and rates of change for all
times. Without times, the assignment to row 0 violates an assertion. -/
def run {σ : Type} [System σ] (k : DynSys.Method) (ts : List ℝ) (c : σ) :
    CppResult (List (List ℝ × List ℝ) × σ) := do
  let (r0, c) ← System.integrateStart c
  match ts with
  | [] => throw .assertion
  | t0 :: ts => do
    let (rows, c) ← steps k t0 r0.1 c ts
    return (r0 :: rows, c)

/-! ### ExponentialSystem -/

/-- ExponentialSystem.hpp, members. -/
structure Exponential extends Base where
  xAttr : List ℝ
  alpha : ℝ

namespace Exponential

/-- ExponentialSystem.cpp:37-41, constructor. -/
def make (tau : ℝ) (xInit xAttr : List ℝ) (alpha : ℝ) : CppResult Exponential := do
  let b ← Base.ofOrder 1 tau xInit
  return { b with xAttr := xAttr, alpha := alpha }

/-- ExponentialSystem.hpp:80-84 set_x_attr and 95-99 set_y_attr. -/
def setXAttr (x : List ℝ) (s : Exponential) : CppResult Exponential :=
  if x.length ≠ s.dimX then .error .assertion else .ok { s with xAttr := x }

/-- DynamicalSystem.hpp:278-282 set_x_init, inherited. -/
def setXInit (x : List ℝ) (s : Exponential) : CppResult Exponential := do
  return { s with toBase := ← s.toBase.setXInit x }

/-- DynamicalSystem.hpp:261 set_tau, inherited. -/
def setTau (tau : ℝ) (s : Exponential) : Exponential := { s with toBase := s.toBase.setTau tau }

/-- ExponentialSystem.cpp:45-52 differentialEquation. -/
def diffEq (x : List ℝ) (s : Exponential) : CppResult (List ℝ) :=
  if s.xAttr.length ≠ x.length then .error .assertion
  else .ok (vdivs (vscale s.alpha (vsub s.xAttr x)) s.tau)

/-- ExponentialSystem.cpp:72-81: row of xs for time `t`. -/
def xAt (s : Exponential) (t : ℝ) : List ℝ :=
  let valRange := vsub s.xInit s.xAttr
  let posScale := Real.exp (-s.alpha * t / s.tau)
  vadd (valRange.map (· * posScale)) s.xAttr

/-- ExponentialSystem.cpp:72-83: row of xds for time `t`. -/
def xdAt (s : Exponential) (t : ℝ) : List ℝ :=
  let valRange := vsub s.xInit s.xAttr
  let velScale := -(s.alpha / s.tau) * Real.exp (-s.alpha * t / s.tau)
  valRange.map (· * velScale)

/-- ExponentialSystem.cpp:54-89 analyticalSolution. -/
def analytical (ts : List ℝ) (s : Exponential) : CppResult (List (List ℝ) × List (List ℝ)) :=
  if s.xInit.length ≠ s.xAttr.length then .error .assertion
  else .ok (ts.map s.xAt, ts.map s.xdAt)

instance : System Exponential where
  base s := s.toBase
  setYInit y s := do return { s with toBase := ← s.toBase.setYInit y }
  diffEq x s := do return (← s.diffEq x, s)

end Exponential

/-! ### TimeSystem -/

/-- TimeSystem.hpp, members. -/
structure TimeSystem extends Base where
  countDown : Bool

namespace TimeSystem

/-- TimeSystem.cpp:40-45, constructor. -/
def make (tau : ℝ) (countDown : Bool) : CppResult TimeSystem := do
  let b ← Base.ofOrder 1 tau [if countDown then 1 else 0]
  return { b with countDown := countDown }

/-- DynamicalSystem.hpp:261 set_tau, inherited. -/
def setTau (tau : ℝ) (s : TimeSystem) : TimeSystem := { s with toBase := s.toBase.setTau tau }

open Classical in
/-- TimeSystem.cpp:49-67 differentialEquation. -/
def diffEq (x : List ℝ) (s : TimeSystem) : CppResult (List ℝ) :=
  match x with
  | [] => .error .assertion
  | x0 :: _ =>
    .ok [if s.countDown then (if x0 > 0 then -1 / s.tau else 0)
      else (if x0 < 1 then 1 / s.tau else 0)]

open Classical in
/-- TimeSystem.cpp:89-94: the first index at which the time is larger than tau, or the number of
times. -/
def stopIndex (tau : ℝ) : List ℝ → Nat
  | [] => 0
  | t :: ts => if t > tau then 0 else stopIndex tau ts + 1

/-- TimeSystem.cpp:69-116 analyticalSolution: the rows before and from the index on. -/
def analytical (ts : List ℝ) (s : TimeSystem) : List (List ℝ) × List (List ℝ) :=
  let stop := stopIndex s.tau ts
  if s.countDown then
    ((ts.take stop).map (fun t => [-t / s.tau + 1]) ++ List.replicate (ts.length - stop) [0],
      List.replicate stop [-1 / s.tau] ++ List.replicate (ts.length - stop) [0])
  else
    ((ts.take stop).map (fun t => [t / s.tau]) ++ List.replicate (ts.length - stop) [1],
      List.replicate stop [1 / s.tau] ++ List.replicate (ts.length - stop) [0])

instance : System TimeSystem where
  base s := s.toBase
  setYInit y s := do return { s with toBase := ← s.toBase.setYInit y }
  diffEq x s := do return (← s.diffEq x, s)

end TimeSystem

/-! ### SpringDamperSystem -/

/-- SpringDamperSystem.hpp, members. -/
structure Spring extends Base where
  yAttr : List ℝ
  damping : ℝ
  spring : ℝ
  mass : ℝ

namespace Spring

/-- SpringDamperSystem.hpp:39 CRITICALLY_DAMPED -/
def CRITICALLY_DAMPED : ℝ := -1

open Classical in
/-- SpringDamperSystem.cpp:37-56, constructor, with the default arguments of
SpringDamperSystem.hpp:60-63. -/
def make (tau : ℝ) (yInit yAttr : List ℝ) (damping : ℝ) (spring : ℝ := CRITICALLY_DAMPED)
    (mass : ℝ := 1) : CppResult Spring := do
  let b ← Base.ofOrder 2 tau yInit
  return { b with
    yAttr := yAttr
    damping := damping
    spring := if spring = CRITICALLY_DAMPED then damping * damping / 4 else spring
    mass := mass }

/-- SpringDamperSystem.hpp:125-130 set_y_attr. -/
def setYAttr (y : List ℝ) (s : Spring) : CppResult Spring :=
  if y.length ≠ s.dimX / 2 then .error .assertion else .ok { s with yAttr := y }

/-- DynamicalSystem.cpp:83-94 set_y_init, inherited. -/
def setYInit (y : List ℝ) (s : Spring) : CppResult Spring := do
  return { s with toBase := ← s.toBase.setYInit y }

/-- DynamicalSystem.hpp:261 set_tau, inherited. -/
def setTau (tau : ℝ) (s : Spring) : Spring := { s with toBase := s.toBase.setTau tau }

/-- SpringDamperSystem.cpp:60-91 differentialEquation. -/
def diffEq (x : List ℝ) (s : Spring) : CppResult (List ℝ) :=
  let yDim := s.dimX / 2
  if x.length < yDim + yDim then .error .assertion
  else if s.yAttr.length ≠ yDim then .error .assertion
  else
    let y := x.take yDim
    let z := (x.drop yDim).take yDim
    let yd := vdivs z s.tau
    let zd := vdivs (vsub (vscale (-s.spring) (vsub y s.yAttr)) (vscale s.damping z)) (s.mass * s.tau)
    .ok (yd ++ zd)

/-- SpringDamperSystem.cpp:116 omega_0. -/
def omega0 (s : Spring) : ℝ := √(s.spring / s.mass) / s.tau

/-- SpringDamperSystem.cpp:126-147: position, velocity and acceleration of dimension `i`. -/
def motion (s : Spring) (t : ℝ) (i : Nat) : ℝ × ℝ × ℝ :=
  let y0 := s.xInit.getD i 0 - s.yAttr.getD i 0
  let yd0 := s.xInit.getD (s.dimY + i) 0
  let A := y0
  let B := yd0 + s.omega0 * y0
  let expTerm := Real.exp (-s.omega0 * t)
  let ABts := A + B * t
  (s.yAttr.getD i 0 + ABts * expTerm,
    (B - s.omega0 * ABts) * expTerm,
    (-s.omega0 * (2 * B - s.omega0 * ABts)) * expTerm)

/-- SpringDamperSystem.cpp:125-156: row of xs for time `t`. -/
def xAt (s : Spring) (t : ℝ) : List ℝ :=
  (List.range s.dimY).map (fun i => (s.motion t i).1) ++
    (List.range s.dimY).map (fun i => (s.motion t i).2.1 * s.tau)

/-- SpringDamperSystem.cpp:125-156: row of xds for time `t`. -/
def xdAt (s : Spring) (t : ℝ) : List ℝ :=
  (List.range s.dimY).map (fun i => (s.motion t i).2.1) ++
    (List.range s.dimY).map (fun i => (s.motion t i).2.2 * s.tau)

/-- SpringDamperSystem.cpp:93-162 analyticalSolution. -/
def analytical (ts : List ℝ) (s : Spring) : CppResult (List (List ℝ) × List (List ℝ)) :=
  -- y_attr_[i_dim]
  if s.yAttr.length < s.dimY then .error .assertion
  else .ok (ts.map s.xAt, ts.map s.xdAt)

instance : System Spring where
  base s := s.toBase
  setYInit y s := do return { s with toBase := ← s.toBase.setYInit y }
  diffEq x s := do return (← s.diffEq x, s)

end Spring

/-! ### SigmoidSystem -/

/-- SigmoidSystem.hpp, members. -/
structure Sigmoid extends Base where
  maxRate : ℝ
  inflRatio : ℝ
  ks : List ℝ

namespace Sigmoid

/-- SigmoidSystem.cpp:65-111 computeKs. -/
def computeKs (n0s : List ℝ) (r inflTime : ℝ) : List ℝ :=
  n0s.map fun n0 => n0 * (1 + 1 / Real.exp (-r * inflTime))

/-- SigmoidSystem.cpp:37-45, constructor. -/
def make (tau : ℝ) (xInit : List ℝ) (maxRate inflRatio : ℝ) : CppResult Sigmoid := do
  let b ← Base.ofOrder 1 tau xInit
  return { b with
    maxRate := maxRate
    inflRatio := inflRatio
    ks := computeKs xInit maxRate (inflRatio * tau) }

/-- SigmoidSystem.cpp:49-55 set_tau. -/
def setTau (tau : ℝ) (s : Sigmoid) : Sigmoid :=
  { s with toBase := s.toBase.setTau tau, ks := computeKs s.xInit s.maxRate (s.inflRatio * tau) }

/-- SigmoidSystem.cpp:57-63 set_x_init. -/
def setXInit (x : List ℝ) (s : Sigmoid) : CppResult Sigmoid := do
  return { s with
    toBase := ← s.toBase.setXInit x
    ks := computeKs x s.maxRate (s.inflRatio * s.tau) }

/-- DynamicalSystem.cpp:83-94 set_y_init, inherited; SigmoidSystem does not override it. -/
def setYInit (y : List ℝ) (s : Sigmoid) : CppResult Sigmoid := do
  return { s with toBase := ← s.toBase.setYInit y }

/-- SigmoidSystem.cpp:113-122 differentialEquation. -/
def diffEq (x : List ℝ) (s : Sigmoid) : CppResult (List ℝ) :=
  if x.length ≠ s.ks.length then .error .assertion
  else .ok (vmul (vscale s.maxRate x) ((vdiv x s.ks).map (1 - ·)))

/-- SigmoidSystem.cpp:143-153: entry `i` of the row of xs for time `t`. -/
def xComp (s : Sigmoid) (t : ℝ) (i : Nat) : ℝ :=
  let expRt := Real.exp (-s.maxRate * t)
  let K := s.ks.getD i 0
  let b := K / s.xInit.getD i 0 - 1
  K / (1 + b * expRt)

/-- SigmoidSystem.cpp:143-156: entry `i` of the row of xds for time `t`. -/
def xdComp (s : Sigmoid) (t : ℝ) (i : Nat) : ℝ :=
  let expRt := Real.exp (-s.maxRate * t)
  let K := s.ks.getD i 0
  let b := K / s.xInit.getD i 0 - 1
  K * s.maxRate * b * ((1 + b * expRt) ^ 2)⁻¹ * expRt

/-- SigmoidSystem.cpp:124-163 analyticalSolution. -/
def analytical (ts : List ℝ) (s : Sigmoid) : List (List ℝ) × List (List ℝ) :=
  (ts.map (fun t => (List.range s.dimX).map (s.xComp t)),
    ts.map (fun t => (List.range s.dimX).map (s.xdComp t)))

instance : System Sigmoid where
  base s := s.toBase
  setYInit := setYInit
  diffEq x s := do return (← s.diffEq x, s)

end Sigmoid

/-! ### Objects of any class -/

/-- The classes derived from DynamicalSystem, without Dmp: what a `DynamicalSystem*` that is not NULL
points to. -/
inductive AnySystem
  | time (s : TimeSystem)
  | exponential (s : Exponential)
  | sigmoid (s : Sigmoid)
  | spring (s : Spring)

namespace AnySystem

/-- The members of the base class. -/
def base : AnySystem → Base
  | .time s => s.toBase
  | .exponential s => s.toBase
  | .sigmoid s => s.toBase
  | .spring s => s.toBase

/-- The virtual method set_tau (DynamicalSystem.hpp:261, SigmoidSystem.cpp:49-55). -/
def setTau (tau : ℝ) : AnySystem → AnySystem
  | .time s => .time (s.setTau tau)
  | .exponential s => .exponential (s.setTau tau)
  | .sigmoid s => .sigmoid (s.setTau tau)
  | .spring s => .spring (s.setTau tau)

/-- The virtual method set_y_init, which only Dmp overrides. -/
def setYInit (y : List ℝ) : AnySystem → CppResult AnySystem
  | .time s => return .time (← System.setYInit y s)
  | .exponential s => return .exponential (← System.setYInit y s)
  | .sigmoid s => return .sigmoid (← System.setYInit y s)
  | .spring s => return .spring (← System.setYInit y s)

/-- The virtual method set_x_init (DynamicalSystem.hpp:278-282, SigmoidSystem.cpp:57-63). -/
def setXInit (x : List ℝ) : AnySystem → CppResult AnySystem
  | .time s => return .time { s with toBase := ← s.toBase.setXInit x }
  | .exponential s => return .exponential (← s.setXInit x)
  | .sigmoid s => return .sigmoid (← s.setXInit x)
  | .spring s => return .spring { s with toBase := ← s.toBase.setXInit x }

/-- The virtual method differentialEquation. -/
def diffEq (x : List ℝ) : AnySystem → CppResult (List ℝ)
  | .time s => s.diffEq x
  | .exponential s => s.diffEq x
  | .sigmoid s => s.diffEq x
  | .spring s => s.diffEq x

/-- The virtual method analyticalSolution. -/
def analytical (ts : List ℝ) : AnySystem → CppResult (List (List ℝ) × List (List ℝ))
  | .time s => .ok (s.analytical ts)
  | .exponential s => s.analytical ts
  | .sigmoid s => .ok (s.analytical ts)
  | .spring s => s.analytical ts

instance : System AnySystem where
  base := base
  setYInit := setYInit
  diffEq x s := do return (← s.diffEq x, s)

end AnySystem

/-! ### Reading what Python has written

The functions below are dmpbbo/json_for_cpp.py:36-67 (the attributes of the Python object are
written) followed by the functions from_json (those which the C++ class needs are read). -/

/-- A json value read as double: an array throws (`double alpha = j.at("alpha")`). -/
def readDouble : Par ℝ → CppResult ℝ
  | .scalar c => .ok c
  | .array _ => .error .json

/-- ExponentialSystem.cpp:91-99 from_json. -/
def readExponential (s : Verif.Exponential) : CppResult Exponential := do
  let alpha ← readDouble s.alpha
  Exponential.make s.tau s.xInit s.xAttr alpha

/-- TimeSystem.cpp:118-125 from_json. -/
def readTime (s : Verif.TimeSystem) : CppResult TimeSystem := TimeSystem.make s.tau s.countDown

/-- SpringDamperSystem.cpp:164-177 from_json. -/
def readSpring (s : SpringDamper) : CppResult Spring := do
  let damping ← readDouble s.damping
  let spring ← readDouble s.spring
  let mass ← readDouble s.mass
  -- x_init.segment(0, y_attr.size())
  if s.xInit.length < s.yAttr.length then throw .assertion
  Spring.make s.tau (s.xInit.take s.yAttr.length) s.yAttr damping spring mass

/-- SigmoidSystem.cpp:165-173 from_json. -/
def readSigmoid (s : Verif.Sigmoid) : CppResult Sigmoid := do
  let maxRate ← readDouble s.maxRate
  let inflRatio ← readDouble s.inflRatio
  Sigmoid.make s.tau s.xInit maxRate inflRatio

/-- DynamicalSystem.cpp:150-171 from_json, for the classes of phase and gating systems. The result is
NULL for a class that C++ does not have. -/
def readSystem : Sub → CppResult (Option AnySystem)
  | .time s => return some (.time (← readTime s))
  | .exponential s => return some (.exponential (← readExponential s))
  | .sigmoid s => return some (.sigmoid (← readSigmoid s))
  | .richards _ => return none

end Cpp

end Verif
