import Verif.Model.Py
import Verif.Model.Vec
import Mathlib.Data.Real.Basic

/-
Model of dmpbbo/dynamicalsystems/DynamicalSystem.py.
-/

noncomputable section

set_option autoImplicit false

namespace Verif

/-- The attributes that every dynamical system has.
DynamicalSystem.py:41-50 (`_tau`, `_dim_y`, `_dim_x`, `_x_init`). -/
structure Base where
  tau : ℝ
  dimY : Nat
  dimX : Nat
  xInit : List ℝ

namespace Base

/-- DynamicalSystem.py:47 `n_dims_x * order if n_dims_x else self._dim_y * order`
(`None` and `0` are falsy). -/
def stateDim (order : Int) (dimY : Nat) : Option Nat → Nat
  | none => dimY * order.toNat
  | some n => if n = 0 then dimY * order.toNat else n * order.toNat

/-- DynamicalSystem.py:30-50 `__init__`.  `order` is an integer; `n_dims_x` is `None` or a number
(`0` is falsy, line 47).  Line 50 raises `ValueError` when the state is smaller than `y_init`
(numpy would broadcast a `y_init` of size 1 into an empty slice; that needs `dim_x = 0`, which
line 47 makes impossible for non-empty `y_init`). -/
def init (order : Int) (tau : ℝ) (yInit : List ℝ) (nDimsX : Option Nat := none) :
    Except PyErr Base :=
  if order < 1 ∨ order > 2 then .error .valueError
  else
    let dimY := yInit.length
    let dimX := stateDim order dimY nDimsX
    if dimX < dimY then .error .valueError
    else .ok { tau := tau, dimY := dimY, dimX := dimX
               xInit := yInit ++ vzeros (dimX - dimY) }

/-- DynamicalSystem.py:60-66 tau setter. -/
def setTau (newTau : ℝ) : PyM Base Unit := PyM.modify fun s => { s with tau := newTau }

/-- DynamicalSystem.py:92-100 x_init setter. -/
def setXInit (new : List ℝ) : PyM Base Unit := do
  let s ← PyM.self
  if new.length ≠ s.dimX then PyM.raise .valueError
  else PyM.modify fun s => { s with xInit := new }

/-- DynamicalSystem.py:103-110 y_init getter. -/
def yInit (s : Base) : List ℝ := s.xInit.take s.dimY

/-- DynamicalSystem.py:112-123 y_init setter (pads with zeros, then uses the x_init setter). -/
def setYInit (new : List ℝ) : PyM Base Unit := do
  let s ← PyM.self
  if new.length ≠ s.dimY then PyM.raise .valueError
  else setXInit (new ++ vzeros (s.dimX - s.dimY))

end Base

/-- The part of a dynamical system object that the integration methods of the base class use:
`dim_x`, `_x_init`, the (overridable) `y_init` setter and `differential_equation`
(DynamicalSystem.py:112-134). -/
class DynSys (σ : Type) where
  dimX : σ → Nat
  xInit : σ → List ℝ
  setYInit : List ℝ → PyM σ Unit
  diffEq : List ℝ → PyM σ (List ℝ)

namespace DynSys

variable {σ : Type} [DynSys σ]

/-- DynamicalSystem.py:146-155 integrate_start. -/
def integrateStart (yInit : Option (List ℝ) := none) : PyM σ (List ℝ × List ℝ) := do
  match yInit with
  | none => pure ()
  | some y => setYInit y
  let s ← PyM.self
  let x := xInit s
  let xd ← diffEq x
  pure (x, xd)

/-- DynamicalSystem.py:166-177 integrate_step_euler. -/
def eulerStep (dt : ℝ) (x : List ℝ) : PyM σ (List ℝ × List ℝ) := do
  let s ← PyM.self
  if x.length ≠ dimX s then PyM.raise .valueError
  else
    let xd ← diffEq x
    pure (vadd x (vscale dt xd), xd)

/-- DynamicalSystem.py:179-203 integrate_step_runge_kutta. -/
def rungeKuttaStep (dt : ℝ) (x : List ℝ) : PyM σ (List ℝ × List ℝ) := do
  let s ← PyM.self
  if x.length ≠ dimX s then PyM.raise .valueError
  else
    let k1 ← diffEq x
    let k2 ← diffEq (vadd x (vscale (dt * 0.5) k1))
    let k3 ← diffEq (vadd x (vscale (dt * 0.5) k2))
    let k4 ← diffEq (vadd x (vscale dt k3))
    let xNew := vadd x (vdivs (vscale dt (vadd (vadd k1 (vscale 2 (vadd k2 k3))) k4)) 6)
    let xd ← diffEq xNew
    pure (xNew, xd)

/-- DynamicalSystem.py:157-164 integrate_step. -/
def integrateStep (dt : ℝ) (x : List ℝ) : PyM σ (List ℝ × List ℝ) := rungeKuttaStep dt x

/-- The two integration methods of `integrate` (DynamicalSystem.py:206,213). -/
inductive Method
  | rungeKutta
  | euler
  deriving DecidableEq

/-- DynamicalSystem.py:213-220, dispatch on the integration method. -/
def step (m : Method) (dt : ℝ) (x : List ℝ) : PyM σ (List ℝ × List ℝ) :=
  match m with
  | .rungeKutta => rungeKuttaStep dt x
  | .euler => eulerStep dt x

/-- DynamicalSystem.py:214-220, the loop over `ii in range(1, n_time_steps)`:
`tPrev = ts[ii-1]`, `x = xs[ii-1,:]`.  Returns the rows `(xs[ii,:], xds[ii,:])`. -/
def integrateLoop (m : Method) (tPrev : ℝ) (x : List ℝ) :
    List ℝ → PyM σ (List (List ℝ × List ℝ))
  | [] => pure []
  | t :: ts => do
    let r ← step m (t - tPrev) x
    let rest ← integrateLoop m t r.1 ts
    pure (r :: rest)

/-- DynamicalSystem.py:205-222 integrate.  The two result arrays `xs`, `xds` are returned as one
list of rows `(xs[i,:], xds[i,:])`.  Line 212 assigns row 0, an `IndexError` for empty `ts`. -/
def integrate (ts : List ℝ) (m : Method := .rungeKutta) : PyM σ (List (List ℝ × List ℝ)) := do
  let r0 ← integrateStart (σ := σ)
  match ts with
  | [] => PyM.raise .indexError
  | t0 :: rest => do
    let rows ← integrateLoop m t0 r0.1 rest
    pure (r0 :: rows)

end DynSys

end Verif
