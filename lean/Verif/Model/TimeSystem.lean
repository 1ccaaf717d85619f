import Verif.Model.DynamicalSystem
import Mathlib.Analysis.SpecialFunctions.Log.Basic

/-
Model of dmpbbo/dynamicalsystems/TimeSystem.py.
-/

noncomputable section

set_option autoImplicit false

namespace Verif

open Classical in
/-- TimeSystem.py:25-52, attributes. -/
structure TimeSystem extends Base where
  countDown : Bool

namespace TimeSystem

/-- TimeSystem.py:37 and 51: `1.0 if self._count_down else 0.0`. -/
def start (countDown : Bool) : ℝ := if countDown then 1 else 0

/-- TimeSystem.py:29-38 `__init__` (calls `DynamicalSystem.__init__` with order 1 and a scalar
initial state; no error possible). -/
def init (tau : ℝ) (countDown : Bool := false) : TimeSystem :=
  { tau := tau, dimY := 1, dimX := 1, xInit := [start countDown], countDown := countDown }

/-- TimeSystem.py:48-52 count_down setter (the size check of the x_init setter,
DynamicalSystem.py:98, always succeeds because the dimension of a TimeSystem is 1). -/
def setCountDown (new : Bool) : PyM TimeSystem Unit :=
  PyM.modify fun s => { s with countDown := new, xInit := [start new] }

open Classical in
/-- TimeSystem.py:54-70 differential_equation.  The state is an array with one entry; numpy's
`x > 0` on an array with a different number of entries raises `ValueError` (ambiguous truth value).
Simplification: the result has shape (1,1) in Python, here it is a list with one entry. -/
def diffEq (s : TimeSystem) (x : List ℝ) : Except PyErr (List ℝ) :=
  match x with
  | [x0] =>
    if s.countDown then
      if x0 > 0 then .ok [-1 / s.tau] else .ok [0]
    else
      if x0 < 1 then .ok [1 / s.tau] else .ok [0]
  | _ => .error .valueError

open Classical in
/-- TimeSystem.py:82-93, one row of `xs`. -/
def xAt (s : TimeSystem) (t : ℝ) : List ℝ :=
  if s.countDown then
    let x := 1 - t / s.tau
    [if x < 0 then 0 else x]
  else
    let x := t / s.tau
    [if x > 1 then 1 else x]

open Classical in
/-- TimeSystem.py:82-93, one row of `xds` (lines 85 and 90 test the not yet clipped `xs`). -/
def xdAt (s : TimeSystem) (t : ℝ) : List ℝ :=
  if s.countDown then
    let x := 1 - t / s.tau
    [if x < 0 then 0 else -1 / s.tau]
  else
    let x := t / s.tau
    [if x > 1 then 0 else 1 / s.tau]

/-- TimeSystem.py:72-93 analytical_solution: `(xs, xds)` as lists of rows. -/
def analytical (s : TimeSystem) (ts : List ℝ) : List (List ℝ) × List (List ℝ) :=
  (ts.map s.xAt, ts.map s.xdAt)

/-- A method inherited from the base class. -/
def inherit {α : Type} (m : PyM Base α) : PyM TimeSystem α := ⟨fun s =>
  let r := m s.toBase
  (r.1, { s with toBase := r.2 })⟩

/-- DynamicalSystem.py:60-66 tau setter, inherited. -/
def setTau (tau : ℝ) : PyM TimeSystem Unit := inherit (Base.setTau tau)

/-- DynamicalSystem.py:92-100 x_init setter, inherited. -/
def setXInit (x : List ℝ) : PyM TimeSystem Unit := inherit (Base.setXInit x)

/-- DynamicalSystem.py:112-123 y_init setter, inherited. -/
def setYInit (y : List ℝ) : PyM TimeSystem Unit := inherit (Base.setYInit y)

/-- The interface used by the integration methods; TimeSystem overrides only
`differential_equation`. -/
instance : DynSys TimeSystem where
  dimX s := s.dimX
  xInit s := s.xInit
  setYInit := setYInit
  diffEq x := ⟨fun s => (s.diffEq x, s)⟩

end TimeSystem

end Verif
