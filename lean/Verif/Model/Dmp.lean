import Verif.Model.TimeSystem
import Verif.Model.Exponential
import Verif.Model.SpringDamper
import Verif.Model.Sigmoid
import Verif.Model.Richards
import Verif.Model.Trajectory
import Verif.Model.FunctionApproximator

/- dmps/Dmp.py: dynamical movement primitives. -/

noncomputable section

set_option autoImplicit false

namespace Verif

/-! ### Subsystems -/

/-- The classes of dynamical systems that are used as phase, gating, goal and damping system. (Other
classes can be passed to the constructor; they are not modelled.) -/
inductive Sub
  | time (s : TimeSystem)
  | exponential (s : Exponential)
  | sigmoid (s : Sigmoid)
  | richards (s : Richards)

namespace Sub

/-- The attributes of the base class, DynamicalSystem.py:41-50. -/
def base : Sub → Base
  | .time s => s.toBase
  | .exponential s => s.toBase
  | .sigmoid s => s.toBase
  | .richards s => s.toBase

/-- Call of a method that each class has. -/
def call {α : Type} (t : PyM TimeSystem α) (e : PyM Exponential α) (g : PyM Sigmoid α)
    (r : PyM Richards α) : PyM Sub α := ⟨fun
  | .time s => ((t s).1, .time (t s).2)
  | .exponential s => ((e s).1, .exponential (e s).2)
  | .sigmoid s => ((g s).1, .sigmoid (g s).2)
  | .richards s => ((r s).1, .richards (r s).2)⟩

/-- The tau setters: DynamicalSystem.py:60-66, SigmoidSystem.py:86-93. -/
def setTau (tau : ℝ) : PyM Sub Unit :=
  call (TimeSystem.setTau tau) (Exponential.setTau tau) (Sigmoid.setTau tau) (Richards.setTau tau)

/-- The y_init setters: DynamicalSystem.py:112-123, SigmoidSystem.py:106-115. -/
def setYInit (y : List ℝ) : PyM Sub Unit :=
  call (TimeSystem.setYInit y) (Exponential.setYInit y) (Sigmoid.setYInit y) (Richards.setYInit y)

/-- `system.y_attr = y`. Only ExponentialSystem has a setter (ExponentialSystem.py:49-57); for the
other classes an attribute is created that nothing uses. -/
def setYAttr (y : List ℝ) : PyM Sub Unit :=
  call (pure ()) (Exponential.setYAttr y) (pure ()) (pure ())

/-- The methods differential_equation. -/
def diffEq (x : List ℝ) : PyM Sub (List ℝ) :=
  call (DynSys.diffEq x) (DynSys.diffEq x) (DynSys.diffEq x) (DynSys.diffEq x)

/-- The methods analytical_solution: arrays xs and xds as lists of rows. -/
def analytical (ts : List ℝ) : PyM Sub (List (List ℝ) × List (List ℝ)) :=
  call (PyM.reads fun s => s.analytical ts) (PyM.reads fun s => s.analytical ts)
    (Sigmoid.analytical ts) (Richards.analytical ts)

/-- The methods decouple_parameters (TimeSystem.py:95-97 does nothing). -/
def decouple : PyM Sub Unit :=
  call (pure ()) (PyM.modify Exponential.decouple) Sigmoid.decouple (PyM.modify Richards.decouple)

instance : DynSys Sub where
  dimX s := s.base.dimX
  xInit s := s.base.xInit
  setYInit := setYInit
  diffEq := diffEq

end Sub

/-! ### The object -/

/-- Dmp.py:136: the values of forcing_term_scaling that are tested for. All other strings are treated
like "NO_SCALING". -/
inductive ForcingScaling
  | noScaling
  | gMinusY0
  | amplitude
  deriving DecidableEq

/-- Dmp.py:68-158, attributes. The first four are those of the base class; `x_init` of the base class
is `xInit`, and `yInit?` is the attribute `_y_init`, which exists only once the setter was used.
`_trajectory_train`, used for plotting, is left out. -/
structure Dmp extends Base where
  yInit? : Option (List ℝ)
  yAttr : List ℝ
  fas : Option (List Fa)
  spring : SpringDamper
  phase : Sub
  gating : Sub
  goal : Option Sub
  damping : Option Sub
  requiresScaling : Bool
  scaling : ForcingScaling
  amplitudes : Option (List ℝ)
  tsTrain : Option (List ℝ)
  selected : List String

/-- `x[idx]` for an array of indices. -/
def pickAt (x : List ℝ) (idx : List Nat) : List ℝ := idx.map fun i => x.getD i 0

/-- `x[idx] = values`, for as many values as indices. -/
def putAt (x : List ℝ) (idx : List Nat) (values : List ℝ) : List ℝ :=
  (idx.zip values).foldl (fun x p => x.set p.1 p.2) x

namespace Dmp

/-- Dmp.py:146 -/
def SPRING (d : Nat) : List Nat := List.range' 0 (2 * d)
/-- Dmp.py:147 -/
def SPRING_Y (d : Nat) : List Nat := List.range' 0 d
/-- Dmp.py:149 -/
def SPRING_Z (d : Nat) : List Nat := List.range' d d
/-- Dmp.py:151-152, for a goal system with as many dimensions as the Dmp. (Others do not fit the size
of the state, Dmp.py:68-70, and are not modelled.) -/
def GOAL (d : Nat) : List Nat := List.range' (d + d) d
/-- Dmp.py:154 -/
def PHASE (d : Nat) : List Nat := List.range' (d + d + d) 1
/-- Dmp.py:156 -/
def GATING (d : Nat) : List Nat := List.range' (d + d + d + 1) 1
/-- Dmp.py:158 -/
def DAMPING (d : Nat) : List Nat := List.range' (d + d + d + 1 + 1) d

/-- Keyword arguments of the constructor, Dmp.py:50-66. -/
structure Options where
  transformation : Option SpringDamper := none
  alphaSpring : Par ℝ := .scalar 20
  dmpType : String := "KULVICIUS_2012_JOINING"
  phase : Option Sub := none
  gating : Option Sub := none
  /-- `some none` if None is passed explicitly. -/
  goal : Option (Option Sub) := none
  damping : Option (Option Sub) := none
  scaling : ForcingScaling := .noScaling
  amplitudes : Option (List ℝ) := none

/-- Python's `a in b` for strings. -/
def isIn (a b : String) : Bool := decide (a.toList <:+: b.toList)

/-- `np.full((n,), p)` -/
def full (n : Nat) (p : Par ℝ) : List ℝ := (List.range n).map p.at'

/-- Subsystems with their default values. -/
structure Defaults where
  goal : Option Sub
  gating : Sub
  phase : Sub
  damping : Option Sub
  requiresScaling : Bool

/-- Dmp.py:86-127: default subsystems. `damping` is the damping coefficient of the spring-damper
system. -/
def defaults (dmpType : String) (tau : ℝ) (yInit yAttr : List ℝ) (damping : Par ℝ) :
    Except PyErr Defaults :=
  let n := yInit.length
  if dmpType = "IJSPEERT_2002_MOVEMENT" ∨ dmpType = "Ijs02" then
    .ok { goal := none
          gating := .exponential (.init tau [1] [0] (.scalar 4))
          phase := .exponential (.init tau [1] [0] (.scalar 4))
          damping := none
          requiresScaling := false }
  else if dmpType = "KULVICIUS_2012_JOINING" ∨ dmpType = "Kul12" ∨ dmpType = "COUNTDOWN_2013" then
    .ok { goal := some (.exponential (.init tau yInit yAttr (.scalar 15)))
          gating := .sigmoid (.forGating tau 0.1)
          phase := .time (.init tau (dmpType = "COUNTDOWN_2013"))
          damping := none
          requiresScaling := false }
  else if isIn "2022" dmpType || isIn "SCT23" dmpType then
    let requiresScaling := !isIn "NO_SCALING" dmpType
    .ok { goal := some (.richards (
            if requiresScaling then
              .init tau (vzeros n) (.array (List.replicate n 1)) (.scalar 0.3) (.scalar 10) (.scalar 1)
            else .init tau yInit (.array yAttr) (.scalar 0.3) (.scalar 10) (.scalar 1)))
          gating := .richards (.init tau [1] (.array [0]) (.scalar 1) (.scalar 10) (.scalar 10))
          phase := .time (.init tau true)
          damping :=
            if isIn "DAMPING" dmpType then
              some (.exponential (.init tau (vscale 0.1 (full n damping)) (full n damping) (.scalar 4)))
            else none
          requiresScaling := requiresScaling }
  else .error .valueError

/-- Dmp.py:43-158 `__init__`. -/
def init (tau : ℝ) (yInit yAttr : List ℝ) (fas : Option (List Fa)) (o : Options := {}) :
    Except PyErr Dmp := do
  let base ← Base.init 1 tau yInit (some (3 * yInit.length + 2 + yInit.length))
  let spring := o.transformation.getD (SpringDamper.init tau yInit yAttr o.alphaSpring)
  let dflt ← defaults o.dmpType tau yInit yAttr spring.damping
  return { base with
    yInit? := none
    yAttr := yAttr
    fas := fas
    spring := spring
    phase := o.phase.getD dflt.phase
    gating := o.gating.getD dflt.gating
    goal := o.goal.getD dflt.goal
    damping := o.damping.getD dflt.damping
    requiresScaling := dflt.requiresScaling
    scaling := o.scaling
    amplitudes := o.amplitudes
    tsTrain := none
    selected := [] }

/-! ### Calls of methods of the subsystems -/

/-- A method of `self._spring_system`. -/
def onSpring {α : Type} (m : PyM SpringDamper α) : PyM Dmp α := ⟨fun s =>
  ((m s.spring).1, { s with spring := (m s.spring).2 })⟩

/-- A method of `self._phase_system`. -/
def onPhase {α : Type} (m : PyM Sub α) : PyM Dmp α := ⟨fun s =>
  ((m s.phase).1, { s with phase := (m s.phase).2 })⟩

/-- A method of `self._gating_system`. -/
def onGating {α : Type} (m : PyM Sub α) : PyM Dmp α := ⟨fun s =>
  ((m s.gating).1, { s with gating := (m s.gating).2 })⟩

/-- A method of `self._goal_system`, which is not None at the places of use (else: AttributeError). -/
def onGoal {α : Type} (m : PyM Sub α) : PyM Dmp α := ⟨fun s =>
  match s.goal with
  | none => (.error .attributeError, s)
  | some g => ((m g).1, { s with goal := some (m g).2 })⟩

/-- A method of `self._damping_system`, which is not None at the places of use (else:
AttributeError). -/
def onDamping {α : Type} (m : PyM Sub α) : PyM Dmp α := ⟨fun s =>
  match s.damping with
  | none => (.error .attributeError, s)
  | some g => ((m g).1, { s with damping := some (m g).2 })⟩

/-! ### Setters -/

/-- Dmp.py:568-584 tau setter. (No division by zero: theorems assume tau ≠ 0.) -/
def setTau (newTau : ℝ) : PyM Dmp Unit := do
  let s ← PyM.self
  let tauScale := newTau / s.tau
  PyM.modify fun s => { s with tau := newTau }
  onPhase (Sub.setTau (s.phase.base.tau * tauScale))
  onGating (Sub.setTau (s.gating.base.tau * tauScale))
  onSpring (SpringDamper.setTau (s.spring.tau * tauScale))
  match s.goal with
  | none => pure ()
  | some g => onGoal (Sub.setTau (g.base.tau * tauScale))

/-- Dmp.py:586-600 y_init setter. (The getter is that of the base class, `Base.yInit`.) -/
def setYInit (y : List ℝ) : PyM Dmp Unit := do
  let s ← PyM.self
  if y.length ≠ s.dimY then PyM.raise .valueError
  else do
    PyM.modify fun s => { s with yInit? := some y }
    onSpring (SpringDamper.setYInit y)
    match s.goal with
    | none => pure ()
    | some _ => if s.requiresScaling then pure () else onGoal (Sub.setYInit y)

/-- Dmp.py:608-618 y_attr setter. -/
def setYAttr (y : List ℝ) : PyM Dmp Unit := do
  let s ← PyM.self
  if y.length ≠ s.dimY then PyM.raise .valueError
  else do
    PyM.modify fun s => { s with yAttr := y }
    match s.goal with
    | none => pure ()
    | some _ => if s.requiresScaling then pure () else onGoal (Sub.setYAttr y)

/-- Dmp.py:632-637 decouple_parameters. -/
def decouple : PyM Dmp Unit := do
  onSpring (PyM.modify SpringDamper.decouple)
  let s ← PyM.self
  match s.goal with
  | none => pure ()
  | some _ => onGoal Sub.decouple
  match s.damping with
  | none => pure ()
  | some _ => onDamping Sub.decouple

/-! ### The differential equation -/

/-- `self._y_init`, an AttributeError if the setter was never used. -/
def getYInit (s : Dmp) : Except PyErr (List ℝ) :=
  match s.yInit? with
  | none => .error .attributeError
  | some y => .ok y

/-- Dmp.py:187-191 scale_goal_system. -/
def scaleGoal (s : Dmp) (g : List ℝ) : Except PyErr (List ℝ) :=
  if s.requiresScaling then do
    let y0 ← s.getYInit
    return vadd y0 (vmul (vsub s.yAttr y0) g)
  else .ok g

/-- Dmp.py:309-312: outputs of the function approximator for dimension `i`. -/
def faColumn (fas : List Fa) (phases : List ℝ) (i : Nat) : Except PyErr (List ℝ) :=
  match fas[i]? with
  | none => .error .indexError
  | some fa =>
    if fa.model.isSome then do
      return List.ofFn (← fa.predict fun (t : Fin phases.length) (_ : Fin 1) => phases[t])
    else .ok (vzeros phases.length)

/-- Dmp.py:300-313 _compute_func_approx_predictions: one row for each phase. An empty list of function
approximators is falsy. -/
def predictions (s : Dmp) (phases : List ℝ) : Except PyErr (List (List ℝ)) :=
  match s.fas with
  | none | some [] => .ok (List.replicate phases.length (vzeros s.dimY))
  | some fas => do
    let cols ← (List.range s.dimY).mapM (faColumn fas phases)
    return (List.range phases.length).map fun t => cols.map fun c => c.getD t 0

/-- Dmp.py:285-293: scaling of the forcing term. -/
def scaleForcing (s : Dmp) (f : List ℝ) : Except PyErr (List ℝ) :=
  match s.scaling with
  | .gMinusY0 => do
    let y0 ← s.getYInit
    return vmul f (vsub s.yAttr y0)
  | .amplitude =>
    match s.amplitudes with
    | none => .error .valueError
    | some a => .ok (vmul f a)
  | .noScaling => .ok f

/-- Dmp.py:238-298 differential_equation. -/
def diffEq (x : List ℝ) : PyM Dmp (List ℝ) := do
  let s ← PyM.self
  let d := s.dimY
  let xd := vzeros x.length
  -- 249-263: goal system
  let xd ← match s.goal with
    | none => do
      onSpring (SpringDamper.setYAttr s.yAttr)
      pure (putAt xd (GOAL d) (vzeros d))
    | some _ => do
      onGoal (Sub.setYAttr s.yAttr)
      let gd ← onGoal (Sub.diffEq (pickAt x (GOAL d)))
      let g ← PyM.lift (s.scaleGoal (pickAt x (GOAL d)))
      onSpring (SpringDamper.setYAttr g)
      pure (putAt xd (GOAL d) gd)
  -- 265-269: damping system
  let xd ← match s.damping with
    | none => pure (putAt xd (DAMPING d) (vzeros d))
    | some _ => do
      onSpring (PyM.modify fun sp => { sp with damping := .array (pickAt x (DAMPING d)) })
      let dd ← onDamping (Sub.diffEq (pickAt x (DAMPING d)))
      pure (putAt xd (DAMPING d) dd)
  -- 273-277: spring, phase and gating system
  let sd ← onSpring (DynSys.diffEq (pickAt x (SPRING d)))
  let xd := putAt xd (SPRING d) sd
  let pd ← onPhase (Sub.diffEq (pickAt x (PHASE d)))
  let xd := putAt xd (PHASE d) pd
  let gd ← onGating (Sub.diffEq (pickAt x (GATING d)))
  let xd := putAt xd (GATING d) gd
  -- 279-296: forcing term
  let fa ← PyM.lift (s.predictions (pickAt x (PHASE d)))
  let gate := (pickAt x (GATING d)).getD 0 0
  let forcing ← PyM.lift (s.scaleForcing (vscale gate (fa.getD 0 [])))
  pure (putAt xd (SPRING_Z d) (vadd (pickAt xd (SPRING_Z d)) (vdivs forcing s.tau)))

/-- Dmp.py:199-200: `if y_init: self.y_init = y_init`. The truth value of an array is that of its only
entry (arrays with several entries raise ValueError; empty arrays are false). -/
def startFrom : Option (List ℝ) → PyM Dmp Unit
  | none => pure ()
  | some [] => pure ()
  | some [y] => if y ≠ 0 then setYInit [y] else pure ()
  | some (_ :: _ :: _) => PyM.raise .valueError

/-- Dmp.py:193-236 integrate_start. -/
def integrateStart (yInit : Option (List ℝ) := none) : PyM Dmp (List ℝ × List ℝ) := do
  startFrom yInit
  let s ← PyM.self
  let d := s.dimY
  let x := vzeros s.dimX
  -- 205-218: goal system
  let g ← match s.goal with
    | none => pure s.yAttr
    | some _ => do
      let r ← onGoal (DynSys.integrateStart none)
      pure r.1
  let x := putAt x (GOAL d) g
  let ya ← PyM.lift (s.scaleGoal (pickAt x (GOAL d)))
  onSpring (SpringDamper.setYAttr ya)
  -- 220-227: damping system
  let x ← match s.damping with
    | none => pure (putAt x (DAMPING d) (full d s.spring.damping))
    | some _ => do
      let r ← onDamping (DynSys.integrateStart none)
      let x := putAt x (DAMPING d) r.1
      onSpring (PyM.modify fun sp => { sp with damping := .array (pickAt x (DAMPING d)) })
      pure x
  -- 229-232
  let r ← onSpring (DynSys.integrateStart none)
  let x := putAt x (SPRING d) r.1
  let r ← onPhase (DynSys.integrateStart none)
  let x := putAt x (PHASE d) r.1
  let r ← onGating (DynSys.integrateStart none)
  let x := putAt x (GATING d) r.1
  let xd ← diffEq x
  pure (x, xd)

/-- The interface for the inherited integration methods. `integrate_start` is overridden; see
`integrateLoop` in `integrate`. -/
instance : DynSys Dmp where
  dimX s := s.dimX
  xInit s := s.xInit
  setYInit := setYInit
  diffEq := diffEq

/-- DynamicalSystem.py:205-222 integrate, inherited, with the integrate_start of Dmp. -/
def integrate (ts : List ℝ) (m : DynSys.Method := .rungeKutta) : PyM Dmp (List (List ℝ × List ℝ)) := do
  let r0 ← integrateStart
  match ts with
  | [] => PyM.raise .indexError
  | t0 :: rest => do
    let rows ← DynSys.integrateLoop m t0 r0.1 rest
    pure (r0 :: rows)

/-! ### Analytical solution -/

/-- The results of analytical_solution: arrays as lists of rows. -/
structure Solution where
  xs : List (List ℝ)
  xds : List (List ℝ)
  forcing : List (List ℝ)
  fa : List (List ℝ)

/-- Dmp.py:351-359: scaling of the forcing terms of all times. For missing amplitudes the product with
an array of None raises TypeError. -/
def scaleForcings (s : Dmp) (f : List (List ℝ)) : Except PyErr (List (List ℝ)) :=
  match s.scaling with
  | .gMinusY0 => do
    let y0 ← s.getYInit
    return f.map fun row => vmul row (vsub s.yAttr y0)
  | .amplitude =>
    match s.amplitudes with
    | none => .error .typeError
    | some a => .ok (f.map fun row => vmul row a)
  | .noScaling => .ok f

/-- Setting attractor and damping coefficient of the local copy of the spring-damper system,
Dmp.py:400-403 and 427-428. -/
def springWith (spring : SpringDamper) (yAttr : List ℝ) (damping : Par ℝ) : Except PyErr SpringDamper :=
  match SpringDamper.setYAttr yAttr spring with
  | (.ok _, sp) => .ok { sp with damping := damping }
  | (.error e, _) => .error e

/-- One time of the analytical solution before the spring state is known: time, state and rate of
change (with the columns of the spring system 0), forcing term. -/
structure Row where
  t : ℝ
  x : List ℝ
  xd : List ℝ
  f : List ℝ

/-- Dmp.py:420-437: Euler integration. `tPrev`, `x` and `xd` are the time, state and rate of change of
the previous row. -/
def springLoop (s : Dmp) (tPrev : ℝ) (x xd : List ℝ) : List Row → Except PyErr (List (List ℝ × List ℝ))
  | [] => .ok []
  | row :: rows => do
    let d := s.dimY
    let dt := row.t - tPrev
    let x := putAt row.x (SPRING d) (vadd (pickAt x (SPRING d)) (vscale dt (pickAt xd (SPRING d))))
    let g ← s.scaleGoal (pickAt x (GOAL d))
    let sp ← springWith s.spring g (.array (pickAt x (DAMPING d)))
    let xd := putAt row.xd (SPRING d) (sp.diffEq (pickAt x (SPRING d)))
    let xd := putAt xd (SPRING_Z d) (vadd (pickAt xd (SPRING_Z d)) (vdivs row.f s.tau))
    let xd := putAt xd (SPRING_Y d) (vdivs (pickAt x (SPRING_Z d)) s.tau)
    let rest ← springLoop s row.t x xd rows
    return (x, xd) :: rest

/-- Dmp.py:401-403: the damping coefficient of the first row is scalar if its array has one entry. -/
def firstDamping : List ℝ → Par ℝ
  | [c] => .scalar c
  | l => .array l

/-- Dmp.py:396-437: the first row and the loop. `damp0` is the array for the damping coefficient of the
first row. -/
def springRows (s : Dmp) (goal0 damp0 : List ℝ) : List Row → Except PyErr (List (List ℝ × List ℝ))
  | [] => .error .indexError
  | row :: rows => do
    let d := s.dimY
    let g ← s.scaleGoal goal0
    let sp ← springWith s.spring g (firstDamping damp0)
    let x := putAt row.x (SPRING d) sp.xInit
    let xd := putAt row.xd (SPRING d) (sp.diffEq sp.xInit)
    let xd := putAt xd (SPRING_Z d) (vadd (pickAt xd (SPRING_Z d)) (vdivs row.f s.tau))
    let rest ← springLoop s row.t x xd rows
    return (x, xd) :: rest

/-- `np.tile(p, (n, 1))` for a scalar or an array. -/
def tile (p : Par ℝ) (n : Nat) : List (List ℝ) :=
  match p with
  | .scalar c => List.replicate n [c]
  | .array l => List.replicate n l

/-- `row` as `d` entries: a single entry is broadcast. -/
def broadcast (d : Nat) : List ℝ → List ℝ
  | [c] => List.replicate d c
  | l => l

/-- Dmp.py:315-439 analytical_solution. Phase and gating are one-dimensional. -/
def analytical (ts? : Option (List ℝ)) (suppress : Bool := false) : PyM Dmp Solution := do
  let s ← PyM.self
  let ts ← match ts? with
    | some ts => pure ts
    | none => match s.tsTrain with
      | none => PyM.raise .valueError
      | some ts => pure ts
  let d := s.dimY
  let n := ts.length
  let (xsPhase, xdsPhase) ← onPhase (Sub.analytical ts)
  let (xsGating, xdsGating) ← onGating (Sub.analytical ts)
  -- 343-359: forcing terms
  let fa ← PyM.lift (s.predictions (xsPhase.map fun r => r.getD 0 0))
  let fa := if suppress then fa.map fun r => vzeros r.length else fa
  let forcing ← PyM.lift (s.scaleForcings (List.zipWith (fun f g => vscale (g.getD 0 0) f) fa xsGating))
  -- 361-370: goal
  let (xsGoal, xdsGoal) ← match s.goal with
    | none => pure (List.replicate n s.yAttr, List.replicate n (vzeros s.yAttr.length))
    | some _ => onGoal (Sub.analytical ts)
  -- 372-380: damping
  let (xsDamping, xdsDamping) ← match s.damping with
    | none => pure (tile s.spring.damping n, (tile s.spring.damping n).map fun r => vzeros r.length)
    | some _ => onDamping (Sub.analytical ts)
  -- 382-392
  let assemble (goal phase gating damping : List ℝ) : List ℝ :=
    putAt (putAt (putAt (putAt (vzeros s.dimX) (GOAL d) goal) (PHASE d) phase) (GATING d) gating) (DAMPING d)
      (broadcast d damping)
  let row (i : Nat) : Row :=
    { t := ts.getD i 0
      x := assemble (xsGoal.getD i []) (xsPhase.getD i []) (xsGating.getD i []) (xsDamping.getD i [])
      xd := assemble (xdsGoal.getD i []) (xdsPhase.getD i []) (xdsGating.getD i []) (xdsDamping.getD i [])
      f := forcing.getD i [] }
  -- 396-437
  let rows ← PyM.lift (s.springRows (xsGoal.getD 0 []) (xsDamping.getD 0 []) ((List.range n).map row))
  pure { xs := rows.map (·.1), xds := rows.map (·.2), forcing := forcing, fa := fa }

/-- Dmp.py:538-545 states_as_pos_vel_acc. -/
def posVelAcc (s : Dmp) (x xd : List ℝ) : List ℝ × List ℝ × List ℝ :=
  (pickAt x (SPRING_Y s.dimY), pickAt xd (SPRING_Y s.dimY), vdivs (pickAt xd (SPRING_Z s.dimY)) s.tau)

/-- Dmp.py:547-566 states_as_trajectory. -/
def asTrajectory (s : Dmp) (ts : List ℝ) (xs xds : List (List ℝ)) : Except PyErr (Trajectory ℝ) :=
  Trajectory.init ts
    (.two ⟨s.dimY, xs.map fun x => pickAt x (SPRING_Y s.dimY)⟩)
    (some (.two ⟨s.dimY, xds.map fun xd => pickAt xd (SPRING_Y s.dimY)⟩))
    (some (.two ⟨s.dimY, xds.map fun xd => vdivs (pickAt xd (SPRING_Z s.dimY)) s.tau⟩))
    none

/-! ### Training -/

/-- Dmp.py:511-518: the forcing term that gives the demonstrated acceleration, for position `y`,
velocity `yd`, acceleration `ydd`, goal `g` and damping coefficient `damping`. -/
def inverse (s : Dmp) (damping : Par ℝ) (g y yd ydd : List ℝ) : List ℝ :=
  (List.range s.dimY).map fun j =>
    s.tau * s.tau * ydd.getD j 0 +
      (s.spring.spring.at' j * (y.getD j 0 - g.getD j 0) + damping.at' j * s.tau * yd.getD j 0) /
        s.spring.mass.at' j

/-- `a / b`. Where an entry of `b` is 0, numpy gives `inf` or `nan`. -/
def divide (a b : List ℝ) : Except PyErr (List ℝ) :=
  if 0 ∈ b then .error .nanResult else .ok (vdiv a b)

/-- Dmp.py:525-534: factoring out the scaling. -/
def unscale (s : Dmp) (f : List ℝ) : Except PyErr (List ℝ) :=
  match s.scaling with
  | .gMinusY0 => do
    let y0 ← s.getYInit
    divide f (vsub s.yAttr y0)
  | .amplitude =>
    match s.amplitudes with
    | none => .error .typeError
    | some a => divide f a
  | .noScaling => .ok f

/-- Dmp.py:494-534: the target for one time, with state `x` in the analytical solution. -/
def targetRow (s : Dmp) (x y yd ydd : List ℝ) : Except PyErr (List ℝ) := do
  let d := s.dimY
  let g ← s.scaleGoal (pickAt x (GOAL d))
  let damping := if s.damping.isSome then .array (pickAt x (DAMPING d)) else s.spring.damping
  let f := s.inverse damping g y yd ydd
  let f ← divide f (List.replicate d ((pickAt x (GATING d)).getD 0 0))
  s.unscale f

/-- Dmp.py:476-536 _compute_targets: phases and targets (one row for each time). -/
def computeTargets (traj : Trajectory ℝ) : PyM Dmp (List ℝ × List (List ℝ)) := do
  let s ← PyM.self
  if s.dimY ≠ traj.ys.cols then PyM.raise .valueError
  else do
    let sol ← analytical (some traj.ts)
    let s ← PyM.self
    let targets ← PyM.lift ((List.range traj.ts.length).mapM fun t =>
      s.targetRow (sol.xs.getD t []) (traj.ys.rows.getD t []) (traj.yds.rows.getD t [])
        (traj.ydds.rows.getD t []))
    pure (sol.xs.map fun x => (pickAt x (PHASE s.dimY)).getD 0 0, targets)

/-- `fas[dd].train(...)` in Dmp.py:463, without further keyword arguments. (Function approximators are
different objects; sharing one between dimensions is not modelled.) -/
def trainFa (phases : List ℝ) (targets : List (List ℝ)) (dd : Nat) : PyM (List Fa) Unit := ⟨fun fas =>
  match fas[dd]? with
  | none => (.error .indexError, fas)
  | some fa =>
    let r := Fa.train (fun (t : Fin phases.length) (_ : Fin 1) => phases[t])
      (fun t => (targets.getD t []).getD dd 0) none fa
    (r.1, fas.set dd r.2)⟩

/-- Dmp.py:461-463: the loop over the dimensions. -/
def trainFas (phases : List ℝ) (targets : List (List ℝ)) : List Nat → PyM (List Fa) Unit
  | [] => pure ()
  | dd :: rest => do
    trainFa phases targets dd
    trainFas phases targets rest

/-- A change of the list of function approximators. -/
def onFas {α : Type} (m : PyM (List Fa) α) : PyM Dmp α := ⟨fun s =>
  match s.fas with
  | none => (.error .typeError, s)
  | some fas => ((m fas).1, { s with fas := some (m fas).2 })⟩

/-- Dmp.py:441-474 train. `newFas` is the keyword argument function_approximators. -/
def train (traj : Trajectory ℝ) (newFas : Option (Option (List Fa)) := none) : PyM Dmp Unit := do
  match traj.ts.getLast? with
  | none => PyM.raise .indexError
  | some tau => setTau tau
  setYInit (← PyM.lift traj.yInit)
  setYAttr (← PyM.lift traj.yFinal)
  let range ← PyM.lift traj.rangePerDim
  PyM.modify fun s => { s with amplitudes := some range }
  PyM.modify fun s => { s with fas := newFas.getD s.fas }
  let s ← PyM.self
  match s.fas with
  | none => pure ()
  | some _ => do
    let r ← computeTargets traj
    onFas (trainFas r.1 r.2 (List.range s.dimY))
  PyM.modify fun s => { s with tsTrain := some traj.ts }

/-- Dmp.py:160-178 from_traj. -/
def fromTraj (traj : Trajectory ℝ) (fas : Option (List Fa)) (o : Options := {}) : Except PyErr Dmp := do
  match traj.ts.getLast? with
  | none => .error .indexError
  | some tau => do
    let yInit ← traj.yInit
    let yAttr ← traj.yFinal
    let dmp ← init tau yInit yAttr fas o
    match train traj none dmp with
    | (.ok _, dmp) => .ok dmp
    | (.error e, _) => .error e

/-! ### Parameter vectors -/

/-- Dmp.py:639-655 set_selected_param_names; a single string stands for the list with this string. -/
def setSelected (names : List String) : PyM Dmp Unit := do
  if "goal" ∈ names then PyM.modify fun s => { s with selected := ["goal"] } else pure ()
  let rest := if "goal" ∈ names then names.filter (· ≠ "goal") else names
  PyM.modify fun s => { s with fas := s.fas.map fun fas => fas.map fun fa => (Fa.setSelected rest fa).2 }

/-- Dmp.py:682-685: values of one function approximator; `np.array(0)` is appended as one 0. -/
def faValues (fa : Fa) : Except PyErr (List ℝ) :=
  if fa.model.isSome then do
    match ← fa.getParamVector with
    | none => return [0]
    | some v => return v
  else .ok []

/-- Dmp.py:679-688 get_param_vector. -/
def getParamVector (s : Dmp) : Except PyErr (List ℝ) := do
  let values ← (s.fas.getD []).mapM faValues
  return values.flatten ++ if "goal" ∈ s.selected then s.yAttr else []

/-- Dmp.py:709-718 _get_param_vector_size_local. -/
def paramVectorSize (s : Dmp) : Except PyErr Nat := do
  let sizes ← (s.fas.getD []).mapM fun fa =>
    if fa.model.isSome then fa.paramVectorSize else .ok 0
  return sizes.sum + if "goal" ∈ s.selected then s.dimY else 0

/-- Is a parameter a numpy scalar? Then the size of the parameter vector is a float. -/
def isScalar : Option Param → Bool
  | some (.scalar _) => true
  | _ => false

/-- Dmp.py:698-700: the size of a slice of the values. A size that is a float raises TypeError. -/
def sliceSize (fa : Fa) : Except PyErr Nat := do
  let n ← fa.paramVectorSize
  if (fa.selected.getD []).any fun label => isScalar (fa.param label) then .error .typeError
  else .ok n

/-- Dmp.py:696-702: the loop over the function approximators; the argument and the result have the
values that are not yet used. -/
def setFas : List ℝ → List Fa → Except PyErr (List ℝ) × List Fa
  | v, [] => (.ok v, [])
  | v, fa :: fas =>
    if fa.model.isSome then
      match sliceSize fa with
      | .error e => (.error e, fa :: fas)
      | .ok n =>
        match Fa.setParamVector (v.take n) fa with
        | (.error e, fa') => (.error e, fa' :: fas)
        | (.ok _, fa') => ((setFas (v.drop n) fas).1, fa' :: (setFas (v.drop n) fas).2)
    else ((setFas v fas).1, fa :: (setFas v fas).2)

/-- Dmp.py:690-704 set_param_vector. -/
def setParamVector (values : List ℝ) : PyM Dmp Unit := do
  let s ← PyM.self
  let size ← PyM.lift s.paramVectorSize
  if values.length ≠ size then PyM.raise .valueError
  else do
    let rest ← (match s.fas with
      | none => pure values
      | some _ => onFas ⟨setFas values⟩ : PyM Dmp (List ℝ))
    if "goal" ∈ s.selected then setYAttr (rest.take s.dimY) else pure ()

end Dmp

end Verif
