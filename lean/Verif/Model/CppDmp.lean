import Verif.Model.CppApproximators
import Verif.Model.Dmp

/-
The C++ implementation: src/dmp/Dmp.cpp, src/dmp/Dmp.hpp, and the loop of
demos/robot/robotExecuteDmp.cpp. See CppSystems.lean for what is simplified.
-/

noncomputable section

set_option autoImplicit false

namespace Verif

namespace Cpp

/-- Eigen's `x.segment(i, n)`, read. -/
def seg (x : List ℝ) (i n : Nat) : CppResult (List ℝ) :=
  if x.length < i + n then .error .assertion else .ok ((x.drop i).take n)

/-- Eigen's `x.segment(i, n) = v`. -/
def putSeg (x : List ℝ) (i n : Nat) (v : List ℝ) : CppResult (List ℝ) :=
  if x.length < i + n then .error .assertion
  else if v.length ≠ n then .error .assertion
  else .ok (x.take i ++ v ++ x.drop (i + n))

/-- A pointer that is used. -/
def deref {α : Type} : Option α → CppResult α
  | none => .error .null
  | some a => .ok a

/-- Dmp.hpp:389-424, members. -/
structure Dmp extends Base where
  yAttr : List ℝ
  spring : Spring
  goal : Option Exponential
  phase : Option AnySystem
  gating : Option AnySystem
  fas : List (Option AnyFa)
  scaling : ForcingScaling
  amplitudes : List ℝ

namespace Dmp

/-- Dmp.hpp:338-351 y_init, get_y_init. -/
def yInit (s : Dmp) : List ℝ := s.xInit.take s.dimY

/-- Dmp.cpp:188-220 initSubSystems and 231-239 initFunctionApproximators, for the members of the base
class `b`. -/
def build (b : Base) (yAttr : List ℝ) (fas : List (Option AnyFa)) (alpha : ℝ) (goal : Option Exponential)
    (phase gating : Option AnySystem) (scaling : ForcingScaling) (amplitudes : List ℝ) :
    CppResult Dmp := do
  let yInit := b.xInit.take b.dimY
  let spring ← Spring.make b.tau yInit yAttr alpha
  let goal ← match goal with
    | none => pure none
    | some g =>
      if g.dimX ≠ b.dimY then throw .assertion
      else do pure (some (← g.setXInit yInit))
  if scaling = .amplitude ∧ amplitudes.length ≠ b.dimY then throw .assertion
  if fas.length ≠ 0 ∧ b.dimY ≠ fas.length then throw .assertion
  return { b with
    yAttr := yAttr
    spring := spring
    goal := goal
    phase := phase
    gating := gating
    fas := fas
    scaling := scaling
    amplitudes := amplitudes }

/-- Dmp.cpp:85-100, the constructor with all subsystems. -/
def make (tau : ℝ) (yInit yAttr : List ℝ) (fas : List (Option AnyFa)) (alpha : ℝ)
    (goal : Option Exponential) (phase gating : Option AnySystem) (scaling : ForcingScaling)
    (amplitudes : List ℝ) : CppResult Dmp := do
  let b ← Base.ofDims tau yInit (3 * yInit.length + 2)
  build b yAttr fas alpha goal phase gating scaling amplitudes

/-- Dmp.cpp:163-186: the subsystems for a type: goal, phase and gating system. -/
def typeSystems (dmpType : String) (tau : ℝ) (yInit yAttr : List ℝ) :
    CppResult (Option Exponential × Option AnySystem × Option AnySystem) := do
  if dmpType = "IJSPEERT_2002_MOVEMENT" then
    return (none, some (.exponential (← Exponential.make tau [1] [0] 4)),
      some (.exponential (← Exponential.make tau [1] [0] 4)))
  else if dmpType = "KULVICIUS_2012_JOINING" ∨ dmpType = "COUNTDOWN_2013" then
    return (some (← Exponential.make tau yInit yAttr 15),
      some (.time (← TimeSystem.make tau (dmpType = "COUNTDOWN_2013"))),
      some (.sigmoid (← Sigmoid.make tau [1] (-10) (0.9 * tau))))
  else return (none, none, none)

/-- Dmp.cpp:119-130, the constructor with a type. -/
def makeType (tau : ℝ) (yInit yAttr : List ℝ) (fas : List (Option AnyFa)) (dmpType : String)
    (scaling : ForcingScaling) (amplitudes : List ℝ) : CppResult Dmp := do
  let b ← Base.ofOrder 1 tau yInit
  let (goal, phase, gating) ← typeSystems dmpType tau (b.xInit.take b.dimY) yAttr
  build b yAttr fas 20 goal phase gating scaling amplitudes

/-- Dmp.cpp:102-117, the constructor with the number of dimensions and all subsystems. -/
def makeDims (n : Nat) (fas : List (Option AnyFa)) (alpha : ℝ) (goal : Option Exponential)
    (phase gating : Option AnySystem) (scaling : ForcingScaling) (amplitudes : List ℝ) : CppResult Dmp := do
  let b ← Base.ofOrder 1 1 (vzeros n)
  build b (List.replicate n 1) fas alpha goal phase gating scaling amplitudes

/-- Dmp.cpp:132-143, the constructor with the number of dimensions and a type. -/
def makeTypeDims (n : Nat) (fas : List (Option AnyFa)) (dmpType : String) (scaling : ForcingScaling)
    (amplitudes : List ℝ) : CppResult Dmp := do
  let b ← Base.ofOrder 1 1 (vzeros n)
  let yAttr := List.replicate n (1 : ℝ)
  let (goal, phase, gating) ← typeSystems dmpType 1 (b.xInit.take b.dimY) yAttr
  build b yAttr fas 20 goal phase gating scaling amplitudes

/-- Dmp.cpp:145-161, the constructor for Dmps without a forcing term: the function approximators are NULL. -/
def makePlain (tau : ℝ) (yInit yAttr : List ℝ) (alpha : ℝ) (goal : Option Exponential) : CppResult Dmp := do
  let b ← Base.ofOrder 1 tau yInit
  let phase ← Exponential.make tau [1] [0] 4
  let gating ← Exponential.make tau [1] [0] 4
  build b yAttr (List.replicate yInit.length none) alpha goal (some (.exponential phase))
    (some (.exponential gating)) .noScaling []

/-! ### Setters -/

/-- Dmp.cpp:513-522 set_tau. -/
def setTau (tau : ℝ) (s : Dmp) : CppResult Dmp := do
  let phase ← deref s.phase
  let gating ← deref s.gating
  return { s with
    toBase := s.toBase.setTau tau
    spring := s.spring.setTau tau
    goal := s.goal.map (Exponential.setTau tau)
    phase := some (phase.setTau tau)
    gating := some (gating.setTau tau) }

/-- Dmp.cpp:524-532 set_y_init, for a VectorXd. -/
def setYInit (y : List ℝ) (s : Dmp) : CppResult Dmp := do
  if y.length ≠ s.dimY then throw .assertion
  let b ← s.toBase.setYInit y
  let spring ← s.spring.setYInit y
  let goal ← match s.goal with
    | none => pure none
    | some g => do pure (some (← g.setXInit y))
  return { s with toBase := b, spring := spring, goal := goal }

/-- Dmp.hpp:356-359 set_y_init, for an Eigen::Ref. -/
def setYInitRef (y : List ℝ) (s : Dmp) : CppResult Dmp := do
  return { s with toBase := ← s.toBase.setXInit y }

/-- Dmp.cpp:534-543 set_y_attr. -/
def setYAttr (y : List ℝ) (s : Dmp) : CppResult Dmp := do
  let goal ← match s.goal with
    | none => pure none
    | some g => do pure (some (← g.setXAttr y))
  return { s with yAttr := y, goal := goal }

/-- Dmp.cpp:222-225 set_damping_coefficient, SpringDamperSystem.hpp:96-99. -/
def setDampingCoefficient (damping : ℝ) (s : Dmp) : Dmp :=
  { s with spring := { s.spring with damping := damping } }

/-- Dmp.cpp:226-229 set_spring_constant, SpringDamperSystem.hpp:105-108. -/
def setSpringConstant (spring : ℝ) (s : Dmp) : Dmp :=
  { s with spring := { s.spring with spring := spring } }

/-! ### Integration -/

/-- Dmp.cpp:321-329 and 432-440: scaling of the forcing term. -/
def scaleForcing (s : Dmp) (f : List ℝ) : CppResult (List ℝ) :=
  match s.scaling with
  | .gMinusY0 =>
    if s.yAttr.length ≠ s.yInit.length then .error .assertion
    else .ok (vmul f (vsub s.yAttr s.yInit))
  | .amplitude =>
    if f.length ≠ s.amplitudes.length then .error .assertion else .ok (vmul f s.amplitudes)
  | .noScaling => .ok f

/-- `function_approximators_[i_dim]`, which is used. -/
def fa (s : Dmp) (i : Nat) : CppResult AnyFa := deref (s.fas.getD i none)

/-- Dmp.cpp:281-335 differentialEquation. The segments are defined in lines 49-64. -/
def diffEq (x : List ℝ) (s : Dmp) : CppResult (List ℝ × Dmp) := do
  let d := s.dimY
  let xd := vzeros s.dimX
  -- 286-298: goal system
  let (xd, goal, spring) ← match s.goal with
    | none => do
      let spring ← s.spring.setYAttr s.yAttr
      let xd ← putSeg xd (2 * d + 0) d (vzeros d)
      pure (xd, none, spring)
    | some g => do
      let g ← g.setXAttr s.yAttr
      let gd ← g.diffEq (← seg x (2 * d + 0) d)
      let xd ← putSeg xd (2 * d + 0) d gd
      let spring ← s.spring.setYAttr (← seg x (2 * d + 0) d)
      pure (xd, some g, spring)
  -- 302-306: spring, phase and gating system
  let xd ← putSeg xd (0 * d + 0) (2 * d) (← spring.diffEq (← seg x (0 * d + 0) (2 * d)))
  let phase ← deref s.phase
  let xd ← putSeg xd (3 * d + 0) 1 (← phase.diffEq (← seg x (3 * d + 0) 1))
  let gating ← deref s.gating
  let xd ← putSeg xd (3 * d + 1) 1 (← gating.diffEq (← seg x (3 * d + 1) 1))
  -- 308-313: function approximators
  let p ← seg x (3 * d + 0) 1
  let out ← (List.range d).mapM fun i => do
    (← s.fa i).predictRealTime fun j : Fin 1 => p.getD j 0
  -- 315-329: forcing term
  let q ← seg x (3 * d + 1) 1
  let forcing ← s.scaleForcing (vscale (q.getD 0 0) out)
  -- 332
  let zd ← seg xd (1 * d + 0) d
  let xd ← putSeg xd (1 * d + 0) d (vadd zd (vdivs forcing s.tau))
  return (xd, { s with goal := goal, spring := spring })

/-- Dmp.cpp:251-279 integrateStart. -/
def integrateStart (s : Dmp) : CppResult ((List ℝ × List ℝ) × Dmp) := do
  let d := s.dimY
  let x := vzeros s.dimX
  let (x, goal) ← match s.goal with
    | none => do pure (← putSeg x (2 * d + 0) d s.yAttr, none)
    | some g => do
      let ((xg, _), g) ← System.integrateStartFrom s.yInit g
      pure (← putSeg x (2 * d + 0) d xg, some g)
  let spring ← s.spring.setYAttr (← seg x (2 * d + 0) d)
  let ((xs, _), spring) ← System.integrateStartFrom s.yInit spring
  let x ← putSeg x (0 * d + 0) (2 * d) xs
  let ((xp, _), _) ← System.integrateStart (← deref s.phase)
  let x ← putSeg x (3 * d + 0) 1 xp
  let ((xq, _), _) ← System.integrateStart (← deref s.gating)
  let x ← putSeg x (3 * d + 1) 1 xq
  let (xd, s) ← diffEq x { s with goal := goal, spring := spring }
  return ((x, xd), s)

instance : System Dmp where
  base s := s.toBase
  setYInit := setYInitRef
  diffEq := diffEq

/-- Dmp.cpp:354-362 stateAsPosVelAcc. -/
def posVelAcc (s : Dmp) (x xd : List ℝ) : CppResult (List ℝ × List ℝ × List ℝ) := do
  let d := s.dimY
  return (← seg x (0 * d + 0) d, ← seg xd (0 * d + 0) d, vdivs (← seg xd (1 * d + 0) d) s.tau)

/-! ### Analytical solution -/

/-- Dmp.cpp:488-505: the rows after the first; `tPrev`, `x` and `xd` are time, state and rate of change
of the spring system in the previous row. A row has the time, the goal and the forcing term. -/
def springLoop (s : Dmp) (spring : Spring) (tPrev : ℝ) (x xd : List ℝ) :
    List (ℝ × List ℝ × List ℝ) → CppResult (List (List ℝ × List ℝ))
  | [] => .ok []
  | (t, g, f) :: rows => do
    let d := s.dimY
    let dt := t - tPrev
    let x := vadd x (vscale dt xd)
    let spring ← spring.setYAttr g
    let xd ← spring.diffEq x
    let xd ← putSeg xd d d (vadd (← seg xd d d) (vdivs f s.tau))
    let xd ← putSeg xd 0 d (vdivs (← seg x d d) s.tau)
    let rest ← springLoop s spring t x xd rows
    return (x, xd) :: rest

/-- The results of analyticalSolution. -/
structure Solution where
  xs : List (List ℝ)
  xds : List (List ℝ)
  forcing : List (List ℝ)
  fa : List (List ℝ)

/-- Dmp.cpp:390-511 analyticalSolution. The matrices xs and xds are put together at the end. -/
def analytical (ts : List ℝ) (s : Dmp) : CppResult Solution := do
  let d := s.dimY
  let n := ts.length
  if n = 0 then throw .assertion
  let (xsPhase, xdsPhase) ← (← deref s.phase).analytical ts
  let (xsGating, xdsGating) ← (← deref s.gating).analytical ts
  -- 417-440: forcing terms
  let cols ← (List.range d).mapM fun i => do
    let out ← (← s.fa i).predict fun (t : Fin n) (_ : Fin 1) => (xsPhase.getD t []).getD 0 0
    pure (List.ofFn out)
  let fa := (List.range n).map fun t => cols.map fun c => c.getD t 0
  let forcing ← (List.zipWith (fun f g => f.map (· * g.getD 0 0)) fa xsGating).mapM s.scaleForcing
  -- 442-453: goal
  let (xsGoal, xdsGoal) ← match s.goal with
    | none => pure (List.replicate n s.yAttr, List.replicate n (vzeros d))
    | some g => g.analytical ts
  -- 469-486: spring system and first row
  let spring ← Spring.make s.tau s.yInit s.yAttr s.spring.damping
  let spring ← spring.setYAttr (xsGoal.getD 0 [])
  let ((x, xd), spring) ← System.integrateStart spring
  let xd ← putSeg xd d d (vadd (← seg xd d d) (vdivs (forcing.getD 0 []) s.tau))
  let rest ← s.springLoop spring (ts.getD 0 0) x xd
    (((List.range n).drop 1).map fun i => (ts.getD i 0, xsGoal.getD i [], forcing.getD i []))
  let rows := (x, xd) :: rest
  let assemble (sp goal phase gating : List ℝ) : CppResult (List ℝ) := do
    let r ← putSeg (vzeros s.dimX) (2 * d + 0) d goal
    let r ← putSeg r (3 * d + 0) 1 phase
    let r ← putSeg r (3 * d + 1) 1 gating
    putSeg r (0 * d + 0) (2 * d) sp
  let xs ← (List.range n).mapM fun i =>
    assemble (rows.getD i ([], [])).1 (xsGoal.getD i []) (xsPhase.getD i []) (xsGating.getD i [])
  let xds ← (List.range n).mapM fun i =>
    assemble (rows.getD i ([], [])).2 (xdsGoal.getD i []) (xdsPhase.getD i []) (xdsGating.getD i [])
  return { xs := xs, xds := xds, forcing := forcing, fa := fa }

/-! ### Execution -/

/-- demos/robot/robotExecuteDmp.cpp:90-95: the loop, without the simulator; `integrateStep` is the
Runge-Kutta step (DynamicalSystem.hpp:166-172). The results are the desired positions, velocities and
accelerations. -/
def executeLoop (dt : ℝ) : Nat → List ℝ → List ℝ → Dmp →
    CppResult (List (List ℝ × List ℝ × List ℝ))
  | 0, _, _, _ => .ok []
  | n + 1, x, xd, s => do
    let r ← s.posVelAcc x xd
    let ((x, xd), s) ← System.rungeKuttaStep dt x s
    let rest ← executeLoop dt n x xd s
    return r :: rest

/-- demos/robot/robotExecuteDmp.cpp:72-95. -/
def execute (dt : ℝ) (n : Nat) (s : Dmp) : CppResult (List (List ℝ × List ℝ × List ℝ)) := do
  let ((x, xd), s) ← s.integrateStart
  executeLoop dt n x xd s

/-- tests/integration/testDmp.cpp:86-95: states and rates of change for all times. Without times, the
assignment to row 0 violates an assertion. -/
def run (ts : List ℝ) (s : Dmp) : CppResult (List (List ℝ × List ℝ) × Dmp) := do
  let (r0, s) ← s.integrateStart
  match ts with
  | [] => throw .assertion
  | t0 :: ts => do
    let (rows, s) ← steps .rungeKutta t0 r0.1 s ts
    return (r0 :: rows, s)

/-! ### Reading what Python has written -/

/-- Dmp.cpp:558: the goal system is read as ExponentialSystem (ExponentialSystem.cpp:91-99). Null is
not an object, and the other classes lack `alpha` or `_x_attr`. -/
def readGoal : Option Sub → CppResult Exponential
  | some (.exponential e) => readExponential e
  | _ => .error .json

/-- Dmp.cpp:566-573: the first function approximators of a list; an element beyond the end of a json
array throws. Null is not an array. -/
def readFas (nDims : Nat) : Option (List Fa) → CppResult (List (Option AnyFa))
  | none => .ok []
  | some fas => (List.range nDims).mapM fun i =>
    match fas[i]? with
    | none => .error .json
    | some fa => readFa fa

/-- Dmp.cpp:545-578 from_json. `_y_init` is an attribute of the Python object only once the setter was
used. Null is read as the empty vector. -/
def read (s : Verif.Dmp) : CppResult Dmp := do
  let alpha ← readDouble s.spring.damping
  let yInit ← match s.yInit? with
    | none => .error .json
    | some y => .ok y
  let goal ← readGoal s.goal
  let phase ← readSystem s.phase
  let gating ← readSystem s.gating
  let fas ← readFas s.yAttr.length s.fas
  make s.tau yInit s.yAttr fas alpha (some goal) phase gating s.scaling (s.amplitudes.getD [])

end Dmp

end Cpp

end Verif
