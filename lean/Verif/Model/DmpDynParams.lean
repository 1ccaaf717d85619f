import Verif.Model.Dmp

/- Dmp.py:657-677: `Dmp.set_params_dyn_sys`, which writes into the `__dict__` of the subsystems. -/

noncomputable section

set_option autoImplicit false

namespace Verif

/-- An entry `param_name: value` of `params[system_name]`. Each constructor is one attribute name (in
quotes) with a value of the type that the attribute has in the classes; Python stores values of any
type, those of other types are not modelled. -/
inductive Setting
  /-- "_tau" (DynamicalSystem.py:41) -/
  | tau (a : ℝ)
  /-- "_dim_y" (DynamicalSystem.py:46) -/
  | dimY (a : Nat)
  /-- "_dim_x" (DynamicalSystem.py:47) -/
  | dimX (a : Nat)
  /-- "_x_init" (DynamicalSystem.py:49) -/
  | xInit (a : List ℝ)
  /-- "_count_down" (TimeSystem.py:36) -/
  | countDown (a : Bool)
  /-- "_x_attr" (ExponentialSystem.py:38) -/
  | xAttr (a : List ℝ)
  /-- "alpha" (ExponentialSystem.py:39, RichardsSystem.py:32) -/
  | alpha (a : Par ℝ)
  /-- "_max_rate" (SigmoidSystem.py:40) -/
  | maxRate (a : Par ℝ)
  /-- "_inflection_ratio" (SigmoidSystem.py:43) -/
  | inflRatio (a : Par ℝ)
  /-- "_Ks_cached" (SigmoidSystem.py:46), an array or None -/
  | ksCached (a : Option (List ℝ))
  /-- "v" (RichardsSystem.py:33) -/
  | v (a : Par ℝ)
  /-- "right_asymp" (RichardsSystem.py:34) -/
  | rightAsymp (a : Par ℝ)
  /-- "t_infl_ratio" (RichardsSystem.py:35) -/
  | tInflRatio (a : Par ℝ)
  /-- "left_asymp" (RichardsSystem.py:36), a value or None -/
  | leftAsymp (a : Option (Par ℝ))
  /-- "_y_attr" (SpringDamperSystem.py:48) -/
  | yAttr (a : List ℝ)
  /-- "damping_coefficient" (SpringDamperSystem.py:49) -/
  | damping (a : Par ℝ)
  /-- "spring_constant" (SpringDamperSystem.py:52-54) -/
  | spring (a : Par ℝ)
  /-- "mass" (SpringDamperSystem.py:50) -/
  | mass (a : Par ℝ)
  /-- Any other name, with any value. (Dmp.py:618 creates an attribute "y_attr" in goal systems whose
  class has no setter of that name. Nothing uses it; it is not modelled, so "y_attr" is not one of these
  names.) -/
  | other (name : String)

namespace Setting

/-- Dmp.py:666-668: `if param_name in system.__dict__: system.__dict__[param_name] = value`, for the
attributes of the base class; `none` if the name is not one of them. -/
def toBase : Setting → Base → Option Base
  | .tau a, s => some { s with tau := a }
  | .dimY a, s => some { s with dimY := a }
  | .dimX a, s => some { s with dimX := a }
  | .xInit a, s => some { s with xInit := a }
  | _, _ => none

/-- Dmp.py:666-668 for a TimeSystem. -/
def toTime : Setting → TimeSystem → Option TimeSystem
  | .countDown a, s => some { s with countDown := a }
  | p, s => (p.toBase s.toBase).map fun b => { s with toBase := b }

/-- Dmp.py:666-668 for an ExponentialSystem. -/
def toExponential : Setting → Exponential → Option Exponential
  | .xAttr a, s => some { s with xAttr := a }
  | .alpha a, s => some { s with alpha := a }
  | p, s => (p.toBase s.toBase).map fun b => { s with toBase := b }

/-- Dmp.py:666-668 for a SigmoidSystem. The setters of the class, which empty the cache of `Ks`, are
not called. -/
def toSigmoid : Setting → Sigmoid → Option Sigmoid
  | .maxRate a, s => some { s with maxRate := a }
  | .inflRatio a, s => some { s with inflRatio := a }
  | .ksCached a, s => some { s with ksCached := a }
  | p, s => (p.toBase s.toBase).map fun b => { s with toBase := b }

/-- Dmp.py:666-668 for a RichardsSystem. -/
def toRichards : Setting → Richards → Option Richards
  | .alpha a, s => some { s with alpha := a }
  | .v a, s => some { s with v := a }
  | .rightAsymp a, s => some { s with rightAsymp := a }
  | .tInflRatio a, s => some { s with tInflRatio := a }
  | .leftAsymp a, s => some { s with leftAsymp := a }
  | p, s => (p.toBase s.toBase).map fun b => { s with toBase := b }

/-- Dmp.py:666-668 for a SpringDamperSystem. -/
def toSpring : Setting → SpringDamper → Option SpringDamper
  | .yAttr a, s => some { s with yAttr := a }
  | .damping a, s => some { s with damping := a }
  | .spring a, s => some { s with spring := a }
  | .mass a, s => some { s with mass := a }
  | p, s => (p.toBase s.toBase).map fun b => { s with toBase := b }

/-- Dmp.py:666-668 for the goal or damping system. -/
def toSub (p : Setting) : Sub → Option Sub
  | .time s => (p.toTime s).map .time
  | .exponential s => (p.toExponential s).map .exponential
  | .sigmoid s => (p.toSigmoid s).map .sigmoid
  | .richards s => (p.toRichards s).map .richards

/-- Dmp.py:665-672: the loop over the parameters of one system. -/
def loop {σ : Type} (set : Setting → σ → Option σ) : List Setting → PyM σ Unit
  | [] => pure ()
  | p :: ps => do
    let s ← PyM.self
    match set p s with
    | none => PyM.raise .runtimeError
    | some t => do
      PyM.modify fun _ => t
      loop set ps

end Setting

namespace Dmp

/-- Names `n` such that `"_" + n` is in the `__dict__` of a Dmp: DynamicalSystem.py:41-49, Dmp.py:72-142;
`_y_init` is there as soon as the setter of Dmp.py:594 was used. -/
def hasAttr (s : Dmp) (n : String) : Bool :=
  ["tau", "dim_y", "dim_x", "x_init", "y_attr", "function_approximators", "spring_system",
    "phase_system", "gating_system", "goal_system", "damping_system", "forcing_term_scaling",
    "scaling_amplitudes", "ts_train", "trajectory_train", "selected_param_names"].contains n ||
  (n == "y_init" && s.yInit?.isSome)

/-- Dmp.py:658-672 for the system `"spring_system"`, which is never None. -/
def setSpringParams (params : List (String × List Setting)) : PyM Dmp Unit :=
  match params.lookup "spring_system" with
  | none => pure ()
  | some ps => onSpring (Setting.loop Setting.toSpring ps)

/-- Dmp.py:658-672 for the system `"goal_system"`. -/
def setGoalParams (params : List (String × List Setting)) : PyM Dmp Unit :=
  match params.lookup "goal_system" with
  | none => pure ()
  | some ps => do
    let s ← PyM.self
    match s.goal with
    | none => PyM.raise .runtimeError
    | some _ => onGoal (Setting.loop Setting.toSub ps)

/-- Dmp.py:658-672 for the system `"damping_system"`. -/
def setDampingParams (params : List (String × List Setting)) : PyM Dmp Unit :=
  match params.lookup "damping_system" with
  | none => pure ()
  | some ps => do
    let s ← PyM.self
    match s.damping with
    | none => PyM.raise .runtimeError
    | some _ => onDamping (Setting.loop Setting.toSub ps)

/-- Dmp.py:674-677: the names that are not those of an attribute are reported. -/
def checkNames : List String → PyM Dmp Unit
  | [] => pure ()
  | n :: ns => do
    let s ← PyM.self
    if s.hasAttr n then checkNames ns
    else PyM.raise .runtimeError

/-- Dmp.py:657-677 set_params_dyn_sys. The dictionary `params` is the list of its entries in order of
insertion, its values those of `params[system_name]` in order of insertion. All exceptions raised are
instances of the class `Exception` itself. -/
def setParamsDynSys (params : List (String × List Setting)) : PyM Dmp Unit := do
  setSpringParams params
  setGoalParams params
  setDampingParams params
  checkNames (params.map Prod.fst)

end Dmp

end Verif
