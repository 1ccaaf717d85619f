import Verif.Model.DmpDynParams

/- Specification: the attributes of an object as a dictionary from names to values. -/

noncomputable section

set_option autoImplicit false

namespace Verif.Spec

/-- The value of an attribute. -/
inductive Value
  | real (a : ℝ)
  | nat (n : Nat)
  | bool (b : Bool)
  | list (l : List ℝ)
  | par (p : Par ℝ)
  | listOrNone (l : Option (List ℝ))
  | parOrNone (p : Option (Par ℝ))

/-- `__dict__` -/
abbrev Dict := List (String × Value)

/-- DynamicalSystem.py:41-49 -/
def baseDict (s : Base) : Dict :=
  [("_tau", .real s.tau), ("_dim_y", .nat s.dimY), ("_dim_x", .nat s.dimX), ("_x_init", .list s.xInit)]

/-- SpringDamperSystem.py:48-54 -/
def springDict (s : SpringDamper) : Dict :=
  baseDict s.toBase ++ [("_y_attr", .list s.yAttr), ("damping_coefficient", .par s.damping),
    ("mass", .par s.mass), ("spring_constant", .par s.spring)]

/-- TimeSystem.py:36, ExponentialSystem.py:38-39, SigmoidSystem.py:39-46, RichardsSystem.py:31-36 -/
def subDict : Sub → Dict
  | .time s => baseDict s.toBase ++ [("_count_down", .bool s.countDown)]
  | .exponential s => baseDict s.toBase ++ [("_x_attr", .list s.xAttr), ("alpha", .par s.alpha)]
  | .sigmoid s => baseDict s.toBase ++ [("_max_rate", .par s.maxRate),
      ("_inflection_ratio", .par s.inflRatio), ("_Ks_cached", .listOrNone s.ksCached)]
  | .richards s => baseDict s.toBase ++ [("alpha", .par s.alpha), ("v", .par s.v),
      ("right_asymp", .par s.rightAsymp), ("t_infl_ratio", .par s.tInflRatio),
      ("left_asymp", .parOrNone s.leftAsymp)]

/-- The subsystem of a name, as a dictionary; `none` for names that are not those of a subsystem and
for subsystems that are None. -/
def system (s : Dmp) (n : String) : Option Dict :=
  if n = "spring_system" then some (springDict s.spring)
  else if n = "goal_system" then s.goal.map subDict
  else if n = "damping_system" then s.damping.map subDict
  else if n = "phase_system" then some (subDict s.phase)
  else if n = "gating_system" then some (subDict s.gating)
  else none

/-- The value of attribute `a` of subsystem `n`. -/
def attr (s : Dmp) (n a : String) : Option Value := (system s n).bind fun d => d.lookup a

/-- The name in an entry of `params[system_name]`. -/
def settingName : Setting → String
  | .tau _ => "_tau"
  | .dimY _ => "_dim_y"
  | .dimX _ => "_dim_x"
  | .xInit _ => "_x_init"
  | .countDown _ => "_count_down"
  | .xAttr _ => "_x_attr"
  | .alpha _ => "alpha"
  | .maxRate _ => "_max_rate"
  | .inflRatio _ => "_inflection_ratio"
  | .ksCached _ => "_Ks_cached"
  | .v _ => "v"
  | .rightAsymp _ => "right_asymp"
  | .tInflRatio _ => "t_infl_ratio"
  | .leftAsymp _ => "left_asymp"
  | .yAttr _ => "_y_attr"
  | .damping _ => "damping_coefficient"
  | .spring _ => "spring_constant"
  | .mass _ => "mass"
  | .other n => n

/-- The value in an entry of `params[system_name]`. (That of a name that no class has does not matter.) -/
def settingValue : Setting → Value
  | .tau a => .real a
  | .dimY a => .nat a
  | .dimX a => .nat a
  | .xInit a => .list a
  | .countDown a => .bool a
  | .xAttr a => .list a
  | .alpha a => .par a
  | .maxRate a => .par a
  | .inflRatio a => .par a
  | .ksCached a => .listOrNone a
  | .v a => .par a
  | .rightAsymp a => .par a
  | .tInflRatio a => .par a
  | .leftAsymp a => .parOrNone a
  | .yAttr a => .list a
  | .damping a => .par a
  | .spring a => .par a
  | .mass a => .par a
  | .other _ => .nat 0

/-- `.other` is used for names that no class has. -/
def Named : Setting → Prop
  | .other n => n ∉ ["_tau", "_dim_y", "_dim_x", "_x_init", "_count_down", "_x_attr", "alpha",
      "_max_rate", "_inflection_ratio", "_Ks_cached", "v", "right_asymp", "t_infl_ratio", "left_asymp",
      "_y_attr", "damping_coefficient", "spring_constant", "mass"]
  | _ => True

/-- `params` is a dictionary of dictionaries: no name twice. -/
structure IsParams (params : List (String × List Setting)) : Prop where
  systems : (params.map Prod.fst).Nodup
  settings : ∀ n ps, (n, ps) ∈ params → (ps.map settingName).Nodup
  named : ∀ n ps, (n, ps) ∈ params → ∀ p ∈ ps, Named p

/-- The values of `ps` were written to the dictionary, everything else is as before. -/
structure Overwritten (d : Dict) (ps : List Setting) (d' : Dict) : Prop where
  new : ∀ p ∈ ps, d'.lookup (settingName p) = some (settingValue p)
  old : ∀ a, (∀ p ∈ ps, settingName p ≠ a) → d'.lookup a = d.lookup a

/-- All names are those of attributes. -/
def Known (d : Dict) (ps : List Setting) : Prop := ∀ p ∈ ps, d.lookup (settingName p) ≠ none

/-- The subsystems that Dmp.py:658 goes through, in this order. -/
def order : List String := ["spring_system", "goal_system", "damping_system"]

/-- Dmp.py:72-142, DynamicalSystem.py:41-49: names of attributes of a Dmp, without the underscore. -/
def IsAttribute (s : Dmp) (n : String) : Prop :=
  n ∈ ["tau", "dim_y", "dim_x", "x_init", "y_attr", "function_approximators", "spring_system",
    "phase_system", "gating_system", "goal_system", "damping_system", "forcing_term_scaling",
    "scaling_amplitudes", "ts_train", "trajectory_train", "selected_param_names"] ∨
  n = "y_init" ∧ ∃ y, s.yInit? = some y

/-- Only the three subsystems changed. -/
def OnlySystems (s t : Dmp) : Prop :=
  t = { s with spring := t.spring, goal := t.goal, damping := t.damping }

/-- The entries for the system `n` can all be written. -/
def Fine (params : List (String × List Setting)) (s : Dmp) (n : String) : Prop :=
  ∀ ps, (n, ps) ∈ params → ∃ d, system s n = some d ∧ Known d ps

/-- The entries for the system `n` have been written. -/
def Done (params : List (String × List Setting)) (s t : Dmp) (n : String) : Prop :=
  (∀ ps, (n, ps) ∈ params → ∃ d d', system s n = some d ∧ system t n = some d' ∧ Overwritten d ps d') ∧
  ((∀ ps, (n, ps) ∉ params) → system t n = system s n)

/-- The entries for the system `n` have been written up to the first one that is not that of an
attribute. -/
def Stopped (params : List (String × List Setting)) (s t : Dmp) (n : String) : Prop :=
  ∃ ps, (n, ps) ∈ params ∧
    ((system s n = none ∧ system t n = none) ∨
     ∃ pre p post d d', ps = pre ++ p :: post ∧ system s n = some d ∧ Known d pre ∧
       d.lookup (settingName p) = none ∧ system t n = some d' ∧ Overwritten d pre d')

end Verif.Spec
