import Verif.Model.Optimization

/-
Model of the constructors of dmpbbo/bbo/updaters.py with their keyword arguments, and of the demos
demos/python/bbo/demo_bbo.py and demo_bbo_multiple_cost_components.py. Plots, printing and the command line are
not modelled.
-/

set_option autoImplicit false

noncomputable section

namespace Verif

/-- Values of keyword arguments. -/
inductive Arg
  | none
  | bool (b : Bool)
  | int (z : Int)
  | float (x : ℝ)
  | str (s : String)
  | array (l : List ℝ)

/-- `**kwargs`: names and values. (No name is used twice in a call.) -/
abbrev Kwargs := List (String × Arg)

/-- `kwargs.get(name, default)` -/
def Kwargs.get (kw : Kwargs) (name : String) (dflt : Arg) : Arg := (kw.lookup name).getD dflt

namespace Arg

/-- updaters.py:50, 90, 138: a value for eliteness. The code stores any value; what is not a number raises TypeError
in the first update, here already in the constructor. (Arrays are not modelled.) -/
def asElite : Arg → Except PyErr Elite
  | .bool b => .ok (.int (if b then 1 else 0))
  | .int z => .ok (.int z)
  | .float x => .ok (.float x)
  | _ => .error .typeError

/-- updaters.py:51, 91, 139: a value for weighting_method. What is not a string is not one of the known methods. -/
def asMethod : Arg → String
  | .str s => s
  | _ => ""

/-- updaters.py:92, 143: a value that is used as a number. The comparison in line 144 raises TypeError for other
values; line 92 stores any value, which raises TypeError in the first update. (Arrays are not modelled.) -/
def asReal : Arg → Except PyErr ℝ
  | .bool b => .ok (if b then 1 else 0)
  | .int z => .ok z
  | .float x => .ok x
  | _ => .error .typeError

/-- updaters.py:140-141, 188-208: a limit. A string is stored and raises TypeError in the first update, here already in
the constructor. -/
def asLimit : Arg → Except PyErr (Option Limit)
  | .none => .ok Option.none
  | .bool b => .ok (some (.scalar (if b then 1 else 0)))
  | .int z => .ok (some (.scalar z))
  | .float x => .ok (some (.scalar x))
  | .array l => .ok (some (.vector l))
  | .str _ => .error .typeError

/-- updaters.py:142, 176: the truth value (an array is a list here). -/
def asBool : Arg → Bool
  | .none => false
  | .bool b => b
  | .int z => decide (z ≠ 0)
  | .float x => decide (x ≠ 0)
  | .str s => decide (s ≠ "")
  | .array l => decide (l ≠ [])

end Arg

namespace Updater

/-- updaters.py:43-51, UpdaterMean. -/
def initMean (kw : Kwargs) : Except PyErr Updater := do
  let e ← (kw.get "eliteness" (.int 10)).asElite
  return ⟨e, (kw.get "weighting_method" (.str "PI-BB")).asMethod, .mean⟩

/-- updaters.py:81-92, UpdaterCovarDecay. -/
def initDecay (kw : Kwargs) : Except PyErr Updater := do
  let e ← (kw.get "eliteness" (.int 10)).asElite
  let factor ← (kw.get "covar_decay_factor" (.float 0.8)).asReal
  return ⟨e, (kw.get "weighting_method" (.str "PI-BB")).asMethod, .decay factor⟩

/-- updaters.py:125-145, UpdaterCovarAdaptation. The learning rate is checked by the constructor, before other
arguments are used. -/
def initAdaptation (kw : Kwargs) : Except PyErr Updater := do
  let lr ← (kw.get "learning_rate" (.float 1)).asReal
  if lr > 1 ∨ lr < 0 then throw .valueError
  let e ← (kw.get "eliteness" (.int 10)).asElite
  let dmax ← (kw.get "diagonal_max" .none).asLimit
  let dmin ← (kw.get "diagonal_min" .none).asLimit
  return ⟨e, (kw.get "weighting_method" (.str "PI-BB")).asMethod,
    .adapt ⟨dmax, dmin, (kw.get "diag_only" (.bool false)).asBool, lr⟩⟩

end Updater

/-! ### Arguments in the demos -/

/-- demo_bbo.py:63 -/
def demoMeanArgs : Kwargs := [("eliteness", .int 10), ("weighting_method", .str "PI-BB")]

/-- demo_bbo.py:65-67, demo_bbo_multiple_cost_components.py:82 -/
def demoDecayArgs : Kwargs :=
  [("eliteness", .int 10), ("weighting_method", .str "PI-BB"), ("covar_decay_factor", .float 0.8)]

/-- demo_bbo.py:69-76 -/
def demoAdaptationArgs : Kwargs :=
  [("eliteness", .int 10), ("weighting_method", .str "PI-BB"), ("max_level", .none), ("min_level", .float 0.000001),
    ("diag_only", .bool false), ("learning_rate", .float 0.8)]

/-- demo_bbo_of_dmps.py:86-93, demo_bbo_of_dmps_arm2D.py:92-99 -/
def demoDmpArgs : Kwargs :=
  [("eliteness", .int 10), ("weighting_method", .str "PI-BB"), ("max_level", .none), ("min_level", .float 1),
    ("diag_only", .bool false), ("learning_rate", .float 0.5)]

/-- step4_prepare_optimization.py:54 (`updater_name` is "decay") -/
def demoRobotArgs : Kwargs :=
  [("eliteness", .int 10), ("weighting", .str "PI-BB"), ("covar_decay_factor", .float 0.8)]

/-- demo_bbo.py:61-76: the updaters, by name. -/
def demoUpdaters : Except PyErr (List (String × Updater)) := do
  let mean ← Updater.initMean demoMeanArgs
  let decay ← Updater.initDecay demoDecayArgs
  let adaptation ← Updater.initAdaptation demoAdaptationArgs
  return [("fixed_exploration", mean), ("covar_decay", decay), ("covar_adaptation", adaptation)]

/-! ### Cost functions -/

variable {n : Nat}

/-- `np.linalg.norm(v)` -/
def norm2 (v : Fin n → ℝ) : ℝ := Real.sqrt (∑ j, v j ^ 2)

/-- demo_bbo.py:41-50: the distance to a point. (Sample and point have the same size.) -/
def distanceCost (point sample : Fin n → ℝ) : List ℝ := [norm2 fun j => sample j - point j]

/-- demo_bbo_multiple_cost_components.py:44-55: with regularization. -/
def regularizedCost (point : Fin n → ℝ) (weight : ℝ) (sample : Fin n → ℝ) : List ℝ :=
  let dist := norm2 fun j => sample j - point j
  let regularization := weight * norm2 sample
  [dist + regularization, dist, regularization]

/-- demo_bbo_multiple_cost_components.py:57-64 get_cost_labels -/
def regularizedLabels : List String := ["dist", "regularization"]

/-! ### The optimisations -/

variable {D : Type}

/-- demo_bbo.py:56-58, 81-94: the optimisation with one of the updaters. -/
def demoBbo (argsort : List ℝ → List Nat) (u : Updater) (hasDir : Bool) (draws : Nat → Fin 20 → Fin 2 → ℝ) :
    PyM (World (Obj 2 D)) (Dist 2) := do
  let d ← PyM.lift (Dist.init (fun _ : Fin 2 => 5) ((1 : ℝ) • (1 : Matrix (Fin 2) (Fin 2) ℝ)) none)
  runOptimization (distanceCost fun _ => 2) argsort u d 40 hasDir draws

/-- demo_bbo_multiple_cost_components.py:73-89. -/
def demoBboComponents (argsort : List ℝ → List Nat) (draws : Nat → Fin 20 → Fin 2 → ℝ) :
    PyM (World (Obj 2 D)) (Dist 2) := do
  let d ← PyM.lift (Dist.init (fun _ : Fin 2 => 5) ((4 : ℝ) • (1 : Matrix (Fin 2) (Fin 2) ℝ)) none)
  let u ← PyM.lift (Updater.initDecay demoDecayArgs)
  runOptimization (regularizedCost (fun _ => 2) 1) argsort u d 40 true draws

end Verif
