import Verif.Model.DmpWithSchedules

/-
Model of the data that is drawn by DynamicalSystem.plot, Trajectory.plot, Dmp.plot, Dmp.plot_comparison and
DmpWithSchedules.plot_sched.

Axes are numbers. New axes of a figure are numbered from 0 in the order in which they are made; numbers of
different figures are not distinguished. Labels, texts, colours, line styles and grids are left out.
-/

noncomputable section

set_option autoImplicit false

namespace Verif

/-- A call of `ax.plot(ts, values)`: one line for each column of the values. -/
structure Drawing where
  ax : Nat
  ts : List ℝ
  values : List (List ℝ)

/-- `ax.plot(ts, values)` of matplotlib, which raises ValueError unless there is a row for each time. -/
def drawLine (ax : Nat) (ts : List ℝ) (values : List (List ℝ)) : Except PyErr Drawing :=
  if values.length = ts.length then .ok ⟨ax, ts, values⟩ else .error .valueError

/-- `axs[i].plot(ts, values)`. -/
def drawOn (axs : List Nat) (i : Nat) (ts : List ℝ) (values : List (List ℝ)) : Except PyErr (List Drawing) :=
  match axs[i]? with
  | none => .error .indexError
  | some ax => do return [← drawLine ax ts values]

/-- `if len(axs) > i: axs[i].plot(ts, values)`. -/
def drawIf (axs : List Nat) (i : Nat) (ts : List ℝ) (values : List (List ℝ)) : Except PyErr (List Drawing) :=
  if i < axs.length then drawOn axs i ts values else .ok []

namespace Base

/-- DynamicalSystem.py:253-259: the axes that are passed, which may be an empty list, or new ones. -/
def plotAxes (s : Base) : Option (List Nat) → List Nat
  | some axs => axs
  | none => List.range (if s.dimX = s.dimY then 2 else 3)

/-- DynamicalSystem.py:265-292. -/
def drawStates (s : Base) (axs : List Nat) (ts : List ℝ) (xs xds : List (List ℝ)) : Except PyErr (List Drawing) := do
  if s.dimX = s.dimY then
    let h0 ← drawOn axs 0 ts xs
    let h1 ← drawIf axs 1 ts xds
    return h0 ++ h1
  else
    let ys := xs.map fun x => x.take s.dimY
    let yds := xds.map fun xd => xd.take s.dimY
    let zds := xds.map fun xd => (xd.drop s.dimY).take s.dimY
    let h0 ← drawOn axs 0 ts ys
    let h1 ← drawIf axs 1 ts yds
    let h2 ← drawIf axs 2 ts (zds.map fun zd => vdivs zd s.tau)
    return h0 ++ h1 ++ h2

end Base

/-- DynamicalSystem.py:246-248: the states that are passed, or the analytical solution. -/
def statesOr {σ : Type} (solution : PyM σ (List (List ℝ) × List (List ℝ))) :
    Option (List (List ℝ) × List (List ℝ)) → PyM σ (List (List ℝ) × List (List ℝ))
  | some states => pure states
  | none => solution

/-- DynamicalSystem.py:233-297 plot, for one of the subsystems of a Dmp. The result has the axes also. -/
def Sub.plot (ts : List ℝ) (states : Option (List (List ℝ) × List (List ℝ))) (axs : Option (List Nat) := none) :
    PyM Sub (List Drawing × List Nat) := do
  let (xs, xds) ← statesOr (Sub.analytical ts) states
  let base := (← PyM.self).base
  let lines ← PyM.lift (base.drawStates (base.plotAxes axs) ts xs xds)
  return (lines, base.plotAxes axs)

/-- DynamicalSystem.py:233-297 plot, for a spring-damper system. -/
def SpringDamper.plot (s : SpringDamper) (ts : List ℝ) (states : Option (List (List ℝ) × List (List ℝ)))
    (axs : Option (List Nat) := none) : Except PyErr (List Drawing × List Nat) := do
  let states := states.getD (s.analytical ts)
  let lines ← s.toBase.drawStates (s.toBase.plotAxes axs) ts states.1 states.2
  return (lines, s.toBase.plotAxes axs)

namespace Trajectory

/-- Trajectory.py:554-557: new axes if none are passed. -/
def plotAxes (s : Trajectory ℝ) : Option (List Nat) → List Nat
  | some (ax :: axs) => ax :: axs
  | _ => List.range (if s.hasMisc then 4 else 3)

/-- Trajectory.py:574-575. -/
def drawMisc (s : Trajectory ℝ) (axs : List Nat) : Except PyErr (List Drawing) :=
  match s.misc with
  | some misc => if s.hasMisc then drawIf axs 3 s.ts misc.rows else .ok []
  | none => .ok []

/-- Trajectory.py:542-580 plot. The result has the axes also. -/
def plot (s : Trajectory ℝ) (axs : Option (List Nat) := none) : Except PyErr (List Drawing × List Nat) := do
  let axs := s.plotAxes axs
  let h0 ← drawOn axs 0 s.ts s.ys.rows
  let h1 ← drawIf axs 1 s.ts s.yds.rows
  let h2 ← drawIf axs 2 s.ts s.ydds.rows
  let h3 ← s.drawMisc axs
  return (h0 ++ h1 ++ h2 ++ h3, axs)

end Trajectory

namespace Dmp

/-- Dmp.py:720-736 get_dmp_axes. -/
def getDmpAxes (columns : Nat := 4) (compact : Bool := false) : List Nat :=
  if compact then List.range 5 else List.range columns ++ (List.range columns).map fun (i : Nat) => i + columns

/-- The keyword arguments of Dmp.plot (Dmp.py:753-765). A demonstration that is given as False stands for
none. -/
structure PlotOptions where
  axs : Option (List Nat) := none
  columns : Nat := 4
  compact : Bool := false
  plotTau : Bool := true
  unforced : Bool := false
  demonstration : Option (Trajectory ℝ) := none
  forcing : List (List ℝ) := []
  fa : List (List ℝ) := []

/-- What Dmp.plot draws: the curves of the systems, of the demonstration, of the motion without forcing term,
the forcing terms, and the outputs of the function approximators. `taus` are the vertical lines, `limits` the
limits of the horizontal axes. -/
structure Picture where
  axs : List Nat
  systems : List Drawing
  demonstration : List Drawing
  unforced : List Drawing
  forcing : List Drawing
  fa : List Drawing
  taus : List (Nat × ℝ)
  limits : ℝ × ℝ

/-- Dmp.py:759 `kwargs.get("axs") or Dmp.get_dmp_axes(...)`. -/
def plotAxes (o : PlotOptions) : List Nat :=
  match o.axs with
  | some (ax :: axs) => ax :: axs
  | _ => getDmpAxes o.columns o.compact

/-- `axs[a:b]` -/
def axesFrom (axs : List Nat) (a b : Nat) : List Nat := (axs.take b).drop a

/-- Dmp.py:786-791 and 808-810: the curves of one system, or of its states if there is no system. The states
have as many entries as the Dmp. -/
def drawSystem (axs : List Nat) (system : Option Base) (idx : List Nat) (ts : List ℝ) (xs xds : List (List ℝ)) :
    Except PyErr (List Drawing) :=
  match system with
  | some base => base.drawStates axs ts (xs.map fun x => pickAt x idx) (xds.map fun xd => pickAt xd idx)
  | none => drawOn axs 0 ts (xs.map fun x => pickAt x idx)

/-- Dmp.py:793-795. -/
def drawDemonstration (axs : List Nat) : Option (Trajectory ℝ) → Except PyErr (List Drawing)
  | none => .ok []
  | some traj => do return (← traj.plot (some axs)).1

/-- Dmp.py:797-803. -/
def drawUnforced (axs : List Nat) (ts : List ℝ) : Bool → PyM Dmp (List Drawing)
  | false => pure []
  | true => do
    let sol ← analytical (some ts) true
    let s ← PyM.self
    PyM.lift (drawSystem axs (some s.spring.toBase) (SPRING s.dimY) ts sol.xs sol.xds)

/-- Dmp.py:818-828 and 830-840: the curves of the forcing terms or function approximators, if there are at
least two rows. -/
def drawRows (axs : List Nat) (i : Nat) (ts : List ℝ) (rows : List (List ℝ)) : Except PyErr (List Drawing) :=
  if 1 < rows.length then drawOn axs i ts rows else .ok []

/-- Dmp.py:842-844. -/
def tauLines (s : Dmp) (axs : List Nat) : Bool → List (Nat × ℝ)
  | true => axs.map fun ax => (ax, s.tau)
  | false => []

/-- Dmp.py:847 `[min(ts), max(ts)]`. -/
def timeLimits : List ℝ → Except PyErr (ℝ × ℝ)
  | [] => .error .valueError
  | t :: ts => .ok (ts.foldl min t, ts.foldl max t)

/-- Dmp.py:766-816, for a picture with two rows of axes: the curves of the systems, of the demonstration, and
of the motion without forcing term. -/
def drawSystems (axs : List Nat) (o : PlotOptions) (ts : List ℝ) (xs xds : List (List ℝ)) :
    PyM Dmp (List Drawing × List Drawing × List Drawing) := do
  let s ← PyM.self
  let d := s.dimY
  let goal ← PyM.lift (drawSystem (axesFrom axs 0 1) (s.goal.map Sub.base) (GOAL d) ts xs xds)
  let spring ← PyM.lift (drawSystem (axesFrom axs 1 4) (some s.spring.toBase) (SPRING d) ts xs xds)
  let demo ← PyM.lift (drawDemonstration (axesFrom axs 1 4) o.demonstration)
  let unforced ← drawUnforced (axesFrom axs 1 4) ts o.unforced
  let phase ← PyM.lift (drawSystem (axesFrom axs 4 5) (some s.phase.base) (PHASE d) ts xs xds)
  let gating ← PyM.lift (drawSystem (axesFrom axs 6 7) (some s.gating.base) (GATING d) ts xs xds)
  return (goal ++ spring ++ phase ++ gating, demo, unforced)

/-- Dmp.py:766-816, for a compact picture. -/
def drawSystemsCompact (axs : List Nat) (o : PlotOptions) (ts : List ℝ) (xs xds : List (List ℝ)) :
    PyM Dmp (List Drawing × List Drawing × List Drawing) := do
  let s ← PyM.self
  let d := s.dimY
  let spring ← PyM.lift (drawSystem (axesFrom axs 0 3) (some s.spring.toBase) (SPRING d) ts xs xds)
  let demo ← PyM.lift (drawDemonstration (axesFrom axs 0 3) o.demonstration)
  let unforced ← drawUnforced (axesFrom axs 0 3) ts o.unforced
  let goal ← PyM.lift (drawSystem (axesFrom axs 0 1) (s.goal.map Sub.base) (GOAL d) ts xs xds)
  let gating ← PyM.lift (drawSystem (axesFrom axs 4 5) (some s.gating.base) (GATING d) ts xs xds)
  return (spring ++ goal ++ gating, demo, unforced)

/-- Dmp.py:758-850: everything after the states are known. -/
def plotStates (o : PlotOptions) (ts : List ℝ) (sol : Solution) : PyM Dmp Picture := do
  let s ← PyM.self
  let axs := plotAxes o
  let (systems, demo, unforced) ←
    (if o.compact then drawSystemsCompact else drawSystems) axs o ts sol.xs sol.xds
  let forcing ← PyM.lift (drawRows axs (if o.compact then 3 else 7) ts sol.forcing)
  let fa ← PyM.lift (drawRows axs (if o.compact then 3 else 5) ts sol.fa)
  let limits ← PyM.lift (timeLimits ts)
  return { axs := axs, systems := systems, demonstration := demo, unforced := unforced, forcing := forcing
           fa := fa, taus := s.tauLines axs o.plotTau, limits := limits }

/-- Dmp.py:738-850 plot. Without times or training data, matplotlib raises ValueError for given states, and so
does analytical_solution. -/
def plot (ts? : Option (List ℝ)) (states : Option (List (List ℝ) × List (List ℝ))) (o : PlotOptions := {}) :
    PyM Dmp Picture := do
  match ts? <|> (← PyM.self).tsTrain with
  | none => PyM.raise .valueError
  | some ts =>
    match states with
    | none => do
      let sol ← analytical (some ts)
      plotStates o ts sol
    | some (xs, xds) => plotStates o ts ⟨xs, xds, o.forcing, o.fa⟩

/-- Dmp.py:852-868 plot_comparison: the curves of the demonstration and of the reproduction, and the axes. -/
def plotComparison (traj : Trajectory ℝ) (ts? : Option (List ℝ) := none) (axs : Option (List Nat) := none) :
    PyM Dmp (List Drawing × List Drawing × List Nat) := do
  let ts := ts?.getD traj.ts
  let sol ← analytical (some ts)
  let reproduced ← PyM.lift ((← PyM.self).asTrajectory ts sol.xs sol.xds)
  let (demo, axs) ← PyM.lift (traj.plot axs)
  let (repr, axs) ← PyM.lift (reproduced.plot (some axs))
  return (demo, repr, axs)

end Dmp

/-- A number for one more axes object. -/
def freshAxis (axs : List Nat) : Nat := axs.foldr (fun ax m => max (ax + 1) m) 0

/-- DmpWithSchedules.py:262-286 plot_sched: the picture of the Dmp, the curves of the schedules, and all axes. -/
def DmpWithSchedules.plotSched (ts? : Option (List ℝ)) (states : Option (List (List ℝ) × List (List ℝ)))
    (schedules : List (List ℝ)) (o : Dmp.PlotOptions := {}) :
    PyM DmpWithSchedules (Dmp.Picture × Drawing × List Nat) := do
  let picture ← DmpWithSchedules.onDmp (Dmp.plot ts? states { o with columns := 5 })
  match ts? with
  | none => PyM.raise .valueError
  | some ts => do
    let ax := freshAxis picture.axs
    let lines ← PyM.lift (drawLine ax ts schedules)
    return (picture, lines, picture.axs ++ [ax])

end Verif
