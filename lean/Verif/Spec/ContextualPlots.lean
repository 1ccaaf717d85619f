import Verif.Model.ContextualPlots
import Verif.Spec.DmpPlots

/- Specification of the pictures of contextual Dmps. -/

set_option autoImplicit false

namespace Verif.Spec

/-- Everything about function approximator `b` is as in `a`, except for the values of selected parameters. -/
structure SameApproximator (a b : Fa) : Prop where
  params : b.params = a.params
  selected : b.selected = a.selected
  trained : b.model.isSome = a.model.isSome
  kept : ∀ name, name ∉ a.selected.getD [] → b.param name = a.param name

/-- The Dmp `t` is `s` with another duration, start, end, and other values of the selected parameters. -/
structure SameDmp (s t : Dmp) : Prop where
  dim : t.dimY = s.dimY
  scaling : t.scaling = s.scaling
  selected : t.selected = s.selected
  amplitudes : t.amplitudes = s.amplitudes
  spring : t.spring.spring = s.spring.spring
  mass : t.spring.mass = s.spring.mass
  approximators : t.fas.isSome = s.fas.isSome
  unselected : List.Forall₂ SameApproximator (s.fas.getD []) (t.fas.getD [])

/-- The Dmp `t` has the duration, start and end of the demonstration, and the selected parameters that are
predicted for its task parameters. (If the goal is selected, it is the predicted goal.) -/
structure AsDemonstrated (fas : List Fa) (demo : List ℝ × Trajectory ℝ) (t : Dmp) : Prop where
  duration : ∃ a b, demo.2.ts.head? = some a ∧ demo.2.ts.getLast? = some b ∧ t.tau = b - a
  start : ∃ y, demo.2.ys.rows.head? = some y ∧ t.yInit? = some y ∧ t.spring.xInit = y ++ List.replicate t.dimY 0
  finish : "goal" ∉ t.selected → some t.yAttr = demo.2.ys.rows.getLast?
  params : ∃ values : List ℝ, t.getParamVector = .ok values ∧ List.Forall₂ (fun (fa : Fa) (v : ℝ) =>
    fa.predict (fun (_ : Fin 1) (j : Fin demo.1.length) => demo.1[j]) = .ok fun _ => v) fas values

/-- Position of `p` between the smallest and the largest of the values, from 0 to 1; none if these are equal. -/
def Position (values : List ℝ) (p : ℝ) (c : Option ℝ) : Prop :=
  ∃ lo ∈ values, ∃ hi ∈ values, (∀ v ∈ values, lo ≤ v ∧ v ≤ hi) ∧
    match c with
    | none => lo = hi
    | some c => lo < hi ∧ 0 ≤ c ∧ c ≤ 1 ∧ p = lo + c * (hi - lo)

/-- The axes `axs` show the motion of the Dmp with duration, start, end and parameters for the demonstration, and
the motion without forcing term, with vertical lines at the duration. The colour is the position of the first task
parameter among the `values`. -/
structure ShowsDemo (d : Nat) (fas : List Fa) (axs : List Nat) (ts : List ℝ) (values : List ℝ) (s : Dmp)
    (demo : List ℝ × Trajectory ℝ) (r : DmpContextual.Reproduction) : Prop where
  motion : ∃ t sol u, SameDmp s t ∧ AsDemonstrated fas demo t ∧ t.spring.tau = t.tau ∧
    (Dmp.analytical (some ts) false t).1 = .ok sol ∧ (Dmp.analytical (some ts) true t).1 = .ok u ∧
    ShowsDmp d t.tau (.rows axs) axs ts sol none (some u) true r.picture ∧ r.taus = axs.map fun ax => (ax, t.tau)
  colour : ∃ p, demo.1.head? = some p ∧ Position values p r.colour

/-- The times `0, dt, 2 dt, …` before `stop`. -/
def Times (stop dt : ℝ) (ts : List ℝ) : Prop :=
  ts.Pairwise (· < ·) ∧ ∀ t, t ∈ ts ↔ ∃ k : Nat, t = k * dt ∧ t < stop

end Verif.Spec
