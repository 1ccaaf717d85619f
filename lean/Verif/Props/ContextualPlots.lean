import Verif.Props.DmpContextual
import Verif.Props.DmpPlots
import Verif.Spec.ContextualPlots

/-
C100: what the pictures of contextual Dmps show, and what drawing them leaves behind.
-/

noncomputable section

set_option autoImplicit false

namespace Verif

open Spec

namespace DmpContextual

variable {d : Nat}

/-! ### Steps of the loop -/

theorem sameApproximator_of {a b : Fa} (h : a.Only b) : SameApproximator a b := ⟨h.1, h.2, h.3, h.4⟩

theorem same_trans {a b c : Fa} (h : SameApproximator a b) (k : SameApproximator b c) : SameApproximator a c :=
  ⟨k.params.trans h.params, k.selected.trans h.selected, k.trained.trans h.trained, fun n hn =>
    (k.kept n (by rw [h.selected]; exact hn)).trans (h.kept n hn)⟩

theorem sames_trans : ∀ {a b c : List Fa}, List.Forall₂ SameApproximator a b → List.Forall₂ SameApproximator b c →
    List.Forall₂ SameApproximator a c
  | _, _, _, .nil, .nil => .nil
  | _, _, _, .cons h hs, .cons k ks => .cons (same_trans h k) (sames_trans hs ks)

theorem sames_refl (l : List Fa) : List.Forall₂ SameApproximator l l :=
  List.forall₂_same.mpr fun _ _ => ⟨rfl, rfl, rfl, fun _ _ => rfl⟩

theorem sameDmp_refl (s : Dmp) : SameDmp s s := ⟨rfl, rfl, rfl, rfl, rfl, rfl, rfl, sames_refl _⟩

theorem sameDmp_trans {a b c : Dmp} (h : SameDmp a b) (k : SameDmp b c) : SameDmp a c :=
  ⟨k.dim.trans h.dim, k.scaling.trans h.scaling, k.selected.trans h.selected, k.amplitudes.trans h.amplitudes,
    k.spring.trans h.spring, k.mass.trans h.mass, k.approximators.trans h.approximators,
    sames_trans h.unselected k.unselected⟩

theorem sameDmp_core {s t : Dmp} (h : t.core = s.core) : SameDmp s t := by
  have e := congrArg Dmp.fas h
  have e1 := congrArg (fun d : Dmp => d.dimY) h
  have e2 := congrArg Dmp.scaling h
  have e3 := congrArg Dmp.selected h
  have e4 := congrArg Dmp.amplitudes h
  have e5 := congrArg (fun d : Dmp => d.spring.spring) h
  have e6 := congrArg (fun d : Dmp => d.spring.mass) h
  change t.fas = s.fas at e
  refine ⟨e1, e2, e3, e4, e5, e6, by rw [e], ?_⟩
  rw [e]
  exact sames_refl _

/-- The Dmp before its parameters are set. -/
def moved (s : Dmp) (tau : ℝ) (y0 y1 : List ℝ) : Dmp := ((s.retimed tau).placed y0).aimed y1

theorem ready_moved {fas : List Fa} {s : DmpContextual} (hs : Ready d fas s) (tau : ℝ) {y0 y1 : List ℝ}
    (h0 : y0.length = d) (h1 : y1.length = d) : Ready d fas { s with dmp := moved s.dmp tau y0 y1 } := by
  have i := hs.reach.inv
  have r1 : Dmp.Reachable Dmp.DefaultLike Dmp.Change.Valid d (s.dmp.retimed tau) := by
    have := Dmp.Reachable.change hs.reach (.tau tau) trivial
    change Dmp.Reachable _ _ _ (Dmp.setTau _ _).2 at this
    rwa [Dmp.setTau_run] at this
  have r2 : Dmp.Reachable Dmp.DefaultLike Dmp.Change.Valid d ((s.dmp.retimed tau).placed y0) := by
    have := Dmp.Reachable.change r1 (.yInit y0) trivial
    change Dmp.Reachable _ _ _ (Dmp.setYInit _ _).2 at this
    rwa [Dmp.setYInit_run r1.inv.wf (h0.trans r1.inv.dim.symm)] at this
  have r3 : Dmp.Reachable Dmp.DefaultLike Dmp.Change.Valid d (moved s.dmp tau y0 y1) := by
    have := Dmp.Reachable.change r2 (.yAttr y1) trivial
    change Dmp.Reachable _ _ _ (Dmp.setYAttr _ _).2 at this
    rwa [Dmp.setYAttr_run r2.inv.wf (h1.trans r2.inv.dim.symm)] at this
  obtain ⟨v, hv, hl⟩ := hs.size
  obtain ⟨v', e1, -⟩ := Dmp.C27_roundtrip d _ r3 hs.selects
  refine ⟨r3, hs.selects, hs.ppf, v', e1, ?_⟩
  rw [← hl]
  unfold Dmp.getParamVector at hv e1
  change ((s.dmp.fas.getD []).mapM Dmp.faValues >>= fun values =>
    pure (values.flatten ++ if "goal" ∈ s.dmp.selected then y1 else [])) = _ at e1
  rcases hm : (s.dmp.fas.getD []).mapM Dmp.faValues with e | w
  · rw [hm] at hv; cases hv
  · rw [hm] at hv e1
    have a1 := Except.ok.inj hv
    have a2 := Except.ok.inj e1
    have hy : s.dmp.yAttr.length = d := i.wf.yAttr.trans i.dim
    rw [← a1, ← a2]
    split_ifs <;> simp [h1, hy]

theorem sameDmp_moved (s : Dmp) (tau : ℝ) (y0 y1 : List ℝ) : SameDmp s (moved s tau y0 y1) :=
  ⟨rfl, rfl, rfl, rfl, rfl, rfl, rfl, sames_refl _⟩

theorem timed_moved {s : Dmp} (h : Dmp.Timed d s) {tau : ℝ} (ht : 0 < tau) {y0 y1 : List ℝ}
    (h0 : y0.length = d) (h1 : y1.length = d) : Dmp.Timed d (moved s tau y0 y1) :=
  Dmp.kept_timed.aim _ _ (Dmp.kept_timed.place _ _ (Dmp.kept_timed.tau _ _ h ht) (h0.trans h.inv.dim.symm))
    (h1.trans h.inv.dim.symm)

/-- Drawing evaluates the Dmp with and without forcing term, and changes it in no other way. -/
theorem plot_state {ts : List ℝ} {o : Dmp.PlotOptions} (hu : o.unforced = true) (hc : o.compact = false)
    {s s' : Dmp} {p : Dmp.Picture} (h : Dmp.plot (some ts) none o s = (.ok p, s')) :
    ∃ sol u, (Dmp.analytical (some ts) false s).1 = .ok sol ∧
      (Dmp.analytical (some ts) true (Dmp.analytical (some ts) false s).2).1 = .ok u ∧
      s' = (Dmp.analytical (some ts) true (Dmp.analytical (some ts) false s).2).2 := by
  unfold Dmp.plot at h
  rw [PyM.self_bind] at h
  change (Dmp.analytical (some ts) false >>= fun sol => Dmp.plotStates o ts sol) s = _ at h
  obtain ⟨sol, s1, h1, h⟩ := PyM.bind_inv h
  unfold Dmp.plotStates at h
  rw [PyM.self_bind, hc] at h
  obtain ⟨tr, s2, h2, h⟩ := PyM.bind_inv h
  have hs2 : s' = s2 := by
    obtain ⟨_, s3, h3, k⟩ := PyM.bind_inv h
    obtain ⟨_, s4, h4, k⟩ := PyM.bind_inv k
    obtain ⟨_, s5, h5, k⟩ := PyM.bind_inv k
    exact (congrArg Prod.snd k).symm.trans
      ((lift_inv h5).2.trans ((lift_inv h4).2.trans (lift_inv h3).2))
  subst hs2
  change Dmp.drawSystems (Dmp.plotAxes o) o ts sol.xs sol.xds s1 = _ at h2
  unfold Dmp.drawSystems at h2
  rw [PyM.self_bind, hu] at h2
  obtain ⟨_, s3, h3, h2⟩ := PyM.bind_inv h2
  obtain ⟨-, rfl⟩ := lift_inv h3
  obtain ⟨_, s4, h4, h2⟩ := PyM.bind_inv h2
  obtain ⟨-, rfl⟩ := lift_inv h4
  obtain ⟨_, s5, h5, h2⟩ := PyM.bind_inv h2
  obtain ⟨-, rfl⟩ := lift_inv h5
  obtain ⟨lines, s6, h6, h2⟩ := PyM.bind_inv h2
  have hs6 : s' = s6 := by
    obtain ⟨_, s7, h7, k⟩ := PyM.bind_inv h2
    obtain ⟨_, s8, h8, k⟩ := PyM.bind_inv k
    exact (congrArg Prod.snd k).symm.trans ((lift_inv h8).2.trans (lift_inv h7).2)
  subst hs6
  unfold Dmp.drawUnforced at h6
  obtain ⟨u, s7, h7, h6⟩ := PyM.bind_inv h6
  rw [PyM.self_bind] at h6
  obtain ⟨-, rfl⟩ := lift_inv h6
  rw [h1]
  exact ⟨sol, u, rfl, by rw [h7], by rw [h7]⟩

theorem reachable_query {s : Dmp} (h : Dmp.Reachable Dmp.DefaultLike Dmp.Change.Valid d s) (ts : List ℝ) (b : Bool) :
    Dmp.Reachable Dmp.DefaultLike Dmp.Change.Valid d (Dmp.analytical (some ts) b s).2 := by
  have := Dmp.Reachable.query h (.analytical (some ts) b) trivial
  have e : ((Dmp.Call.analytical (some ts) b).run s).2 = (Dmp.analytical (some ts) b s).2 := by
    change ((Dmp.analytical (some ts) b >>= fun r => pure (Dmp.Answer.solution r)) s).2 = _
    rw [PyM.bind_apply]
    rcases Dmp.analytical (some ts) b s with ⟨r, t⟩
    cases r <;> rfl
  rwa [e] at this

/-- The task parameters of a demonstration as an array with one row. -/
def row (demo : List ℝ × Trajectory ℝ) (_ : Fin 1) (j : Fin demo.1.length) : ℝ := demo.1[j]

theorem row_eq (demo : List ℝ × Trajectory ℝ) :
    (fun (_ : Fin 1) (j : Fin demo.1.length) => demo.1.getD j 0) = row demo := by
  funext i j
  simp [row]

theorem predicted_iff {k : Nat} (q : Fin 1 → Fin k → ℝ) (fa : Fa) (p : ℝ) :
    predicted q fa = .ok p ↔ fa.predict q = .ok fun _ => p := by
  unfold predicted
  rcases fa.predict q with e | out
  · exact ⟨(fun h => nomatch h), (fun h => nomatch h)⟩
  · change (if h : 1 = 1 then pure (out ⟨0, by omega⟩) else .error .valueError : Except PyErr ℝ) = _ ↔ _
    rw [dif_pos rfl]
    constructor
    · intro h
      have := Except.ok.inj h
      refine congrArg Except.ok (funext fun i => ?_)
      rw [← this]
      exact congrArg out (Subsingleton.elim _ _)
    · intro h
      rw [Except.ok.inj h]
      rfl

/-- The demonstration can be drawn, and lasts some time. -/
structure Drawable (d : Nat) (demo : List ℝ × Trajectory ℝ) : Prop where
  shape : demo.2.Shape
  dim : demo.2.dim = d
  lasts : ∃ a b, demo.2.ts.head? = some a ∧ demo.2.ts.getLast? = some b ∧ a < b

theorem Drawable.values {demo : List ℝ × Trajectory ℝ} (h : Drawable d demo) : ∃ a b y0 y1,
    demo.2.ts.head? = some a ∧ demo.2.ts.getLast? = some b ∧ a < b ∧ demo.2.duration = .ok (b - a) ∧
    demo.2.ys.rows.head? = some y0 ∧ demo.2.ys.rows.getLast? = some y1 ∧ demo.2.yInit = .ok y0 ∧
    demo.2.yFinal = .ok y1 ∧ y0.length = d ∧ y1.length = d := by
  obtain ⟨a, b, h1, h2, hab⟩ := h.lasts
  have hne : demo.2.ys.rows ≠ [] := by
    intro e
    have := h.shape.ys
    rw [e] at this
    rw [List.length_eq_zero_iff.mp this.symm] at h1
    cases h1
  have len (y : List ℝ) (hy : y ∈ demo.2.ys.rows) : y.length = d := by
    rw [h.shape.ysCols y hy, ← h.dim, h.shape.dim]
  refine ⟨a, b, demo.2.ys.rows.head hne, demo.2.ys.rows.getLast hne, h1, h2, hab, ?_, List.head?_eq_some_head hne,
    List.getLast?_eq_some_getLast hne, ?_, ?_, len _ (List.head_mem hne), len _ (List.getLast_mem hne)⟩
  · unfold Trajectory.duration
    rw [h1, h2]
  · unfold Trajectory.yInit
    rw [List.head?_eq_some_head hne]
  · unfold Trajectory.yFinal
    rw [List.getLast?_eq_some_getLast hne]

/-- The body of the loop after duration, start and end are set. -/
def plotRest (axs : List Nat) (ts : List ℝ) (range : ℝ × ℝ) (demo : List ℝ × Trajectory ℝ) :
    PyM DmpContextual Reproduction := do
  let picture ← onDmp (Dmp.plot (some ts) none { axs := some axs, unforced := true })
  let colour ← PyM.lift (colour range demo.1)
  let s ← PyM.self
  return { picture := picture, colour := colour, taus := axs.map fun ax => (ax, s.dmp.tau) }

theorem plotDemo_eq {s : DmpContextual} (hi : Dmp.Inv d s.dmp) (axs : List Nat) (ts : List ℝ) (range : ℝ × ℝ)
    (demo : List ℝ × Trajectory ℝ) {t : ℝ} {y0 y1 : List ℝ} (h1 : demo.2.duration = .ok t)
    (h2 : demo.2.yInit = .ok y0) (h3 : demo.2.yFinal = .ok y1) (l0 : y0.length = d) (l1 : y1.length = d) :
    plotDemo axs ts range demo s =
      (setTaskParams (row demo) >>= fun _ => plotRest axs ts range demo) { s with dmp := moved s.dmp t y0 y1 } := by
  unfold plotDemo
  have i1 := Dmp.inv_retimed hi t
  have i2 := Dmp.inv_placed i1 (y := y0) (l0.trans i1.dim.symm)
  rw [h1, PyM.lift_ok_bind, PyM.bind_ok (onDmp_ok (Dmp.setTau_run _ _)), h2, PyM.lift_ok_bind]
  refine (PyM.bind_ok (onDmp_ok (Dmp.setYInit_run i1.wf (l0.trans i1.dim.symm)))).trans ?_
  rw [h3, PyM.lift_ok_bind]
  refine (PyM.bind_ok (onDmp_ok (Dmp.setYAttr_run i2.wf (l1.trans i2.dim.symm)))).trans ?_
  rw [row_eq]
  rfl

/-- The colours of the curves. -/
def range (values : List ℝ) (r : ℝ × ℝ) : Prop :=
  r.1 ∈ values ∧ r.2 ∈ values ∧ ∀ v ∈ values, r.1 ≤ v ∧ v ≤ r.2

theorem colour_position {values : List ℝ} {r : ℝ × ℝ} (hr : range values r) {ps : List ℝ} {c : Option ℝ}
    (hm : ∀ p, ps.head? = some p → p ∈ values) (h : colour r ps = .ok c) :
    ∃ p, ps.head? = some p ∧ Position values p c := by
  cases ps with
  | nil => cases h
  | cons p ps =>
    have hp := hr.2.2 p (hm p rfl)
    refine ⟨p, rfl, r.1, hr.1, r.2, hr.2.1, hr.2.2, ?_⟩
    unfold colour at h
    dsimp only at h
    split_ifs at h with h0
    · obtain rfl := Except.ok.inj h
      exact (sub_eq_zero.mp h0).symm
    · obtain rfl := Except.ok.inj h
      have hlt : r.1 < r.2 := lt_of_le_of_ne (hp.1.trans hp.2) fun e => h0 (sub_eq_zero.mpr e.symm)
      have hd : 0 < r.2 - r.1 := sub_pos.mpr hlt
      have a0 : 0 ≤ (p - r.1) / (r.2 - r.1) := div_nonneg (sub_nonneg.mpr hp.1) hd.le
      have a1 : (p - r.1) / (r.2 - r.1) ≤ 1 := by rw [div_le_one hd]; linarith [hp.2]
      rw [min_eq_right a1, max_eq_right a0]
      refine ⟨hlt, a0, a1, ?_⟩
      rw [div_mul_cancel₀ _ h0]
      ring

theorem colour_ok (r : ℝ × ℝ) {ps : List ℝ} (h : ps ≠ []) : ∃ c, colour r ps = .ok c := by
  cases ps with
  | nil => exact absurd rfl h
  | cons p ps =>
    unfold colour
    dsimp only
    split_ifs <;> exact ⟨_, rfl⟩

/-- The Dmp with the predicted parameters. -/
theorem asDemonstrated_of {fas : List Fa} {s : DmpContextual} (hs : Ready d fas s) (hT : Dmp.Timed d s.dmp)
    {demo : List ℝ × Trajectory ℝ} {a b : ℝ} {y0 y1 : List ℝ} (h1 : demo.2.ts.head? = some a)
    (h2 : demo.2.ts.getLast? = some b) (hab : a < b) (h3 : demo.2.ys.rows.head? = some y0)
    (h4 : demo.2.ys.rows.getLast? = some y1) (l0 : y0.length = d) (l1 : y1.length = d) {ps : List ℝ} {t : Dmp}
    (hp : List.Forall₂ (fun fa p => predicted (row demo) fa = .ok p) fas ps)
    (hset : Dmp.setParamVector ps (moved s.dmp (b - a) y0 y1) = (.ok (), t)) (hget : t.getParamVector = .ok ps) :
    SameDmp s.dmp t ∧ AsDemonstrated fas demo t ∧ Dmp.Timed d t := by
  have r := ready_moved hs (b - a) l0 l1
  have o := Dmp.C27_unselected d _ r.reach ps
  change Dmp.OnlySelected (moved s.dmp (b - a) y0 y1) _ at o
  rw [hset] at o
  have ht : Dmp.Timed d t := by
    have := Dmp.kept_timed.setParamVector ps _ (timed_moved hT (sub_pos.mpr hab) l0 l1)
    rwa [hset] at this
  have e := o.rest
  dsimp only at e
  have e1 := congrArg (fun d : Dmp => d.dimY) e
  have e2 := congrArg Dmp.scaling e
  have esel := congrArg Dmp.selected e
  have e4 := congrArg Dmp.amplitudes e
  have e5 := congrArg (fun d : Dmp => d.spring.spring) e
  have e6 := congrArg (fun d : Dmp => d.spring.mass) e
  have e7 := congrArg (fun d : Dmp => d.tau) e
  have e8 := congrArg Dmp.yInit? e
  have e9 := congrArg (fun d : Dmp => d.spring.xInit) e
  change t.selected = s.dmp.selected at esel
  refine ⟨⟨e1, e2, esel, e4, e5, e6, o.some, o.fas.imp fun _ _ h => sameApproximator_of h⟩,
    ⟨⟨a, b, h1, h2, e7⟩, ⟨y0, h3, e8, ?_⟩, ?_, ps, hget, ?_⟩, ht⟩
  · rw [e1]
    exact e9
  · intro hg
    rw [h4]
    exact congrArg some (o.yAttr (by rw [esel] at hg; exact hg))
  · exact hp.imp fun fa p h => (predicted_iff _ _ _).mp h

theorem asDemonstrated_core {fas : List Fa} {demo : List ℝ × Trajectory ℝ} {s t : Dmp} (h : t.core = s.core)
    (ha : AsDemonstrated fas demo s) : AsDemonstrated fas demo t := by
  have e1 := congrArg (fun d : Dmp => d.tau) h
  have e2 := congrArg Dmp.yInit? h
  have e3 := congrArg Dmp.yAttr h
  have e4 := congrArg Dmp.selected h
  have e5 := congrArg Dmp.fas h
  have e7 := congrArg (fun d : Dmp => d.dimY) h
  have e8 := congrArg (fun d : Dmp => d.spring.xInit) h
  change t.tau = s.tau at e1
  change t.dimY = s.dimY at e7
  change t.spring.xInit = s.spring.xInit at e8
  change t.yInit? = s.yInit? at e2
  change t.yAttr = s.yAttr at e3
  change t.selected = s.selected at e4
  change t.fas = s.fas at e5
  have e6 : t.getParamVector = s.getParamVector := by
    unfold Dmp.getParamVector
    rw [e3, e4, e5]
  refine ⟨?_, ?_, ?_, ?_⟩
  · rw [e1]; exact ha.duration
  · rw [e2, e7, e8]; exact ha.start
  · rw [e3, e4]; exact ha.finish
  · rw [e6]; exact ha.params

theorem ready_core {fas : List Fa} {s : DmpContextual} {t : Dmp} (hs : Ready d fas s)
    (hr : Dmp.Reachable Dmp.DefaultLike Dmp.Change.Valid d t) (h : t.core = s.dmp.core) :
    Ready d fas { s with dmp := t } := by
  have e3 := congrArg Dmp.yAttr h
  have e4 := congrArg Dmp.selected h
  have e5 := congrArg Dmp.fas h
  change t.yAttr = s.dmp.yAttr at e3
  change t.selected = s.dmp.selected at e4
  change t.fas = s.dmp.fas at e5
  obtain ⟨v, hv, hl⟩ := hs.size
  refine ⟨hr, ?_, hs.ppf, v, ?_, hl⟩
  · intro fa hfa
    exact hs.selects fa (by rw [← e5]; exact hfa)
  · rw [← hv]
    change t.getParamVector = _
    unfold Dmp.getParamVector
    rw [e3, e4, e5]

/-- A successful execution of the body of the loop. -/
theorem plotDemo_inv {fas : List Fa} {s s' : DmpContextual} (hs : Ready d fas s) (hT : Dmp.Timed d s.dmp) (h0 : 0 < d)
    {axs : List Nat} (hl : 8 ≤ axs.length) {ts : List ℝ} {values : List ℝ} {rng : ℝ × ℝ} (hr : range values rng)
    {demo : List ℝ × Trajectory ℝ} (hd : Drawable d demo) (hm : ∀ p, demo.1.head? = some p → p ∈ values)
    {r : Reproduction} (h : plotDemo axs ts rng demo s = (.ok r, s')) :
    ShowsDemo d fas axs ts values s.dmp demo r ∧ Ready d fas s' ∧ Dmp.Timed d s'.dmp ∧ SameDmp s.dmp s'.dmp ∧
      AsDemonstrated fas demo s'.dmp := by
  obtain ⟨a, b, y0, y1, v1, v2, v3, v4, v5, v6, v7, v8, l0, l1⟩ := hd.values
  rw [plotDemo_eq hT.inv axs ts rng demo v4 v7 v8 l0 l1] at h
  rcases setTaskParams_cases (ready_moved hs (b - a) l0 l1) (row demo) with
    ⟨ps, t, k1, k2, k3, k4, k5⟩ | ⟨-, e, k⟩
  · obtain ⟨m1, m2, m3⟩ := asDemonstrated_of hs hT v1 v2 v3 v5 v6 l0 l1 k1 k3 k4
    rw [PyM.bind_ok k2] at h
    unfold plotRest at h
    obtain ⟨p, s1, j1, h⟩ := PyM.bind_inv h
    obtain ⟨t1, g1, rfl⟩ := onDmp_inv j1
    dsimp only at g1
    obtain ⟨c, s2, j2, h⟩ := PyM.bind_inv h
    obtain ⟨g2, e2⟩ := lift_inv j2
    rw [PyM.self_bind] at h
    obtain ⟨sol, u, q1, q2, q3⟩ := plot_state rfl rfl g1
    obtain ⟨-, c1, good1⟩ := Dmp.stable_analytical (some ts) false t t m3.inv.good m3.inv.good rfl
    have q2' : (Dmp.analytical (some ts) true t).1 = .ok u :=
      (Dmp.stable_analytical (some ts) true t _ m3.inv.good good1 c1.symm).1.trans q2
    obtain ⟨p', t', w1, w2, w3, w4⟩ := Dmp.C99_dmp m3.inv.good h0 m3.springTau { axs := some axs, unforced := true }
      (some ts) ts (.inl rfl) sol q1 axs (.inl rfl) hl (fun _ h => nomatch h) (some u) (.inr ⟨rfl, u, rfl, q2'⟩)
    rw [g1] at w1
    obtain ⟨hp', ht'⟩ := Prod.mk.inj w1
    obtain rfl := Except.ok.inj hp'
    subst ht'
    have hr1 := reachable_query (reachable_query k5.reach ts false) ts true
    have ht1 := Dmp.kept_timed.query (Dmp.stable_analytical (some ts) true) _
      (Dmp.kept_timed.query (Dmp.stable_analytical (some ts) false) _ m3)
    rw [← q3] at ht1
    change Dmp.Reachable _ _ _ (Dmp.analytical (some ts) true (Dmp.analytical (some ts) false t).2).2 at hr1
    rw [← q3] at hr1
    obtain ⟨hr', hs'⟩ := Prod.mk.inj h
    have hr' := (Except.ok.inj hr').symm
    have hs' := hs'.symm.trans e2
    subst hs'
    have hc1 : t1.core = t.core := w4
    refine ⟨⟨⟨t, sol, u, m1, m2, m3.springTau, q1, q2', ?_, ?_⟩, ?_⟩, ready_core k5 hr1 hc1, ht1,
      sameDmp_trans m1 (sameDmp_core hc1), asDemonstrated_core hc1 m2⟩
    · rw [hr']; exact w2
    · rw [hr', e2]
      dsimp only
      rw [Dmp.core_tau hc1]
    · rw [hr']; exact colour_position hr hm g2
  · rw [PyM.bind_error k] at h
    cases h

theorem both_motions {t : Dmp} (ht : Dmp.Timed d t) {ts : List ℝ} {sol : Dmp.Solution}
    (h : (Dmp.analytical (some ts) false t).1 = .ok sol) : ∃ u, (Dmp.analytical (some ts) true t).1 = .ok u := by
  have hw := ht.inv.wf
  have hs := Dmp.sameStart_of_tau ht.springTau
  obtain ⟨h1, h2, h3, fa, h4, -⟩ := (Dmp.analytical_iff hw hs).mp h
  unfold Dmp.faUsed at h4
  rcases hp : t.predictions (ts.map fun t' => (t.phase.xAt t').getD 0 0) with e | out
  · rw [hp] at h4; cases h4
  · refine ⟨_, (Dmp.analytical_iff hw hs).mpr ⟨h1, h2, h3, out.map fun r => vzeros r.length, ?_, rfl⟩⟩
    unfold Dmp.faUsed
    rw [hp]
    rfl

/-- The body of the loop succeeds if the parameters can be predicted and the Dmp can be evaluated. -/
theorem plotDemo_ok {fas : List Fa} {s : DmpContextual} (hs : Ready d fas s) (hT : Dmp.Timed d s.dmp) (h0 : 0 < d)
    {axs : List Nat} (hl : 8 ≤ axs.length) {ts : List ℝ} {rng : ℝ × ℝ}
    {demo : List ℝ × Trajectory ℝ} (hd : Drawable d demo) (hne : demo.1 ≠ [])
    (hp : ∀ fa ∈ fas, ∃ v, fa.predict (row demo) = .ok v)
    (ha : ∀ t, SameDmp s.dmp t → AsDemonstrated fas demo t → Dmp.Timed d t →
      ∃ sol, (Dmp.analytical (some ts) false t).1 = .ok sol) :
    ∃ r s', plotDemo axs ts rng demo s = (.ok r, s') := by
  obtain ⟨a, b, y0, y1, v1, v2, v3, v4, v5, v6, v7, v8, l0, l1⟩ := hd.values
  rw [plotDemo_eq hT.inv axs ts rng demo v4 v7 v8 l0 l1]
  rcases setTaskParams_cases (ready_moved hs (b - a) l0 l1) (row demo) with
    ⟨ps, t, k1, k2, k3, k4, k5⟩ | ⟨⟨fa, hfa, k⟩, -⟩
  · obtain ⟨m1, m2, m3⟩ := asDemonstrated_of hs hT v1 v2 v3 v5 v6 l0 l1 k1 k3 k4
    obtain ⟨sol, hsol⟩ := ha t m1 m2 m3
    obtain ⟨u, hu⟩ := both_motions m3 hsol
    obtain ⟨p', t', w1, -⟩ := Dmp.C99_dmp m3.inv.good h0 m3.springTau { axs := some axs, unforced := true }
      (some ts) ts (.inl rfl) sol hsol axs (.inl rfl) hl (fun _ h => nomatch h) (some u) (.inr ⟨rfl, u, rfl, hu⟩)
    obtain ⟨c, hc⟩ := colour_ok rng hne
    rw [PyM.bind_ok k2]
    unfold plotRest
    refine ⟨⟨p', c, axs.map fun ax => (ax, t'.tau)⟩, ⟨t', s.ppf⟩, (PyM.bind_ok (onDmp_ok w1)).trans ?_⟩
    rw [hc, PyM.lift_ok_bind, PyM.self_bind]
    rfl
  · obtain ⟨v, hv⟩ := hp fa hfa
    exact absurd ((predicted_iff _ fa (v 0)).mpr (by
      rw [hv]
      exact congrArg Except.ok (funext fun i => congrArg v (Subsingleton.elim _ _)))) (k (v 0))

/-! ### The loops -/

theorem plotDemos_inv {fas : List Fa} (h0 : 0 < d) {axs : List Nat} (hl : 8 ≤ axs.length) {ts : List ℝ}
    {values : List ℝ} {rng : ℝ × ℝ} (hr : range values rng) : ∀ {demos : List (List ℝ × Trajectory ℝ)}
    {s s' : DmpContextual} {rs : List Reproduction}, Ready d fas s → Dmp.Timed d s.dmp →
    (∀ demo ∈ demos, Drawable d demo) → (∀ demo ∈ demos, ∀ p, demo.1.head? = some p → p ∈ values) →
    plotDemos axs ts rng demos s = (.ok rs, s') →
    List.Forall₂ (ShowsDemo d fas axs ts values s.dmp) demos rs ∧ Ready d fas s' ∧ Dmp.Timed d s'.dmp ∧
      SameDmp s.dmp s'.dmp ∧ ∀ demo, demos.getLast? = some demo → AsDemonstrated fas demo s'.dmp
  | [], s, s', rs, hs, hT, _, _, h => by
    obtain ⟨h1, rfl⟩ := Prod.mk.inj h
    obtain rfl := Except.ok.inj h1
    exact ⟨.nil, hs, hT, sameDmp_refl _, (fun _ h => nomatch h)⟩
  | demo :: demos, s, s', rs, hs, hT, hd, hm, h => by
    unfold plotDemos at h
    obtain ⟨r, s1, h1, h⟩ := PyM.bind_inv h
    obtain ⟨rest, s2, h2, h⟩ := PyM.bind_inv h
    obtain ⟨h3, h4⟩ := Prod.mk.inj h
    have h3 := Except.ok.inj h3
    obtain ⟨a1, a2, a3, a4, a5⟩ := plotDemo_inv hs hT h0 hl hr (hd _ (by simp)) (hm _ (by simp)) h1
    obtain ⟨b1, b2, b3, b4, b5⟩ := plotDemos_inv h0 hl hr a2 a3 (fun x hx => hd x (by simp [hx]))
      (fun x hx => hm x (by simp [hx])) h2
    rw [← h3, ← h4]
    refine ⟨.cons a1 (b1.imp fun x y hxy => ?_), b2, b3, sameDmp_trans a4 b4, fun x hx => ?_⟩
    · obtain ⟨t, sol, u, c1, c2⟩ := hxy.motion
      exact ⟨⟨t, sol, u, sameDmp_trans a4 c1, c2⟩, hxy.colour⟩
    · cases demos with
      | nil =>
        obtain rfl := Option.some.inj hx
        obtain ⟨-, e⟩ := Prod.mk.inj h2
        rw [← e]
        exact a5
      | cons y l => exact b5 x (by rwa [List.getLast?_cons_cons] at hx)

theorem plotDemos_ok {fas : List Fa} (h0 : 0 < d) {axs : List Nat} (hl : 8 ≤ axs.length) {ts : List ℝ}
    {values : List ℝ} {rng : ℝ × ℝ} (hr : range values rng) : ∀ {demos : List (List ℝ × Trajectory ℝ)}
    {s : DmpContextual}, Ready d fas s → Dmp.Timed d s.dmp → (∀ demo ∈ demos, Drawable d demo) →
    (∀ demo ∈ demos, ∀ p, demo.1.head? = some p → p ∈ values) → (∀ demo ∈ demos, demo.1 ≠ []) →
    (∀ demo ∈ demos, ∀ fa ∈ fas, ∃ v, fa.predict (row demo) = .ok v) →
    (∀ demo ∈ demos, ∀ t, SameDmp s.dmp t → AsDemonstrated fas demo t → Dmp.Timed d t →
      ∃ sol, (Dmp.analytical (some ts) false t).1 = .ok sol) →
    ∃ rs s', plotDemos axs ts rng demos s = (.ok rs, s')
  | [], s, _, _, _, _, _, _, _ => ⟨[], s, rfl⟩
  | demo :: demos, s, hs, hT, hd, hm, hne, hp, ha => by
    obtain ⟨r, s1, h1⟩ := plotDemo_ok (rng := rng) hs hT h0 hl (hd demo (by simp)) (hne demo (by simp))
      (hp demo (by simp)) (ha demo (by simp))
    obtain ⟨-, a2, a3, a4, -⟩ := plotDemo_inv hs hT h0 hl hr (hd _ (by simp)) (hm _ (by simp)) h1
    obtain ⟨rs, s2, h2⟩ := plotDemos_ok (demos := demos) h0 hl hr a2 a3 (fun x hx => hd x (by simp [hx]))
      (fun x hx => hm x (by simp [hx])) (fun x hx => hne x (by simp [hx])) (fun x hx => hp x (by simp [hx]))
      (fun x hx t c1 => ha x (by simp [hx]) t (sameDmp_trans a4 c1))
    refine ⟨r :: rs, s2, ?_⟩
    unfold plotDemos
    rw [PyM.bind_ok h1, PyM.bind_ok h2]
    rfl

/-- The largest duration, at least `l`. -/
theorem drawDemos_ok {axs : List Nat} (hl : 8 ≤ axs.length) : ∀ {demos : List (List ℝ × Trajectory ℝ)},
    (∀ demo ∈ demos, Drawable d demo) → ∀ (l : ℝ) (dt : Option ℝ), ∃ longest,
      drawDemos axs demos l dt = .ok (longest, (demos.getLast?.map fun demo => demo.2.dtMean).getD dt,
        demos.map fun demo => panels [axs.getD 1 0, axs.getD 2 0, axs.getD 3 0] demo.2.ts
          [demo.2.ys.rows, demo.2.yds.rows, demo.2.ydds.rows]) ∧
      l ≤ longest ∧ (∀ demo ∈ demos, ∀ a b, demo.2.ts.head? = some a → demo.2.ts.getLast? = some b →
        b - a ≤ longest) ∧
      (longest = l ∨ ∃ demo ∈ demos, ∃ a b, demo.2.ts.head? = some a ∧ demo.2.ts.getLast? = some b ∧
        longest = b - a)
  | [], _, l, dt => ⟨l, rfl, le_refl l, (fun _ h => nomatch h), .inl rfl⟩
  | demo :: demos, hd, l, dt => by
    have h := hd demo (by simp)
    obtain ⟨a, b, y0, y1, v1, v2, v3, v4, -⟩ := h.values
    obtain ⟨longest, k1, k2, k3, k4⟩ := drawDemos_ok hl (fun x hx => hd x (List.mem_cons_of_mem _ hx)) (max l (b - a))
      demo.2.dtMean
    have hax : Dmp.axesFrom axs 1 4 = [axs.getD 1 0, axs.getD 2 0, axs.getD 3 0] := by
      rw [show (4 : Nat) = 1 + 3 from rfl, Dmp.axes_slice (by omega)]
      rfl
    have hdraw : drawDemo axs l demo.2 = .ok (max l (b - a), panels [axs.getD 1 0, axs.getD 2 0, axs.getD 3 0]
        demo.2.ts [demo.2.ys.rows, demo.2.yds.rows, demo.2.ydds.rows]) := by
      have := Dmp.draw_demo (axs := [axs.getD 1 0, axs.getD 2 0, axs.getD 3 0]) (by simp) (by simp) (some demo.2)
        (fun t ht => by obtain rfl := Option.some.inj ht; exact h.shape)
      unfold Dmp.drawDemonstration at this
      dsimp only at this
      unfold drawDemo
      rw [v4, hax]
      rcases hp : demo.2.plot (some [axs.getD 1 0, axs.getD 2 0, axs.getD 3 0]) with e | x
      · rw [hp] at this; cases this
      · rw [hp] at this
        have := Except.ok.inj this
        change Except.ok _ = Except.ok _
        rw [this]
        rfl
    refine ⟨longest, ?_, (le_max_left _ _).trans k2, ?_, ?_⟩
    · unfold drawDemos
      rw [hdraw]
      change (drawDemos axs demos (max l (b - a)) demo.2.dtMean >>= _) = _
      rw [k1]
      change Except.ok _ = Except.ok _
      refine congrArg Except.ok ?_
      rw [List.map_cons]
      congr 2
      cases demos with
      | nil => rfl
      | cons y rest =>
        rw [List.getLast?_cons_cons, List.getLast?_eq_some_getLast (List.cons_ne_nil y rest)]
        rfl
    · intro x hx a' b' e1 e2
      rcases List.mem_cons.mp hx with rfl | hx
      · rw [v1] at e1
        rw [v2] at e2
        obtain rfl := Option.some.inj e1
        obtain rfl := Option.some.inj e2
        exact (le_max_right _ _).trans k2
      · exact k3 x hx a' b' e1 e2
    · rcases k4 with rfl | ⟨x, hx, k4⟩
      · rcases max_choice l (b - a) with e | e
        · exact .inl e
        · exact .inr ⟨demo, by simp, a, b, v1, v2, e⟩
      · exact .inr ⟨x, by simp [hx], k4⟩

/-- C100: the times at which the Dmp is drawn. -/
theorem C100_times (stop dt : ℝ) (h : 0 < dt) : ∃ ts, times stop (some dt) = .ok ts ∧ Times stop dt ts := by
  unfold times
  dsimp only
  rw [if_neg h.ne']
  refine ⟨_, rfl, ?_, fun t => ?_⟩
  · rw [List.pairwise_map]
    refine List.pairwise_lt_range.imp fun hij => ?_
    have : (_ : ℝ) < _ := Nat.cast_lt.mpr hij
    nlinarith
  · rw [List.mem_map]
    constructor
    · rintro ⟨k, hk, rfl⟩
      refine ⟨k, rfl, ?_⟩
      have := Nat.lt_ceil.mp (List.mem_range.mp hk)
      rwa [lt_div_iff₀ h] at this
    · rintro ⟨k, rfl, hk⟩
      refine ⟨k, List.mem_range.mpr (Nat.lt_ceil.mpr ?_), rfl⟩
      rwa [lt_div_iff₀ h]

/-- C100: without a mean time step there are no times. -/
theorem C100_times_errors (stop : ℝ) : times stop none = .error .valueError ∧ times stop (some 0) = .error .valueError := by
  refine ⟨rfl, ?_⟩
  unfold times
  simp

theorem firstRange_inv {params : List (List ℝ)} {r : ℝ × ℝ} (h : firstRange params = .ok r) :
    rectangular params = .ok () ∧ range (params.map fun p => p.headD 0) r := by
  unfold firstRange at h
  rcases hr : rectangular params with e | x
  · rw [hr] at h; cases h
  · refine ⟨rfl, ?_⟩
    rw [hr] at h
    change (match params.map fun p => p.headD 0 with
      | [] => .error .valueError
      | v :: vs => pure (vs.foldl min v, vs.foldl max v) : Except PyErr (ℝ × ℝ)) = _ at h
    generalize params.map (fun p => p.headD 0) = l at h ⊢
    rcases l with _ | ⟨v, vs⟩
    · cases h
    · obtain rfl := Except.ok.inj h
      obtain ⟨a1, a2, a3⟩ := Dmp.foldl_min_le vs v
      obtain ⟨b1, b2, b3⟩ := Dmp.foldl_max_ge vs v
      refine ⟨?_, ?_, fun x hx => ?_⟩
      · rcases a1 with e | e
        · simp [e]
        · simp [e]
      · rcases b1 with e | e
        · simp [e]
        · simp [e]
      · rcases List.mem_cons.mp hx with rfl | hx
        · exact ⟨a2, b2⟩
        · exact ⟨a3 x hx, b3 x hx⟩

theorem firstRange_ok {params : List (List ℝ)} (hne : params ≠ []) {k : Nat} (hk : ∀ p ∈ params, p.length = k) :
    ∃ r, firstRange params = .ok r := by
  unfold firstRange
  have : rectangular params = .ok () := by
    unfold rectangular
    rw [if_pos]
    rw [List.all_eq_true]
    intro p hp
    cases params with
    | nil => exact absurd rfl hne
    | cons q l => simp [hk p hp, hk q (by simp)]
  rw [this]
  cases params with
  | nil => exact absurd rfl hne
  | cons q l => exact ⟨_, rfl⟩

/-! ### The picture -/

/-- The axes that are passed, or two rows of four new axes. -/
theorem used_axes {axs? : Option (List Nat)} {axs : List Nat}
    (h : axs? = some axs ∨ axs? = none ∧ axs = List.range 8) : axs?.getD (Dmp.getDmpAxes) = axs := by
  rcases h with rfl | ⟨rfl, rfl⟩
  · rfl
  · decide

theorem tau_restored {s : Dmp} (h : Dmp.Timed d s) {t : ℝ} (ht : 0 < t) : Dmp.Timed d (s.retimed t) :=
  Dmp.kept_timed.tau _ _ h ht

theorem sameDmp_retimed (s : Dmp) (t : ℝ) : SameDmp s (s.retimed t) :=
  ⟨rfl, rfl, rfl, rfl, rfl, rfl, rfl, sames_refl _⟩

/-- C100: the picture of a trained contextual Dmp shows the demonstrations, and for each of them the motion of the
Dmp with the duration, start and end of that demonstration and the parameters predicted for its task parameters. The
motions are drawn from time 0 for 1.1 times the longest duration, in time steps of the last demonstration, with the
colour for the first task parameter. Afterwards the time constant is as before, and the Dmp remains trained; start,
end and selected parameters are those of the last demonstration. -/
theorem C100_picture {fas : List Fa} (s s' : DmpContextual) (hs : Ready d fas s) (hT : Dmp.Timed d s.dmp) (h0 : 0 < d)
    (demos : List (List ℝ × Trajectory ℝ)) (hd : ∀ demo ∈ demos, Drawable d demo) (axs? : Option (List Nat))
    (axs : List Nat) (ha : axs? = some axs ∨ axs? = none ∧ axs = List.range 8) (hl : 8 ≤ axs.length)
    (p : ContextPicture) (h : plot demos axs? s = (.ok p, s')) :
    p.axs = axs ∧
    p.demos = demos.map (fun demo => panels [axs.getD 1 0, axs.getD 2 0, axs.getD 3 0] demo.2.ts
      [demo.2.ys.rows, demo.2.yds.rows, demo.2.ydds.rows]) ∧
    (∃ longest last dt ts, demos.getLast? = some last ∧ last.2.dtMean = some dt ∧
      (∀ demo ∈ demos, ∀ a b, demo.2.ts.head? = some a → demo.2.ts.getLast? = some b → b - a ≤ longest) ∧
      (∃ demo ∈ demos, ∃ a b, demo.2.ts.head? = some a ∧ demo.2.ts.getLast? = some b ∧ longest = b - a) ∧
      (0 < dt → Times (11 / 10 * longest) dt ts) ∧
      List.Forall₂ (ShowsDemo d fas axs ts (demos.map fun demo => demo.1.headD 0) s.dmp) demos p.reproductions ∧
      (∃ y, last.2.ys.rows.head? = some y ∧ s'.dmp.yInit? = some y ∧ s'.dmp.StartsAt y) ∧
      ("goal" ∉ s.dmp.selected → some s'.dmp.yAttr = last.2.ys.rows.getLast?) ∧
      ∃ values : List ℝ, s'.dmp.getParamVector = .ok values ∧ List.Forall₂ (fun (fa : Fa) (v : ℝ) =>
        fa.predict (fun (_ : Fin 1) (j : Fin last.1.length) => last.1[j]) = .ok fun _ => v) fas values) ∧
    s'.dmp.tau = s.dmp.tau ∧ s'.ppf = s.ppf ∧ SameDmp s.dmp s'.dmp ∧ Ready d fas s' ∧ Dmp.Timed d s'.dmp := by
  unfold plot at h
  rw [used_axes ha] at h
  dsimp only at h
  obtain ⟨longest, k1, k2, k3, k4⟩ := drawDemos_ok hl hd 0 none
  rw [k1, PyM.lift_ok_bind] at h
  dsimp only at h
  obtain ⟨ts, s1, j1, h⟩ := PyM.bind_inv h
  obtain ⟨g1, e1⟩ := lift_inv j1
  obtain ⟨rng, s2, j2, h⟩ := PyM.bind_inv h
  obtain ⟨g2, e2⟩ := lift_inv j2
  rw [e2, e1] at h
  rw [PyM.self_bind] at h
  obtain ⟨rs, s3, g3, h⟩ := PyM.bind_inv h
  obtain ⟨_, s4, j4, h⟩ := PyM.bind_inv h
  obtain ⟨t4, g4, e4⟩ := onDmp_inv j4
  rw [Dmp.setTau_run] at g4
  obtain ⟨-, g4⟩ := Prod.mk.inj g4
  obtain ⟨h1, h2⟩ := Prod.mk.inj h
  obtain rfl := Except.ok.inj h1
  rw [e4] at h2
  obtain ⟨q1, q2⟩ := firstRange_inv g2
  rw [List.map_map] at q2
  obtain ⟨r1, r2, r3, r4, r5⟩ := plotDemos_inv h0 hl q2 hs hT hd (fun demo hdm p hp => by
    refine List.mem_map.mpr ⟨demo, hdm, ?_⟩
    change demo.1.headD 0 = p
    rw [List.headD_eq_head?_getD, hp]
    rfl) g3
  have hne : demos ≠ [] := by
    rintro rfl
    cases g1
  have hlast := List.getLast?_eq_some_getLast hne
  rw [hlast] at g1
  change times (1.1 * longest) (demos.getLast hne).2.dtMean = .ok ts at g1
  have ad := r5 _ hlast
  subst g4
  subst h2
  have hpos : 0 < longest := by
    obtain ⟨a, b, v1, v2, v3⟩ := (hd _ (List.getLast_mem hne)).lasts
    have := k3 _ (List.getLast_mem hne) a b v1 v2
    linarith
  refine ⟨rfl, rfl, ?_, rfl, ?_, sameDmp_trans r4 (sameDmp_retimed _ _), ?_, tau_restored r3 hT.tau⟩
  · cases hdt : (demos.getLast hne).2.dtMean with
    | none => rw [hdt] at g1; cases g1
    | some dt =>
      rw [hdt] at g1
      refine ⟨longest, demos.getLast hne, dt, ts, hlast, hdt, k3, ?_, fun hpos => ?_, r1, ?_, ?_, ad.params⟩
      · rcases k4 with e | h
        · rw [e] at hpos
          exact absurd hpos (lt_irrefl 0)
        · exact h
      · obtain ⟨ts', a1, a2⟩ := C100_times (1.1 * longest) dt hpos
        rw [g1] at a1
        obtain rfl := Except.ok.inj a1
        have e : (11 / 10 * longest : ℝ) = 1.1 * longest := by norm_num
        rw [e]
        exact a2
      · obtain ⟨y, a1, a2, a3⟩ := ad.start
        have a4 : (s3.dmp.retimed s.dmp.tau).dimY = y.length := by
          obtain ⟨_, _, y0, _, _, _, _, _, b1, _, _, _, b2, _⟩ := (hd _ (List.getLast_mem hne)).values
          rw [a1] at b1
          rw [Option.some.inj b1, b2]
          exact r3.inv.dim
        exact ⟨y, a1, a2, Dmp.starts_of (tau_restored r3 hT.tau).inv.good a4 (by
          change s3.dmp.spring.xInit = _
          rw [a3]
          rfl)⟩
      · intro hg
        exact ad.finish (by rw [r4.selected]; exact hg)
  · exact r2.ppf.trans hs.ppf.symm
  · have hr := Dmp.Reachable.change r2.reach (.tau s.dmp.tau) trivial
    change Dmp.Reachable _ _ _ (Dmp.setTau _ _).2 at hr
    rw [Dmp.setTau_run] at hr
    obtain ⟨v, hv, hvl⟩ := r2.size
    exact ⟨hr, r2.selects, r2.ppf, v, hv, hvl⟩

/-- C100: the picture can be drawn if the last demonstration has a time step, all demonstrations have the same
number of task parameters, the parameters can be predicted, and the Dmp can be evaluated. -/
theorem C100_succeeds {fas : List Fa} (s : DmpContextual) (hs : Ready d fas s) (hT : Dmp.Timed d s.dmp) (h0 : 0 < d)
    (demos : List (List ℝ × Trajectory ℝ)) (hd : ∀ demo ∈ demos, Drawable d demo) (axs? : Option (List Nat))
    (axs : List Nat) (ha : axs? = some axs ∨ axs? = none ∧ axs = List.range 8) (hl : 8 ≤ axs.length)
    (last : List ℝ × Trajectory ℝ) (hlast : demos.getLast? = some last) (dt : ℝ) (hdt : last.2.dtMean = some dt)
    (hpos : 0 < dt) (k : Nat) (hk : ∀ demo ∈ demos, demo.1.length = k + 1)
    (hp : ∀ demo ∈ demos, ∀ fa ∈ fas, ∃ v, fa.predict (fun (_ : Fin 1) (j : Fin demo.1.length) => demo.1[j]) = .ok v)
    (he : ∀ demo ∈ demos, ∀ t ts, SameDmp s.dmp t → AsDemonstrated fas demo t → Dmp.Timed d t → ts ≠ [] →
      ∃ sol, (Dmp.analytical (some ts) false t).1 = .ok sol) :
    ∃ p s', plot demos axs? s = (.ok p, s') := by
  have hne : demos ≠ [] := by
    rintro rfl
    cases hlast
  obtain ⟨longest, k1, k2, k3, k4⟩ := drawDemos_ok hl hd 0 none
  obtain ⟨ts, t1, t2⟩ := C100_times (1.1 * longest) dt hpos
  obtain ⟨rng, g2⟩ := firstRange_ok (params := demos.map Prod.fst) (by simpa using hne) (k := k + 1) (fun p hp => by
    obtain ⟨demo, hdm, rfl⟩ := List.mem_map.mp hp
    exact hk demo hdm)
  have hq := (firstRange_inv g2).2
  rw [List.map_map] at hq
  have hts : ts ≠ [] := by
    obtain ⟨a, b, v1, v2, v3⟩ := (hd _ (List.mem_of_getLast? hlast)).lasts
    have := k3 _ (List.mem_of_getLast? hlast) a b v1 v2
    exact List.ne_nil_of_mem ((t2.2 0).mpr ⟨0, by simp, by linarith⟩)
  obtain ⟨rs, s1, g3⟩ := plotDemos_ok h0 hl hq hs hT hd (fun demo hdm p hp => by
    refine List.mem_map.mpr ⟨demo, hdm, ?_⟩
    change demo.1.headD 0 = p
    rw [List.headD_eq_head?_getD, hp]
    rfl) (fun demo hdm e => by have := hk demo hdm; rw [e] at this; cases this) hp
    (fun demo hdm t h1 h2 h3 => he demo hdm t ts h1 h2 h3 hts)
  refine ⟨⟨axs, demos.map (fun demo => panels [axs.getD 1 0, axs.getD 2 0, axs.getD 3 0] demo.2.ts
      [demo.2.ys.rows, demo.2.yds.rows, demo.2.ydds.rows]), rs⟩, { s1 with dmp := s1.dmp.retimed s.dmp.tau }, ?_⟩
  unfold plot
  rw [used_axes ha]
  dsimp only
  rw [k1, PyM.lift_ok_bind]
  dsimp only
  rw [hlast, Option.map_some, Option.getD_some, hdt, t1, PyM.lift_ok_bind, g2, PyM.lift_ok_bind, PyM.self_bind,
    PyM.bind_ok g3, PyM.bind_ok (onDmp_ok (Dmp.setTau_run _ _))]
  rfl

/-- C100: without demonstrations there is no picture, and without time step of the last one neither. -/
theorem C100_errors (s : DmpContextual) (demos : List (List ℝ × Trajectory ℝ)) (hd : ∀ demo ∈ demos, Drawable d demo)
    (axs? : Option (List Nat)) (axs : List Nat) (ha : axs? = some axs ∨ axs? = none ∧ axs = List.range 8)
    (hl : 8 ≤ axs.length) (h : ∀ last, demos.getLast? = some last → last.2.dtMean = none ∨ last.2.dtMean = some 0) :
    plot demos axs? s = (.error .valueError, s) := by
  obtain ⟨longest, k1, -⟩ := drawDemos_ok hl hd 0 none
  unfold plot
  rw [used_axes ha]
  dsimp only
  rw [k1, PyM.lift_ok_bind]
  dsimp only
  have e : times (1.1 * longest) ((demos.getLast?.map fun demo => demo.2.dtMean).getD none) = .error .valueError := by
    cases hlast : demos.getLast? with
    | none => rfl
    | some last =>
      change times (1.1 * longest) last.2.dtMean = _
      rcases h last hlast with e | e
      · rw [e]; rfl
      · rw [e]; exact (C100_times_errors _).2
  rw [e, PyM.lift_error_bind]
  rfl

/-- C100: if the parameters for the first demonstration cannot be predicted, plot raises an exception, and the Dmp
is left with the duration, start and end of that demonstration. -/
theorem C100_interrupted {fas : List Fa} (s : DmpContextual) (hs : Ready d fas s) (hT : Dmp.Timed d s.dmp)
    (demo : List ℝ × Trajectory ℝ) (demos : List (List ℝ × Trajectory ℝ))
    (hd : ∀ x ∈ demo :: demos, Drawable d x) (axs? : Option (List Nat)) (axs : List Nat)
    (ha : axs? = some axs ∨ axs? = none ∧ axs = List.range 8) (hl : 8 ≤ axs.length)
    (last : List ℝ × Trajectory ℝ) (hlast : (demo :: demos).getLast? = some last) (dt : ℝ)
    (hdt : last.2.dtMean = some dt) (hpos : 0 < dt) (k : Nat) (hk : ∀ x ∈ demo :: demos, x.1.length = k)
    (fa : Fa) (hfa : fa ∈ fas)
    (hp : ∀ v, fa.predict (fun (_ : Fin 1) (j : Fin demo.1.length) => demo.1[j]) ≠ .ok v) :
    ∃ e s', plot (demo :: demos) axs? s = (.error e, s') ∧
      (∀ a b, demo.2.ts.head? = some a → demo.2.ts.getLast? = some b → s'.dmp.tau = b - a) ∧
      s'.dmp.yInit? = demo.2.ys.rows.head? ∧ some s'.dmp.yAttr = demo.2.ys.rows.getLast? := by
  obtain ⟨longest, k1, -⟩ := drawDemos_ok hl hd 0 none
  obtain ⟨ts, t1, t2⟩ := C100_times (1.1 * longest) dt hpos
  obtain ⟨rng, g2⟩ := firstRange_ok (params := (demo :: demos).map Prod.fst) (by simp) (k := k) (fun p hp => by
    obtain ⟨x, hdm, rfl⟩ := List.mem_map.mp hp
    exact hk x hdm)
  obtain ⟨a, b, y0, y1, v1, v2, v3, v4, v5, v6, v7, v8, l0, l1⟩ := (hd demo (by simp)).values
  obtain ⟨e, he⟩ : ∃ e, setTaskParams (row demo) { s with dmp := moved s.dmp (b - a) y0 y1 } =
      (.error e, { s with dmp := moved s.dmp (b - a) y0 y1 }) := by
    rcases setTaskParams_cases (ready_moved hs (b - a) l0 l1) (row demo) with ⟨ps, t, k1, -⟩ | ⟨-, e, h⟩
    · obtain ⟨i, hi, rfl⟩ := List.mem_iff_getElem.mp hfa
      have := k1.get hi (k1.length_eq ▸ hi)
      exact absurd ((predicted_iff _ _ _).mp this) (hp _)
    · exact ⟨e, h⟩
  refine ⟨e, { s with dmp := moved s.dmp (b - a) y0 y1 }, ?_, ?_, ?_, ?_⟩
  · unfold plot
    rw [used_axes ha]
    dsimp only
    rw [k1, PyM.lift_ok_bind]
    dsimp only
    rw [hlast, Option.map_some, Option.getD_some, hdt, t1, PyM.lift_ok_bind, g2, PyM.lift_ok_bind, PyM.self_bind]
    refine PyM.bind_error ?_
    unfold plotDemos
    refine PyM.bind_error ?_
    rw [plotDemo_eq hT.inv axs ts rng demo v4 v7 v8 l0 l1, PyM.bind_error he]
  · intro a' b' e1 e2
    rw [v1] at e1
    rw [v2] at e2
    rw [← Option.some.inj e1, ← Option.some.inj e2]
    rfl
  · rw [v5]; rfl
  · rw [v6]; rfl

/-- C100: task parameters of different sizes cannot be drawn; neither can empty task parameters. -/
theorem C100_task_params (params : List (List ℝ)) :
    ((∃ p ∈ params, ∃ q ∈ params, p.length ≠ q.length) → firstRange params = .error .valueError) ∧
    firstRange [] = .error .valueError ∧ ∀ r, colour r [] = .error .indexError := by
  refine ⟨fun ⟨p, hp, q, hq, hne⟩ => ?_, rfl, fun _ => rfl⟩
  unfold firstRange
  have : rectangular params = .error .valueError := by
    unfold rectangular
    rw [if_neg]
    intro h
    rw [List.all_eq_true] at h
    have h1 := of_decide_eq_true (h p hp)
    have h2 := of_decide_eq_true (h q hq)
    omega
  rw [this]
  rfl

/-! ### Axes for the policy parameter function -/

/-- C100: the function approximators for the parameters are drawn on different axes. With exactly one parameter or
none, plot_policy_parameter_function fails, unless axes are passed. -/
theorem C100_parameter_axes (s : DmpContextual) (fas : List Fa) (hs : s.ppf = some fas) :
    (1 < fas.length → ppfAxes s none = .ok (List.range fas.length)) ∧
    (fas.length = 1 → ppfAxes s none = .error .attributeError) ∧
    (fas.length = 0 → ppfAxes s none = .error .valueError) ∧
    ∀ axs, (fas.length ≤ axs.length → ppfAxes s (some axs) = .ok (axs.take fas.length)) ∧
      (axs.length < fas.length → ppfAxes s (some axs) = .error .indexError) := by
  refine ⟨fun h => ?_, fun h => ?_, fun h => ?_, fun axs => ⟨fun h => ?_, fun h => ?_⟩⟩
  · unfold ppfAxes
    rw [hs]
    dsimp only
    have h1 : 1 < ⌈Real.sqrt fas.length⌉₊ := by
      rw [Nat.lt_ceil, Nat.cast_one, Real.lt_sqrt zero_le_one, one_pow]
      exact_mod_cast h
    have h2 : fas.length ≤ ⌈Real.sqrt fas.length⌉₊ * ⌈Real.sqrt fas.length⌉₊ := by
      have := Nat.le_ceil (Real.sqrt (fas.length : ℝ))
      have h3 : (fas.length : ℝ) ≤ (⌈Real.sqrt fas.length⌉₊ : ℝ) * ⌈Real.sqrt fas.length⌉₊ := by
        calc (fas.length : ℝ) = Real.sqrt fas.length * Real.sqrt fas.length := (Real.mul_self_sqrt (Nat.cast_nonneg _)).symm
          _ ≤ _ := mul_le_mul this this (Real.sqrt_nonneg _) (Nat.cast_nonneg _)
      exact_mod_cast h3
    rw [if_neg (by omega), if_neg (by omega)]
    change (if (List.range _).length < fas.length then _ else _) = _
    rw [if_neg (by rw [List.length_range]; omega)]
    change Except.ok _ = Except.ok _
    rw [List.take_range, Nat.min_eq_left h2]
  · unfold ppfAxes
    rw [hs]
    dsimp only
    rw [h, Nat.cast_one, Real.sqrt_one, Nat.ceil_one]
    rfl
  · unfold ppfAxes
    rw [hs]
    dsimp only
    rw [h, Nat.cast_zero, Real.sqrt_zero, Nat.ceil_zero]
    rfl
  · unfold ppfAxes
    rw [hs]
    change (if axs.length < fas.length then _ else _) = _
    rw [if_neg (by omega)]
    rfl
  · unfold ppfAxes
    rw [hs]
    change (if axs.length < fas.length then _ else _) = _
    rw [if_pos h]
    rfl

/-- C100: before training there is nothing to draw. -/
theorem C100_untrained (s : DmpContextual) (hs : s.ppf = none) (axs? : Option (List Nat)) :
    ppfAxes s axs? = .error .typeError := by
  unfold ppfAxes
  rw [hs]

/-! ### Methods of the Dmp -/

/-- C100: decoupling and the conversion of states are those of the Dmp, and the policy parameter function stays. -/
theorem C100_delegates (s : DmpContextual) (ts : List ℝ) (xs xds : List (List ℝ)) :
    asTrajectory s ts xs xds = s.dmp.asTrajectory ts xs xds ∧
    (decouple s).1 = (Dmp.decouple s.dmp).1 ∧ (decouple s).2.dmp = (Dmp.decouple s.dmp).2 ∧
    (decouple s).2.ppf = s.ppf := ⟨rfl, rfl, rfl, rfl⟩

/-! ### What drawing leaves behind -/

/-- C100: drawing does not change the motion of the Dmp. -/
def C100_statement : Prop :=
  ∀ (d : Nat) (fas : List Fa) (s s' : DmpContextual) (demos : List (List ℝ × Trajectory ℝ)) (axs? : Option (List Nat))
    (p : ContextPicture), Ready d fas s → Dmp.Timed d s.dmp → (∀ demo ∈ demos, Drawable d demo) →
    plot demos axs? s = (.ok p, s') → ∀ ts b, (Dmp.analytical (some ts) b s'.dmp).1 = (Dmp.analytical (some ts) b s.dmp).1

/-- C100: the time constant, the policy parameter function and everything that is not selected stay as they were, also
the results for new task parameters up to start and end. Missing: the start and the end, and the selected parameters,
which are those of the last demonstration (`C100_picture`). -/
theorem C100_partial {fas : List Fa} (s s' : DmpContextual) (hs : Ready d fas s) (hT : Dmp.Timed d s.dmp) (h0 : 0 < d)
    (demos : List (List ℝ × Trajectory ℝ)) (hd : ∀ demo ∈ demos, Drawable d demo) (axs? : Option (List Nat))
    (axs : List Nat) (ha : axs? = some axs ∨ axs? = none ∧ axs = List.range 8) (hl : 8 ≤ axs.length)
    (p : ContextPicture) (h : plot demos axs? s = (.ok p, s')) {k : Nat} (q : Fin 1 → Fin k → ℝ) :
    s'.dmp.tau = s.dmp.tau ∧ s'.ppf = s.ppf ∧ SameDmp s.dmp s'.dmp ∧
    ((setTaskParams q s').1 = .ok () ↔ (setTaskParams q s).1 = .ok ()) ∧
    ((setTaskParams q s).1 = .ok () →
      (setTaskParams q s').2.dmp.getParamVector = (setTaskParams q s).2.dmp.getParamVector) := by
  obtain ⟨-, -, -, h1, h2, h3, h4, -⟩ := C100_picture s s' hs hT h0 demos hd axs? axs ha hl p h
  refine ⟨h1, h2, h3, ?_⟩
  rcases setTaskParams_cases hs q with ⟨ps, t, a1, a2, -, a4, -⟩ | ⟨⟨fa, hfa, a1⟩, e, a2⟩
  · rcases setTaskParams_cases h4 q with ⟨ps', t', b1, b2, -, b4, -⟩ | ⟨⟨fa, hfa, b1⟩, -⟩
    · rw [a2, b2]
      refine ⟨Iff.rfl, fun _ => ?_⟩
      change t'.getParamVector = t.getParamVector
      rw [a4, b4]
      have : ps' = ps := by
        clear a2 a4 b2 b4 hs h4
        induction a1 generalizing ps' with
        | nil => cases b1; rfl
        | cons x _ ih =>
          cases b1 with
          | cons y ys =>
            rw [x] at y
            rw [Except.ok.inj y, ih _ ys]
      rw [this]
    · obtain ⟨i, hi, rfl⟩ := List.mem_iff_getElem.mp hfa
      exact absurd (a1.get hi (a1.length_eq ▸ hi)) (b1 _)
  · rw [a2]
    refine ⟨⟨fun h => ?_, (fun h => nomatch h)⟩, (fun h => nomatch h)⟩
    rcases setTaskParams_cases h4 q with ⟨ps', t', b1, b2, -⟩ | ⟨-, e', b2⟩
    · obtain ⟨i, hi, rfl⟩ := List.mem_iff_getElem.mp hfa
      exact absurd (b1.get hi (b1.length_eq ▸ hi)) (a1 _)
    · rw [b2] at h
      cases h

/-! ### Trained contextual Dmps -/

/-- The Dmp after training. -/
theorem train_moved {s s1 : DmpContextual} (hT : Dmp.Timed d s.dmp) {demos : List (List ℝ × Trajectory ℝ)}
    (hs : ∀ demo ∈ demos, demo.2.Shape ∧ ∀ t, demo.2.ts.getLast? = some t → 0 < t) {names : List String}
    {ppf : Fa ⊕ List Fa} (h : train demos names ppf s = (.ok (), s1)) :
    ∃ cur tau y0 y1, s1.dmp = moved cur tau y0 y1 ∧ y0.length = d ∧ y1.length = d ∧ 0 < tau ∧ Dmp.Timed d cur ∧
      cur.amplitudes ≠ none ∧ (s.dmp.fas = none → cur.fas = none) ∧
      cur.selected = (Dmp.setSelected names s.dmp).2.selected := by
  unfold train at h
  obtain ⟨_, s2, j1, h⟩ := PyM.bind_inv h
  obtain ⟨t1, g1, e1⟩ := onDmp_inv j1
  rw [e1, PyM.self_bind] at h
  obtain ⟨copies, s3, j2, h⟩ := PyM.bind_inv h
  obtain ⟨g2, e2⟩ := lift_inv j2
  dsimp only at g2
  have T1 : Dmp.Timed d t1 := by
    have := Dmp.kept_timed.setSelected names _ hT
    rwa [g1] at this
  have F1 : s.dmp.fas = none → t1.fas = none := by
    intro hf
    have : t1 = (Dmp.setSelected names s.dmp).2 := by rw [g1]
    rw [this, Dmp.setSelected_run]
    change s.dmp.fas.map _ = none
    rw [hf]
    rfl
  have each : ∀ c ∈ copies, Dmp.Timed d c.1 ∧ c.1.amplitudes ≠ none ∧ (t1.fas = none → c.1.fas = none) ∧
      c.1.selected = t1.selected := by
    intro c hc
    have hall := mapM_ok.mp g2
    obtain ⟨n, hn, rfl⟩ := List.mem_iff_getElem.mp hc
    have hn' : n < demos.length := hall.length_eq ▸ hn
    have ht := (trainedCopy_inv (hall.get hn' hn)).1
    simp only [List.get_eq_getElem] at ht
    have hd := hs _ (List.getElem_mem hn')
    refine ⟨?_, ?_, ?_, (train_frame T1.inv hd.1 ht).2.1⟩
    · have := Dmp.kept_timed.train hd.1 hd.2 none _ T1
      rwa [ht] at this
    · obtain ⟨tau, y0, yg, range, -, -, -, -, -, -, -, -, h | ⟨fas0, fas1, ph, tg, -, -, -, h⟩⟩ :=
        Dmp.train_inv T1.inv hd.1 ht
      · rw [h.2]
        exact fun e => nomatch e
      · rw [h]
        exact fun e => nomatch e
    · intro hf
      obtain ⟨tau, y0, yg, range, -, -, -, -, -, -, -, -, h | ⟨fas0, fas1, ph, tg, h1, -, -, h⟩⟩ :=
        Dmp.train_inv T1.inv hd.1 ht
      · rw [h.2]; rfl
      · change t1.fas = some fas0 at h1
        rw [hf] at h1
        cases h1
  cases hl : copies.getLast? with
  | none => rw [hl] at h; cases h
  | some cur =>
    rw [hl] at h
    dsimp only at h
    have hcur := List.mem_of_getLast? hl
    obtain ⟨c1, c2, c3, c4⟩ := each cur hcur
    obtain ⟨_, s4, j3, h⟩ := PyM.bind_inv h
    have e3 := modify_inv j3
    obtain ⟨_, s5, j4, h⟩ := PyM.bind_inv h
    obtain ⟨t4, g4, e4⟩ := onDmp_inv j4
    have hs4 : s4.dmp = cur.1 := by rw [e3]
    rw [hs4, Dmp.setTau_run] at g4
    have g4 := (Prod.mk.inj g4).2
    have hm : 0 < mean (copies.map fun c => c.1.tau) := by
      unfold mean
      have hpos : ∀ x ∈ copies.map (fun c => c.1.tau), (0 : ℝ) < x := by
        intro x hx
        obtain ⟨c, hc, rfl⟩ := List.mem_map.mp hx
        exact (each c hc).1.tau
      have hne : copies.map (fun c => c.1.tau) ≠ [] := by
        simpa using List.ne_nil_of_mem hcur
      refine div_pos (List.sum_pos _ hpos hne) ?_
      exact_mod_cast List.length_pos_iff.mpr hne
    obtain ⟨_, s6, j5, h⟩ := PyM.bind_inv h
    obtain ⟨t5, g5, e5⟩ := onDmp_inv j5
    have hs5 : s5.dmp = t4 := by rw [e4]
    have T4 : Dmp.Timed d t4 := by rw [← g4]; exact Dmp.kept_timed.tau _ _ c1 hm
    rw [hs5] at g5
    obtain ⟨l5, g5⟩ := setYInit_inv T4.inv.wf g5
    have T5 : Dmp.Timed d t5 := by rw [g5]; exact Dmp.kept_timed.place _ _ T4 l5
    obtain ⟨_, s7, j6, h⟩ := PyM.bind_inv h
    obtain ⟨t6, g6, e6⟩ := onDmp_inv j6
    have hs6 : s6.dmp = t5 := by rw [e5]
    rw [hs6] at g6
    obtain ⟨l6, g6⟩ := setYAttr_inv T5.inv.wf g6
    obtain ⟨_, s8, j7, h⟩ := PyM.bind_inv h
    have e7 := (lift_inv j7).2
    obtain ⟨_, s9, j8, h⟩ := PyM.bind_inv h
    have e8 := (lift_inv j8).2
    obtain ⟨fas, s10, j9, h⟩ := PyM.bind_inv h
    have e9 := (lift_inv j9).2
    obtain ⟨_, s11, j10, h⟩ := PyM.bind_inv h
    have e10 := modify_inv j10
    obtain ⟨k1, -⟩ := trainPpfs_inv _ List.nodup_range (by rw [e10]) h
    refine ⟨cur.1, _, _, _, ?_, l5.trans T4.inv.dim, l6.trans T5.inv.dim, hm, c1, c2, fun hf => c3 (F1 hf), ?_⟩
    swap
    · rw [c4, g1]
    rw [k1, e10]
    dsimp only
    rw [e9, e8, e7, e6]
    dsimp only
    rw [g6, g5, ← g4]
    rfl

/-- The picture of the contextual Dmp for two demonstrations. -/
theorem twoLines_plot : ∃ s1 p s2 fas, Ready 1 fas s1 ∧ Dmp.Timed 1 s1.dmp ∧ (∀ demo ∈ twoLines, Drawable 1 demo) ∧
    plot twoLines none s1 = (.ok p, s2) ∧
    (∀ ts, ts ≠ [] → ∀ t, SameDmp s1.dmp t → t.yInit? ≠ none → Dmp.Timed 1 t →
      ∃ sol, (Dmp.analytical (some ts) false t).1 = .ok sol) ∧ s1.dmp.StartsAt [0] ∧ s1.dmp.yInit? ≠ none ∧
      fas.length = 1 := by
  obtain ⟨-, s1, -, -, h2, -, h3⟩ := twoLines_trains
  have h0 : fromTrajs twoLines none ["goal"] (.inl (Fa.new (.gpr 2 [1]))) =
    (init 1 [0] [1] none >>= afterwards (train twoLines ["goal"] (.inl (Fa.new (.gpr 2 [1]))))) := rfl
  rw [h0] at h3
  obtain ⟨s, hi, ht⟩ := except_bind_ok h3
  have h1 : train twoLines ["goal"] (.inl (Fa.new (.gpr 2 [1]))) s = (.ok (), s1) := by
    unfold afterwards at ht
    rcases e : train twoLines ["goal"] (.inl (Fa.new (.gpr 2 [1]))) s with ⟨r, s'⟩
    rw [e] at ht
    cases r with
    | error x => cases ht
    | ok u => rw [Except.ok.inj ht]
  obtain ⟨dmp, hd, hsd⟩ : ∃ dmp, Dmp.init 1 [0] [1] none = .ok dmp ∧ s = ⟨dmp, none⟩ := by
    unfold init at hi
    rcases e : Dmp.init 1 [0] [1] none with x | dmp
    · rw [e] at hi
      cases hi
    · rw [e] at hi
      exact ⟨dmp, rfl, (Except.ok.inj hi).symm⟩
  have fits : Dmp.Options.Fits {} 1 := ⟨(fun _ h => nomatch h), trivial, (fun _ h => nomatch h), (fun _ h => nomatch h),
      (fun _ h => nomatch h), (fun _ h => nomatch h), (fun _ h => nomatch h)⟩
  have hr : Dmp.Reachable Dmp.DefaultLike Dmp.Change.Valid 1 s.dmp := by
    rw [hsd]
    exact .init hd rfl rfl fits (fun _ h => nomatch h)
  have hT : Dmp.Timed 1 s.dmp := by
    rw [hsd]
    exact Dmp.init_timed 1 [0] [1] none {} dmp hd rfl rfl fits ⟨(fun _ h => nomatch h), one_pos, (fun _ h => nomatch h)⟩
  obtain ⟨D, hD, hseq⟩ := Dmp.init_eq hd
  have hfas : s.dmp.fas = none := by rw [hsd, hseq]
  have hy : s.dmp.toBase.yInit = [0] := by
    rw [hsd, hseq]
    unfold Base.yInit
    simp
  have draw : ∀ demo ∈ twoLines, Drawable 1 demo := fun demo hdm => by
    obtain ⟨a1, a2⟩ := twoLines_shape demo hdm
    refine ⟨a1, a2, 0, 1, ?_⟩
    rcases List.mem_cons.mp hdm with rfl | hdm
    · exact ⟨rfl, rfl, one_pos⟩
    · rw [List.mem_singleton.mp hdm]
      exact ⟨rfl, rfl, one_pos⟩
  have shapes : ∀ demo ∈ twoLines, demo.2.Shape ∧ ∀ t, demo.2.ts.getLast? = some t → (0 : ℝ) < t := fun demo hdm => by
    refine ⟨(twoLines_shape demo hdm).1, fun t ht => ?_⟩
    rcases List.mem_cons.mp hdm with rfl | hdm
    · rw [← Option.some.inj ht]; exact one_pos
    · rw [List.mem_singleton.mp hdm] at ht
      rw [← Option.some.inj ht]; exact one_pos
  obtain ⟨fas, ready⟩ := train_ready hr (fun demo hdm => (shapes demo hdm).1) h1 h2
  obtain ⟨cur, tau, y0, y1, m1, m2, m3, m4, m5, m6, m7, m8⟩ := train_moved hT shapes h1
  have T1 : Dmp.Timed 1 s1.dmp := by rw [m1]; exact timed_moved m5 m4 m2 m3
  have fas1 : s1.dmp.fas = none := by rw [m1]; exact m7 hfas
  have amp1 : s1.dmp.amplitudes ≠ none := by rw [m1]; exact m6
  have hy0 : y0 = [0] := by
    have := (C63_means s s1 hr twoLines (fun demo hdm => (shapes demo hdm).1) ["goal"] _ h1).2.2.1
    rw [hy, m1] at this
    exact Except.ok.inj this
  have can : ∀ ts, ts ≠ [] → ∀ t, SameDmp s1.dmp t → t.yInit? ≠ none → Dmp.Timed 1 t →
      ∃ sol, (Dmp.analytical (some ts) false t).1 = .ok sol := by
    intro ts hts t same hyi hTt
    have hf : t.fas = none := by
      have := same.approximators
      rw [fas1] at this
      simpa using this
    have hforce : t.CanForce := by
      unfold Dmp.CanForce
      cases t.scaling with
      | noScaling => trivial
      | gMinusY0 => exact hyi
      | amplitude =>
        change t.amplitudes ≠ none
        rw [same.amplitudes]
        exact amp1
    obtain ⟨out, hout⟩ : ∃ out, t.faUsed ts false = .ok out := by
      unfold Dmp.faUsed Dmp.predictions
      rw [hf]
      exact ⟨_, rfl⟩
    exact ⟨_, (Dmp.analytical_iff hTt.inv.wf (Dmp.sameStart_of_tau hTt.springTau)).mpr
      ⟨fun _ => hyi, hforce, hts, out, hout, rfl⟩⟩
  have preds : ∀ demo ∈ twoLines, ∀ fa ∈ fas, ∃ v, fa.predict (row demo) = .ok v := by
    have key (k : Fin twoLines.length) (fa : Fa) (hfa : fa ∈ fas) :
        ∃ v, fa.predict (fun _ : Fin 1 => inputArray twoLines k) = .ok v := by
      obtain ⟨-, -, t, -, -, k3, -⟩ := C63_gpr s s1 s1 hr twoLines (fun demo hdm => (shapes demo hdm).1) ["goal"] 2 [1]
        (Fa.new (.gpr 2 [1])) rfl h1 h2 .here k
      rcases setTaskParams_cases ready (fun _ : Fin 1 => inputArray twoLines k) with ⟨ps, t, k1, -⟩ | ⟨-, e, h⟩
      · obtain ⟨i, hi, rfl⟩ := List.mem_iff_getElem.mp hfa
        exact ⟨_, (predicted_iff _ _ _).mp (k1.get hi (k1.length_eq ▸ hi))⟩
      · rw [k3] at h
        cases congrArg Prod.fst h
    intro demo hdm fa hfa
    rcases List.mem_cons.mp hdm with rfl | hdm
    · obtain ⟨v, hv⟩ := key ⟨0, by decide⟩ fa hfa
      refine ⟨v, ?_⟩
      rw [← hv]
      change fa.predict (fun (_ : Fin 1) (j : Fin 1) => _) = fa.predict (fun (_ : Fin 1) (j : Fin 1) => _)
      congr 1
      funext i j
      simp [row, inputArray, twoLines]
    · rw [List.mem_singleton.mp hdm]
      obtain ⟨v, hv⟩ := key ⟨1, by decide⟩ fa hfa
      refine ⟨v, ?_⟩
      rw [← hv]
      change fa.predict (fun (_ : Fin 1) (j : Fin 1) => _) = fa.predict (fun (_ : Fin 1) (j : Fin 1) => _)
      congr 1
      funext i j
      simp [row, inputArray, twoLines]
  obtain ⟨p, s2, hp⟩ := C100_succeeds s1 ready T1 one_pos twoLines draw none (List.range 8) (.inr ⟨rfl, rfl⟩) (by simp)
    ([1], line 2 5) rfl 1 rfl one_pos 0 (fun demo hdm => by
      rcases List.mem_cons.mp hdm with rfl | hdm
      · rfl
      · rw [List.mem_singleton.mp hdm]; rfl) preds
    (fun demo hdm t ts a1 a2 a3 hts => can ts hts t a1 (by
      obtain ⟨y, -, e, -⟩ := a2.start
      rw [e]
      exact fun h => nomatch h) a3)
  have hone : fas.length = 1 := by
    obtain ⟨v, v1, v2⟩ := ready.size
    have hsel : "goal" ∈ s1.dmp.selected := by
      rw [m1]
      change "goal" ∈ cur.selected
      rw [m8, Dmp.setSelected_run]
      simp
    unfold Dmp.getParamVector at v1
    rw [fas1, if_pos hsel] at v1
    rw [← v2, ← Except.ok.inj v1]
    change s1.dmp.yAttr.length = 1
    exact T1.inv.wf.yAttr.trans T1.inv.dim
  refine ⟨s1, p, s2, fas, ready, T1, draw, hp, can, ?_, ?_, hone⟩
  · refine Dmp.starts_of T1.inv.good T1.inv.dim ?_
    rw [m1, ← hy0]
    rfl
  · rw [m1]
    exact fun h => nomatch h

/-- The example draws two demonstrations and two motions. -/
example : ∃ s1 p s2, plot twoLines none s1 = (.ok p, s2) ∧ p.demos.length = 2 ∧ p.reproductions.length = 2 ∧
    s2.dmp.tau = s1.dmp.tau ∧ s2.dmp.yInit? = some [2] := by
  obtain ⟨s1, p, s2, fas, h1, h2, h3, h4, -⟩ := twoLines_plot
  obtain ⟨-, e2, ⟨_, last, _, _, l1, -, -, -, -, l2, ⟨y, l3, l4, -⟩, -⟩, e4, -⟩ := C100_picture s1 s2 h1 h2 one_pos twoLines h3
    none (List.range 8) (.inr ⟨rfl, rfl⟩) (by simp) p h4
  refine ⟨s1, p, s2, h4, by rw [e2]; rfl, l2.length_eq.symm, e4, ?_⟩
  rw [l4, ← l3, ← Option.some.inj l1]
  rfl

/-- Before drawing, the motion starts at 0; afterwards it starts at 2, as the last demonstration. -/
theorem C100_refuted : ¬ C100_statement := by
  intro H
  obtain ⟨s1, p, s2, fas, h1, h2, h3, h4, h5, h6, h7, -⟩ := twoLines_plot
  obtain ⟨-, -, ⟨_, last, _, _, l1, -, -, -, -, -, ⟨y, l3, l4, l5⟩, -⟩, -, -, hsame, -⟩ := C100_picture s1 s2 h1 h2 one_pos twoLines h3
    none (List.range 8) (.inr ⟨rfl, rfl⟩) (by simp) p h4
  have hy : y = [2] := by
    rw [← Option.some.inj l1] at l3
    exact (Option.some.inj l3).symm
  subst hy
  obtain ⟨sol, hsol⟩ := h5 [0] (by simp) s1.dmp (sameDmp_refl _) h7 h2
  have e := H 1 fas s1 s2 twoLines none p h1 h2 h3 h4 [0] false
  rw [hsol] at e
  obtain ⟨x, xs, xd, xds, a1, -, a2⟩ := h6.2.2 (some [0]) false sol hsol
  obtain ⟨x', xs', xd', xds', b1, -, b2⟩ := l5.2.2 (some [0]) false sol e
  rw [a1] at b1
  obtain ⟨rfl, -⟩ := List.cons.inj b1
  have c1 := a2.1
  have c2 := b2.1
  have hdim : s2.dmp.dimY = s1.dmp.dimY := hsame.dim
  unfold Dmp.posVelAcc at c1 c2
  dsimp only at c1 c2
  rw [hdim, c1] at c2
  simp at c2

/-- If the approximators are not trained, drawing fails and leaves the duration of the first demonstration. -/
example : ∃ s e s', plot twoLines none s = (.error e, s') ∧ s'.dmp.tau = 1 ∧ s'.dmp.yAttr = [1] := by
  obtain ⟨s1, -, -, fas, h1, h2, h3, -, -, -, -, h4⟩ := twoLines_plot
  obtain ⟨v, v1, v2⟩ := h1.size
  have h1' : Ready 1 [Fa.new (.gpr 2 [1])] { s1 with ppf := some [Fa.new (.gpr 2 [1])] } :=
    ⟨h1.reach, h1.selects, rfl, v, v1, v2.trans h4⟩
  obtain ⟨e, s', k1, k2, -, k4⟩ := C100_interrupted _ h1' h2 ([0], line 0 1) [([1], line 2 5)] h3 none (List.range 8)
    (.inr ⟨rfl, rfl⟩) (by simp) ([1], line 2 5) rfl 1 rfl one_pos 1 (by simp) (Fa.new (.gpr 2 [1])) (by simp)
    (fun v h => nomatch h)
  exact ⟨_, e, s', k1, (k2 0 1 rfl rfl).trans (by norm_num), Option.some.inj k4⟩

/-- Without demonstrations nothing is drawn. -/
example (s : DmpContextual) : plot [] none s = (.error .valueError, s) :=
  C100_errors (d := 1) s [] (fun _ h => nomatch h) none (List.range 8) (.inr ⟨rfl, rfl⟩) (by simp) (fun _ h => nomatch h)

/-- Three parameters are drawn on the first three of four axes. -/
example (s : DmpContextual) (fa : Fa) (h : s.ppf = some [fa, fa, fa]) : ppfAxes s none = .ok [0, 1, 2] :=
  (C100_parameter_axes s _ h).1 (by simp)

/-- Times until 1.1 in steps of one half. -/
example : ∃ ts, times 1.1 (some 0.5) = .ok ts ∧ (1 : ℝ) ∈ ts ∧ (1.5 : ℝ) ∉ ts := by
  obtain ⟨ts, h1, h2⟩ := C100_times 1.1 0.5 (by norm_num)
  refine ⟨ts, h1, (h2.2 1).mpr ⟨2, by norm_num, by norm_num⟩, fun h => ?_⟩
  obtain ⟨_, -, h⟩ := (h2.2 _).mp h
  norm_num at h

end DmpContextual

end Verif
