import Verif.Proofs.DmpKept
import Mathlib.Topology.Algebra.Order.Field

/- Dmp: setting start and goal (C23, C24). -/

set_option autoImplicit false

namespace Verif

namespace Dmp

open Filter

variable {d : Nat}

/-! ### C23 -/

/-- A state and its rate of change are those of a start at position `v` with velocity zero. -/
def AtRest (s : Dmp) (v x xd : List ℝ) : Prop :=
  (s.posVelAcc x xd).1 = v ∧ (s.posVelAcc x xd).2.1 = vzeros v.length

/-- Integration and analytical solution start at position `v` with velocity zero, whenever they do not
raise an exception. -/
def StartsAt (s : Dmp) (v : List ℝ) : Prop :=
  (∀ x xd, (integrateStart none s).1 = .ok (x, xd) → s.AtRest v x xd) ∧
  (∀ ts m rows, (integrate ts m s).1 = .ok rows → ∃ x xd rest, rows = (x, xd) :: rest ∧ s.AtRest v x xd) ∧
  (∀ ts b sol, (analytical ts b s).1 = .ok sol → ∃ x xs xd xds, sol.xs = x :: xs ∧ sol.xds = xd :: xds ∧
    s.AtRest v x xd)

/-- C23 -/
def C23_statement : Prop :=
  ∀ (d : Nat) (s : Dmp), Reachable DefaultLike Change.Valid d s → ∀ v : List ℝ,
    (v.length = d → (setYInit v s).1 = .ok () ∧ (setYInit v s).2.toBase.yInit = v ∧
      StartsAt (setYInit v s).2 v) ∧
    (v.length ≠ d → setYInit v s = (.error .valueError, s))

theorem integrateStart_ok {s : Dmp} (h : Good d s) {x xd : List ℝ}
    (hr : (integrateStart none s).1 = .ok (x, xd)) : x = s.startX ∧
      s.vf (s.spring.xInit.take s.dimY) (s.spring.xInit.drop s.dimY) s.goalStart s.phase.base.xInit
        s.gating.base.xInit s.dampingStart = .ok xd := by
  rw [integrateStart_run h.wf] at hr
  cases e : s.scaleGoal s.goalStart with
  | error er => rw [e] at hr; cases hr
  | ok ya =>
    rw [e] at hr
    simp only at hr
    have l : ya.length = d := by rw [scaleGoal_length h.wf (goalStart_length h.wf) e, h.dim]
    obtain ⟨c1, g1⟩ := started_good h l
    have hz := startX_sizes h.wf
    have hrun := diffEq_run (s := s.started ya) g1.wf (y := s.spring.xInit.take s.dimY)
      (z := s.spring.xInit.drop s.dimY) (g := s.goalStart) (p := s.phase.base.xInit)
      (q := s.gating.base.xInit) (c := s.dampingStart) hz
    have hvf : (s.started ya).vf (s.spring.xInit.take s.dimY) (s.spring.xInit.drop s.dimY) s.goalStart
        s.phase.base.xInit s.gating.base.xInit s.dampingStart =
      s.vf (s.spring.xInit.take s.dimY) (s.spring.xInit.drop s.dimY) s.goalStart
        s.phase.base.xInit s.gating.base.xInit s.dampingStart := by
      rw [← vf_core, c1, vf_core]
    rw [hvf] at hrun
    unfold startX at hr
    rw [PyM.bind_apply, hrun] at hr
    cases e2 : s.vf (s.spring.xInit.take s.dimY) (s.spring.xInit.drop s.dimY) s.goalStart
        s.phase.base.xInit s.gating.base.xInit s.dampingStart with
    | error er => rw [e2] at hr; cases hr
    | ok r =>
      rw [e2] at hr
      cases hr
      exact ⟨rfl, rfl⟩

theorem vf_ok {s : Dmp} {y z g p q c xd : List ℝ} (h : s.vf y z g p q c = .ok xd) :
    ∃ ga f, s.springGoal g = .ok ga ∧ s.forcing p q = .ok f ∧
      xd = pack (vdivs z s.spring.tau) ((List.range s.dimY).map (s.zRate ga (s.dampingAt c) f y z))
        (s.goalRate g) (s.phase.rate p) (s.gating.rate q) (s.dampingRate c) := by
  unfold vf at h
  obtain ⟨ga, h1, h2⟩ := except_bind_ok h
  obtain ⟨f, h3, h4⟩ := except_bind_ok h2
  cases h4
  exact ⟨ga, f, h1, h3, rfl⟩

theorem vdivs_zeros (n : Nat) (c : ℝ) : vdivs (vzeros n) c = vzeros n := by
  simp [vdivs, vzeros]

/-- The transformation system starts at rest at `v`. -/
theorem starts_of {s : Dmp} (g : Good d s) {v : List ℝ} (hd : s.dimY = v.length)
    (hx : s.spring.xInit = v ++ vzeros s.dimY) : StartsAt s v := by
  have w := g.wf
  have hv' := hd.symm
  have hstart : ∀ x xd, (integrateStart none s).1 = .ok (x, xd) →
      s.AtRest v x xd := by
    intro x xd hr
    obtain ⟨rfl, h2⟩ := integrateStart_ok g hr
    obtain ⟨ga, f, -, -, rfl⟩ := vf_ok h2
    have sz := startX_sizes w
    constructor
    · change pickAt s.startX (SPRING_Y s.dimY) = v
      rw [startX, sz.pick_SPRING_Y, hx, hd, List.take_left' rfl]
    · have h3 : (s.spring.xInit.drop s.dimY) = vzeros s.dimY := by
        rw [hx, hd, List.drop_left' rfl]
      change pickAt (pack _ _ _ _ _ _) (SPRING_Y s.dimY) = _
      rw [h3, vdivs_zeros]
      have sz2 : Sizes s.dimY (vzeros s.dimY) ((List.range s.dimY).map
          (s.zRate ga (s.dampingAt s.dampingStart) f
            (s.spring.xInit.take s.dimY) (vzeros s.dimY)))
          (s.goalRate s.goalStart) (s.phase.rate s.phase.base.xInit)
          (s.gating.rate s.gating.base.xInit)
          (s.dampingRate s.dampingStart) := by
        refine ⟨by simp, by simp, goalRate_length w sz.g, ?_, ?_, dampingRate_length w sz.c⟩
        · rw [Sub.length_rate w.phase (sz.p.trans w.phaseDim.symm), w.phaseDim]
        · rw [Sub.length_rate w.gating (sz.q.trans w.gatingDim.symm), w.gatingDim]
      rw [sz2.pick_SPRING_Y, hv']
  refine ⟨hstart, ?_, ?_⟩
  · intro ts m rows hr
    unfold integrate at hr
    rw [PyM.bind_apply] at hr
    rcases e : integrateStart none s with ⟨r, t⟩
    rw [e] at hr
    cases r with
    | error er => cases hr
    | ok r0 =>
      simp only at hr
      have h0 := hstart r0.1 r0.2 (by rw [e])
      cases ts with
      | nil => cases hr
      | cons t0 rest =>
        simp only at hr
        rw [PyM.bind_apply] at hr
        rcases e2 : DynSys.integrateLoop m t0 r0.1 rest t with ⟨r2, t2⟩
        rw [e2] at hr
        cases r2 with
        | error er => cases hr
        | ok l => cases hr; exact ⟨_, _, _, rfl, h0⟩
  · intro ts? b sol hr
    have some_case : ∀ ts, (analytical (some ts) b s).1 = .ok sol →
        ∃ x xs xd xds, sol.xs = x :: xs ∧ sol.xds = xd :: xds ∧ s.AtRest v x xd := by
      intro ts hr
      have hτ : s.SameStart := by
        intro j hj
        have : s.spring.xInit.getD (s.dimY + j) 0 = 0 := by
          rw [hx, hd, getD_append_right']
          simp [vzeros, List.getD_replicate]
        rw [this, zero_div, zero_div]
      obtain ⟨-, -, hts, fa, -, rfl⟩ := (analytical_iff w hτ).mp hr
      obtain ⟨n, hn⟩ := Nat.exists_eq_succ_of_ne_zero (List.length_pos_iff.mpr hts).ne'
      simp only [hn, List.range_succ_eq_map, List.map_cons]
      refine ⟨_, _, _, _, rfl, rfl, ?_, ?_⟩
      · change pickAt (s.xRow ts (s.gated ts fa) 0) (SPRING_Y s.dimY) = v
        unfold xRow
        simp only
        rw [(xRow_sizes w ts (s.gated ts fa) 0).pick_SPRING_Y]
        apply ext_getD 0
        · simp [hd]
        · intro i hi
          rw [getD_range_map (by simpa using hi)]
          change s.spring.xInit.getD i 0 = _
          rw [hx]
          rw [getD_append_left' (by simpa [hd] using hi)]
      · change pickAt (s.xdRow ts (s.gated ts fa) 0) (SPRING_Y s.dimY) = _
        unfold xdRow
        simp only
        rw [(xdRow_sizes w ts (s.gated ts fa) 0).pick_SPRING_Y]
        apply ext_getD 0
        · simp [hd]
        · intro i hi
          rw [getD_range_map (by simpa using hi)]
          have : (v ++ vzeros s.dimY).getD (s.dimY + i) 0 = 0 := by
            rw [hd, getD_append_right']
            simp [vzeros, List.getD_replicate]
          change s.spring.xInit.getD (s.dimY + i) 0 / _ = _
          rw [hx]
          rw [this]
          simp [vzeros, List.getD_replicate]
    cases ts? with
    | some ts => exact some_case ts hr
    | none =>
      rw [analytical_none] at hr
      cases e : s.tsTrain with
      | none => rw [e] at hr; cases hr
      | some ts => rw [e] at hr; exact some_case ts hr

/-- The object after the setter starts at the new position. -/
theorem placed_starts {s : Dmp} (h : Inv d s) {v : List ℝ} (hv : v.length = d) :
    StartsAt (s.placed v) v :=
  have hv' : v.length = s.dimY := hv.trans h.dim.symm
  starts_of (inv_placed h hv').good hv'.symm rfl

/-- C23: after `dmp.y_init = v`, integration and analytical solution start at `v` with velocity zero;
values of the wrong size are rejected without effect. Missing for C23: the property y_init returns the
old value (`C23_refuted`, `C23_reads_old`). -/
theorem C23_start_partial (d : Nat) (s : Dmp) (h : Reachable DefaultLike Change.Valid d s) (v : List ℝ) :
    (v.length = d → (setYInit v s).1 = .ok () ∧ StartsAt (setYInit v s).2 v) ∧
    (v.length ≠ d → setYInit v s = (.error .valueError, s)) := by
  have i := h.inv
  constructor
  · intro hv
    rw [setYInit_run i.wf (hv.trans i.dim.symm)]
    exact ⟨rfl, placed_starts i hv⟩
  · intro hv
    exact setYInit_reject (fun h => hv (h.trans i.dim))

/-- What the property y_init returns does not change by assignments. -/
theorem C23_reads_old (s : Dmp) (v : List ℝ) : (setYInit v s).2.toBase.yInit = s.toBase.yInit := by
  unfold setYInit
  rw [PyM.self_bind]
  by_cases h : v.length ≠ s.dimY
  · rw [if_pos h]; rfl
  · rw [if_neg h, PyM.modify_bind]
    have key : ∀ {α : Type} (m : PyM SpringDamper α) (f : α → PyM Dmp Unit) (t : Dmp),
        (∀ a t', (f a t').2.toBase = t'.toBase) → ((onSpring m >>= f) t).2.toBase = t.toBase := by
      intro α m f t hf
      rw [PyM.bind_apply]
      rcases e : onSpring m t with ⟨r, t'⟩
      have ht : t'.toBase = t.toBase := by
        have h2 : t' = (onSpring m t).2 := by rw [e]
        rw [h2]; rfl
      cases r with
      | error er => exact ht
      | ok a => exact (hf a t').trans ht
    rw [key]
    intro a t'
    cases s.goal with
    | none => rfl
    | some g =>
      simp only
      by_cases hr : s.requiresScaling = true
      · rw [if_pos hr]; rfl
      · rw [if_neg hr]
        unfold onGoal
        simp only
        cases t'.goal <;> rfl

/-- The default Dmp from 0 to 1. -/
theorem default_reachable (y g : ℝ) : ∃ s, init 1 [y] [g] none = .ok s ∧
    Reachable DefaultLike Change.Valid 1 s := by
  obtain ⟨s, hs⟩ := (C16_types 1 [y] [g] none {}).1 (by simp [known])
  refine ⟨s, hs, .init hs rfl rfl ⟨(fun _ h => nomatch h), trivial, (fun _ h => nomatch h),
    (fun _ h => nomatch h), (fun _ h => nomatch h), (fun _ h => nomatch h), (fun _ h => nomatch h)⟩ ?_⟩
  intro e he
  cases he

theorem C23_refuted : ¬ C23_statement := by
  intro H
  obtain ⟨s, hs, hr⟩ := default_reachable 0 1
  have h := ((H 1 s hr [5]).1 rfl).2.1
  rw [C23_reads_old] at h
  obtain ⟨dflt, hdf, rfl⟩ := init_eq hs
  have : (5 : ℝ) = 0 := by
    have := congrArg (fun l : List ℝ => l.getD 0 0) h
    exact this.symm
  norm_num at this

/-! ### C24 -/

/-- Goal systems whose goal tends to the attractor of the Dmp: none, exponential with this attractor, or
a scaled Richards system from its initial state to 1. -/
def Homes (d : Nat) (req : Bool) (yAttr : List ℝ) : Option Sub → Prop
  | none => req = false
  | some (.exponential e) =>
    req = false ∧ e.xAttr = yAttr ∧ 0 < e.tau ∧ ∀ j, j < d → 0 < e.alpha.at' j
  | some (.richards r) =>
    req = true ∧ r.leftAsymp = none ∧ 0 < r.tau ∧ (∀ j, j < d → 0 < r.alpha.at' j) ∧
      ∀ j, j < d → r.rightAsymp.at' j = 1
  | _ => False

/-- Objects with such a goal system and positive time constant. -/
structure Homing (d : Nat) (s : Dmp) : Prop where
  inv : Inv d s
  tau : 0 < s.tau
  springTau : s.spring.tau = s.tau
  homes : Homes d s.requiresScaling s.yAttr s.goal

theorem homes_touch {req : Bool} {a : List ℝ} {g : Option Sub} :
    Homes d req a (g.map Sub.touch) ↔ Homes d req a g := by
  match g with
  | none => exact Iff.rfl
  | some (.time _) => exact Iff.rfl
  | some (.exponential _) => exact Iff.rfl
  | some (.sigmoid _) => exact Iff.rfl
  | some (.richards _) => exact Iff.rfl

theorem inv_decoupled {s : Dmp} (h : Inv d s) : Inv d s.decoupled := by
  have := keeps_decouple s h
  rwa [decouple_run] at this

theorem homes_core {s t : Dmp} (hc : t.core = s.core) (h : Homes d s.requiresScaling s.yAttr s.goal) :
    Homes d t.requiresScaling t.yAttr t.goal := by
  have h1 : t.core.requiresScaling = s.core.requiresScaling := by rw [hc]
  have h2 : t.core.yAttr = s.core.yAttr := by rw [hc]
  have h3 : t.core.goal = s.core.goal := by rw [hc]
  change t.requiresScaling = s.requiresScaling at h1
  change t.yAttr = s.yAttr at h2
  change t.goal.map Sub.touch = s.goal.map Sub.touch at h3
  rw [← homes_touch, h1, h2, h3, homes_touch]
  exact h

theorem homes_retimed {s : Dmp} {t : ℝ} (hs : 0 < s.tau) (ht : 0 < t)
    (h : Homes d s.requiresScaling s.yAttr s.goal) :
    Homes d (s.retimed t).requiresScaling (s.retimed t).yAttr (s.retimed t).goal := by
  change Homes d s.requiresScaling s.yAttr (s.goal.map fun g => g.withTau (g.base.tau * (t / s.tau)))
  have h0 : 0 < t / s.tau := div_pos ht hs
  match e : s.goal with
  | none => rw [e] at h; exact h
  | some (.time _) => rw [e] at h; exact h
  | some (.sigmoid _) => rw [e] at h; exact h
  | some (.exponential g) =>
    rw [e] at h
    obtain ⟨h1, h2, h3, h4⟩ := h
    exact ⟨h1, h2, mul_pos h3 h0, h4⟩
  | some (.richards g) =>
    rw [e] at h
    obtain ⟨h1, h2, h3, h4, h5⟩ := h
    exact ⟨h1, h2, mul_pos h3 h0, h4, h5⟩

theorem homes_placed {s : Dmp} {y : List ℝ} (h : Homes d s.requiresScaling s.yAttr s.goal) :
    Homes d (s.placed y).requiresScaling (s.placed y).yAttr (s.placed y).goal := by
  change Homes d s.requiresScaling s.yAttr (if s.requiresScaling then s.goal else s.goal.map (Sub.withInit y))
  by_cases hr : s.requiresScaling = true
  · rw [if_pos hr]; exact h
  · rw [if_neg hr]
    match e : s.goal with
    | none => rw [e] at h; exact h
    | some (.time _) => rw [e] at h; exact h
    | some (.sigmoid _) => rw [e] at h; exact h
    | some (.exponential g) => rw [e] at h; exact h
    | some (.richards g) => rw [e] at h; exact absurd h.1 hr

theorem homes_aimed {s : Dmp} {y : List ℝ} (h : Homes d s.requiresScaling s.yAttr s.goal) :
    Homes d (s.aimed y).requiresScaling (s.aimed y).yAttr (s.aimed y).goal := by
  change Homes d s.requiresScaling y (if s.requiresScaling then s.goal else s.goal.map (Sub.withAttr y))
  by_cases hr : s.requiresScaling = true
  · rw [if_pos hr]
    match e : s.goal with
    | none => rw [e] at h; exact h
    | some (.time _) => rw [e] at h; exact h
    | some (.sigmoid _) => rw [e] at h; exact h
    | some (.exponential g) =>
      rw [e] at h
      have := h.1
      rw [hr] at this
      cases this
    | some (.richards g) => rw [e] at h; exact h
  · rw [if_neg hr]
    match e : s.goal with
    | none => rw [e] at h; exact h
    | some (.time _) => rw [e] at h; exact h
    | some (.sigmoid _) => rw [e] at h; exact h
    | some (.exponential g) =>
      rw [e] at h
      exact ⟨h.1, rfl, h.2.2⟩
    | some (.richards g) => rw [e] at h; exact absurd h.1 hr

theorem homes_decoupled {s : Dmp} (w : s.Wf) (hd : s.dimY = d)
    (h : Homes d s.requiresScaling s.yAttr s.goal) :
    Homes d s.decoupled.requiresScaling s.decoupled.yAttr s.decoupled.goal := by
  change Homes d s.requiresScaling s.yAttr (s.goal.map Sub.decoupled)
  match e : s.goal with
  | none => rw [e] at h; exact h
  | some (.time _) => rw [e] at h; exact h
  | some (.sigmoid _) => rw [e] at h; exact h
  | some (.exponential g) =>
    rw [e] at h
    obtain ⟨h1, h2, h3, h4⟩ := h
    have hx : g.dimX = d := (w.goalDim _ e).trans hd
    refine ⟨h1, h2, h3, fun j hj => ?_⟩
    change 0 < (g.alpha.decouple g.dimX).at' j
    rw [Par.at'_decouple _ (by rw [hx]; exact hj)]
    exact h4 j hj
  | some (.richards g) =>
    rw [e] at h
    obtain ⟨h1, h2, h3, h4, h5⟩ := h
    have hx : g.dimX = d := (w.goalDim _ e).trans hd
    refine ⟨h1, h2, h3, fun j hj => ?_, h5⟩
    change 0 < (g.alpha.decouple g.dimX).at' j
    rw [Par.at'_decouple _ (by rw [hx]; exact hj)]
    exact h4 j hj

theorem core_tau {s t : Dmp} (hc : t.core = s.core) : t.tau = s.tau := by
  have h : t.core.tau = s.core.tau := by rw [hc]
  exact h

theorem core_springTau {s t : Dmp} (hc : t.core = s.core) : t.spring.tau = s.spring.tau := by
  have h : t.core.spring.tau = s.core.spring.tau := by rw [hc]
  exact h

theorem springTau_retimed {s : Dmp} (t : ℝ) (h : 0 < s.tau) (hs : s.spring.tau = s.tau) :
    (s.retimed t).spring.tau = (s.retimed t).tau := by
  change s.spring.tau * (t / s.tau) = t
  rw [hs]
  field_simp

theorem kept_homing : Kept d (Homing d) where
  inv _ h := h.inv
  core s t h i hc := ⟨i, by rw [core_tau hc]; exact h.tau,
    by rw [core_springTau hc, core_tau hc]; exact h.springTau, homes_core hc h.homes⟩
  tau s t h ht := ⟨inv_retimed h.inv t, ht, springTau_retimed t h.tau h.springTau,
    homes_retimed h.tau ht h.homes⟩
  place s y h hy := ⟨inv_placed h.inv hy, h.tau, h.springTau, homes_placed h.homes⟩
  aim s y h hy := ⟨inv_aimed h.inv hy, h.tau, h.springTau, homes_aimed h.homes⟩
  other s f a ts sel h i := ⟨i, h.tau, h.springTau, h.homes⟩
  decouple s h := ⟨inv_decoupled h.inv, h.tau, h.springTau,
    homes_decoupled h.inv.wf h.inv.dim h.homes⟩

/-- Constructor arguments: positive time constant (also of a transformation system that is passed), and
the goal system of the dmp_type. -/
def OwnGoal (tau : ℝ) (_ _ : List ℝ) (o : Options) (_ : Dmp) : Prop :=
  0 < tau ∧ o.goal = none ∧ ∀ t, o.transformation = some t → t.tau = tau

/-- Moreover, the dmp_type is not one of the variants with "NO_SCALING". -/
def DefaultGoal (tau : ℝ) (yInit yAttr : List ℝ) (o : Options) (s : Dmp) : Prop :=
  OwnGoal tau yInit yAttr o s ∧ isIn "NO_SCALING" o.dmpType = false

theorem init_homing (tau : ℝ) (yInit yAttr : List ℝ) (fas : Option (List Fa)) (o : Options) (s : Dmp)
    (h : init tau yInit yAttr fas o = .ok s) (hi : yInit.length = d) (ha : yAttr.length = d)
    (ho : o.Fits d) (hg : DefaultGoal tau yInit yAttr o s) : Homing d s := by
  subst hi
  obtain ⟨⟨hτ, hgn, htr⟩, hns⟩ := hg
  refine ⟨init_inv h ha ho ?_, ?_, ?_, ?_⟩
  · intro e he
    rw [hgn] at he
    cases he
  · obtain ⟨dflt, hd, rfl⟩ := init_eq h
    exact hτ
  · obtain ⟨dflt, hd, rfl⟩ := init_eq h
    change (o.transformation.getD _).tau = tau
    cases e : o.transformation with
    | none => rfl
    | some t => exact htr t e
  · obtain ⟨dflt, hd, rfl⟩ := init_eq h
    change Homes _ dflt.requiresScaling yAttr (o.goal.getD dflt.goal)
    rw [hgn]
    change Homes _ dflt.requiresScaling yAttr dflt.goal
    unfold defaults at hd
    simp only at hd
    by_cases h1 : o.dmpType = "IJSPEERT_2002_MOVEMENT" ∨ o.dmpType = "Ijs02"
    · rw [if_pos h1] at hd
      cases hd
      rfl
    rw [if_neg h1] at hd
    by_cases h2 : o.dmpType = "KULVICIUS_2012_JOINING" ∨ o.dmpType = "Kul12" ∨
        o.dmpType = "COUNTDOWN_2013"
    · rw [if_pos h2] at hd
      cases hd
      refine ⟨rfl, rfl, hτ, fun j _ => ?_⟩
      change (0 : ℝ) < 15
      norm_num
    rw [if_neg h2] at hd
    by_cases h3 : (isIn "2022" o.dmpType || isIn "SCT23" o.dmpType) = true
    · rw [if_pos h3] at hd
      cases hd
      simp only [hns, Bool.not_false, if_true]
      refine ⟨rfl, rfl, hτ, fun j _ => ?_, fun j hj => ?_⟩
      · change (0 : ℝ) < 10
        norm_num
      · change (List.replicate yInit.length (1 : ℝ)).getD j 0 = 1
        simp [List.getD_replicate, hj]
    · rw [if_neg h3] at hd
      cases hd

/-- The goal of the spring-damper system at late times. -/
theorem goal_tendsto {s : Dmp} (h : Homing d s) (hc : s.CanScale) {j : Nat} (hj : j < d) :
    Tendsto (fun t => (s.scaled (s.goalAt t)).getD j 0) atTop (nhds (s.yAttr.getD j 0)) := by
  have w := h.inv.wf
  have hd := h.inv.dim
  have hh := h.homes
  unfold scaled goalAt
  match e : s.goal with
  | none =>
    rw [e] at hh
    have hr : s.requiresScaling = false := hh
    simp only [hr, Bool.false_eq_true, if_false]
    exact tendsto_const_nhds
  | some (.time _) => rw [e] at hh; exact hh.elim
  | some (.sigmoid _) => rw [e] at hh; exact hh.elim
  | some (.exponential g) =>
    rw [e] at hh
    obtain ⟨hr, h2, h3, h4⟩ := hh
    simp only [hr, Bool.false_eq_true, if_false]
    have hw : g.Wf := w.goal _ e
    have hx : g.dimY = d := hw.dim ▸ (w.goalDim _ e).trans hd
    have he : Tendsto (fun t : ℝ => Real.exp (-(g.alpha.at' j) * t / g.tau)) atTop (nhds 0) := by
      apply Real.tendsto_exp_atBot.comp
      have h5 : Tendsto (fun t : ℝ => (g.alpha.at' j / g.tau) * t) atTop atTop :=
        tendsto_id.const_mul_atTop (div_pos (h4 j hj) h3)
      exact (tendsto_neg_atTop_atBot.comp h5).congr fun t => by
        simp only [Function.comp]; ring
    have h6 := (he.const_mul (g.xInit.getD j 0 - g.xAttr.getD j 0)).add_const (g.xAttr.getD j 0)
    rw [mul_zero, zero_add, h2] at h6
    refine h6.congr fun t => ?_
    change _ = (g.xAt t).getD j 0
    rw [Exponential.xAt, getD_range_map (by rw [hx]; exact hj), Exponential.xComp, ← h2]
  | some (.richards g) =>
    rw [e] at hh
    obtain ⟨hr, h1, h2, h3, h4⟩ := hh
    simp only [hr, if_true]
    have hw : g.Wf := w.goal _ e
    have hx : g.dimX = d := (w.goalDim _ e).trans hd
    obtain ⟨y0, hy0⟩ : ∃ y, s.yInit? = some y := Option.ne_none_iff_exists'.mp (hc hr)
    rw [hy0]
    simp only [Option.getD_some]
    have ly := w.yInit y0 hy0
    have la := w.yAttr
    have hcv : 0 < g.clipped.v.at' j := by
      rw [show g.clipped.v = Richards.clipMin 0.5 g.v by simp [Richards.clipped, h1],
        Richards.at'_clipMin _ _ hw.v (by rw [hx]; exact hj)]
      exact lt_of_lt_of_le (by norm_num) (le_max_right _ _)
    have h5 := Richards.pos1_tendsto (a := g.left.at' j) (k := g.rightAsymp.at' j)
      (q := g.clipped.qComp g.left j) hcv (h3 j hj) h2
    rw [h4 j hj] at h5
    have h6 := (h5.const_mul (s.yAttr.getD j 0 - y0.getD j 0)).const_add (y0.getD j 0)
    rw [mul_one, add_sub_cancel] at h6
    refine h6.congr fun t => ?_
    have lx := Sub.length_xAt (w.goal _ e) t
    rw [w.goalDim _ e] at lx
    rw [getD_vadd (by omega) (by simp; omega), getD_vmul (by simp; omega) (by omega),
      getD_vsub (by omega) (by omega)]
    change _ = _ + _ * (g.xAt t).getD j 0
    rw [Richards.xAt_getD g (by rw [hx]; exact hj), h4 j hj]

/-- There is a delayed goal, a function of time that does not depend on the time vector, that the
analytical solution uses as attractor of the spring-damper system, and that tends to `g`. -/
def AnalyticalHeadsFor (s : Dmp) (g : List ℝ) : Prop :=
  ∃ goal : ℝ → List ℝ,
    (∀ ts b sol k, (analytical (some ts) b s).1 = .ok sol → k < ts.length →
      s.scaleGoal (pickAt (sol.xs.getD k []) (GOAL s.dimY)) = .ok (goal (ts.getD k 0))) ∧
    ∀ j, j < s.dimY → Tendsto (fun t => (goal t).getD j 0) atTop (nhds (g.getD j 0))

/-- C24, for the analytical solution. -/
def C24_statement : Prop :=
  ∀ (d : Nat) (s : Dmp),
    Reachable OwnGoal Change.Forward d s →
    ∀ g : List ℝ, g.length = d → (setYAttr g s).1 = .ok () ∧ AnalyticalHeadsFor (setYAttr g s).2 g

theorem headsFor {s : Dmp} (h : Homing d s) : AnalyticalHeadsFor s s.yAttr := by
  have w := h.inv.wf
  by_cases hc : s.CanScale
  · refine ⟨fun t => s.scaled (s.goalAt t), ?_, fun j hj => goal_tendsto h hc (h.inv.dim ▸ hj)⟩
    intro ts b sol k hr hk
    obtain ⟨-, -, -, fa, -, rfl⟩ := (analytical_iff w (sameStart_of_tau h.springTau)).mp hr
    simp only
    have e : ((List.range ts.length).map (s.xRow ts (s.gated ts fa))).getD k [] =
        s.xRow ts (s.gated ts fa) k := by
      simp [List.getD_eq_getElem?_getD, hk]
    rw [e]
    unfold xRow
    simp only
    rw [(xRow_sizes w ts (s.gated ts fa) k).pick_GOAL, scaleGoal_ok hc]
  · refine ⟨fun _ => s.yAttr, ?_, fun j hj => tendsto_const_nhds⟩
    intro ts b sol k hr hk
    exact absurd ((analytical_iff w (sameStart_of_tau h.springTau)).mp hr).1 hc

/-- C24: after `dmp.y_attr = g`, the delayed goal that the analytical solution uses tends to `g`.
Missing for C24: the dmp_types with "NO_SCALING", for which the statement is false (`C24_refuted`), and integration. -/
theorem C24_heads_for_goal_partial (d : Nat) (s : Dmp) (h : Reachable DefaultGoal Change.Forward d s)
    (g : List ℝ) (hg : g.length = d) :
    (setYAttr g s).1 = .ok () ∧ AnalyticalHeadsFor (setYAttr g s).2 g := by
  have hs := kept_homing.reachable init_homing h
  have hl : g.length = s.dimY := hg.trans hs.inv.dim.symm
  rw [setYAttr_run hs.inv.wf hl]
  exact ⟨rfl, headsFor (kept_homing.aim s g hs hl)⟩

/-- The default Dmp from 0 to 1 is covered, also after the goal was changed. -/
example : ∃ s, init 1 [0] [1] none = .ok s ∧ Reachable DefaultGoal Change.Forward 1 s ∧
    Reachable DefaultGoal Change.Forward 1 ((Change.yAttr [5]).run s).2 := by
  obtain ⟨s, hs⟩ := (C16_types 1 [0] [1] none {}).1 (by simp [known])
  have hr : Reachable DefaultGoal Change.Forward 1 s :=
    .init hs rfl rfl ⟨(fun _ h => nomatch h), trivial, (fun _ h => nomatch h),
      (fun _ h => nomatch h), (fun _ h => nomatch h), (fun _ h => nomatch h), (fun _ h => nomatch h)⟩
      ⟨⟨one_pos, rfl, (fun _ h => nomatch h)⟩, by decide⟩
  exact ⟨s, hs, hr, .change hr _ trivial⟩

/-- The same for a dmp_type with a scaled goal. -/
example : ∃ s, init 1 [0] [1] none { dmpType := "2022" } = .ok s ∧
    Reachable DefaultGoal Change.Forward 1 s := by
  obtain ⟨s, hs⟩ := (C16_types 1 [0] [1] none { dmpType := "2022" }).1
    (by refine .inr (.inl ⟨"", "", ?_⟩); decide)
  exact ⟨s, hs, .init hs rfl rfl ⟨(fun _ h => nomatch h), trivial, (fun _ h => nomatch h),
    (fun _ h => nomatch h), (fun _ h => nomatch h), (fun _ h => nomatch h), (fun _ h => nomatch h)⟩
    ⟨⟨one_pos, rfl, (fun _ h => nomatch h)⟩, by decide⟩⟩

/-- The goal of a Dmp of type "2022_NO_SCALING" does not follow its attractor. -/
theorem C24_refuted : ¬ C24_statement := by
  intro H
  have hfit : Options.Fits { dmpType := "2022_NO_SCALING" } 1 :=
    ⟨(fun _ h => nomatch h), trivial, (fun _ h => nomatch h),
      (fun _ h => nomatch h), (fun _ h => nomatch h), (fun _ h => nomatch h), (fun _ h => nomatch h)⟩
  have hs : ∃ s, init 1 [0] [1] none { dmpType := "2022_NO_SCALING" } = .ok s :=
    (C16_types 1 [0] [1] none { dmpType := "2022_NO_SCALING" }).1
      (by refine .inr (.inl ⟨"", "_NO_SCALING", ?_⟩); decide)
  obtain ⟨s, hs⟩ := hs
  have hr : Reachable OwnGoal Change.Forward 1 s :=
    .init hs rfl rfl hfit ⟨one_pos, rfl, (fun _ h => nomatch h)⟩
  obtain ⟨-, goal, h1, h2⟩ := H 1 s hr [2] rfl
  have hi : Inv 1 s := init_inv hs rfl hfit (fun e he => nomatch he)
  obtain ⟨dflt, hdf, hseq⟩ := init_eq hs
  unfold defaults at hdf
  simp only at hdf
  rw [if_neg (by decide), if_neg (by decide), if_pos (by decide)] at hdf
  have hreq : s.requiresScaling = false := by
    rw [hseq]; cases hdf; decide
  have hgoal : s.goal =
      some (.richards (.init 1 [0] (.array [1]) (.scalar 0.3) (.scalar 10) (.scalar 1))) := by
    rw [hseq]; cases hdf; rfl
  have hsc : s.scaling = .noScaling := by rw [hseq]
  have hfa : s.fas = none := by rw [hseq]
  have hτ : s.spring.tau = s.tau := by rw [hseq]; rfl
  clear hseq hs hr H hdf
  have hl : ([2] : List ℝ).length = s.dimY := hi.dim.symm
  rw [setYAttr_run hi.wf hl] at h1 h2
  have w : (s.aimed [2]).Wf := (inv_aimed hi hl).wf
  have hd : (s.aimed [2]).dimY = 1 := hi.dim
  have hc : (s.aimed [2]).CanScale := fun h => by
    have : s.requiresScaling = true := h
    rw [hreq] at this; cases this
  have hg : ∀ t, goal t = (s.aimed [2]).goalAt t := by
    intro t
    have hfu : ∃ fa, (s.aimed [2]).faUsed [t] false = .ok fa := by
      unfold faUsed predictions
      have : (s.aimed [2]).fas = none := hfa
      rw [this]
      exact ⟨_, rfl⟩
    obtain ⟨fa, hfu⟩ := hfu
    have hf : (s.aimed [2]).CanForce := by
      unfold CanForce
      have : (s.aimed [2]).scaling = .noScaling := hsc
      rw [this]; trivial
    have hs := (analytical_iff w (sameStart_of_tau (s := s.aimed [2]) hτ) (ts := [t])
      (b := false)).mpr ⟨hc, hf, by simp, fa, hfu, rfl⟩
    have h3 := h1 [t] false _ 0 hs Nat.one_pos
    have h4 : pickAt ((s.aimed [2]).xRow [t] ((s.aimed [2]).gated [t] fa) 0)
        (GOAL (s.aimed [2]).dimY) = _ := (xRow_sizes w [t] _ 0).pick_GOAL
    change (s.aimed [2]).scaleGoal (pickAt ((s.aimed [2]).xRow [t] ((s.aimed [2]).gated [t] fa) 0)
        (GOAL (s.aimed [2]).dimY)) = _ at h3
    rw [h4, scaleGoal_ok hc] at h3
    injection h3 with h3
    change _ = goal t at h3
    rw [← h3]
    have : (s.aimed [2]).requiresScaling = false := hreq
    unfold scaled
    rw [this]
    rfl
  have h5 := h2 0 (by rw [hd]; exact Nat.one_pos)
  simp only [hg] at h5
  have h6 : (s.aimed [2]).goal =
      some (.richards (.init 1 [0] (.array [1]) (.scalar 0.3) (.scalar 10) (.scalar 1))) := by
    change (if s.requiresScaling then s.goal else s.goal.map (Sub.withAttr [2])) = _
    rw [hreq, hgoal]
    rfl
  have hv : (0 : ℝ) < max 1 0.5 := lt_max_of_lt_left one_pos
  have h7 := Richards.pos1_tendsto
    (a := (Richards.init 1 [0] (.array [1]) (.scalar 0.3) (.scalar 10) (.scalar 1)).left.at' 0) (k := 1)
    (q := (Richards.init 1 [0] (.array [1]) (.scalar 0.3) (.scalar 10) (.scalar 1)).clipped.qComp
      (Richards.init 1 [0] (.array [1]) (.scalar 0.3) (.scalar 10) (.scalar 1)).left 0) hv
    (show (0 : ℝ) < 10 by norm_num) one_pos
  have h8 : (2 : ℝ) = 1 := by
    refine tendsto_nhds_unique (h5.congr fun t => ?_) h7
    unfold goalAt
    rw [h6]
    change ((Richards.init 1 [0] (.array [1]) (.scalar 0.3) (.scalar 10) (.scalar 1)).xAt t).getD 0 0 = _
    rw [Richards.xAt_getD _ (show 0 < 1 from Nat.one_pos)]
    rfl
  norm_num at h8

end Dmp

end Verif
