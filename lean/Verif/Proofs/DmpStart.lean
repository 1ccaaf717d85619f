import Verif.Proofs.DmpCore

/- Helper lemmas about a Dmp: integrate_start and analytical_solution as functions. -/

set_option autoImplicit false

namespace Verif

namespace Dmp

variable {d : Nat}

/-- First goal state. -/
noncomputable def goalStart (s : Dmp) : List ℝ :=
  match s.goal with
  | none => s.yAttr
  | some g => g.base.xInit

/-- First damping state. -/
noncomputable def dampingStart (s : Dmp) : List ℝ :=
  match s.damping with
  | none => full s.dimY s.spring.damping
  | some g => g.base.xInit

/-- First state. -/
noncomputable def startX (s : Dmp) : List ℝ :=
  pack (s.spring.xInit.take s.dimY) (s.spring.xInit.drop s.dimY) s.goalStart s.phase.base.xInit
    s.gating.base.xInit s.dampingStart

theorem goalStart_length {s : Dmp} (h : s.Wf) : s.goalStart.length = s.dimY := by
  unfold goalStart
  cases e : s.goal with
  | none => exact h.yAttr
  | some g => rw [(h.goal g e).xInit, h.goalDim g e]

theorem dampingStart_length {s : Dmp} (h : s.Wf) : s.dampingStart.length = s.dimY := by
  unfold dampingStart
  cases e : s.damping with
  | none => simp [full]
  | some g => rw [(h.damping g e).xInit, h.dampingDim g e]

theorem springInit_length {s : Dmp} (h : s.Wf) : s.spring.xInit.length = 2 * s.dimY := by
  rw [h.spring.xInit, h.spring.dim, h.springDim]; omega

theorem startX_sizes {s : Dmp} (h : s.Wf) : Sizes s.dimY (s.spring.xInit.take s.dimY)
    (s.spring.xInit.drop s.dimY) s.goalStart s.phase.base.xInit s.gating.base.xInit s.dampingStart := by
  have := springInit_length h
  refine ⟨by simp; omega, by simp; omega, goalStart_length h, ?_, ?_, dampingStart_length h⟩
  · rw [h.phase.xInit, h.phaseDim]
  · rw [h.gating.xInit, h.gatingDim]

/-- The object when integrate_start calls differential_equation; `ya` is the first goal. -/
noncomputable def started (s : Dmp) (ya : List ℝ) : Dmp :=
  { s with
    goal := s.goal.map Sub.touch
    damping := s.damping.map Sub.touch
    phase := s.phase.touch
    gating := s.gating.touch
    spring := { s.spring with yAttr := ya, damping := s.dampingAt s.dampingStart } }

/-- integrate_start from the damping system on. -/
noncomputable def startRest (s : Dmp) (x : List ℝ) : PyM Dmp (List ℝ × List ℝ) := do
  let d := s.dimY
  let x ← match s.damping with
    | none => pure (putAt x (DAMPING d) (full d s.spring.damping))
    | some _ => do
      let r ← onDamping (DynSys.integrateStart none)
      let x := putAt x (DAMPING d) r.1
      onSpring (PyM.modify fun sp => { sp with damping := .array (pickAt x (DAMPING d)) })
      pure x
  let r ← onSpring (DynSys.integrateStart none)
  let x := putAt x (SPRING d) r.1
  let r ← onPhase (DynSys.integrateStart none)
  let x := putAt x (PHASE d) r.1
  let r ← onGating (DynSys.integrateStart none)
  let x := putAt x (GATING d) r.1
  let xd ← diffEq x
  pure (x, xd)

theorem spring_start (sp : SpringDamper) :
    DynSys.integrateStart none sp = (.ok (sp.xInit, sp.diffEq sp.xInit), sp) := rfl

/-- integrate_start after the damping system. -/
noncomputable def startEnd (s : Dmp) (x : List ℝ) : PyM Dmp (List ℝ × List ℝ) := do
  let d := s.dimY
  let r ← onSpring (DynSys.integrateStart none)
  let x := putAt x (SPRING d) r.1
  let r ← onPhase (DynSys.integrateStart none)
  let x := putAt x (PHASE d) r.1
  let r ← onGating (DynSys.integrateStart none)
  let x := putAt x (GATING d) r.1
  let xd ← diffEq x
  pure (x, xd)

theorem startEnd_run {s t : Dmp} (h : s.Wf) {g c : List ℝ} (hg : g.length = s.dimY)
    (hc : c.length = s.dimY) (h1 : t.spring.xInit = s.spring.xInit) (h2 : t.phase = s.phase)
    (h3 : t.gating = s.gating) :
    startEnd s (pack (vzeros s.dimY) (vzeros s.dimY) g (vzeros 1) (vzeros 1) c) t =
      (do
        let xd ← diffEq (pack (s.spring.xInit.take s.dimY) (s.spring.xInit.drop s.dimY) g
          s.phase.base.xInit s.gating.base.xInit c)
        pure (pack (s.spring.xInit.take s.dimY) (s.spring.xInit.drop s.dimY) g
          s.phase.base.xInit s.gating.base.xInit c, xd) : PyM Dmp (List ℝ × List ℝ))
      { t with phase := s.phase.touch, gating := s.gating.touch } := by
  have hz : Sizes s.dimY (vzeros s.dimY) (vzeros s.dimY) g (vzeros 1) (vzeros 1) c :=
    ⟨by simp, by simp, hg, by simp, by simp, hc⟩
  have hst := startX_sizes h
  have hz2 : Sizes s.dimY (s.spring.xInit.take s.dimY) (s.spring.xInit.drop s.dimY) g (vzeros 1)
    (vzeros 1) c := ⟨hst.y, hst.z, hg, by simp, by simp, hc⟩
  have hz3 : Sizes s.dimY (s.spring.xInit.take s.dimY) (s.spring.xInit.drop s.dimY) g
    s.phase.base.xInit (vzeros 1) c := ⟨hst.y, hst.z, hg, hst.p, by simp, hc⟩
  unfold startEnd
  simp only
  rw [PyM.bind_ok (onSpring_ok (spring_start t.spring))]
  have hp : DynSys.integrateStart none t.phase =
      (.ok (s.phase.base.xInit, s.phase.rate s.phase.base.xInit), s.phase.touch) := by
    rw [h2]; exact Sub.integrateStart_run h.phase
  rw [PyM.bind_ok (onPhase_ok (s := { t with spring := t.spring }) hp)]
  have hq : DynSys.integrateStart none t.gating =
      (.ok (s.gating.base.xInit, s.gating.rate s.gating.base.xInit), s.gating.touch) := by
    rw [h3]; exact Sub.integrateStart_run h.gating
  rw [PyM.bind_ok (onGating_ok (s := { t with phase := s.phase.touch }) hq), h1,
    hz.put_SPRING (springInit_length h), hz2.put_PHASE hst.p, hz3.put_GATING hst.q]

theorem startRest_run {s t : Dmp} (h : s.Wf) {ya : List ℝ}
    (h1 : t.spring = { s.spring with yAttr := ya }) (h2 : t.phase = s.phase)
    (h3 : t.gating = s.gating) (h4 : t.damping = s.damping) :
    startRest s (pack (vzeros s.dimY) (vzeros s.dimY) s.goalStart (vzeros 1) (vzeros 1)
        (vzeros s.dimY)) t =
      (do
        let xd ← diffEq s.startX
        pure (s.startX, xd) : PyM Dmp (List ℝ × List ℝ))
      { t with
        phase := s.phase.touch
        gating := s.gating.touch
        damping := s.damping.map Sub.touch
        spring := { s.spring with yAttr := ya, damping := s.dampingAt s.dampingStart } } := by
  have hst := startX_sizes h
  have hz : Sizes s.dimY (vzeros s.dimY) (vzeros s.dimY) s.goalStart (vzeros 1) (vzeros 1)
    (vzeros s.dimY) := ⟨by simp, by simp, hst.g, by simp, by simp, by simp⟩
  change (match s.damping with
    | none => do
      let x ← pure (putAt _ (DAMPING s.dimY) (full s.dimY s.spring.damping))
      startEnd s x
    | some _ => do
      let r ← onDamping (DynSys.integrateStart none)
      onSpring (PyM.modify fun sp => { sp with damping := .array (pickAt (putAt (pack (vzeros s.dimY) (vzeros s.dimY) s.goalStart (vzeros 1) (vzeros 1) (vzeros s.dimY)) (DAMPING s.dimY) r.1) (DAMPING s.dimY)) })
      let x ← pure (putAt (pack (vzeros s.dimY) (vzeros s.dimY) s.goalStart (vzeros 1) (vzeros 1) (vzeros s.dimY)) (DAMPING s.dimY) r.1)
      startEnd s x : PyM Dmp (List ℝ × List ℝ)) t = _
  cases e : s.damping with
  | none =>
    have hf : s.dampingStart = full s.dimY s.spring.damping := by simp [dampingStart, e]
    simp only [PyM.pure_bind]
    rw [hz.put_DAMPING (by simp [full]), ← hf]
    refine (startEnd_run h hst.g hst.c ?_ h2 h3).trans ?_
    · rw [h1]
    · congr 1
      rw [e] at h4
      cases t
      simp only at h1 h4 ⊢
      subst h1 h4
      simp [dampingAt, e]
  | some ds =>
    have hf : s.dampingStart = ds.base.xInit := by simp [dampingStart, e]
    simp only
    have k := onDamping_ok (h4.trans e) (Sub.integrateStart_run (h.damping ds e))
    rw [PyM.bind_ok k]
    simp only [← hf]
    have hz2 : Sizes s.dimY (vzeros s.dimY) (vzeros s.dimY) s.goalStart (vzeros 1) (vzeros 1)
      s.dampingStart := ⟨by simp, by simp, hst.g, by simp, by simp, hst.c⟩
    rw [hz.put_DAMPING hst.c, hz2.pick_DAMPING]
    have k2 : onSpring (PyM.modify fun sp => { sp with damping := .array s.dampingStart })
        { t with damping := some ds.touch } = (.ok (),
          { t with damping := some ds.touch, spring := { t.spring with damping := .array s.dampingStart } }) :=
      rfl
    rw [PyM.bind_ok k2, PyM.pure_bind]
    refine (startEnd_run h hst.g hst.c ?_ ?_ ?_).trans ?_
    · simp only [h1]
    · exact h2
    · exact h3
    · congr 1
      simp only [dampingAt, e, h1]
      rfl

theorem integrateStart_run {s : Dmp} (h : s.Wf) :
    integrateStart none s =
      match s.scaleGoal s.goalStart with
      | .error e => (.error e, { s with goal := s.goal.map Sub.touch })
      | .ok ya => (do
          let xd ← diffEq s.startX
          pure (s.startX, xd) : PyM Dmp (List ℝ × List ℝ)) (s.started ya) := by
  have hst := startX_sizes h
  have hz := zeros_sizes s.dimY
  change (match s.goal with
    | none => do
      let g ← pure s.yAttr
      let ya ← PyM.lift (s.scaleGoal (pickAt (putAt (vzeros s.dimX) (GOAL s.dimY) g) (GOAL s.dimY)))
      onSpring (SpringDamper.setYAttr ya)
      startRest s (putAt (vzeros s.dimX) (GOAL s.dimY) g)
    | some _ => do
      let r ← onGoal (DynSys.integrateStart none)
      let g ← pure r.1
      let ya ← PyM.lift (s.scaleGoal (pickAt (putAt (vzeros s.dimX) (GOAL s.dimY) g) (GOAL s.dimY)))
      onSpring (SpringDamper.setYAttr ya)
      startRest s (putAt (vzeros s.dimX) (GOAL s.dimY) g) : PyM Dmp (List ℝ × List ℝ)) s = _
  have hz2 : Sizes s.dimY (vzeros s.dimY) (vzeros s.dimY) s.goalStart (vzeros 1) (vzeros 1)
    (vzeros s.dimY) := ⟨by simp, by simp, hst.g, by simp, by simp, by simp⟩
  rw [h.dimX, zeros_pack]
  have hm : s.goal = none → ({ s with goal := s.goal.map Sub.touch } : Dmp) = s := by
    intro e
    cases s
    simp only at e
    subst e
    rfl
  cases e : s.goal with
  | none =>
    have hf : s.goalStart = s.yAttr := by simp [goalStart, e]
    simp only [PyM.pure_bind]
    rw [← hf, hz.put_GOAL hst.g, hz2.pick_GOAL]
    cases e2 : s.scaleGoal s.goalStart with
    | error er =>
      rw [e, ← hf] at hm
      rw [PyM.lift_error_bind, hm rfl]
      rfl
    | ok ya =>
      have l := scaleGoal_length h hst.g e2
      have h1 := onSpring_ok (s := s) (spring_setYAttr (y := ya) (l.trans h.springDim.symm))
      rw [PyM.lift_ok_bind, PyM.bind_ok h1]
      refine (startRest_run (ya := ya) h ?_ ?_ ?_ ?_).trans ?_
      iterate 4 rfl
      congr 1
      simp only [started]
      cases s
      simp only at e ⊢
      subst e
      rfl
  | some gs =>
    have hf : s.goalStart = gs.base.xInit := by simp [goalStart, e]
    have h1 := onGoal_ok e (Sub.integrateStart_run (h.goal gs e))
    simp only
    rw [PyM.bind_ok h1, PyM.pure_bind, ← hf, hz.put_GOAL hst.g, hz2.pick_GOAL]
    cases e2 : s.scaleGoal s.goalStart with
    | error er =>
      rw [PyM.lift_error_bind]
      rfl
    | ok ya =>
      have l := scaleGoal_length h hst.g e2
      have h1 := onSpring_ok (s := { s with goal := some gs.touch })
        (spring_setYAttr (y := ya) (l.trans h.springDim.symm))
      rw [PyM.lift_ok_bind, PyM.bind_ok h1]
      refine (startRest_run (ya := ya) h ?_ ?_ ?_ ?_).trans ?_
      iterate 4 rfl
      congr 1
      simp only [started, e]
      rfl

theorem goalStart_core (s : Dmp) : s.core.goalStart = s.goalStart := by
  unfold goalStart
  cases e : s.goal <;> simp [core, e]

theorem dampingStart_core (s : Dmp) : s.core.dampingStart = s.dampingStart := by
  unfold dampingStart
  cases e : s.damping <;> simp [core, e]

theorem startX_core (s : Dmp) : s.core.startX = s.startX := by
  unfold startX
  rw [goalStart_core, dampingStart_core]
  simp [core]

theorem scaleGoal_core (s : Dmp) : s.core.scaleGoal = s.scaleGoal := rfl

theorem started_good {s : Dmp} (h : Good d s) {ya : List ℝ} (hy : ya.length = d) :
    (s.started ya).core = s.core ∧ Good d (s.started ya) := by
  refine good_of h rfl rfl rfl rfl rfl rfl rfl rfl rfl (.inr rfl) (.inr rfl) (.inr rfl) (.inr rfl)
    (ya := ya) (c := s.dampingAt s.dampingStart) rfl hy (dampingAt_fits h ?_) ?_
  · rw [dampingStart_length h.wf, h.dim]
  · intro h0; simp [dampingAt, h0]

theorem stable_integrateStart : Stable d (integrateStart none) := by
  intro s s' hs hs' hc
  have e1 : s.startX = s'.startX := by rw [← startX_core, ← startX_core s', hc]
  have e2 : s.scaleGoal s.goalStart = s'.scaleGoal s'.goalStart := by
    rw [← goalStart_core, ← scaleGoal_core, ← goalStart_core s', ← scaleGoal_core s', hc]
  rw [integrateStart_run hs.wf, integrateStart_run hs'.wf, ← e2, ← e1]
  cases e : s.scaleGoal s.goalStart with
  | error er =>
    refine ⟨rfl, ?_⟩
    refine good_of hs rfl rfl rfl rfl rfl rfl rfl rfl rfl (.inl rfl) (.inl rfl) (.inr rfl) (.inl rfl)
        (ya := s.spring.yAttr) (c := s.spring.damping) rfl ?_ ?_ fun _ => rfl
    · exact hs.wf.spring.yAttr.trans (hs.wf.springDim.trans hs.dim)
    · have := hs.wf.spring.damping
      rwa [hs.wf.springDim, hs.dim] at this
  | ok ya =>
    have l : ya.length = d := by rw [scaleGoal_length hs.wf (goalStart_length hs.wf) e, hs.dim]
    obtain ⟨c1, g1⟩ := started_good hs l
    obtain ⟨c2, g2⟩ := started_good hs' l
    have hx : s.startX.length = 4 * d + 2 := by rw [← hs.dim]; exact (startX_sizes hs.wf).length
    have := ((stable_diffEq hx).bind fun xd => Stable.pure (s.startX, xd)) _ _ g1 g2
      (c1.trans (hc.trans c2.symm))
    exact ⟨this.1, this.2.1.trans c1, this.2.2⟩

end Dmp

end Verif
