import Verif.Proofs.DmpMotion
import Verif.Props.Base
import Verif.Props.DmpLayout
import Verif.Props.TrajectoryShape

/- Helper lemmas about a Dmp: setters, training; an invariant of all objects. -/

set_option autoImplicit false

namespace Verif

namespace Sub

/-- The object with another time constant. -/
def withTau (t : ℝ) : Sub → Sub
  | .time s => .time { s with tau := t }
  | .exponential s => .exponential { s with tau := t }
  | .sigmoid s => .sigmoid { s with tau := t, ksCached := none }
  | .richards s => .richards { s with tau := t }

theorem setTau_run (s : Sub) (t : ℝ) : Sub.setTau t s = (.ok (), s.withTau t) := by
  cases s <;> rfl

theorem wf_withTau {s : Sub} (h : s.Wf) (t : ℝ) : (s.withTau t).Wf := by
  cases s with
  | time s => exact h
  | exponential s =>
    have h' : s.Wf := h
    exact ⟨h'.dim, h'.xInit, h'.xAttr, h'.alpha⟩
  | sigmoid s => exact ⟨⟨h.1.dim, h.1.xInit, h.1.maxRate, h.1.inflRatio⟩, .inl rfl⟩
  | richards s =>
    have h' : s.Wf := h
    exact ⟨h'.dim, h'.xInit, h'.alpha, h'.v, h'.rightAsymp, h'.tInflRatio, h'.leftAsymp⟩

@[simp] theorem base_withTau (s : Sub) (t : ℝ) : (s.withTau t).base = { s.base with tau := t } := by
  cases s <;> rfl

/-- The object with another initial state. -/
def withInit (y : List ℝ) : Sub → Sub
  | .time s => .time { s with xInit := y }
  | .exponential s => .exponential { s with xInit := y }
  | .sigmoid s => .sigmoid { s with xInit := y, ksCached := none }
  | .richards s => .richards { s with xInit := y }

theorem base_setYInit {b : Base} {y : List ℝ} (hd : b.dimX = b.dimY) (h : y.length = b.dimY) :
    Base.setYInit y b = (.ok (), { b with xInit := y }) := by
  rw [Base.setYInit_run b hd.ge y h, hd, Nat.sub_self]
  simp [vzeros]

theorem setYInit_run {s : Sub} (hw : s.Wf) {y : List ℝ} (h : y.length = s.base.dimY) :
    Sub.setYInit y s = (.ok (), s.withInit y) := by
  cases s with
  | time s =>
    change (((Base.setYInit y s.toBase).1, Sub.time { s with toBase := (Base.setYInit y s.toBase).2 }) :
      Except PyErr Unit × Sub) = _
    rw [base_setYInit (b := s.toBase) (hw.1.trans hw.2.2.symm) h]; rfl
  | exponential s =>
    change (((Base.setYInit y s.toBase).1,
      Sub.exponential { s with toBase := (Base.setYInit y s.toBase).2 }) : Except PyErr Unit × Sub) = _
    rw [base_setYInit (b := s.toBase) (Exponential.Wf.dim hw) h]; rfl
  | richards s =>
    change (((Base.setYInit y s.toBase).1,
      Sub.richards { s with toBase := (Base.setYInit y s.toBase).2 }) : Except PyErr Unit × Sub) = _
    rw [base_setYInit (b := s.toBase) (Richards.Wf.dim hw) h]; rfl
  | sigmoid s =>
    have h' : y.length = s.dimX := h.trans hw.1.dim.symm
    change ((Sigmoid.setYInit y s).1, Sub.sigmoid (Sigmoid.setYInit y s).2) = _
    unfold Sigmoid.setYInit Sigmoid.setXInit
    simp [h', withInit]

theorem wf_withInit {s : Sub} (h : s.Wf) {y : List ℝ} (hy : y.length = s.base.dimY) :
    (s.withInit y).Wf := by
  cases s with
  | time s => exact ⟨h.1, hy.trans h.2.2, h.2.2⟩
  | exponential s =>
    have h' : s.Wf := h
    exact ⟨h'.dim, hy, h'.xAttr, h'.alpha⟩
  | sigmoid s => exact ⟨⟨h.1.dim, hy.trans h.1.dim.symm, h.1.maxRate, h.1.inflRatio⟩, .inl rfl⟩
  | richards s =>
    have h' : s.Wf := h
    exact ⟨h'.dim, hy.trans h'.dim.symm, h'.alpha, h'.v, h'.rightAsymp, h'.tInflRatio, h'.leftAsymp⟩

@[simp] theorem base_withInit (s : Sub) (y : List ℝ) :
    (s.withInit y).base = { s.base with xInit := y } := by
  cases s <;> rfl

theorem withInit_withAttr (s : Sub) (y a : List ℝ) :
    (s.withInit y).withAttr a = (s.withAttr a).withInit y := by
  cases s <;> rfl

end Sub

namespace Dmp

variable {d : Nat}

/-- An exponential goal system is not scaled, and its attractor is that of the Dmp. -/
def Plain (s : Dmp) : Prop :=
  ∀ e, s.goal = some (.exponential e) → s.requiresScaling = false ∧ e.xAttr = s.yAttr

/-- The invariant: well-formed, `d` dimensions, same time constant as the spring-damper system. -/
structure Inv (d : Nat) (s : Dmp) : Prop where
  wf : s.Wf
  plain : s.Plain
  dim : s.dimY = d

theorem Plain.sync {s : Dmp} (h : s.Plain) : s.Sync := by
  intro g hg
  cases g with
  | exponential e =>
    have := (h e hg).2
    rw [Sub.withAttr, ← this]
  | time _ => rfl
  | sigmoid _ => rfl
  | richards _ => rfl

theorem Inv.good {s : Dmp} (h : Inv d s) : Good d s := ⟨h.wf, h.plain.sync, h.dim⟩

/-! ### tau -/

/-- The object with another time constant. -/
noncomputable def retimed (s : Dmp) (t : ℝ) : Dmp :=
  { s with
    tau := t
    phase := s.phase.withTau (s.phase.base.tau * (t / s.tau))
    gating := s.gating.withTau (s.gating.base.tau * (t / s.tau))
    spring := { s.spring with tau := s.spring.tau * (t / s.tau) }
    goal := s.goal.map fun g => g.withTau (g.base.tau * (t / s.tau)) }

theorem setTau_run (s : Dmp) (t : ℝ) : setTau t s = (.ok (), s.retimed t) := by
  unfold setTau
  rw [PyM.self_bind, PyM.modify_bind]
  rw [PyM.bind_ok (onPhase_ok (s := { s with tau := t })
    (Sub.setTau_run s.phase (s.phase.base.tau * (t / s.tau))))]
  refine (PyM.bind_ok (onGating_ok
    (s := { s with tau := t, phase := s.phase.withTau (s.phase.base.tau * (t / s.tau)) })
    (Sub.setTau_run s.gating (s.gating.base.tau * (t / s.tau))))).trans ?_
  have h3 : SpringDamper.setTau (s.spring.tau * (t / s.tau)) s.spring =
    (.ok (), { s.spring with tau := s.spring.tau * (t / s.tau) }) := rfl
  refine (PyM.bind_ok (onSpring_ok
    (s := { s with
      tau := t
      phase := s.phase.withTau (s.phase.base.tau * (t / s.tau))
      gating := s.gating.withTau (s.gating.base.tau * (t / s.tau)) }) h3)).trans ?_
  unfold retimed
  cases e : s.goal with
  | none =>
    simp only
    refine Prod.ext rfl ?_
    cases s
    simp only at e
    subst e
    rfl
  | some g =>
    simp only
    refine (onGoal_ok (g := g) ?_ (Sub.setTau_run g (g.base.tau * (t / s.tau)))).trans ?_
    · rfl
    · rfl

theorem inv_retimed {s : Dmp} (h : Inv d s) (t : ℝ) : Inv d (s.retimed t) := by
  obtain ⟨w, hp, hd⟩ := h
  refine ⟨⟨w.dimX, w.yAttr, w.yInit, ?_, w.springDim, Sub.wf_withTau w.phase _, ?_,
    Sub.wf_withTau w.gating _, ?_, ?_, ?_, w.damping, w.dampingDim, w.amplitudes⟩, ?_, hd⟩
  · exact ⟨w.spring.dim, w.spring.xInit, w.spring.yAttr, w.spring.damping, w.spring.spring, w.spring.mass⟩
  · simp [retimed, w.phaseDim]
  · simp [retimed, w.gatingDim]
  · intro g hg
    obtain ⟨g', h1, rfl⟩ := Option.map_eq_some_iff.mp hg
    exact Sub.wf_withTau (w.goal g' h1) _
  · intro g hg
    obtain ⟨g', h1, rfl⟩ := Option.map_eq_some_iff.mp hg
    simpa [retimed] using w.goalDim g' h1
  · intro e he
    obtain ⟨g', h1, h2⟩ := Option.map_eq_some_iff.mp he
    cases g' with
    | exponential e' => cases h2; exact hp e' h1
    | time _ => cases h2
    | sigmoid _ => cases h2
    | richards _ => cases h2

/-! ### y_init -/

/-- The object with another initial position. -/
noncomputable def placed (s : Dmp) (y : List ℝ) : Dmp :=
  { s with
    yInit? := some y
    spring := { s.spring with xInit := y ++ vzeros s.dimY }
    goal := if s.requiresScaling then s.goal else s.goal.map (Sub.withInit y) }

theorem setYInit_reject {s : Dmp} {y : List ℝ} (h : y.length ≠ s.dimY) :
    setYInit y s = (.error .valueError, s) := by
  unfold setYInit
  rw [PyM.self_bind, if_pos h]
  rfl

theorem setYInit_run {s : Dmp} (w : s.Wf) {y : List ℝ} (h : y.length = s.dimY) :
    setYInit y s = (.ok (), s.placed y) := by
  unfold setYInit
  rw [PyM.self_bind, if_neg (not_not.mpr h), PyM.modify_bind]
  have hd := w.spring.dim
  have h3 : SpringDamper.setYInit y s.spring =
      (.ok (), { s.spring with xInit := y ++ vzeros s.dimY }) := by
    have e : s.spring.dimX - s.spring.dimY = s.dimY := by rw [hd, w.springDim]; omega
    change (((Base.setYInit y s.spring.toBase).1,
      ({ s.spring with toBase := (Base.setYInit y s.spring.toBase).2 } : SpringDamper)) :
      Except PyErr Unit × SpringDamper) = _
    rw [Base.setYInit_run s.spring.toBase (by omega) y (by rw [h, w.springDim]), e]
  rw [PyM.bind_ok (onSpring_ok (s := { s with yInit? := some y }) h3)]
  unfold placed
  cases e : s.goal with
  | none =>
    simp only
    refine Prod.ext rfl ?_
    cases s
    simp only at e
    subst e
    simp
  | some g =>
    simp only
    by_cases hr : s.requiresScaling = true
    · rw [if_pos hr, if_pos hr]
      refine Prod.ext rfl ?_
      cases s
      simp only at e
      subst e
      rfl
    · rw [if_neg hr, if_neg hr]
      refine (onGoal_ok (g := g) ?_ (Sub.setYInit_run (w.goal g e) (y := y) ?_)).trans ?_
      · rfl
      · rw [h, ← (w.goal g e).dim, w.goalDim g e]
      · rfl

theorem inv_placed {s : Dmp} (h : Inv d s) {y : List ℝ} (hy : y.length = s.dimY) :
    Inv d (s.placed y) := by
  obtain ⟨w, hp, hd⟩ := h
  refine ⟨⟨w.dimX, w.yAttr, ?_, ?_, w.springDim, w.phase, w.phaseDim,
    w.gating, w.gatingDim, ?_, ?_, w.damping, w.dampingDim, w.amplitudes⟩, ?_, hd⟩
  · rintro _ ⟨⟩; exact hy
  · refine ⟨w.spring.dim, ?_, w.spring.yAttr, w.spring.damping, w.spring.spring, w.spring.mass⟩
    change (y ++ vzeros s.dimY).length = s.spring.dimX
    rw [w.spring.dim, w.springDim]
    simp [hy]
  · intro g hg
    change (if s.requiresScaling then s.goal else s.goal.map (Sub.withInit y)) = some g at hg
    by_cases hr : s.requiresScaling = true
    · rw [if_pos hr] at hg; exact w.goal g hg
    · rw [if_neg hr] at hg
      obtain ⟨g', h1, rfl⟩ := Option.map_eq_some_iff.mp hg
      exact Sub.wf_withInit (w.goal g' h1) (by rw [hy, ← (w.goal g' h1).dim, w.goalDim g' h1])
  · intro g hg
    change (if s.requiresScaling then s.goal else s.goal.map (Sub.withInit y)) = some g at hg
    by_cases hr : s.requiresScaling = true
    · rw [if_pos hr] at hg; exact w.goalDim g hg
    · rw [if_neg hr] at hg
      obtain ⟨g', h1, rfl⟩ := Option.map_eq_some_iff.mp hg
      simpa [placed] using w.goalDim g' h1
  · intro e he
    change (if s.requiresScaling then s.goal else s.goal.map (Sub.withInit y)) = _ at he
    by_cases hr : s.requiresScaling = true
    · rw [if_pos hr] at he; exact hp e he
    · rw [if_neg hr] at he
      obtain ⟨g', h1, h2⟩ := Option.map_eq_some_iff.mp he
      cases g' with
      | exponential e' => cases h2; exact hp e' h1
      | time _ => cases h2
      | sigmoid _ => cases h2
      | richards _ => cases h2

/-! ### y_attr -/

/-- The object with another attractor. -/
noncomputable def aimed (s : Dmp) (y : List ℝ) : Dmp :=
  { s with
    yAttr := y
    goal := if s.requiresScaling then s.goal else s.goal.map (Sub.withAttr y) }

theorem setYAttr_reject {s : Dmp} {y : List ℝ} (h : y.length ≠ s.dimY) :
    setYAttr y s = (.error .valueError, s) := by
  unfold setYAttr
  rw [PyM.self_bind, if_pos h]
  rfl

theorem setYAttr_run {s : Dmp} (w : s.Wf) {y : List ℝ} (h : y.length = s.dimY) :
    setYAttr y s = (.ok (), s.aimed y) := by
  unfold setYAttr
  rw [PyM.self_bind, if_neg (not_not.mpr h), PyM.modify_bind]
  unfold aimed
  cases e : s.goal with
  | none =>
    simp only
    refine Prod.ext rfl ?_
    cases s
    simp only at e
    subst e
    simp
  | some g =>
    simp only
    by_cases hr : s.requiresScaling = true
    · rw [if_pos hr, if_pos hr]
      refine Prod.ext rfl ?_
      cases s
      simp only at e
      subst e
      rfl
    · rw [if_neg hr, if_neg hr]
      refine (onGoal_ok (g := g) ?_ (Sub.setYAttr_run (s := g) y ?_)).trans ?_
      · rfl
      · rw [h, ← (w.goal g e).dim, w.goalDim g e]
      · rfl

theorem inv_aimed {s : Dmp} (h : Inv d s) {y : List ℝ} (hy : y.length = s.dimY) :
    Inv d (s.aimed y) := by
  obtain ⟨w, hp, hd⟩ := h
  refine ⟨⟨w.dimX, hy, w.yInit, w.spring, w.springDim, w.phase, w.phaseDim,
    w.gating, w.gatingDim, ?_, ?_, w.damping, w.dampingDim, w.amplitudes⟩, ?_, hd⟩
  · intro g hg
    change (if s.requiresScaling then s.goal else s.goal.map (Sub.withAttr y)) = some g at hg
    by_cases hr : s.requiresScaling = true
    · rw [if_pos hr] at hg; exact w.goal g hg
    · rw [if_neg hr] at hg
      obtain ⟨g', h1, rfl⟩ := Option.map_eq_some_iff.mp hg
      exact Sub.wf_withAttr (w.goal g' h1) (by rw [hy, ← (w.goal g' h1).dim, w.goalDim g' h1])
  · intro g hg
    change (if s.requiresScaling then s.goal else s.goal.map (Sub.withAttr y)) = some g at hg
    by_cases hr : s.requiresScaling = true
    · rw [if_pos hr] at hg; exact w.goalDim g hg
    · rw [if_neg hr] at hg
      obtain ⟨g', h1, rfl⟩ := Option.map_eq_some_iff.mp hg
      simpa [aimed] using w.goalDim g' h1
  · intro e he
    change (if s.requiresScaling then s.goal else s.goal.map (Sub.withAttr y)) = _ at he
    by_cases hr : s.requiresScaling = true
    · rw [if_pos hr] at he
      have := (hp e he).1
      rw [hr] at this
      cases this
    · rw [if_neg hr] at he
      obtain ⟨g', h1, h2⟩ := Option.map_eq_some_iff.mp he
      cases g' with
      | exponential e' => cases h2; exact ⟨(hp e' h1).1, rfl⟩
      | time _ => cases h2
      | sigmoid _ => cases h2
      | richards _ => cases h2

/-! ### The constructor -/

/-- The constructor establishes the invariant. -/
theorem init_inv {tau : ℝ} {yInit yAttr : List ℝ} {fas : Option (List Fa)} {o : Options} {s : Dmp}
    (h : init tau yInit yAttr fas o = .ok s) (hy : yAttr.length = yInit.length)
    (ho : o.Fits yInit.length) (hg : ∀ e, o.goal = some (some (.exponential e)) →
      e.xAttr = yAttr ∧ s.requiresScaling = false) : Inv yInit.length s := by
  refine ⟨init_wf h hy ho, ?_, (C16_size tau yInit yAttr fas o s h).1⟩
  obtain ⟨dflt, hd, rfl⟩ := init_eq h
  intro e he
  change o.goal.getD dflt.goal = _ at he
  cases ho : o.goal with
  | some g =>
    rw [ho] at he
    obtain ⟨h1, h2⟩ := hg e (by rw [ho]; exact congrArg some he)
    exact ⟨h2, h1⟩
  | none =>
    rw [ho] at he
    change dflt.goal = _ at he
    unfold defaults at hd
    simp only at hd
    by_cases h1 : o.dmpType = "IJSPEERT_2002_MOVEMENT" ∨ o.dmpType = "Ijs02"
    · rw [if_pos h1] at hd
      cases hd
      cases he
    rw [if_neg h1] at hd
    by_cases h2 : o.dmpType = "KULVICIUS_2012_JOINING" ∨ o.dmpType = "Kul12" ∨
        o.dmpType = "COUNTDOWN_2013"
    · rw [if_pos h2] at hd
      cases hd
      cases he
      exact ⟨rfl, rfl⟩
    rw [if_neg h2] at hd
    by_cases h3 : (isIn "2022" o.dmpType || isIn "SCT23" o.dmpType) = true
    · rw [if_pos h3] at hd
      cases hd
      cases he
    · rw [if_neg h3] at hd
      cases hd

/-! ### Training -/

/-- A method that keeps the invariant, also when it raises. -/
def Keeps {α : Type} (d : Nat) (m : PyM Dmp α) : Prop := ∀ s, Inv d s → Inv d (m s).2

variable {α β : Type}

theorem Keeps.bind {m : PyM Dmp α} {f : α → PyM Dmp β} (hm : Keeps d m) (hf : ∀ a, Keeps d (f a)) :
    Keeps d (m >>= f) := by
  intro s hs
  have h1 := hm s hs
  rw [PyM.bind_apply]
  rcases e : m s with ⟨r, t⟩
  rw [e] at h1
  cases r with
  | error er => exact h1
  | ok a => exact hf a t h1

theorem Keeps.pure (a : α) : Keeps d (Pure.pure a : PyM Dmp α) := fun _ h => h
theorem Keeps.lift (e : Except PyErr α) : Keeps d (PyM.lift e : PyM Dmp α) := fun _ h => h
theorem Keeps.raise (e : PyErr) : Keeps d (PyM.raise e : PyM Dmp α) := fun _ h => h

theorem Keeps.self {f : Dmp → PyM Dmp β} (h : ∀ s, Keeps d (f s)) : Keeps d (PyM.self >>= f) :=
  fun s hs => h s s hs

theorem keeps_setTau (t : ℝ) : Keeps d (setTau t) := by
  intro s h; rw [setTau_run]; exact inv_retimed h t

theorem keeps_setYInit (y : List ℝ) : Keeps d (setYInit y) := by
  intro s h
  by_cases hy : y.length = s.dimY
  · rw [setYInit_run h.wf hy]; exact inv_placed h hy
  · rw [setYInit_reject hy]; exact h

theorem keeps_setYAttr (y : List ℝ) : Keeps d (setYAttr y) := by
  intro s h
  by_cases hy : y.length = s.dimY
  · rw [setYAttr_run h.wf hy]; exact inv_aimed h hy
  · rw [setYAttr_reject hy]; exact h

/-- The invariant does not depend on function approximators and similar attributes. -/
theorem Inv.congr {s t : Dmp} (h : Inv d s) (hb : t.toBase = s.toBase) (h1 : t.yInit? = s.yInit?)
    (h2 : t.yAttr = s.yAttr) (h3 : t.spring = s.spring) (h4 : t.phase = s.phase)
    (h5 : t.gating = s.gating) (h6 : t.goal = s.goal) (h7 : t.damping = s.damping)
    (h8 : t.requiresScaling = s.requiresScaling)
    (h9 : ∀ a, t.amplitudes = some a → a.length = d) : Inv d t := by
  obtain ⟨w, hp, hd⟩ := h
  have hY : t.dimY = s.dimY := congrArg Base.dimY hb
  have hX : t.dimX = s.dimX := congrArg Base.dimX hb
  refine ⟨⟨?_, ?_, ?_, ?_, ?_, ?_, ?_, ?_, ?_, ?_, ?_, ?_, ?_, ?_⟩, ?_, hY.trans hd⟩
  · rw [hX, hY]; exact w.dimX
  · rw [h2, hY]; exact w.yAttr
  · rw [h1, hY]; exact w.yInit
  · rw [h3]; exact w.spring
  · rw [h3, hY]; exact w.springDim
  · rw [h4]; exact w.phase
  · rw [h4]; exact w.phaseDim
  · rw [h5]; exact w.gating
  · rw [h5]; exact w.gatingDim
  · rw [h6]; exact w.goal
  · rw [h6, hY]; exact w.goalDim
  · rw [h7]; exact w.damping
  · rw [h7, hY]; exact w.dampingDim
  · intro a ha; rw [hY, hd]; exact h9 a ha
  · intro e he
    rw [h6] at he
    rw [h8, h2]
    exact hp e he

/-- Methods whose results depend on the core keep the invariant. -/
theorem Stable.keeps {m : PyM Dmp α} (h : Stable d m) : Keeps d m := by
  intro s hs
  obtain ⟨-, h2, h3⟩ := h s s hs.good hs.good rfl
  refine ⟨h3.wf, ?_, h3.dim⟩
  intro e he
  have hg : (m s).2.goal.map Sub.touch = s.goal.map Sub.touch := congrArg (fun t : Dmp => t.goal) h2
  have hr : (m s).2.core.requiresScaling = s.core.requiresScaling := by rw [h2]
  have ha : (m s).2.core.yAttr = s.core.yAttr := by rw [h2]
  change (m s).2.requiresScaling = s.requiresScaling at hr
  change (m s).2.yAttr = s.yAttr at ha
  rw [he] at hg
  obtain ⟨g, h4, h5⟩ := Option.map_eq_some_iff.mp hg.symm
  cases g with
  | exponential e' =>
    cases h5
    rw [hr, ha]
    exact hs.plain e h4
  | time _ => cases h5
  | sigmoid _ => cases h5
  | richards _ => cases h5

theorem keeps_startFrom (y : Option (List ℝ)) : Keeps d (startFrom y) := by
  match y with
  | none => exact Keeps.pure ()
  | some [] => exact Keeps.pure ()
  | some [a] =>
    change Keeps d (if a ≠ 0 then setYInit [a] else Pure.pure ())
    by_cases h : a ≠ 0
    · rw [if_pos h]; exact keeps_setYInit [a]
    · rw [if_neg h]; exact Keeps.pure ()
  | some (_ :: _ :: _) => exact Keeps.raise _

theorem keeps_integrateStart (y : Option (List ℝ)) : Keeps d (integrateStart y) := by
  have h : integrateStart y = startFrom y >>= fun _ => integrateStart none := rfl
  rw [h]
  exact (keeps_startFrom y).bind fun _ => stable_integrateStart.keeps

/-! ### decouple_parameters -/

theorem sub_decouple {s : Sub} (h : s.Wf) : ∃ t, Sub.decouple s = (.ok (), t) ∧ t.Wf ∧
    t.base = s.base ∧ ∀ e, t = .exponential e → ∃ e', s = .exponential e' ∧ e.xAttr = e'.xAttr := by
  cases s with
  | time s => exact ⟨_, rfl, h, rfl, fun e he => nomatch he⟩
  | exponential s =>
    have h' : s.Wf := h
    refine ⟨_, rfl, ⟨h'.dim, h'.xInit, h'.xAttr, ?_⟩, rfl, fun e he => ?_⟩
    · exact h'.dim ▸ Par.fits_decouple (h'.dim ▸ h'.alpha)
    · cases he; exact ⟨s, rfl, rfl⟩
  | sigmoid s =>
    refine ⟨_, rfl, ⟨⟨h.1.dim, h.1.xInit, ?_, ?_⟩, .inl rfl⟩, rfl, fun e he => nomatch he⟩
    · exact Par.fits_decouple h.1.maxRate
    · exact Par.fits_decouple h.1.inflRatio
  | richards s =>
    have h' : s.Wf := h
    refine ⟨_, rfl, ⟨h'.dim, h'.xInit, ?_, ?_, h'.rightAsymp, ?_, h'.leftAsymp⟩, rfl,
      fun e he => nomatch he⟩
    · exact Par.fits_decouple h'.alpha
    · exact Par.fits_decouple h'.v
    · exact Par.fits_decouple h'.tInflRatio

theorem keeps_onGoal_decouple : Keeps d (do
    let s ← PyM.self
    match s.goal with
    | none => pure ()
    | some _ => onGoal Sub.decouple) := by
  intro s hs
  rw [PyM.self_bind]
  cases e : s.goal with
  | none => exact hs
  | some g =>
    simp only
    obtain ⟨w, hp, hd⟩ := hs
    obtain ⟨t, h1, h2, h3, h4⟩ := sub_decouple (w.goal g e)
    rw [onGoal_ok e h1]
    refine ⟨⟨w.dimX, w.yAttr, w.yInit, w.spring, w.springDim, w.phase, w.phaseDim, w.gating,
      w.gatingDim, ?_, ?_, w.damping, w.dampingDim, w.amplitudes⟩, ?_, hd⟩
    · rintro _ ⟨⟩; exact h2
    · rintro _ ⟨⟩; rw [h3]; exact w.goalDim g e
    · intro x hx
      obtain ⟨e', rfl, h6⟩ := h4 x (Option.some.inj hx)
      rw [h6]
      exact hp e' e

theorem keeps_onDamping_decouple : Keeps d (do
    let s ← PyM.self
    match s.damping with
    | none => pure ()
    | some _ => onDamping Sub.decouple) := by
  intro s hs
  rw [PyM.self_bind]
  cases e : s.damping with
  | none => exact hs
  | some g =>
    simp only
    obtain ⟨w, hp, hd⟩ := hs
    obtain ⟨t, h1, h2, h3, h4⟩ := sub_decouple (w.damping g e)
    rw [onDamping_ok e h1]
    refine ⟨⟨w.dimX, w.yAttr, w.yInit, w.spring, w.springDim, w.phase, w.phaseDim, w.gating,
      w.gatingDim, w.goal, w.goalDim, ?_, ?_, w.amplitudes⟩, hp, hd⟩
    · rintro _ ⟨⟩; exact h2
    · rintro _ ⟨⟩; rw [h3]; exact w.dampingDim g e

theorem keeps_onSpring_decouple : Keeps d (onSpring (PyM.modify SpringDamper.decouple)) := by
  intro s hs
  obtain ⟨w, hp, hd⟩ := hs
  refine ⟨⟨w.dimX, w.yAttr, w.yInit, ?_, w.springDim, w.phase, w.phaseDim, w.gating,
      w.gatingDim, w.goal, w.goalDim, w.damping, w.dampingDim, w.amplitudes⟩, hp, hd⟩
  obtain ⟨a, b, c, e, f, g⟩ := w.spring
  exact ⟨a, b, c, Par.fits_decouple e, Par.fits_decouple f, Par.fits_decouple g⟩

theorem keeps_decouple : Keeps d decouple := by
  have h : decouple = onSpring (PyM.modify SpringDamper.decouple) >>= fun _ =>
      (do
        let s ← PyM.self
        match s.goal with
        | none => pure ()
        | some _ => onGoal Sub.decouple) >>= fun _ => (do
        let s ← PyM.self
        match s.damping with
        | none => pure ()
        | some _ => onDamping Sub.decouple) := by
    unfold decouple
    refine congrArg _ (funext fun _ => ?_)
    refine PyM.ext' fun s => ?_
    rw [PyM.self_bind]
    cases e : s.goal with
    | none =>
      have h1 : (do
        let s ← PyM.self
        match s.goal with
        | none => pure ()
        | some _ => onGoal Sub.decouple : PyM Dmp Unit) s = (.ok (), s) := by
        rw [PyM.self_bind]; simp only [e]; rfl
      refine Eq.trans ?_ (PyM.bind_ok h1).symm
      rfl
    | some g =>
      simp only
      rcases h2 : Sub.decouple g with ⟨r, t⟩
      have h0 : onGoal Sub.decouple s = (r, { s with goal := some t }) := by
        unfold onGoal; simp only [e, h2]
      have h1 : (do
        let s ← PyM.self
        match s.goal with
        | none => pure ()
        | some _ => onGoal Sub.decouple : PyM Dmp Unit) s = (r, { s with goal := some t }) := by
        rw [PyM.self_bind]; simp only [e]; exact h0
      cases r with
      | error er => exact (PyM.bind_error h0).trans (PyM.bind_error h1).symm
      | ok u =>
        refine (PyM.bind_ok h0).trans (Eq.trans ?_ (PyM.bind_ok h1).symm)
        rfl
  rw [h]
  exact keeps_onSpring_decouple.bind fun _ => keeps_onGoal_decouple.bind fun _ => keeps_onDamping_decouple

/-! ### Training -/

theorem keeps_fas {m : PyM (List Fa) α} : Keeps d (onFas m) := by
  intro s hs
  unfold onFas
  cases e : s.fas with
  | none => simp only [e]; exact hs
  | some f =>
    simp only [e]
    exact hs.congr rfl rfl rfl rfl rfl rfl rfl rfl rfl (hs.dim ▸ hs.wf.amplitudes)

theorem keeps_targets (traj : Trajectory ℝ) : Keeps d (computeTargets traj) := by
  unfold computeTargets
  refine Keeps.self fun s => ?_
  by_cases h : s.dimY ≠ traj.ys.cols
  · rw [if_pos h]; exact Keeps.raise _
  · rw [if_neg h]
    refine (stable_analytical _ _).keeps.bind fun sol => Keeps.self fun s' => ?_
    exact (Keeps.lift _).bind fun _ => Keeps.pure _

/-- The last part of training: the function approximators. -/
noncomputable def trainLast (traj : Trajectory ℝ) : PyM Dmp Unit := do
  let s ← PyM.self
  match s.fas with
  | none => pure ()
  | some _ => do
    let r ← computeTargets traj
    onFas (trainFas r.1 r.2 (List.range s.dimY))
  PyM.modify fun s => { s with tsTrain := some traj.ts }

/-- The part of training after the time constant. -/
noncomputable def trainRest (traj : Trajectory ℝ) (newFas : Option (Option (List Fa))) : PyM Dmp Unit := do
  setYInit (← PyM.lift traj.yInit)
  setYAttr (← PyM.lift traj.yFinal)
  let range ← PyM.lift traj.rangePerDim
  PyM.modify fun s => { s with amplitudes := some range }
  PyM.modify fun s => { s with fas := newFas.getD s.fas }
  trainLast traj

theorem train_eq (traj : Trajectory ℝ) (newFas : Option (Option (List Fa))) :
    train traj newFas = match traj.ts.getLast? with
      | none => PyM.raise .indexError
      | some tau => setTau tau >>= fun _ => trainRest traj newFas := by
  unfold train
  cases traj.ts.getLast? <;> rfl

theorem keeps_tsTrain (ts : Option (List ℝ)) :
    Keeps d (PyM.modify fun s : Dmp => { s with tsTrain := ts }) := fun _ hs =>
  hs.congr rfl rfl rfl rfl rfl rfl rfl rfl rfl (hs.dim ▸ hs.wf.amplitudes)

theorem keeps_setFas (f : Dmp → Option (List Fa)) :
    Keeps d (PyM.modify fun s : Dmp => { s with fas := f s }) := fun _ hs =>
  hs.congr rfl rfl rfl rfl rfl rfl rfl rfl rfl (hs.dim ▸ hs.wf.amplitudes)

theorem keeps_trainLast (traj : Trajectory ℝ) : Keeps d (trainLast traj) := by
  unfold trainLast
  refine Keeps.self fun s => ?_
  cases s.fas with
  | none => exact keeps_tsTrain _
  | some _ =>
    exact (keeps_targets traj).bind fun r => keeps_fas.bind fun _ => keeps_tsTrain _

theorem rangePerDim_length {traj : Trajectory ℝ} {r : List ℝ} (h : traj.rangePerDim = .ok r) :
    r.length = traj.ys.cols := by
  unfold Trajectory.rangePerDim at h
  cases e : traj.ys.rows with
  | nil => rw [e] at h; cases h
  | cons a l => rw [e] at h; cases h; simp

theorem yInit_length {traj : Trajectory ℝ} (ht : traj.Shape) {y : List ℝ} (h : traj.yInit = .ok y) :
    y.length = traj.ys.cols := by
  unfold Trajectory.yInit at h
  cases e : traj.ys.rows.head? with
  | none => rw [e] at h; cases h
  | some a => rw [e] at h; cases h; exact ht.ysCols _ (List.mem_of_mem_head? e)

theorem yFinal_length {traj : Trajectory ℝ} (ht : traj.Shape) {y : List ℝ} (h : traj.yFinal = .ok y) :
    y.length = traj.ys.cols := by
  unfold Trajectory.yFinal at h
  cases e : traj.ys.rows.getLast? with
  | none => rw [e] at h; cases h
  | some a => rw [e] at h; cases h; exact ht.ysCols _ (List.mem_of_getLast? e)

theorem keeps_trainRest {traj : Trajectory ℝ} (ht : traj.Shape) (newFas : Option (Option (List Fa))) :
    Keeps d (trainRest traj newFas) := by
  intro s hs
  unfold trainRest
  cases hy : traj.yInit with
  | error e => exact hs
  | ok y =>
    rw [PyM.lift_ok_bind]
    by_cases hl : y.length = s.dimY
    · refine (Keeps.bind (keeps_setYInit y) fun _ => ?_) s hs
      refine (Keeps.lift _).bind fun yf => (keeps_setYAttr yf).bind fun _ => ?_
      intro s' hs'
      cases hr : traj.rangePerDim with
      | error e => exact hs'
      | ok r =>
        rw [PyM.lift_ok_bind, PyM.modify_bind]
        refine ((keeps_setFas _).bind fun _ => keeps_trainLast traj) _ ?_
        refine hs'.congr rfl rfl rfl rfl rfl rfl rfl rfl rfl ?_
        rintro a ⟨⟩
        rw [rangePerDim_length hr, ← yInit_length ht hy, hl, hs.dim]
    · rw [PyM.bind_error (setYInit_reject hl)]
      exact hs

theorem keeps_train {traj : Trajectory ℝ} (ht : traj.Shape) (newFas : Option (Option (List Fa))) :
    Keeps d (train traj newFas) := by
  rw [train_eq]
  cases traj.ts.getLast? with
  | none => exact Keeps.raise _
  | some tau => exact (keeps_setTau tau).bind fun _ => keeps_trainRest ht newFas

/-! ### Parameters -/

theorem keeps_setSelected (names : List String) : Keeps d (setSelected names) := by
  have h : ∀ f : Dmp → Option (List Fa), Keeps d (PyM.modify fun s : Dmp => { s with fas := f s }) :=
    keeps_setFas
  unfold setSelected
  by_cases hg : "goal" ∈ names
  · rw [if_pos hg, if_pos hg]
    refine Keeps.bind ?_ fun _ => h fun s =>
      s.fas.map fun fas => fas.map fun fa => (Fa.setSelected (names.filter (· ≠ "goal")) fa).2
    exact fun s hs => hs.congr rfl rfl rfl rfl rfl rfl rfl rfl rfl (hs.dim ▸ hs.wf.amplitudes)
  · rw [if_neg hg, if_neg hg]
    exact (Keeps.pure ()).bind fun _ => h fun s =>
      s.fas.map fun fas => fas.map fun fa => (Fa.setSelected names fa).2

theorem keeps_setParamVector (values : List ℝ) : Keeps d (setParamVector values) := by
  unfold setParamVector
  refine Keeps.self fun s => (Keeps.lift _).bind fun size => ?_
  by_cases h : values.length ≠ size
  · rw [if_pos h]; exact Keeps.raise _
  · rw [if_neg h]
    refine Keeps.bind ?_ fun rest => ?_
    · cases s.fas with
      | none => exact Keeps.pure _
      | some _ => exact keeps_fas
    · by_cases hg : "goal" ∈ s.selected
      · rw [if_pos hg]; exact keeps_setYAttr _
      · rw [if_neg hg]; exact Keeps.pure _

/-! ### integrate -/

theorem stable_step (m : DynSys.Method) (dt : ℝ) (x : List ℝ) :
    Stable d (DynSys.step (σ := Dmp) m dt x) := by
  cases m
  · exact stable_rungeKuttaStep dt x
  · exact stable_eulerStep dt x

theorem stable_integrateLoop (m : DynSys.Method) (ts : List ℝ) : ∀ (t : ℝ) (x : List ℝ),
    Stable d (DynSys.integrateLoop (σ := Dmp) m t x ts) := by
  induction ts with
  | nil => exact fun t x => Stable.pure _
  | cons t' ts ih =>
    intro t x
    unfold DynSys.integrateLoop
    exact (stable_step m _ x).bind fun r => (ih _ _).bind fun _ => Stable.pure _

theorem stable_integrate (ts : List ℝ) (m : DynSys.Method) : Stable d (integrate ts m) := by
  unfold integrate
  refine stable_integrateStart.bind fun r => ?_
  cases ts with
  | nil => exact Stable.raise _
  | cons t ts => exact (stable_integrateLoop m ts t r.1).bind fun _ => Stable.pure _

end Dmp

end Verif
