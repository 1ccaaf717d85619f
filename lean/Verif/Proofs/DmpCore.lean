import Verif.Proofs.Dmp

/- Helper lemmas about a Dmp: which parts of the object the results of its methods depend on. -/

set_option autoImplicit false

namespace Verif

namespace Dmp

/-- The attractor of an exponential goal system is that of the Dmp. -/
def Sync (s : Dmp) : Prop := ∀ g, s.goal = some g → g.withAttr s.yAttr = g

/-- The object without the parts that are overwritten before they are used. -/
noncomputable def core (s : Dmp) : Dmp :=
  { s with
    phase := s.phase.touch
    gating := s.gating.touch
    goal := s.goal.map Sub.touch
    damping := s.damping.map Sub.touch
    spring := { s.spring with
      yAttr := s.yAttr
      damping := match s.damping with
        | none => s.spring.damping
        | some _ => .scalar 0 } }

/-- Well-formed objects with `d` dimensions. -/
structure Good (d : Nat) (s : Dmp) : Prop where
  wf : s.Wf
  sync : s.Sync
  dim : s.dimY = d

theorem wf_core {s : Dmp} (h : s.Wf) : s.core.Wf where
  dimX := h.dimX
  yAttr := h.yAttr
  yInit := h.yInit
  spring := by
    obtain ⟨h1, h2, _, h4, h5, h6⟩ := h.spring
    refine ⟨h1, h2, h.yAttr.trans h.springDim.symm, ?_, h5, h6⟩
    simp only [core]
    cases s.damping with
    | none => exact h4
    | some _ => trivial
  springDim := h.springDim
  phase := Sub.wf_touch h.phase
  phaseDim := by simpa [core] using h.phaseDim
  gating := Sub.wf_touch h.gating
  gatingDim := by simpa [core] using h.gatingDim
  goal := by
    intro g hg
    obtain ⟨g', h1, rfl⟩ := Option.map_eq_some_iff.mp hg
    exact Sub.wf_touch (h.goal g' h1)
  goalDim := by
    intro g hg
    obtain ⟨g', h1, rfl⟩ := Option.map_eq_some_iff.mp hg
    rw [Sub.base_touch]; exact h.goalDim g' h1
  damping := by
    intro g hg
    obtain ⟨g', h1, rfl⟩ := Option.map_eq_some_iff.mp hg
    exact Sub.wf_touch (h.damping g' h1)
  dampingDim := by
    intro g hg
    obtain ⟨g', h1, rfl⟩ := Option.map_eq_some_iff.mp hg
    rw [Sub.base_touch]; exact h.dampingDim g' h1
  amplitudes := h.amplitudes

theorem springGoal_core (s : Dmp) : s.core.springGoal = s.springGoal := by
  funext g
  unfold springGoal
  cases e : s.goal <;> simp [core, e, scaleGoal, getYInit]

theorem forcing_core (s : Dmp) : s.core.forcing = s.forcing := by
  funext p q
  unfold forcing
  rfl

theorem dampingAt_core (s : Dmp) : s.core.dampingAt = s.dampingAt := by
  funext c
  unfold dampingAt
  cases e : s.damping <;> simp [core, e]

theorem dampingRate_core (s : Dmp) : s.core.dampingRate = s.dampingRate := by
  funext c
  unfold dampingRate
  cases e : s.damping <;> simp [core, e]

theorem goalRate_core (s : Dmp) : s.core.goalRate = s.goalRate := by
  funext c
  unfold goalRate
  cases e : s.goal <;> simp [core, e, ← Sub.touch_withAttr]

theorem zRate_core (s : Dmp) : s.core.zRate = s.zRate := rfl

theorem vf_core (s : Dmp) (y z g p q c : List ℝ) : s.core.vf y z g p q c = s.vf y z g p q c := by
  unfold vf
  rw [springGoal_core, forcing_core, dampingAt_core, dampingRate_core, goalRate_core, zRate_core]
  simp only [core, Sub.rate_touch]

/-! ### Methods whose results depend on the core only -/

/-- The result depends on the core of the object only, and the core stays as it is. -/
def Stable {α : Type} (d : Nat) (m : PyM Dmp α) : Prop :=
  ∀ s s', Good d s → Good d s' → s.core = s'.core →
    (m s).1 = (m s').1 ∧ (m s).2.core = s.core ∧ Good d (m s).2

variable {α β : Type} {d : Nat}

theorem Stable.of {m : PyM Dmp α} (h1 : ∀ s, Good d s → (m s).2.core = s.core ∧ Good d (m s).2)
    (f : Dmp → Except PyErr α) (h2 : ∀ s, Good d s → (m s).1 = f s.core) : Stable d m := by
  intro s s' hs hs' hc
  refine ⟨?_, h1 s hs⟩
  rw [h2 s hs, h2 s' hs', hc]

theorem Stable.pure (a : α) : Stable d (Pure.pure a : PyM Dmp α) := fun _ _ hs _ _ => ⟨rfl, rfl, hs⟩

theorem Stable.raise (e : PyErr) : Stable d (PyM.raise e : PyM Dmp α) :=
  fun _ _ hs _ _ => ⟨rfl, rfl, hs⟩

theorem Stable.lift (e : Except PyErr α) : Stable d (PyM.lift e : PyM Dmp α) :=
  fun _ _ hs _ _ => ⟨rfl, rfl, hs⟩

theorem Stable.bind {m : PyM Dmp α} {f : α → PyM Dmp β} (hm : Stable d m) (hf : ∀ a, Stable d (f a)) :
    Stable d (m >>= f) := by
  intro s s' hs hs' hc
  obtain ⟨h1, h2, h3⟩ := hm s s' hs hs' hc
  obtain ⟨-, h2', h3'⟩ := hm s' s hs' hs hc.symm
  rw [PyM.bind_apply, PyM.bind_apply]
  rcases e : m s with ⟨r, t⟩
  rcases e' : m s' with ⟨r', t'⟩
  rw [e] at h1 h2 h3
  rw [e'] at h1 h2' h3'
  simp only at h1 h2 h3 h2' h3'
  subst h1
  cases r with
  | error er => exact ⟨rfl, h2, h3⟩
  | ok a =>
    obtain ⟨k1, k2, k3⟩ := hf a t t' h3 h3' (h2.trans (hc.trans h2'.symm))
    exact ⟨k1, k2.trans h2, k3⟩

theorem Stable.ite {c : Prop} [Decidable c] {m m' : PyM Dmp α} (h : c → Stable d m)
    (h' : ¬ c → Stable d m') : Stable d (if c then m else m') := by
  by_cases hc : c
  · rw [if_pos hc]; exact h hc
  · rw [if_neg hc]; exact h' hc

/-- Reading something that is the same for the core. -/
theorem Stable.self {f : Dmp → PyM Dmp α} (h : ∀ s s', Good d s → Good d s' → s.core = s'.core → f s = f s')
    (hf : ∀ s, Good d s → Stable d (f s)) : Stable d (PyM.self >>= f) := by
  intro s s' hs hs' hc
  rw [PyM.self_bind, PyM.self_bind, h s s' hs hs' hc]
  have := hf s' hs' s s' hs hs' hc
  exact this

theorem core_congr_dimX {s s' : Dmp} (h : s.core = s'.core) : s.dimX = s'.dimX := by
  have := congrArg (fun t : Dmp => t.dimX) h
  exact this

/-- The object that differs from `s` in overwritten parts only. -/
theorem good_of {s t : Dmp} (hs : Good d s) (hb : t.toBase = s.toBase) (h1 : t.yInit? = s.yInit?)
    (h2 : t.yAttr = s.yAttr) (h3 : t.fas = s.fas) (h4 : t.requiresScaling = s.requiresScaling)
    (h5 : t.scaling = s.scaling) (h6 : t.amplitudes = s.amplitudes) (h7 : t.tsTrain = s.tsTrain)
    (h8 : t.selected = s.selected) (h9 : t.phase = s.phase ∨ t.phase = s.phase.touch)
    (h10 : t.gating = s.gating ∨ t.gating = s.gating.touch)
    (h11 : t.goal = s.goal ∨ t.goal = s.goal.map Sub.touch)
    (h12 : t.damping = s.damping ∨ t.damping = s.damping.map Sub.touch)
    {ya : List ℝ} {c : Par ℝ} (h13 : t.spring = { s.spring with yAttr := ya, damping := c })
    (h14 : ya.length = d) (h15 : c.Fits d) (h16 : s.damping = none → c = s.spring.damping) :
    t.core = s.core ∧ Good d t := by
  obtain ⟨hw, hsy, hd⟩ := hs
  have hY : t.dimY = s.dimY := congrArg Base.dimY hb
  have hX : t.dimX = s.dimX := congrArg Base.dimX hb
  have eg : t.goal.map Sub.touch = s.goal.map Sub.touch := by
    rcases h11 with h | h <;> rw [h]
    cases s.goal <;> simp
  have ed : t.damping.map Sub.touch = s.damping.map Sub.touch := by
    rcases h12 with h | h <;> rw [h]
    cases s.damping <;> simp
  have ep : t.phase.touch = s.phase.touch := by rcases h9 with h | h <;> simp [h]
  have eq : t.gating.touch = s.gating.touch := by rcases h10 with h | h <;> simp [h]
  have epb : t.phase.base = s.phase.base := by rcases h9 with h | h <;> simp [h]
  have eqb : t.gating.base = s.gating.base := by rcases h10 with h | h <;> simp [h]
  have wp : t.phase.Wf := by
    rcases h9 with h | h <;> rw [h]
    exacts [hw.phase, Sub.wf_touch hw.phase]
  have wq : t.gating.Wf := by
    rcases h10 with h | h <;> rw [h]
    exacts [hw.gating, Sub.wf_touch hw.gating]
  have wg : ∀ g, t.goal = some g → ∃ g', s.goal = some g' ∧ (g = g' ∨ g = g'.touch) := by
    intro g hg
    rcases h11 with h | h <;> rw [h] at hg
    · exact ⟨g, hg, .inl rfl⟩
    · obtain ⟨g', h1, rfl⟩ := Option.map_eq_some_iff.mp hg
      exact ⟨g', h1, .inr rfl⟩
  have wd : ∀ g, t.damping = some g → ∃ g', s.damping = some g' ∧ (g = g' ∨ g = g'.touch) := by
    intro g hg
    rcases h12 with h | h <;> rw [h] at hg
    · exact ⟨g, hg, .inl rfl⟩
    · obtain ⟨g', h1, rfl⟩ := Option.map_eq_some_iff.mp hg
      exact ⟨g', h1, .inr rfl⟩
  constructor
  · have esp : ({ t.spring with
        yAttr := t.yAttr
        damping := match t.damping with
          | none => t.spring.damping
          | some _ => .scalar 0 } : SpringDamper) =
        { s.spring with
          yAttr := s.yAttr
          damping := match s.damping with
            | none => s.spring.damping
            | some _ => .scalar 0 } := by
      rw [h13, h2]
      have : ((match t.damping with
          | none => c
          | some _ => .scalar 0) : Par ℝ) = match s.damping with
          | none => s.spring.damping
          | some _ => .scalar 0 := by
        cases e : s.damping with
        | none =>
          have : t.damping = none := by rcases h12 with h | h <;> simp [h, e]
          rw [this]
          exact h16 e
        | some x =>
          have : ∃ x, t.damping = some x := by rcases h12 with h | h <;> simp [h, e]
          obtain ⟨x', hx'⟩ := this
          rw [hx']
      simp only [this]
    unfold core
    rw [esp, eg, ed, ep, eq]
    cases t; cases s
    simp only at hb h1 h2 h3 h4 h5 h6 h7 h8
    subst hb h1 h2 h3 h4 h5 h6 h7 h8
    rfl
  · refine ⟨⟨?_, ?_, ?_, ?_, ?_, wp, ?_, wq, ?_, ?_, ?_, ?_, ?_, ?_⟩, ?_, hY.trans hd⟩
    · rw [hX, hY]; exact hw.dimX
    · rw [h2, hY]; exact hw.yAttr
    · rw [h1, hY]; exact hw.yInit
    · obtain ⟨k1, k2, k3, k4, k5, k6⟩ := hw.spring
      have hds : d = s.spring.dimY := by rw [hw.springDim, hd]
      rw [h13]
      exact ⟨k1, k2, h14.trans hds, hds ▸ h15, k5, k6⟩
    · rw [h13, hY]; exact hw.springDim
    · rw [epb]; exact hw.phaseDim
    · rw [eqb]; exact hw.gatingDim
    · intro g hg
      obtain ⟨g', k, rfl | rfl⟩ := wg g hg
      exacts [hw.goal _ k, Sub.wf_touch (hw.goal _ k)]
    · intro g hg
      rw [hY]
      obtain ⟨g', k, rfl | rfl⟩ := wg g hg
      · exact hw.goalDim _ k
      · rw [Sub.base_touch]; exact hw.goalDim _ k
    · intro g hg
      obtain ⟨g', k, rfl | rfl⟩ := wd g hg
      exacts [hw.damping _ k, Sub.wf_touch (hw.damping _ k)]
    · intro g hg
      rw [hY]
      obtain ⟨g', k, rfl | rfl⟩ := wd g hg
      · exact hw.dampingDim _ k
      · rw [Sub.base_touch]; exact hw.dampingDim _ k
    · rw [h6, hY]; exact hw.amplitudes
    · intro g hg
      rw [h2]
      obtain ⟨g', k, rfl | rfl⟩ := wg g hg
      · exact hsy _ k
      · rw [← Sub.touch_withAttr, hsy _ k]

theorem dampingAt_fits {s : Dmp} (h : Good d s) {c : List ℝ} (hc : c.length = d) :
    (s.dampingAt c).Fits d := by
  unfold dampingAt
  cases s.damping with
  | none =>
    have := h.wf.spring.damping
    rwa [h.wf.springDim, h.dim] at this
  | some _ => exact hc

theorem stable_diffEq {x : List ℝ} (hx : x.length = 4 * d + 2) : Stable d (diffEq x) := by
  obtain ⟨y, z, g, p, q, c, hs, rfl⟩ := exists_pack hx
  refine Stable.of (fun s h => ?_) (fun s => s.vf y z g p q c) (fun s h => ?_)
  · obtain ⟨hw, hsy, rfl⟩ := h
    have h : Good s.dimY s := ⟨hw, hsy, rfl⟩
    rw [diffEq_run hw hs]
    have hm : (s.goal.map fun g => (g.withAttr s.yAttr).touch) = s.goal.map Sub.touch := by
      cases e : s.goal with
      | none => rfl
      | some g => simp [hsy g e]
    cases e : s.springGoal g with
    | error er =>
      refine good_of h rfl rfl rfl rfl rfl rfl rfl rfl rfl (.inl rfl) (.inl rfl) (.inr ?_) (.inl rfl)
        (ya := s.spring.yAttr) (c := s.spring.damping) rfl ?_ ?_ fun _ => rfl
      · exact hm
      · exact hw.spring.yAttr.trans hw.springDim
      · have := hw.spring.damping
        rwa [hw.springDim] at this
    | ok ga =>
      refine good_of h rfl rfl rfl rfl rfl rfl rfl rfl rfl (.inr rfl) (.inr rfl) (.inr ?_) (.inr rfl)
        (ya := ga) (c := s.dampingAt c) rfl ?_ (dampingAt_fits h hs.c) ?_
      · exact hm
      · exact springGoal_length hw hs.g e
      · intro h0; simp [dampingAt, h0]
  · obtain ⟨hw, hsy, rfl⟩ := h
    rw [diffEq_run hw hs, vf_core]

theorem good_length {s : Dmp} (h : Good d s) : s.dimX = 4 * d + 2 := by rw [h.wf.dimX, h.dim]

theorem vf_pack_length {s : Dmp} (h : Good d s) {x r : List ℝ} (hx : x.length = 4 * d + 2)
    (hr : (diffEq x s).1 = .ok r) : r.length = 4 * d + 2 := by
  obtain ⟨hw, hsy, rfl⟩ := h
  obtain ⟨y, z, g, p, q, c, hs, rfl⟩ := exists_pack hx
  rw [diffEq_run hw hs] at hr
  rw [vf_length hw hs hr, hw.dimX]

/-- Sequencing, with a property of the result. -/
theorem Stable.bindP {m : PyM Dmp α} {f : α → PyM Dmp β} (P : α → Prop) (hm : Stable d m)
    (hP : ∀ s a, Good d s → (m s).1 = .ok a → P a) (hf : ∀ a, P a → Stable d (f a)) :
    Stable d (m >>= f) := by
  intro s s' hs hs' hc
  obtain ⟨h1, h2, h3⟩ := hm s s' hs hs' hc
  obtain ⟨-, h2', h3'⟩ := hm s' s hs' hs hc.symm
  have hp := hP s
  rw [PyM.bind_apply, PyM.bind_apply]
  rcases e : m s with ⟨r, t⟩
  rcases e' : m s' with ⟨r', t'⟩
  rw [e] at h1 h2 h3 hp
  rw [e'] at h1 h2' h3'
  simp only at h1 h2 h3 h2' h3' hp
  subst h1
  cases r with
  | error er => exact ⟨rfl, h2, h3⟩
  | ok a =>
    obtain ⟨k1, k2, k3⟩ := hf a (hp a hs rfl) t t' h3 h3' (h2.trans (hc.trans h2'.symm))
    exact ⟨k1, k2.trans h2, k3⟩

theorem stable_eulerStep (dt : ℝ) (x : List ℝ) : Stable d (DynSys.eulerStep (σ := Dmp) dt x) := by
  refine Stable.self (fun s s' _ _ hc => ?_) (fun s hs => Stable.ite (fun _ => .raise _) fun hx => ?_)
  · change (if x.length ≠ s.dimX then _ else _) = if x.length ≠ s'.dimX then _ else _
    rw [core_congr_dimX hc]
  · have hx : x.length = 4 * d + 2 := by
      rw [← good_length hs]
      exact not_not.mp hx
    exact (stable_diffEq hx).bind fun _ => .pure _

theorem stable_rungeKuttaStep (dt : ℝ) (x : List ℝ) :
    Stable d (DynSys.rungeKuttaStep (σ := Dmp) dt x) := by
  refine Stable.self (fun s s' _ _ hc => ?_) (fun s hs => Stable.ite (fun _ => .raise _) fun hx => ?_)
  · change (if x.length ≠ s.dimX then _ else _) = if x.length ≠ s'.dimX then _ else _
    rw [core_congr_dimX hc]
  · have hx : x.length = 4 * d + 2 := by
      rw [← good_length hs]
      exact not_not.mp hx
    refine (stable_diffEq hx).bindP (fun r => r.length = 4 * d + 2)
      (fun _ _ h => vf_pack_length h hx) fun k1 l1 => ?_
    have e1 : (vadd x (vscale (dt * 0.5) k1)).length = 4 * d + 2 := by simp [hx, l1]
    refine (stable_diffEq e1).bindP (fun r => r.length = 4 * d + 2)
      (fun _ _ h => vf_pack_length h e1) fun k2 l2 => ?_
    have e2 : (vadd x (vscale (dt * 0.5) k2)).length = 4 * d + 2 := by simp [hx, l2]
    refine (stable_diffEq e2).bindP (fun r => r.length = 4 * d + 2)
      (fun _ _ h => vf_pack_length h e2) fun k3 l3 => ?_
    have e3 : (vadd x (vscale dt k3)).length = 4 * d + 2 := by simp [hx, l3]
    refine (stable_diffEq e3).bindP (fun r => r.length = 4 * d + 2)
      (fun _ _ h => vf_pack_length h e3) fun k4 l4 => ?_
    refine (stable_diffEq ?_).bind fun _ => .pure _
    simp [hx, l1, l2, l3, l4]

end Dmp

end Verif
