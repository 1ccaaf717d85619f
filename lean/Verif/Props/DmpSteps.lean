import Verif.Proofs.SubSteps
import Verif.Props.DmpConverges

/- Dmp: convergence of numerical integration (C75). -/

set_option autoImplicit false

namespace Verif

namespace Dmp

open Filter Topology Set
open DynSys (Method)

variable {d : Nat}

/-- `X` is a sequence of states that result from each other by steps of length `dt`, with the rates of
change that differential_equation of the object `s` returns. -/
def Steps (s : Dmp) (m : Method) (dt : ℝ) (X : Nat → List ℝ) (u : Nat → Fin 4 → List ℝ) : Prop :=
  Spec.Run s.dimX (fun x xd => (diffEq x s).1 = .ok xd) m dt X u

/-- Positions tend to `a`, velocities to zero. -/
def Arrives (d : Nat) (X : Nat → List ℝ) (a : List ℝ) : Prop :=
  ∀ j, j < d → Tendsto (fun n => (X n).getD j 0) atTop (𝓝 (a.getD j 0)) ∧
    Tendsto (fun n => (X n).getD (d + j) 0) atTop (𝓝 0)

/-- The damping coefficients tend to `c`. -/
def DampsTo (d : Nat) (s : Dmp) (c : Nat → ℝ) : Prop :=
  match s.damping with
  | none => ∀ j, j < d → s.spring.damping.at' j = c j
  | some g => g.Tends d c

/-- The steps are small enough for all subsystems. -/
structure FineSteps (d : Nat) (s : Dmp) (m : Method) (dt : ℝ) : Prop where
  pos : 0 < dt
  phase : s.phase.Fine 1 m dt
  gating : s.gating.Fine 1 m dt
  goal : ∀ g, s.goal = some g → g.Fine d m dt
  damping : ∀ g, s.damping = some g → g.Fine d m dt
  spring : ∃ c, DampsTo d s c ∧ ∀ j, j < d →
    StableStep m dt (c j / (s.spring.mass.at' j * s.spring.tau))
      (s.spring.spring.at' j / (s.spring.mass.at' j * s.spring.tau) * (1 / s.spring.tau))

theorem part_steps {s : Dmp} {m : Method} {dt : ℝ} {X : Nat → List ℝ} {u : Nat → Fin 4 → List ℝ}
    (hx : Steps s m dt X u) {a n : Nat} (ha : a + n ≤ s.dimX)
    (F : List ℝ → List ℝ) (hF : ∀ x xd, x.length = s.dimX → (diffEq x s).1 = .ok xd →
      pickAt xd (List.range' a n) = F (pickAt x (List.range' a n))) :
    Spec.Run n (fun y yd => yd = F y) m dt (fun i => pickAt (X i) (List.range' a n))
      (fun i j => pickAt (u i j) (List.range' a n)) where
  len i := by rw [length_pick]; simp
  lenStage i j := by rw [length_pick]; simp
  step i := by
    obtain ⟨k, h1, h2⟩ := hx.step i
    refine ⟨fun j => pickAt (k j) (List.range' a n), fun j => hF _ _ (hx.lenStage i j) (h1 j), fun b hb => ?_⟩
    simp only [getD_pick _ hb]
    exact h2 (a + b) (by omega)

section
variable {s : Dmp} (h : Settles d s) {m : Method} {dt : ℝ} (hf : FineSteps d s m dt)
  {X : Nat → List ℝ} {u : Nat → Fin 4 → List ℝ} (hx : Steps s m dt X u) (h0 : StartsLike s (X 0))
include h hf hx h0

theorem gating_steps (j : Fin 4) :
    Tendsto (fun n => (pickAt (u n j) (GATING s.dimY)).getD 0 0) atTop (𝓝 0) := by
  have w := h.inv.wf
  obtain ⟨x0, xd0, hs, he⟩ := h0
  obtain ⟨rfl, -⟩ := integrateStart_ok h.inv.good hs
  refine (Sub.steps_limit (i := 0) w.gating w.gatingDim h.gating hf.pos hf.gating
    (part_steps hx (by rw [w.dimX]; omega) (fun q => s.gating.rate q) fun x xd hl hr => ?_) ?_ Nat.one_pos).2 j
  · obtain ⟨_, _, -, -, -, -, -, -, hq, -⟩ := rates w hl hr
    exact hq
  · refine (pick_congr (x0 := s.startX) fun i hi => he i (by omega) :
      pickAt (X 0) (GATING s.dimY) = _).trans ?_
    exact (startX_sizes w).pick_GATING

theorem outputs_steps : ∃ B : ℝ, ∀ n j rows, s.predictions (pickAt (u n j) (PHASE s.dimY)) = .ok rows →
    ∀ row ∈ rows, ∀ v ∈ row, |v| ≤ B := by
  have w := h.inv.wf
  obtain ⟨x0, xd0, hs, he⟩ := h0
  obtain ⟨rfl, -⟩ := integrateStart_ok h.inv.good hs
  obtain ⟨R, hR⟩ := Sub.steps_bounded w.phase w.phaseDim h.phase hf.pos hf.phase
    (part_steps (a := s.dimY + s.dimY + s.dimY) (n := 1) hx (by rw [w.dimX]; omega) (fun q => s.phase.rate q)
      fun x xd hl hr => by
        obtain ⟨_, _, -, -, -, -, -, hq, -⟩ := rates w hl hr
        exact hq)
    ((pick_congr (x0 := s.startX) fun i hi => he i (by omega) :
      pickAt (X 0) (PHASE s.dimY) = _).trans (startX_sizes w).pick_PHASE)
  obtain ⟨B, hB⟩ := s.predictions_bounded R
  exact ⟨B, fun n j => hB _ (hR n j)⟩

theorem damping_steps {g : Sub} (hg : s.damping = some g) {c : Nat → ℝ} (hc : g.Tends d c) {i : Nat}
    (hi : i < d) (j : Fin 4) :
    Tendsto (fun n => (pickAt (u n j) (DAMPING s.dimY)).getD i 0) atTop (𝓝 (c i)) := by
  have w := h.inv.wf
  obtain rfl := h.inv.dim
  obtain ⟨x0, xd0, hs, he⟩ := h0
  obtain ⟨rfl, -⟩ := integrateStart_ok h.inv.good hs
  refine (Sub.steps_limit (d := s.dimY) (w.damping g hg) (w.dampingDim g hg) hc hf.pos (hf.damping g hg)
    (part_steps hx (by rw [w.dimX]; omega) (fun q => g.rate q) fun x xd hl hr => ?_) ?_ hi).2 j
  · obtain ⟨_, _, -, -, -, -, -, -, -, hq⟩ := rates w hl hr
    unfold dampingRate at hq
    rw [hg] at hq
    exact hq
  · refine (pick_congr (x0 := s.startX) fun i hi => he i (by omega) :
      pickAt (X 0) (DAMPING s.dimY) = _).trans ?_
    refine (startX_sizes w).pick_DAMPING.trans ?_
    unfold dampingStart
    rw [hg]

theorem goal_steps {g : Sub} (hg : s.goal = some g) {i : Nat} (hi : i < d) (j : Fin 4) :
    Tendsto (fun n => (pickAt (u n j) (GOAL s.dimY)).getD i 0) atTop
      (𝓝 (if s.requiresScaling then 1 else s.yAttr.getD i 0)) := by
  have w := h.inv.wf
  obtain rfl := h.inv.dim
  obtain ⟨x0, xd0, hs, he⟩ := h0
  obtain ⟨rfl, -⟩ := integrateStart_ok h.inv.good hs
  refine (Sub.steps_limit (d := s.dimY) (w.goal g hg) (w.goalDim g hg) (h.goal g hg) hf.pos (hf.goal g hg)
    (part_steps hx (by rw [w.dimX]; omega) (fun q => g.rate q) fun x xd hl hr => ?_) ?_ hi).2 j
  · obtain ⟨_, _, -, -, -, -, hq, -, -⟩ := rates w hl hr
    unfold goalRate at hq
    rw [hg] at hq
    simp only [h.inv.good.sync g hg] at hq
    exact hq
  · refine (pick_congr (x0 := s.startX) fun i hi => he i (by omega) :
      pickAt (X 0) (GOAL s.dimY) = _).trans ?_
    refine (startX_sizes w).pick_GOAL.trans ?_
    unfold goalStart
    rw [hg]

/-- The goal of the spring-damper system along the steps. -/
theorem spring_goal_steps {ga : Nat → Fin 4 → List ℝ}
    (hga : ∀ n j, s.springGoal (pickAt (u n j) (GOAL s.dimY)) = .ok (ga n j)) {i : Nat} (hi : i < d) (j : Fin 4) :
    Tendsto (fun n => (ga n j).getD i 0) atTop (𝓝 (s.yAttr.getD i 0)) := by
  have w := h.inv.wf
  have hd := h.inv.dim
  cases e : s.goal with
  | none =>
    refine tendsto_const_nhds.congr fun n => ?_
    have := hga n j
    unfold springGoal at this
    rw [e] at this
    injection this with this
    rw [← this]
  | some g =>
    have hg : ∀ n j, s.scaleGoal (pickAt (u n j) (GOAL s.dimY)) = .ok (ga n j) := fun n j => by
      have := hga n j
      unfold springGoal at this
      rw [e] at this
      exact this
    have hc : s.CanScale := by
      by_contra hc
      have := hg 0 0
      rw [scaleGoal_error hc] at this
      cases this
    have e2 : ∀ n, ga n j = s.scaled (pickAt (u n j) (GOAL s.dimY)) := fun n => by
      have := hg n j
      rw [scaleGoal_ok hc] at this
      injection this with this
      exact this.symm
    simp only [e2]
    have lim := goal_steps h hf hx h0 e hi j
    unfold scaled
    by_cases hr : s.requiresScaling = true
    · simp only [hr, if_true] at lim ⊢
      obtain ⟨y0, hy0⟩ : ∃ y, s.yInit? = some y := Option.ne_none_iff_exists'.mp (hc hr)
      rw [hy0]
      simp only [Option.getD_some]
      have ly := w.yInit y0 hy0
      have la := w.yAttr
      have h6 := (lim.const_mul (s.yAttr.getD i 0 - y0.getD i 0)).const_add (y0.getD i 0)
      rw [mul_one, add_sub_cancel] at h6
      refine h6.congr fun n => ?_
      have lx : (pickAt (u n j) (GOAL s.dimY)).length = s.dimY := by rw [length_pick]; simp [GOAL]
      rw [getD_vadd (by omega) (by simp; omega), getD_vmul (by simp; omega) (by omega),
        getD_vsub (by omega) (by omega)]
    · simp only [hr] at lim ⊢
      exact lim

/-- Numerical motions arrive at the attractor. -/
theorem settles_arrives : Arrives d X s.yAttr := by
  have w := h.inv.wf
  obtain rfl := h.inv.dim
  obtain ⟨B, hB⟩ := outputs_steps h hf hx h0
  obtain ⟨c, hc, st⟩ := hf.spring
  choose K hK hS using hx.step
  have hr := fun n j => rates w (hx.lenStage n j) (hK n j)
  choose GA FO hga hfo hry hrz hrg hrp hrq hrc using hr
  intro i hi
  have τ0 := h.springTau
  have m0 := h.mass i hi
  have limG := spring_goal_steps h hf hx h0 hga hi
  have limF : ∀ j, Tendsto (fun n => (FO n j).getD i 0) atTop (𝓝 0) := fun j => by
    have h1 : Tendsto (fun n => |s.forcingFactor i| * B * |(pickAt (u n j) (GATING s.dimY)).getD 0 0|)
        atTop (𝓝 0) := by
      have := ((gating_steps h hf hx h0 j).abs).const_mul (|s.forcingFactor i| * B)
      simpa using this
    refine squeeze_zero_norm (fun n => ?_) h1
    rw [Real.norm_eq_abs]
    exact forcing_bound w (by rw [length_pick]; rfl) (hfo n j) (hB n j) hi
  have limD : ∀ j, Tendsto (fun n => (s.dampingAt (pickAt (u n j) (DAMPING s.dimY))).at' i) atTop (𝓝 (c i)) := by
    intro j
    unfold DampsTo at hc
    cases e : s.damping with
    | none =>
      rw [e] at hc
      simp only [dampingAt, e]
      rw [hc i hi]
      exact tendsto_const_nhds
    | some g =>
      rw [e] at hc
      simp only [dampingAt, e]
      exact damping_steps h hf hx h0 e hc hi j
  obtain ⟨A, hA⟩ : ∃ A, A = s.yAttr.getD i 0 := ⟨_, rfl⟩
  obtain ⟨k, hk⟩ : ∃ k, k = s.spring.spring.at' i := ⟨_, rfl⟩
  obtain ⟨μ, hμ⟩ : ∃ μ, μ = s.spring.mass.at' i := ⟨_, rfl⟩
  obtain ⟨τ, hτ⟩ : ∃ τ, τ = s.spring.tau := ⟨_, rfl⟩
  rw [← hτ] at τ0
  rw [← hμ] at m0
  have st := st i hi
  rw [← hk, ← hμ, ← hτ] at st
  have key := osc_steps (a := c i / (μ * τ)) (b := k / (μ * τ)) (c := 1 / τ)
    (da := fun n j => (s.dampingAt (pickAt (u n j) (DAMPING s.dimY))).at' i / (μ * τ) - c i / (μ * τ))
    (h := fun n j => k / (μ * τ) * ((GA n j).getD i 0 - A) + (FO n j).getD i 0 / s.tau)
    (fun n => (hS n i (by rw [w.dimX]; omega)).affine 1 (-A))
    (fun n => hS n (s.dimY + i) (by rw [w.dimX]; omega))
    (fun n j => by
      rw [hry n j i hi, ← hτ]
      ring)
    (fun n j => by
      change (K n j).getD (s.dimY + i) 0 = _
      rw [hrz n j i hi, ← hk, ← hμ, ← hτ]
      generalize (FO n j).getD i 0 / s.tau = q
      field_simp
      ring)
    (fun j => by simpa using ((limD j).div_const (μ * τ)).sub_const (c i / (μ * τ)))
    (fun j => by
      have h1 := (((limG j).sub_const A).const_mul (k / (μ * τ))).add ((limF j).div_const s.tau)
      rw [← hA] at h1
      simpa using h1)
    (by positivity) st
  refine ⟨?_, key.2⟩
  have := key.1.add_const A
  rw [zero_add] at this
  rw [← hA]
  exact this.congr fun n => by ring

end

theorem fine_small {s : Dmp} (h : Settles d s) (m : Method) :
    ∃ t : ℝ, 0 < t ∧ ∀ dt, 0 < dt → dt ≤ t → FineSteps d s m dt := by
  have stays : ∀ {p : Sub}, p.Stays → ∃ t : ℝ, 0 < t ∧ ∀ dt, 0 < dt → dt ≤ t → p.Fine 1 m dt := by
    intro p hp
    cases p with
    | time _ => exact ⟨1, one_pos, fun _ _ _ => trivial⟩
    | exponential s =>
      obtain ⟨a, ha⟩ := hp
      exact Sub.fine_small ha m
    | sigmoid s =>
      obtain ⟨a, ha⟩ := hp
      exact Sub.fine_small ha m
    | richards s =>
      obtain ⟨a, ha⟩ := hp
      exact Sub.fine_small ha m
  have opt : ∀ {o : Option Sub}, (∀ g, o = some g → ∃ a, g.Tends d a) →
      ∃ t : ℝ, 0 < t ∧ ∀ dt, 0 < dt → dt ≤ t → ∀ g, o = some g → g.Fine d m dt := by
    intro o ho
    cases o with
    | none => exact ⟨1, one_pos, fun _ _ _ g hg => nomatch hg⟩
    | some g =>
      obtain ⟨a, ha⟩ := ho g rfl
      obtain ⟨t, t0, ht⟩ := Sub.fine_small ha m
      refine ⟨t, t0, fun dt h0 h1 g' hg => ?_⟩
      cases hg
      exact ht dt h0 h1
  obtain ⟨c, hc, c0⟩ : ∃ c, DampsTo d s c ∧ ∀ j, j < d → 0 < c j := by
    unfold DampsTo
    cases e : s.damping with
    | none => exact ⟨fun j => s.spring.damping.at' j, fun _ _ => rfl, h.undamped e⟩
    | some g =>
      obtain ⟨c, c0, hc⟩ := h.damped g e
      exact ⟨c, hc, c0⟩
  obtain ⟨t1, p1, h1⟩ := stays h.phase
  obtain ⟨t2, p2, h2⟩ := Sub.fine_small h.gating m
  obtain ⟨t3, p3, h3⟩ := opt (o := s.goal) fun g hg => ⟨_, h.goal g hg⟩
  obtain ⟨t4, p4, h4⟩ := opt (o := s.damping) fun g hg => by
    obtain ⟨a, -, ha⟩ := h.damped g hg
    exact ⟨a, ha⟩
  obtain ⟨t5, p5, h5⟩ := Sub.exists_min (d := d) (P := fun j dt =>
    StableStep m dt (c j / (s.spring.mass.at' j * s.spring.tau))
      (s.spring.spring.at' j / (s.spring.mass.at' j * s.spring.tau) * (1 / s.spring.tau))) fun j hj => by
    have a1 := h.springTau
    have a2 := h.mass j hj
    have a3 := h.spring j hj
    have a4 := c0 j hj
    exact stable_small m (by positivity) (by positivity)
  refine ⟨min t1 (min t2 (min t3 (min t4 t5))), by positivity, fun dt d0 hle => ?_⟩
  simp only [le_min_iff] at hle
  obtain ⟨l1, l2, l3, l4, l5⟩ := hle
  exact ⟨d0, h1 dt d0 l1, h2 dt d0 l2, h3 dt d0 l3, h4 dt d0 l4, c, hc, h5 dt d0 l5⟩

/-- C75: after any history of assignments, training and queries, for the default subsystems, and for each
method: there is a step length such that numerical motions with steps up to it come to rest at the
attractor, from whatever positions and velocities. -/
theorem C75_small_steps (d : Nat) (s : Dmp) (h : Reachable DefaultScaled Change.Forward d s) (m : Method) :
    ∃ t : ℝ, 0 < t ∧ ∀ dt, 0 < dt → dt ≤ t → ∀ X u, Steps s m dt X u → StartsLike s (X 0) →
      Arrives d X s.yAttr := by
  have hs := (kept_standard.reachable init_standard h).toSettles
  obtain ⟨t, t0, ht⟩ := fine_small hs m
  exact ⟨t, t0, fun dt d0 h1 X u hx hst => settles_arrives hs (ht dt d0 h1) hx hst⟩

end Dmp

end Verif
