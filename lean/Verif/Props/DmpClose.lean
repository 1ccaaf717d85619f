import Verif.Proofs.FaSmooth
import Verif.Proofs.SubClose
import Verif.Props.DmpSteps

/- Dmp: numerical integration with small steps stays close to the exact motion (C84). -/

set_option autoImplicit false

namespace Verif

open Filter Topology Set Spec
open DynSys (Method)

/-- Steps of two parts of a state are a step of the pair. -/
theorem method_pair {E F : Type} [AddCommGroup E] [Module ℝ E] [AddCommGroup F] [Module ℝ F] {m : Method} {dt : ℝ}
    {x x' : E} {y y' : F} {u k : Fin 4 → E} {v l : Fin 4 → F} (h1 : MethodStep m dt x x' u k)
    (h2 : MethodStep m dt y y' v l) :
    MethodStep m dt (x, y) (x', y') (fun j => (u j, v j)) (fun j => (k j, l j)) := by
  cases m with
  | euler =>
    obtain ⟨a0, a1, a2, a3, a4⟩ := h1
    obtain ⟨b0, b1, b2, b3, b4⟩ := h2
    exact ⟨Prod.ext a0 b0, Prod.ext a1 b1, Prod.ext a2 b2, Prod.ext a3 b3, Prod.ext a4 b4⟩
  | rungeKutta =>
    obtain ⟨a0, a1, a2, a3, a4⟩ := h1
    obtain ⟨b0, b1, b2, b3, b4⟩ := h2
    exact ⟨Prod.ext a0 b0, Prod.ext a1 b1, Prod.ext a2 b2, Prod.ext a3 b3, Prod.ext a4 b4⟩

namespace Dmp

variable {d : Nat}

/-- All subsystems are smooth, or clocks that run forward. -/
structure SmoothParts (d : Nat) (s : Dmp) : Prop where
  phase : s.phase.Smooth 1
  gating : s.gating.Smooth 1
  goal : ∀ g, s.goal = some g → g.Smooth d
  damping : ∀ g, s.damping = some g → g.Smooth d

theorem Settles.smooth {s : Dmp} (h : Settles d s) : SmoothParts d s where
  phase := Sub.stays_smooth h.phase
  gating := Sub.tends_smooth h.gating
  goal g hg := Sub.tends_smooth (h.goal g hg)
  damping g hg := by
    obtain ⟨c, -, hc⟩ := h.damped g hg
    exact Sub.tends_smooth hc

/-! ### Rates of change of the spring-damper system as functions -/

/-- Entry `i` of the goal of the spring-damper system, from that of the goal state. -/
noncomputable def goalOf (s : Dmp) (i : Nat) (g : ℝ) : ℝ :=
  match s.goal with
  | none => s.yAttr.getD i 0
  | some _ =>
    if s.requiresScaling then
      (s.yInit?.getD []).getD i 0 + (s.yAttr.getD i 0 - (s.yInit?.getD []).getD i 0) * g
    else g

/-- Entry `i` of the damping coefficient, from that of the damping state. -/
noncomputable def dampOf (s : Dmp) (i : Nat) (c : ℝ) : ℝ :=
  match s.damping with
  | none => s.spring.damping.at' i
  | some _ => c

theorem goalOf_smooth (s : Dmp) (i : Nat) : ContDiff ℝ 1 (s.goalOf i) := by
  unfold goalOf
  cases s.goal with
  | none => exact contDiff_const
  | some _ =>
    by_cases h : s.requiresScaling = true
    · simp only [if_pos h]
      fun_prop
    · simp only [if_neg h]
      fun_prop

theorem dampOf_smooth (s : Dmp) (i : Nat) : ContDiff ℝ 1 (s.dampOf i) := by
  unfold dampOf
  cases s.damping with
  | none => exact contDiff_const
  | some _ => exact contDiff_id

theorem springGoal_getD {s : Dmp} (w : s.Wf) {g ga : List ℝ} (hg : g.length = s.dimY)
    (h : s.springGoal g = .ok ga) {i : Nat} (hi : i < s.dimY) : ga.getD i 0 = s.goalOf i (g.getD i 0) := by
  unfold springGoal at h
  unfold goalOf
  cases e : s.goal with
  | none =>
    rw [e] at h
    cases h
    rfl
  | some gs =>
    rw [e] at h
    have hc : s.CanScale := by
      by_contra hc
      simp only [scaleGoal_error hc] at h
      cases h
    simp only [scaleGoal_ok hc] at h
    cases h
    unfold scaled
    by_cases hr : s.requiresScaling = true
    · simp only [hr, if_true]
      obtain ⟨y0, hy0⟩ : ∃ y, s.yInit? = some y := Option.ne_none_iff_exists'.mp (hc hr)
      rw [hy0]
      simp only [Option.getD_some]
      have ly := w.yInit y0 hy0
      have la := w.yAttr
      rw [getD_vadd (by omega) (by simp; omega), getD_vmul (by simp; omega) (by omega),
        getD_vsub (by omega) (by omega)]
    · simp only [hr]
      rfl

theorem dampingAt_getD (s : Dmp) (c : List ℝ) (i : Nat) : (s.dampingAt c).at' i = s.dampOf i (c.getD i 0) := by
  unfold dampingAt dampOf
  cases s.damping with
  | none => rfl
  | some _ => rfl

/-- The forcing term as a function of phase and gating. -/
theorem forcing_getD {s : Dmp} (w : s.Wf) {G : Nat → ℝ → ℝ}
    (hG : ∀ (phases : List ℝ) (rows : List (List ℝ)), s.predictions phases = .ok rows → ∀ t, t < phases.length →
      ∀ i, i < s.dimY → (rows.getD t []).getD i 0 = G i (phases.getD t 0)) {p q f : List ℝ} (hp : p.length = 1)
    (hf : s.forcing p q = .ok f) {i : Nat} (hi : i < s.dimY) :
    f.getD i 0 = s.forcingFactor i * (q.getD 0 0 * G i (p.getD 0 0)) := by
  obtain ⟨fa, h1, h2⟩ := except_bind_ok hf
  obtain ⟨l1, l2⟩ := predictions_length h1
  have e1 := hG p fa h1 0 (by omega) i hi
  rw [hp] at l1
  obtain ⟨r, rfl⟩ := List.length_eq_one_iff.mp l1
  have lr : r.length = s.dimY := l2 r (by simp)
  have hc : s.CanForce := by
    by_contra hc
    obtain ⟨e, he⟩ := scaleForcing_error hc (vscale (q.getD 0 0) ([r].getD 0 []))
    rw [he] at h2
    cases h2
  rw [scaleForcing_ok w hc (by simpa using lr)] at h2
  cases h2
  rw [forced, getD_range_map hi]
  change _ * (vscale (q.getD 0 0) r).getD i 0 = _
  rw [getD_vscale]
  change r.getD i 0 = _ at e1
  rw [e1]

/-- Rates of change of position and velocity, from position, velocity, and the entries of goal state, damping state,
phase and gating. `G` is the output of the function approximator for a phase. -/
noncomputable def pairRate (s : Dmp) (i : Nat) (G : ℝ → ℝ) (a : (ℝ × ℝ) × (ℝ × ℝ × ℝ × ℝ)) : ℝ × ℝ :=
  (a.1.2 / s.spring.tau,
    (-s.spring.spring.at' i * (a.1.1 - s.goalOf i a.2.1) - s.dampOf i a.2.2.1 * a.1.2) /
      (s.spring.mass.at' i * s.spring.tau) + s.forcingFactor i * (a.2.2.2.2 * G a.2.2.2.1) / s.tau)

theorem pairRate_smooth (s : Dmp) (i : Nat) {G : ℝ → ℝ} (hG : ContDiff ℝ 1 G) : ContDiff ℝ 1 (s.pairRate i G) := by
  have h1 := s.goalOf_smooth i
  have h2 := s.dampOf_smooth i
  unfold pairRate
  fun_prop

/-- The entries of a state that are inputs of the spring-damper system in dimension `i`. -/
def inputsOf (d i : Nat) (x : List ℝ) : ℝ × ℝ × ℝ × ℝ :=
  (x.getD (d + d + i) 0, x.getD (d + d + d + 2 + i) 0, x.getD (d + d + d) 0, x.getD (d + d + d + 1) 0)

/-- The rates of change of position and velocity in dimension `i`. -/
theorem pair_rates {s : Dmp} (w : s.Wf) {G : Nat → ℝ → ℝ}
    (hG : ∀ (phases : List ℝ) (rows : List (List ℝ)), s.predictions phases = .ok rows → ∀ t, t < phases.length →
      ∀ i, i < s.dimY → (rows.getD t []).getD i 0 = G i (phases.getD t 0)) {x xd : List ℝ} (hx : x.length = s.dimX)
    (h : (diffEq x s).1 = .ok xd) {i : Nat} (hi : i < s.dimY) :
    (xd.getD i 0, xd.getD (s.dimY + i) 0) =
      s.pairRate i (G i) ((x.getD i 0, x.getD (s.dimY + i) 0), inputsOf s.dimY i x) := by
  obtain ⟨ga, f, h1, h2, h3, h4, -⟩ := rates w hx h
  rw [h3 i hi, h4 i hi, springGoal_getD w (by rw [length_pick]; simp [GOAL]) h1 hi, dampingAt_getD,
    forcing_getD w hG (by rw [length_pick]; rfl) h2 hi]
  have e1 : (pickAt x (GOAL s.dimY)).getD i 0 = x.getD (s.dimY + s.dimY + i) 0 := getD_pick x hi
  have e2 : (pickAt x (DAMPING s.dimY)).getD i 0 = x.getD (s.dimY + s.dimY + s.dimY + 2 + i) 0 := getD_pick x hi
  have e3 : (pickAt x (PHASE s.dimY)).getD 0 0 = x.getD (s.dimY + s.dimY + s.dimY) 0 := getD_pick x Nat.one_pos
  have e4 : (pickAt x (GATING s.dimY)).getD 0 0 = x.getD (s.dimY + s.dimY + s.dimY + 1) 0 := getD_pick x Nat.one_pos
  rw [e1, e2, e3, e4]
  rfl

/-! ### Numerical integration -/

/-- Numerical integration of the Dmp with method `m` at the times `t 0 .. t N`. -/
abbrev StepsOn (s : Dmp) (m : Method) (N : Nat) (t : Nat → ℝ) (X : Nat → List ℝ) (u : Nat → Fin 4 → List ℝ) : Prop :=
  RunOn s.dimX (fun x xd => (diffEq x s).1 = .ok xd) m N t X u

theorem part_stepsOn {s : Dmp} {m : Method} {N : Nat} {t : Nat → ℝ} {X : Nat → List ℝ} {u : Nat → Fin 4 → List ℝ}
    (hx : StepsOn s m N t X u) {a n : Nat} (ha : a + n ≤ s.dimX)
    (F : List ℝ → List ℝ) (hF : ∀ x xd, x.length = s.dimX → (diffEq x s).1 = .ok xd →
      pickAt xd (List.range' a n) = F (pickAt x (List.range' a n))) :
    RunOn n (fun y yd => yd = F y) m N t (fun i => pickAt (X i) (List.range' a n))
      (fun i j => pickAt (u i j) (List.range' a n)) where
  len i _ := by rw [length_pick]; simp
  lenStage i _ j := by rw [length_pick]; simp
  step i hi := by
    obtain ⟨k, h1, h2⟩ := hx.step i hi
    refine ⟨fun j => pickAt (k j) (List.range' a n), fun j => hF _ _ (hx.lenStage i hi j) (h1 j), fun b hb => ?_⟩
    simp only [getD_pick _ hb]
    exact h2 (a + b) (by omega)

theorem part_close {s : Dmp} {x : ℝ → List ℝ} (hx : Obeys s x) {a n : Nat} (ha : a + n ≤ s.dimX)
    {R : List ℝ → List ℝ} (hR : (∃ g : Sub, g.Wf ∧ g.base.dimX = n ∧ g.Smooth n ∧ R = g.rate) ∨ R = fun _ => vzeros n)
    (hF : ∀ y yd, y.length = s.dimX → (diffEq y s).1 = .ok yd →
      pickAt yd (List.range' a n) = R (pickAt y (List.range' a n)))
    {T : ℝ} (hT : 0 ≤ T) (m : Method) {ε : ℝ} (hε : 0 < ε) :
    ∃ δ : ℝ, 0 < δ ∧ ∀ b, b < n → ∀ N t X u, Grid T δ N t → StepsOn s m N t X u → X 0 = x 0 →
      Near ε N t X u x (a + b) := by
  have mo := part_motion hx ha R fun t xd ht h => hF _ _ (hx.len t ht) h
  rcases hR with ⟨g, w, hd, sm, rfl⟩ | rfl
  · obtain ⟨δ, δ0, hδ⟩ := Sub.close w hd sm mo hT m hε
    refine ⟨δ, δ0, fun b hb N t X u grid hX h0 => ?_⟩
    have := hδ b hb N t _ _ grid (part_stepsOn hX ha _ hF) (by rw [h0])
    unfold Near at this ⊢
    simpa only [getD_pick _ hb] using this
  · refine Sub.exists_fine (fun b hb => ?_) fun b δ δ' h1 h2 N t X u grid => h2 N t X u (grid.finer h1)
    obtain ⟨δ, δ0, hδ⟩ := scalar_close (F := fun _ => 0) contDiff_const (mo.cont b hb) (fun t ht => by
      obtain ⟨r, hr, hder⟩ := mo.ode t ht
      refine (hder b hb).congr_deriv ?_
      rw [hr, getD_lt (by simpa [vzeros] using hb)]
      exact List.getElem_replicate _) hT m hε
    refine ⟨δ, δ0, fun N t X u grid hX h0 => ?_⟩
    have st := part_stepsOn hX ha (fun _ => vzeros n) hF
    choose! K hK hS using st.step
    have := hδ N t _ _ _ grid (fun k hk => hS k hk b hb) (fun k hk j => by
      rw [hK k hk j, getD_lt (by simpa [vzeros] using hb)]
      exact List.getElem_replicate _) (by rw [h0])
    unfold Near
    simpa only [getD_pick _ hb] using this

section
variable {s : Dmp} (good : Good d s) (sm : SmoothParts d s) {x : ℝ → List ℝ} (hx : Obeys s x)
include good sm hx

/-- The states of the subsystems. -/
theorem parts_close {T : ℝ} (hT : 0 ≤ T) (m : Method) {ε : ℝ} (hε : 0 < ε) :
    ∃ δ : ℝ, 0 < δ ∧ ∀ N t X u, Grid T δ N t → StepsOn s m N t X u → X 0 = x 0 →
      ∀ i, s.dimY + s.dimY ≤ i → i < s.dimX → Near ε N t X u x i := by
  have w := good.wf
  have dx := w.dimX
  obtain rfl := good.dim
  obtain ⟨δ1, p1, h1⟩ := part_close hx (a := s.dimY + s.dimY) (n := s.dimY) (R := s.goalRate) (by omega) (by
      unfold goalRate
      cases e : s.goal with
      | none => exact .inr rfl
      | some g =>
        simp only [good.sync g e]
        exact .inl ⟨g, w.goal g e, w.goalDim g e, sm.goal g e, rfl⟩)
    (fun y yd hl hr => by
      obtain ⟨_, _, -, -, -, -, hq, -, -⟩ := rates w hl hr
      exact hq) hT m hε
  obtain ⟨δ2, p2, h2⟩ := part_close hx (a := s.dimY + s.dimY + s.dimY) (n := 1) (R := fun y => s.phase.rate y) (by omega)
    (.inl ⟨s.phase, w.phase, w.phaseDim, sm.phase, rfl⟩)
    (fun y yd hl hr => by
      obtain ⟨_, _, -, -, -, -, -, hq, -⟩ := rates w hl hr
      exact hq) hT m hε
  obtain ⟨δ3, p3, h3⟩ := part_close hx (a := s.dimY + s.dimY + s.dimY + 1) (n := 1) (R := fun y => s.gating.rate y)
    (by omega) (.inl ⟨s.gating, w.gating, w.gatingDim, sm.gating, rfl⟩)
    (fun y yd hl hr => by
      obtain ⟨_, _, -, -, -, -, -, -, hq, -⟩ := rates w hl hr
      exact hq) hT m hε
  obtain ⟨δ4, p4, h4⟩ := part_close hx (a := s.dimY + s.dimY + s.dimY + 1 + 1) (n := s.dimY) (R := s.dampingRate)
    (by omega) (by
      unfold dampingRate
      cases e : s.damping with
      | none => exact .inr rfl
      | some g => exact .inl ⟨g, w.damping g e, w.dampingDim g e, sm.damping g e, rfl⟩)
    (fun y yd hl hr => by
      obtain ⟨_, _, -, -, -, -, -, -, -, hq⟩ := rates w hl hr
      exact hq) hT m hε
  refine ⟨min (min δ1 δ2) (min δ3 δ4), by positivity, fun N t X u grid hX h0 i i1 i2 => ?_⟩
  have l1 := grid.finer ((min_le_left _ _).trans (min_le_left _ _) : _ ≤ δ1)
  have l2 := grid.finer ((min_le_left _ _).trans (min_le_right _ _) : _ ≤ δ2)
  have l3 := grid.finer ((min_le_right _ _).trans (min_le_left _ _) : _ ≤ δ3)
  have l4 := grid.finer ((min_le_right _ _).trans (min_le_right _ _) : _ ≤ δ4)
  rcases lt_or_ge i (s.dimY + s.dimY + s.dimY) with c | c
  · have := h1 (i - (s.dimY + s.dimY)) (by omega) N t X u l1 hX h0
    rwa [Nat.add_sub_of_le i1] at this
  rcases Nat.eq_or_lt_of_le c with c | c
  · have := h2 0 (by omega) N t X u l2 hX h0
    rwa [← c]
  rcases Nat.eq_or_lt_of_le c with c | c
  · have := h3 0 (by omega) N t X u l3 hX h0
    rwa [← c]
  · have := h4 (i - (s.dimY + s.dimY + s.dimY + 1 + 1)) (by omega) N t X u l4 hX h0
    rwa [Nat.add_sub_of_le (by omega)] at this

/-- Inputs of the spring-damper system along the motion. -/
theorem inputs_cont {i : Nat} (hi : i < s.dimY) :
    ContinuousOn (fun t => inputsOf s.dimY i (x t)) (Ici 0) := by
  have dx := good.wf.dimX
  exact (hx.cont _ (by omega)).prodMk ((hx.cont _ (by omega)).prodMk
    ((hx.cont _ (by omega)).prodMk (hx.cont _ (by omega))))

/-- The whole state: up to any time, numerical integration with small steps stays close to the motion that it starts
with. -/
theorem all_close {T : ℝ} (hT : 0 ≤ T) (m : Method) {ε : ℝ} (hε : 0 < ε) :
    ∃ δ : ℝ, 0 < δ ∧ ∀ N t X u, Grid T δ N t → StepsOn s m N t X u → X 0 = x 0 →
      ∀ i, i < s.dimX → Near ε N t X u x i := by
  have w := good.wf
  have dx := w.dimX
  obtain ⟨G, hG, hG2⟩ := s.predictions_smooth
  -- positions and velocities, for inputs that are close to those of the motion
  obtain ⟨η, η0, hη⟩ := Sub.exists_fine (d := s.dimY) (P := fun i η => ∀ N t X u, Grid T η N t →
      StepsOn s m N t X u → X 0 = x 0 → (∀ n, n < N → ∀ j,
        ‖inputsOf s.dimY i (u n j) - inputsOf s.dimY i (x (t n))‖ ≤ η) →
      Near ε N t X u x i ∧ Near ε N t X u x (s.dimY + i)) (fun i hi => by
    obtain ⟨δ, δ0, hδ⟩ := steps_converge (F := s.pairRate i (G i))
      (x := fun t => ((x t).getD i 0, (x t).getD (s.dimY + i) 0)) (p := fun t => inputsOf s.dimY i (x t))
      (s.pairRate_smooth i (hG i)).locallyLipschitz hT
      (((hx.cont i (by omega)).prodMk (hx.cont (s.dimY + i) (by omega))).mono fun t h => h.1)
      ((inputs_cont good sm hx hi).mono fun t h => h.1) (fun t ht => by
        obtain ⟨xd, h1, h2⟩ := hx.ode t ht.1
        have := (h2 i (by omega)).prodMk (h2 (s.dimY + i) (by omega))
        rw [pair_rates w hG2 (hx.len t ht.1) h1 hi] at this
        exact this) m hε
    refine ⟨δ, δ0, fun N t X u grid hX h0 hu => ?_⟩
    choose! K hK hS using hX.step
    obtain ⟨r1, r2⟩ := hδ N t (fun k => ((X k).getD i 0, (X k).getD (s.dimY + i) 0))
      (fun k j => ((u k j).getD i 0, (u k j).getD (s.dimY + i) 0))
      (fun k j => ((K k j).getD i 0, (K k j).getD (s.dimY + i) 0)) (fun k j => inputsOf s.dimY i (u k j))
      grid (by rw [h0]) hu
      (fun k hk j => pair_rates w hG2 (hX.lenStage k hk j) (hK k hk j) hi)
      (fun k hk => method_pair (hS k hk i (by omega)) (hS k hk (s.dimY + i) (by omega)))
    exact ⟨⟨fun n hn => (norm_fst_le _).trans (r1 n hn), fun n hn j => (norm_fst_le _).trans (r2 n hn j)⟩,
      ⟨fun n hn => (norm_snd_le _).trans (r1 n hn), fun n hn j => (norm_snd_le _).trans (r2 n hn j)⟩⟩)
    (fun i δ δ' h1 h2 N t X u grid hX h0 hu => h2 N t X u (grid.finer h1) hX h0
      fun n hn j => (hu n hn j).trans h1)
  obtain ⟨δ, δ0, hδ⟩ := parts_close good sm hx hT m (lt_min η0 hε)
  refine ⟨min δ η, by positivity, fun N t X u grid hX h0 i hi => ?_⟩
  have near := hδ N t X u (grid.finer (min_le_left _ _)) hX h0
  rcases lt_or_ge i (s.dimY + s.dimY) with c | c
  · have key : ∀ k, k < s.dimY → Near ε N t X u x k ∧ Near ε N t X u x (s.dimY + k) := fun k hk => by
      refine hη k hk N t X u (grid.finer (min_le_right _ _)) hX h0 fun l hl j => ?_
      have b : ∀ a, s.dimY + s.dimY ≤ a → a < s.dimX → |(u l j).getD a 0 - (x (t l)).getD a 0| ≤ η :=
        fun a a1 a2 => ((near a a1 a2).2 l hl j).trans (min_le_left _ _)
      refine norm_prod_le_iff.mpr ⟨b _ (by omega) (by omega), norm_prod_le_iff.mpr ⟨b _ (by omega) (by omega),
        norm_prod_le_iff.mpr ⟨b _ (by omega) (by omega), b _ (by omega) (by omega)⟩⟩⟩
    rcases lt_or_ge i s.dimY with c2 | c2
    · exact (key i c2).1
    · have := (key (i - s.dimY) (by omega)).2
      rwa [Nat.add_sub_of_le c2] at this
  · obtain ⟨n1, n2⟩ := near i c hi
    exact ⟨fun n hn => (n1 n hn).trans (min_le_right _ _), fun n hn j => (n2 n hn j).trans (min_le_right _ _)⟩

end

end Dmp

end Verif
