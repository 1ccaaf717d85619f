import Verif.Proofs.SubMotion
import Verif.Proofs.FaBound
import Verif.Props.DmpStartGoal

/- Dmp: convergence to the attractor (C19), and C24 for motions. -/

set_option autoImplicit false

namespace Verif

namespace Dmp

open Filter Topology Set

variable {d : Nat}

/-- `x` is a motion, from time 0 on, whose rates of change are those that differential_equation of the
object `s` returns. -/
def Obeys (s : Dmp) (x : ℝ → List ℝ) : Prop :=
  Spec.Motion s.dimX (fun x xd => (diffEq x s).1 = .ok xd) x

/-! ### The entries of the rates of change -/

theorem getD_pick (x : List ℝ) {a n i : Nat} (hi : i < n) :
    (pickAt x (List.range' a n)).getD i 0 = x.getD (a + i) 0 := by
  have e : (List.range' a n)[i]'(by simpa using hi) = a + i := by simp
  rw [pickAt, getD_lt (by simpa using hi), List.getElem_map, e]

/-- The rates of change of all entries of a state. -/
theorem rates {s : Dmp} (w : s.Wf) {x xd : List ℝ} (hx : x.length = s.dimX)
    (h : (diffEq x s).1 = .ok xd) :
    ∃ ga f, s.springGoal (pickAt x (GOAL s.dimY)) = .ok ga ∧
      s.forcing (pickAt x (PHASE s.dimY)) (pickAt x (GATING s.dimY)) = .ok f ∧
      (∀ j, j < s.dimY → xd.getD j 0 = x.getD (s.dimY + j) 0 / s.spring.tau) ∧
      (∀ j, j < s.dimY → xd.getD (s.dimY + j) 0 =
        (-s.spring.spring.at' j * (x.getD j 0 - ga.getD j 0) -
          (s.dampingAt (pickAt x (DAMPING s.dimY))).at' j * x.getD (s.dimY + j) 0) /
          (s.spring.mass.at' j * s.spring.tau) + f.getD j 0 / s.tau) ∧
      pickAt xd (GOAL s.dimY) = s.goalRate (pickAt x (GOAL s.dimY)) ∧
      pickAt xd (PHASE s.dimY) = s.phase.rate (pickAt x (PHASE s.dimY)) ∧
      pickAt xd (GATING s.dimY) = s.gating.rate (pickAt x (GATING s.dimY)) ∧
      pickAt xd (DAMPING s.dimY) = s.dampingRate (pickAt x (DAMPING s.dimY)) := by
  obtain ⟨y, z, g, p, q, c, hs, rfl⟩ := exists_pack (hx.trans w.dimX)
  rw [diffEq_run w hs] at h
  obtain ⟨ga, h1, h⟩ := except_bind_ok h
  obtain ⟨f, h2, h⟩ := except_bind_ok h
  cases h
  have lg : (s.goalRate g).length = s.dimY := by
    unfold goalRate
    cases e : s.goal with
    | none => simp
    | some gs =>
      have hd := w.goalDim gs e
      have hy : s.yAttr.length = gs.base.dimY := by rw [w.yAttr, ← (w.goal gs e).dim, hd]
      rw [Sub.length_rate (Sub.wf_withAttr (w.goal gs e) hy)
        (by rw [Sub.base_withAttr, hd]; exact hs.g), Sub.base_withAttr, hd]
  have lc : (s.dampingRate c).length = s.dimY := by
    unfold dampingRate
    cases e : s.damping with
    | none => simp
    | some gs =>
      have hd := w.dampingDim gs e
      rw [Sub.length_rate (w.damping gs e) (by rw [hd]; exact hs.c), hd]
  have lp : (s.phase.rate p).length = 1 := by
    rw [Sub.length_rate w.phase (by rw [w.phaseDim]; exact hs.p), w.phaseDim]
  have lq : (s.gating.rate q).length = 1 := by
    rw [Sub.length_rate w.gating (by rw [w.gatingDim]; exact hs.q), w.gatingDim]
  have hs' : Sizes s.dimY (vdivs z s.spring.tau)
      ((List.range s.dimY).map (s.zRate ga (s.dampingAt c) f y z)) (s.goalRate g) (s.phase.rate p)
      (s.gating.rate q) (s.dampingRate c) :=
    ⟨by simp [hs.z], by simp, lg, lp, lq, lc⟩
  have ey : ∀ {y z g p q c : List ℝ}, Sizes s.dimY y z g p q c → ∀ j, j < s.dimY →
      (pack y z g p q c).getD j 0 = y.getD j 0 := by
    intro y z g p q c h j hj
    have := getD_pick (pack y z g p q c) (a := 0) hj
    rw [zero_add] at this
    rw [← this]
    exact congrArg (fun l : List ℝ => l.getD j 0) h.pick_SPRING_Y
  have ez : ∀ {y z g p q c : List ℝ}, Sizes s.dimY y z g p q c → ∀ j, j < s.dimY →
      (pack y z g p q c).getD (s.dimY + j) 0 = z.getD j 0 := by
    intro y z g p q c h j hj
    rw [← getD_pick (pack y z g p q c) (a := s.dimY) hj]
    exact congrArg (fun l : List ℝ => l.getD j 0) h.pick_SPRING_Z
  rw [hs.pick_GOAL, hs.pick_PHASE, hs.pick_GATING, hs.pick_DAMPING, hs'.pick_GOAL, hs'.pick_PHASE,
    hs'.pick_GATING, hs'.pick_DAMPING]
  refine ⟨ga, f, h1, h2, ?_, ?_, rfl, rfl, rfl, rfl⟩
  · intro j hj
    rw [ey hs' j hj, ez hs j hj, getD_vdivs]
  · intro j hj
    rw [ez hs' j hj, ez hs j hj, ey hs j hj, getD_range_map hj]
    rfl

/-- The forcing term is bounded by the gating. -/
theorem forcing_bound {s : Dmp} (w : s.Wf) {p q f : List ℝ} (hp : p.length = 1)
    (hf : s.forcing p q = .ok f) {B : ℝ}
    (hB : ∀ rows, s.predictions p = .ok rows → ∀ row ∈ rows, ∀ v ∈ row, |v| ≤ B) {j : Nat}
    (hj : j < s.dimY) : |f.getD j 0| ≤ |s.forcingFactor j| * B * |q.getD 0 0| := by
  obtain ⟨fa, h1, h2⟩ := except_bind_ok hf
  obtain ⟨l1, l2⟩ := predictions_length h1
  rw [hp] at l1
  obtain ⟨r, rfl⟩ := List.length_eq_one_iff.mp l1
  have lr : r.length = s.dimY := l2 r (by simp)
  have hc : s.CanForce := by
    by_contra hc
    obtain ⟨e, he⟩ := scaleForcing_error hc (vscale (q.getD 0 0) ([r].getD 0 []))
    rw [he] at h2
    cases h2
  rw [scaleForcing_ok w hc (by simpa using lr)] at h2
  cases h2
  rw [forced, getD_range_map hj]
  have e : (vscale (q.getD 0 0) ([r].getD 0 [])).getD j 0 = q.getD 0 0 * r.getD j 0 := by
    change (vscale (q.getD 0 0) r).getD j 0 = _
    rw [getD_vscale]
  rw [e, abs_mul, abs_mul]
  have hr : |r.getD j 0| ≤ B := by
    refine hB [r] h1 r (by simp) _ ?_
    rw [getD_lt (by omega)]
    exact List.getElem_mem _
  calc |s.forcingFactor j| * (|q.getD 0 0| * |r.getD j 0|)
      ≤ |s.forcingFactor j| * (|q.getD 0 0| * B) := by gcongr
    _ = _ := by ring

/-! ### C19 -/

/-- The entries of `x` for positions tend to `a`, those for velocities to zero; so do the derivatives
(from the right) of the positions. -/
def ComesToRest (d : Nat) (x : ℝ → List ℝ) (a : List ℝ) : Prop :=
  ∀ j, j < d → Tendsto (fun t => (x t).getD j 0) atTop (𝓝 (a.getD j 0)) ∧
    Tendsto (fun t => (x t).getD (d + j) 0) atTop (𝓝 0) ∧
    Tendsto (fun t => derivWithin (fun u => (x u).getD j 0) (Ici t) t) atTop (𝓝 0)

/-- The outputs of the function approximators along a motion are bounded. (They are if the phases are,
see `predictions_bounded`.) -/
def BoundedOutputs (s : Dmp) (x : ℝ → List ℝ) : Prop :=
  ∃ B : ℝ, ∀ t, 0 ≤ t → ∀ rows, s.predictions (pickAt (x t) (PHASE s.dimY)) = .ok rows →
    ∀ row ∈ rows, ∀ v ∈ row, |v| ≤ B

/-- C19: for bounded outputs of the function approximators, if the gating tends to 0, the delayed goal
(if there is one) to the attractor and the damping coefficients to positive values, then each motion
that obeys the differential equation comes to rest at the attractor. -/
theorem C19_converges {s : Dmp} (w : s.Wf) (hτ : 0 < s.spring.tau)
    (hk : ∀ j, j < s.dimY → 0 < s.spring.spring.at' j) (hm : ∀ j, j < s.dimY → 0 < s.spring.mass.at' j)
    {x : ℝ → List ℝ} (hx : Obeys s x) (hfa : BoundedOutputs s x)
    (hgate : Tendsto (fun t => (pickAt (x t) (GATING s.dimY)).getD 0 0) atTop (𝓝 0))
    (hgoal : s.goal ≠ none → ∃ ga : ℝ → List ℝ,
      (∀ t, 0 ≤ t → s.scaleGoal (pickAt (x t) (GOAL s.dimY)) = .ok (ga t)) ∧
      ∀ j, j < s.dimY → Tendsto (fun t => (ga t).getD j 0) atTop (𝓝 (s.yAttr.getD j 0)))
    (hdamp : (s.damping = none ∧ ∀ j, j < s.dimY → 0 < s.spring.damping.at' j) ∨
      (s.damping ≠ none ∧ ∃ c : Nat → ℝ, ∀ j, j < s.dimY → 0 < c j ∧
        Tendsto (fun t => (pickAt (x t) (DAMPING s.dimY)).getD j 0) atTop (𝓝 (c j)))) :
    ComesToRest s.dimY x s.yAttr := by
  obtain ⟨B, hB⟩ := hfa
  -- goals and forcing terms as functions of time
  have hrate : ∀ t, 0 ≤ t → ∃ xd, (diffEq (x t) s).1 = .ok xd ∧ ∀ i, i < s.dimX →
      HasDerivWithinAt (fun u => (x u).getD i 0) (xd.getD i 0) (Ici t) t := hx.ode
  choose! XD hXD1 hXD2 using hrate
  have hr := fun t (ht : 0 ≤ t) => rates w (hx.len t ht) (hXD1 t ht)
  choose! GA FO hga hfo hry hrz hrg hrp hrq hrc using hr
  intro j hj
  have hjx : j < s.dimX := by rw [w.dimX]; omega
  have hdjx : s.dimY + j < s.dimX := by rw [w.dimX]; omega
  set A := s.yAttr.getD j 0 with hA
  set k := s.spring.spring.at' j with hkdef
  set m := s.spring.mass.at' j with hmdef
  set τ := s.spring.tau with hτdef
  have k0 := hk j hj
  have m0 := hm j hj
  rw [← hkdef] at k0
  rw [← hmdef] at m0
  -- the goal
  have limG : Tendsto (fun t => (GA t).getD j 0) atTop (𝓝 A) := by
    by_cases hg : s.goal = none
    · refine (tendsto_const_nhds (x := A)).congr' ?_
      filter_upwards [eventually_ge_atTop (0 : ℝ)] with t ht
      have := hga t ht
      unfold springGoal at this
      rw [hg] at this
      injection this with this
      rw [← this]
    · obtain ⟨ga, h1, h2⟩ := hgoal hg
      refine (h2 j hj).congr' ?_
      filter_upwards [eventually_ge_atTop (0 : ℝ)] with t ht
      have h3 := hga t ht
      unfold springGoal at h3
      obtain ⟨g, hg⟩ := Option.ne_none_iff_exists'.mp hg
      rw [hg] at h3
      simp only at h3
      rw [h1 t ht] at h3
      injection h3 with h3
      rw [← h3]
  -- the forcing term
  have limF : Tendsto (fun t => (FO t).getD j 0) atTop (𝓝 0) := by
    have h1 : Tendsto (fun t => |s.forcingFactor j| * B * |(pickAt (x t) (GATING s.dimY)).getD 0 0|)
        atTop (𝓝 0) := by
      have := (hgate.abs).const_mul (|s.forcingFactor j| * B)
      simpa using this
    refine squeeze_zero_norm' ?_ h1
    filter_upwards [eventually_ge_atTop (0 : ℝ)] with t ht
    rw [Real.norm_eq_abs]
    exact forcing_bound w (by rw [length_pick]; rfl) (hfo t ht) (hB t ht) hj
  -- the damping
  obtain ⟨D, hD0, limD⟩ : ∃ D : ℝ, 0 < D ∧
      Tendsto (fun t => (s.dampingAt (pickAt (x t) (DAMPING s.dimY))).at' j) atTop (𝓝 D) := by
    rcases hdamp with ⟨h1, h2⟩ | ⟨h1, c, h2⟩
    · refine ⟨_, h2 j hj, ?_⟩
      simp only [dampingAt, h1]
      exact tendsto_const_nhds
    · refine ⟨c j, (h2 j hj).1, ?_⟩
      obtain ⟨ds, hds⟩ := Option.ne_none_iff_exists'.mp h1
      simp only [dampingAt, hds]
      exact (h2 j hj).2
  have key := comes_to_rest (e := fun t => (x t).getD j 0 - A) (w := fun t => (x t).getD (s.dimY + j) 0)
    (a := fun t => (s.dampingAt (pickAt (x t) (DAMPING s.dimY))).at' j / (m * τ))
    (h := fun t => k / (m * τ) * ((GA t).getD j 0 - A) + (FO t).getD j 0 / s.tau)
    (b := k / (m * τ)) (c := 1 / τ) (A := D / (m * τ)) (T0 := 0)
    (by positivity) (by positivity) (by positivity)
    (((hx.cont j hjx).sub continuousOn_const).mono Ioi_subset_Ici_self)
    ((hx.cont _ hdjx).mono Ioi_subset_Ici_self)
    (fun t ht => by
      have h1 := (hXD2 t ht.le j hjx).sub_const A
      refine h1.congr_deriv ?_
      rw [hry t ht.le j hj]
      ring)
    (fun t ht => by
      have h1 := hXD2 t ht.le _ hdjx
      refine h1.congr_deriv ?_
      rw [hrz t ht.le j hj, ← hkdef, ← hmdef]
      generalize (FO t).getD j 0 / s.tau = q
      field_simp
      ring)
    (limD.div_const _)
    (by
      have h1 := ((limG.sub_const A).const_mul (k / (m * τ))).add (limF.div_const s.tau)
      simpa using h1)
  obtain ⟨k1, k2⟩ := key
  refine ⟨?_, k2, ?_⟩
  · have := k1.add_const A
    simpa using this
  · have h1 : Tendsto (fun t => (x t).getD (s.dimY + j) 0 / τ) atTop (𝓝 0) := by
      simpa using k2.div_const τ
    refine h1.congr' ?_
    filter_upwards [eventually_gt_atTop (0 : ℝ)] with t ht
    rw [(hXD2 t ht.le j hjx).derivWithin (uniqueDiffOn_Ici t t self_mem_Ici), hry t ht.le j hj]

/-! ### The default subsystems -/

/-- Objects whose subsystems tend to where the default subsystems tend. -/
structure Settles (d : Nat) (s : Dmp) : Prop where
  inv : Inv d s
  tau : 0 < s.tau
  springTau : 0 < s.spring.tau
  spring : ∀ j, j < d → 0 < s.spring.spring.at' j
  mass : ∀ j, j < d → 0 < s.spring.mass.at' j
  undamped : s.damping = none → ∀ j, j < d → 0 < s.spring.damping.at' j
  damped : ∀ g, s.damping = some g → ∃ c : Nat → ℝ, (∀ j, j < d → 0 < c j) ∧ g.Tends d c
  phase : s.phase.Stays
  gating : s.gating.Tends 1 fun _ => 0
  goal : ∀ g, s.goal = some g →
    g.Tends d fun j => if s.requiresScaling then 1 else s.yAttr.getD j 0

/-- The state `x` is the one from which integrate_start starts, except for positions and velocities. -/
def StartsLike (s : Dmp) (x : List ℝ) : Prop :=
  ∃ x0 xd0, (integrateStart none s).1 = .ok (x0, xd0) ∧
    ∀ i, 2 * s.dimY ≤ i → x.getD i 0 = x0.getD i 0

/-- Part of a motion. -/
theorem part_motion {s : Dmp} {x : ℝ → List ℝ} (hx : Obeys s x) {a n : Nat} (ha : a + n ≤ s.dimX)
    (F : List ℝ → List ℝ) (hF : ∀ t xd, 0 ≤ t → (diffEq (x t) s).1 = .ok xd →
      pickAt xd (List.range' a n) = F (pickAt (x t) (List.range' a n))) :
    Spec.Motion n (fun y yd => yd = F y) fun t => pickAt (x t) (List.range' a n) where
  len t _ := by rw [length_pick]; simp
  cont i hi := by
    have e : (fun u => (pickAt (x u) (List.range' a n)).getD i 0) = fun u => (x u).getD (a + i) 0 :=
      funext fun u => getD_pick (x u) hi
    rw [e]
    exact hx.cont (a + i) (by omega)
  ode t ht := by
    obtain ⟨xd, h1, h2⟩ := hx.ode t ht
    refine ⟨pickAt xd (List.range' a n), hF t xd ht h1, fun i hi => ?_⟩
    have e : (fun u => (pickAt (x u) (List.range' a n)).getD i 0) = fun u => (x u).getD (a + i) 0 :=
      funext fun u => getD_pick (x u) hi
    rw [e, getD_pick xd hi]
    exact h2 (a + i) (by omega)

theorem pick_congr {x x0 : List ℝ} {a n : Nat} (h : ∀ i, a ≤ i → x.getD i 0 = x0.getD i 0) :
    pickAt x (List.range' a n) = pickAt x0 (List.range' a n) := by
  apply ext_getD 0 (by rw [length_pick, length_pick])
  intro i hi
  have hi : i < n := by simpa [length_pick] using hi
  rw [getD_pick x hi, getD_pick x0 hi]
  exact h _ (by omega)

section
variable {s : Dmp} (h : Settles d s) {x : ℝ → List ℝ} (hx : Obeys s x) (h0 : StartsLike s (x 0))
include h hx h0

theorem gating_limit : Tendsto (fun t => (pickAt (x t) (GATING s.dimY)).getD 0 0) atTop (𝓝 0) := by
  have w := h.inv.wf
  obtain ⟨x0, xd0, hs, he⟩ := h0
  obtain ⟨rfl, -⟩ := integrateStart_ok h.inv.good hs
  refine Sub.limit (i := 0) w.gating w.gatingDim h.gating
    (part_motion hx (by rw [w.dimX]; omega) (fun q => s.gating.rate q) fun t xd ht hr => ?_) ?_ Nat.one_pos
  · obtain ⟨_, _, -, -, -, -, -, -, hq, -⟩ := rates w (hx.len t ht) hr
    exact hq
  · refine (pick_congr (x0 := s.startX) fun i hi => he i (by omega) :
      pickAt (x 0) (GATING s.dimY) = _).trans ?_
    exact (startX_sizes w).pick_GATING

theorem phase_bounded : BoundedOutputs s x := by
  have w := h.inv.wf
  obtain ⟨x0, xd0, hs, he⟩ := h0
  obtain ⟨rfl, -⟩ := integrateStart_ok h.inv.good hs
  obtain ⟨R, hR⟩ := Sub.bounded w.phase w.phaseDim h.phase
    (part_motion (a := s.dimY + s.dimY + s.dimY) (n := 1) hx (by rw [w.dimX]; omega) (fun q => s.phase.rate q) fun t xd ht hr => by
      obtain ⟨_, _, -, -, -, -, -, hq, -⟩ := rates w (hx.len t ht) hr
      exact hq)
    ((pick_congr (x0 := s.startX) fun i hi => he i (by omega) :
      pickAt (x 0) (PHASE s.dimY) = _).trans (startX_sizes w).pick_PHASE)
  obtain ⟨B, hB⟩ := s.predictions_bounded R
  exact ⟨B, fun t ht => hB _ (hR t ht)⟩

theorem damping_limit {g : Sub} (hg : s.damping = some g) {c : Nat → ℝ} (hc : g.Tends d c) {j : Nat}
    (hj : j < d) : Tendsto (fun t => (pickAt (x t) (DAMPING s.dimY)).getD j 0) atTop (𝓝 (c j)) := by
  have w := h.inv.wf
  obtain rfl := h.inv.dim
  obtain ⟨x0, xd0, hs, he⟩ := h0
  obtain ⟨rfl, -⟩ := integrateStart_ok h.inv.good hs
  refine Sub.limit (d := s.dimY) (w.damping g hg) (w.dampingDim g hg) hc
    (part_motion hx (by rw [w.dimX]; omega) (fun q => g.rate q) fun t xd ht hr => ?_) ?_ hj
  · obtain ⟨_, _, -, -, -, -, -, -, -, hq⟩ := rates w (hx.len t ht) hr
    unfold dampingRate at hq
    rw [hg] at hq
    exact hq
  · refine (pick_congr (x0 := s.startX) fun i hi => he i (by omega) :
      pickAt (x 0) (DAMPING s.dimY) = _).trans ?_
    refine (startX_sizes w).pick_DAMPING.trans ?_
    unfold dampingStart
    rw [hg]

theorem goal_limit {g : Sub} (hg : s.goal = some g) {j : Nat} (hj : j < d) :
    Tendsto (fun t => (pickAt (x t) (GOAL s.dimY)).getD j 0) atTop
      (𝓝 (if s.requiresScaling then 1 else s.yAttr.getD j 0)) := by
  have w := h.inv.wf
  obtain rfl := h.inv.dim
  obtain ⟨x0, xd0, hs, he⟩ := h0
  obtain ⟨rfl, -⟩ := integrateStart_ok h.inv.good hs
  refine Sub.limit (d := s.dimY) (w.goal g hg) (w.goalDim g hg) (h.goal g hg)
    (part_motion hx (by rw [w.dimX]; omega) (fun q => g.rate q) fun t xd ht hr => ?_) ?_ hj
  · obtain ⟨_, _, -, -, -, -, hq, -, -⟩ := rates w (hx.len t ht) hr
    unfold goalRate at hq
    rw [hg] at hq
    simp only [h.inv.good.sync g hg] at hq
    exact hq
  · refine (pick_congr (x0 := s.startX) fun i hi => he i (by omega) :
      pickAt (x 0) (GOAL s.dimY) = _).trans ?_
    refine (startX_sizes w).pick_GOAL.trans ?_
    unfold goalStart
    rw [hg]

/-- The delayed goal along a motion. -/
theorem delayed_goal {g : Sub} (hg : s.goal = some g) : ∃ ga : ℝ → List ℝ,
    (∀ t, 0 ≤ t → s.scaleGoal (pickAt (x t) (GOAL s.dimY)) = .ok (ga t)) ∧
    ∀ j, j < s.dimY → Tendsto (fun t => (ga t).getD j 0) atTop (𝓝 (s.yAttr.getD j 0)) := by
  have w := h.inv.wf
  have hd := h.inv.dim
  have hc : s.CanScale := by
    obtain ⟨xd, hr, -⟩ := hx.ode 0 le_rfl
    obtain ⟨ga, _, h1, -⟩ := rates w (hx.len 0 le_rfl) hr
    by_contra hc
    unfold springGoal at h1
    rw [hg] at h1
    simp only [scaleGoal_error hc] at h1
    cases h1
  refine ⟨fun t => s.scaled (pickAt (x t) (GOAL s.dimY)), fun t _ => scaleGoal_ok hc _, fun j hj => ?_⟩
  have lim := goal_limit h hx h0 hg (j := j) (hd ▸ hj)
  unfold scaled
  by_cases hr : s.requiresScaling = true
  · simp only [hr, if_true] at lim ⊢
    obtain ⟨y0, hy0⟩ : ∃ y, s.yInit? = some y := Option.ne_none_iff_exists'.mp (hc hr)
    rw [hy0]
    simp only [Option.getD_some]
    have ly := w.yInit y0 hy0
    have la := w.yAttr
    have h6 := (lim.const_mul (s.yAttr.getD j 0 - y0.getD j 0)).const_add (y0.getD j 0)
    rw [mul_one, add_sub_cancel] at h6
    refine h6.congr fun t => ?_
    have lx : (pickAt (x t) (GOAL s.dimY)).length = s.dimY := by rw [length_pick]; simp [GOAL]
    rw [getD_vadd (by omega) (by simp; omega), getD_vmul (by simp; omega) (by omega),
      getD_vsub (by omega) (by omega)]
  · simp only [hr] at lim ⊢
    exact lim

theorem settles_converges : ComesToRest s.dimY x s.yAttr := by
  have hd := h.inv.dim
  refine C19_converges h.inv.wf h.springTau (fun j hj => h.spring j (hd ▸ hj))
    (fun j hj => h.mass j (hd ▸ hj)) hx (phase_bounded h hx h0) (gating_limit h hx h0) (fun hg => ?_) ?_
  · obtain ⟨g, hg⟩ := Option.ne_none_iff_exists'.mp hg
    exact delayed_goal h hx h0 hg
  · by_cases e : s.damping = none
    · exact .inl ⟨e, fun j hj => h.undamped e j (hd ▸ hj)⟩
    · obtain ⟨g, hg⟩ := Option.ne_none_iff_exists'.mp e
      obtain ⟨c, hc, ht⟩ := h.damped g hg
      exact .inr ⟨e, c, fun j hj => ⟨hc j (hd ▸ hj), damping_limit h hx h0 hg ht (hd ▸ hj)⟩⟩

end

/-- Such objects, where a goal that is not scaled is exponential, so that setting start and attractor
keeps its properties. -/
structure Standard (d : Nat) (s : Dmp) : Prop extends Settles d s where
  plainGoal : ∀ g, s.goal = some g → s.requiresScaling = false → ∃ e, g = .exponential e

theorem standard_core {s t : Dmp} (h : Standard d s) (i : Inv d t) (hc : t.core = s.core) :
    Standard d t := by
  have h1 : t.core.requiresScaling = s.core.requiresScaling := by rw [hc]
  change t.requiresScaling = s.requiresScaling at h1
  have h2 : t.core.yAttr = s.core.yAttr := by rw [hc]
  change t.yAttr = s.yAttr at h2
  have h3 : t.goal.map Sub.touch = s.goal.map Sub.touch := congrArg (fun r : Dmp => r.goal) hc
  have h4 : t.damping.map Sub.touch = s.damping.map Sub.touch := congrArg (fun r : Dmp => r.damping) hc
  have h5 : t.gating.touch = s.gating.touch := congrArg (fun r : Dmp => r.gating) hc
  have h9 : t.phase.touch = s.phase.touch := congrArg (fun r : Dmp => r.phase) hc
  have h6 : t.core.spring.spring = s.core.spring.spring := by rw [hc]
  change t.spring.spring = s.spring.spring at h6
  have h7 : t.core.spring.mass = s.core.spring.mass := by rw [hc]
  change t.spring.mass = s.spring.mass at h7
  have h8 : (match t.damping with | none => t.spring.damping | some _ => .scalar 0) =
      (match s.damping with | none => s.spring.damping | some _ => .scalar 0) :=
    congrArg (fun r : Dmp => r.spring.damping) hc
  have back : ∀ {a b : Option Sub}, a.map Sub.touch = b.map Sub.touch → ∀ g, a = some g →
      ∃ g', b = some g' ∧ g.touch = g'.touch := by
    intro a b hab g hg
    subst hg
    cases b with
    | none => cases hab
    | some g' => exact ⟨g', rfl, by simpa using hab⟩
  refine ⟨⟨i, by rw [core_tau hc]; exact h.tau, by rw [core_springTau hc]; exact h.springTau,
    by rw [h6]; exact h.spring, by rw [h7]; exact h.mass, ?_, ?_,
    by rw [← Sub.stays_touch, h9, Sub.stays_touch]; exact h.phase, ?_, ?_⟩, ?_⟩
  · intro ht
    have hs : s.damping = none := by
      rw [ht] at h4
      cases e : s.damping with
      | none => rfl
      | some g => rw [e] at h4; cases h4
    rw [ht, hs] at h8
    simp only at h8
    rw [h8]
    exact h.undamped hs
  · intro g hg
    obtain ⟨g', hg', e⟩ := back h4 g hg
    obtain ⟨c, hc1, hc2⟩ := h.damped g' hg'
    refine ⟨c, hc1, ?_⟩
    rw [← Sub.tends_touch, e, Sub.tends_touch]
    exact hc2
  · rw [← Sub.tends_touch, h5, Sub.tends_touch]
    exact h.gating
  · intro g hg
    obtain ⟨g', hg', e⟩ := back h3 g hg
    rw [← Sub.tends_touch, e, Sub.tends_touch, h1, h2]
    exact h.goal g' hg'
  · intro g hg hr
    obtain ⟨g', hg', e⟩ := back h3 g hg
    obtain ⟨e', rfl⟩ := h.plainGoal g' hg' (h1 ▸ hr)
    cases g with
    | exponential e2 => exact ⟨e2, rfl⟩
    | time _ => cases e
    | sigmoid _ => cases e
    | richards _ => cases e

theorem kept_standard : Kept d (Standard d) where
  inv _ h := h.inv
  core _ _ h i hc := standard_core h i hc
  tau s t h ht := by
    have h0 : 0 < t / s.tau := div_pos ht h.tau
    refine ⟨⟨inv_retimed h.inv t, ht, mul_pos h.springTau h0, h.spring, h.mass, h.undamped, h.damped,
      Sub.stays_withTau h.phase fun h => mul_pos h h0, Sub.tends_withTau h.gating fun h => mul_pos h h0, ?_⟩, ?_⟩
    · intro g hg
      obtain ⟨g', hg', rfl⟩ := Option.map_eq_some_iff.mp hg
      exact Sub.tends_withTau (h.goal g' hg') fun h => mul_pos h h0
    · intro g hg hr
      obtain ⟨g', hg', rfl⟩ := Option.map_eq_some_iff.mp hg
      obtain ⟨e, rfl⟩ := h.plainGoal g' hg' hr
      exact ⟨_, rfl⟩
  place s y h hy := by
    refine ⟨⟨inv_placed h.inv hy, h.tau, h.springTau, h.spring, h.mass, h.undamped, h.damped, h.phase,
      h.gating, ?_⟩, ?_⟩
    · intro g hg
      change (if s.requiresScaling then s.goal else s.goal.map (Sub.withInit y)) = some g at hg
      change g.Tends d fun j => if s.requiresScaling then 1 else s.yAttr.getD j 0
      by_cases hr : s.requiresScaling = true
      · rw [if_pos hr] at hg
        exact h.goal g hg
      · rw [if_neg hr] at hg
        obtain ⟨g', hg', rfl⟩ := Option.map_eq_some_iff.mp hg
        obtain ⟨e, rfl⟩ := h.plainGoal g' hg' (by simpa using hr)
        have := h.goal _ hg'
        exact this
    · intro g hg hr
      change (if s.requiresScaling then s.goal else s.goal.map (Sub.withInit y)) = some g at hg
      have hr : s.requiresScaling = false := hr
      rw [if_neg (by simp [hr])] at hg
      obtain ⟨g', hg', rfl⟩ := Option.map_eq_some_iff.mp hg
      obtain ⟨e, rfl⟩ := h.plainGoal g' hg' hr
      exact ⟨_, rfl⟩
  aim s y h hy := by
    refine ⟨⟨inv_aimed h.inv hy, h.tau, h.springTau, h.spring, h.mass, h.undamped, h.damped, h.phase,
      h.gating, ?_⟩, ?_⟩
    · intro g hg
      change (if s.requiresScaling then s.goal else s.goal.map (Sub.withAttr y)) = some g at hg
      change g.Tends d fun j => if s.requiresScaling then 1 else y.getD j 0
      by_cases hr : s.requiresScaling = true
      · rw [if_pos hr] at hg
        have := h.goal g hg
        simp only [hr, if_true] at this ⊢
        exact this
      · rw [if_neg hr] at hg
        obtain ⟨g', hg', rfl⟩ := Option.map_eq_some_iff.mp hg
        obtain ⟨e, rfl⟩ := h.plainGoal g' hg' (by simpa using hr)
        have := h.goal _ hg'
        simp only [if_neg hr]
        exact ⟨this.1, fun j hj => ⟨(this.2 j hj).1, rfl⟩⟩
    · intro g hg hr
      change (if s.requiresScaling then s.goal else s.goal.map (Sub.withAttr y)) = some g at hg
      have hr : s.requiresScaling = false := hr
      rw [if_neg (by simp [hr])] at hg
      obtain ⟨g', hg', rfl⟩ := Option.map_eq_some_iff.mp hg
      obtain ⟨e, rfl⟩ := h.plainGoal g' hg' hr
      exact ⟨_, rfl⟩
  other s f a ts sel h i := ⟨⟨i, h.tau, h.springTau, h.spring, h.mass, h.undamped, h.damped, h.phase,
    h.gating, h.goal⟩, h.plainGoal⟩
  decouple s h := by
    have w := h.inv.wf
    have hd := h.inv.dim
    have hsd : d = s.spring.dimY := by rw [w.springDim, hd]
    refine ⟨⟨inv_decoupled h.inv, h.tau, h.springTau, fun j hj => ?_, fun j hj => ?_,
      fun e j hj => ?_, ?_, h.phase, h.gating, ?_⟩, ?_⟩
    · change 0 < (s.spring.spring.decouple s.spring.dimY).at' j
      rw [Par.at'_decouple _ (hsd ▸ hj)]
      exact h.spring j hj
    · change 0 < (s.spring.mass.decouple s.spring.dimY).at' j
      rw [Par.at'_decouple _ (hsd ▸ hj)]
      exact h.mass j hj
    · change 0 < (s.spring.damping.decouple s.spring.dimY).at' j
      rw [Par.at'_decouple _ (hsd ▸ hj)]
      exact h.undamped (by
        change s.damping.map Sub.decoupled = none at e
        simpa using e) j hj
    · intro g hg
      obtain ⟨g', hg', rfl⟩ := Option.map_eq_some_iff.mp hg
      obtain ⟨c, hc1, hc2⟩ := h.damped g' hg'
      exact ⟨c, hc1, Sub.tends_decoupled ((w.dampingDim g' hg').trans hd) (w.damping g' hg') hc2⟩
    · intro g hg
      obtain ⟨g', hg', rfl⟩ := Option.map_eq_some_iff.mp hg
      exact Sub.tends_decoupled ((w.goalDim g' hg').trans hd) (w.goal g' hg') (h.goal g' hg')
    · intro g hg hr
      obtain ⟨g', hg', rfl⟩ := Option.map_eq_some_iff.mp hg
      obtain ⟨e, rfl⟩ := h.plainGoal g' hg' hr
      exact ⟨_, rfl⟩

/-- Constructor arguments: positive time constant and damping coefficients, no subsystems passed. -/
def DefaultSystems (tau : ℝ) (yInit _ : List ℝ) (o : Options) (_ : Dmp) : Prop :=
  0 < tau ∧ (∀ j, j < yInit.length → 0 < o.alphaSpring.at' j) ∧ o.transformation = none ∧
    o.goal = none ∧ o.gating = none ∧ o.phase = none ∧ o.damping = none

/-- The gating and damping systems of the constructor. -/
theorem init_settles {tau : ℝ} {yInit yAttr : List ℝ} {fas : Option (List Fa)} {o : Options} {s : Dmp}
    (h : init tau yInit yAttr fas o = .ok s) (ha : yAttr.length = yInit.length)
    (ho : o.Fits yInit.length) (hg : DefaultSystems tau yInit yAttr o s)
    (hns : isIn "NO_SCALING" o.dmpType = true →
      ∀ j, j < yInit.length → yInit.getD j 0 ≠ yAttr.getD j 0) :
    Settles yInit.length s ∧ (isIn "NO_SCALING" o.dmpType = false → Standard yInit.length s) := by
  obtain ⟨hτ, hα, htr, hgn, hgt, hph, hdp⟩ := hg
  have hinv : Inv yInit.length s := init_inv h ha ho fun e he => by rw [hgn] at he; cases he
  obtain ⟨dflt, hd, rfl⟩ := init_eq h
  simp only [htr, Option.getD_none] at hd
  have hcrit : ∀ j, j < yInit.length → 0 < (SpringDamper.criticalSpring o.alphaSpring).at' j := by
    intro j hj
    have h1 := hα j hj
    have hf := ho.alphaSpring
    cases e : o.alphaSpring with
    | scalar c =>
      rw [e] at h1
      change 0 < c * c / 4
      have h1 : 0 < c := h1
      positivity
    | array l =>
      rw [e] at h1 hf
      have hl : l.length = yInit.length := hf
      have h1 : 0 < l.getD j 0 := h1
      change 0 < (l.map fun d => d * d / 4).getD j 0
      rw [getD_map' (by omega) 0 0]
      positivity
  -- the four subsystems
  have hall : (∀ g, dflt.damping = some g → ∃ c : Nat → ℝ, (∀ j, j < yInit.length → 0 < c j) ∧
        g.Tends yInit.length c) ∧
      dflt.phase.Stays ∧
      (dflt.gating.Tends 1 fun _ => 0) ∧
      (∀ g, dflt.goal = some g → g.Tends yInit.length fun j =>
        if dflt.requiresScaling then 1 else yAttr.getD j 0) ∧
      (isIn "NO_SCALING" o.dmpType = false →
        ∀ g, dflt.goal = some g → dflt.requiresScaling = false → ∃ e, g = .exponential e) := by
    unfold defaults at hd
    simp only at hd
    by_cases h1 : o.dmpType = "IJSPEERT_2002_MOVEMENT" ∨ o.dmpType = "Ijs02"
    · rw [if_pos h1] at hd
      cases hd
      refine ⟨(fun _ h => nomatch h), ⟨fun _ => 0, hτ, fun i hi => ⟨?_, ?_⟩⟩, ⟨hτ, fun i hi => ⟨?_, ?_⟩⟩,
        (fun _ h => nomatch h), (fun _ _ h => nomatch h)⟩
      · change (0 : ℝ) < 4
        norm_num
      · obtain rfl : i = 0 := by omega
        rfl
      · change (0 : ℝ) < 4
        norm_num
      · obtain rfl : i = 0 := by omega
        rfl
    rw [if_neg h1] at hd
    by_cases h2 : o.dmpType = "KULVICIUS_2012_JOINING" ∨ o.dmpType = "Kul12" ∨
        o.dmpType = "COUNTDOWN_2013"
    · rw [if_pos h2] at hd
      cases hd
      refine ⟨(fun _ h => nomatch h), hτ, ?_, ?_, ?_⟩
      · intro i hi
        obtain rfl : i = 0 := by omega
        refine ⟨?_, ?_, rfl⟩
        · change (0 : ℝ) < 1
          norm_num
        · change -Real.log ((((1 + Sigmoid.gatingD) / 0.1) - 1) / Sigmoid.gatingD) / tau < 0
          have hd : (0 : ℝ) < Sigmoid.gatingD := by norm_num [Sigmoid.gatingD]
          have : 1 < (((1 + Sigmoid.gatingD) / 0.1) - 1) / Sigmoid.gatingD := by
            rw [lt_div_iff₀ hd, one_mul]
            norm_num [Sigmoid.gatingD]
          have := Real.log_pos this
          exact div_neg_of_neg_of_pos (by linarith) hτ
      · rintro g ⟨⟩
        refine ⟨hτ, fun i hi => ⟨?_, rfl⟩⟩
        change (0 : ℝ) < 15
        norm_num
      · rintro - g ⟨⟩ -
        exact ⟨_, rfl⟩
    rw [if_neg h2] at hd
    by_cases h3 : (isIn "2022" o.dmpType || isIn "SCT23" o.dmpType) = true
    · rw [if_pos h3] at hd
      cases hd
      refine ⟨?_, hτ, ?_, ?_, ?_⟩
      · intro g hg
        simp only at hg
        by_cases h4 : isIn "DAMPING" o.dmpType = true
        · rw [if_pos h4] at hg
          cases hg
          refine ⟨fun j => o.alphaSpring.at' j, hα, hτ, fun i hi => ⟨?_, ?_⟩⟩
          · change (0 : ℝ) < 4
            norm_num
          · change (full yInit.length o.alphaSpring).getD i 0 = _
            rw [full, getD_range_map hi]
        · rw [if_neg h4] at hg
          cases hg
      · refine ⟨rfl, hτ, fun i hi => ?_⟩
        obtain rfl : i = 0 := by omega
        refine ⟨?_, ?_, ?_, rfl, 10, ?_⟩
        · change (0 : ℝ) ≤ 1
          norm_num
        · change (0 : ℝ) < 10
          norm_num
        · change (1 : ℝ) ≠ 0
          norm_num
        · change max (10 : ℝ) 0.5 = _
          norm_num
      · intro g hg
        simp only at hg
        by_cases h4 : isIn "NO_SCALING" o.dmpType = true
        · simp only [h4, Bool.not_true, Bool.false_eq_true, if_false] at hg ⊢
          cases hg
          refine ⟨rfl, hτ, fun i hi => ⟨?_, ?_, ?_, rfl, 1, ?_⟩⟩
          · change (0 : ℝ) ≤ 0.3
            norm_num
          · change (0 : ℝ) < 10
            norm_num
          · exact hns h4 i hi
          · change max (1 : ℝ) 0.5 = _
            norm_num
        · have h4 : isIn "NO_SCALING" o.dmpType = false := by simpa using h4
          simp only [h4, Bool.not_false, if_true] at hg ⊢
          cases hg
          refine ⟨rfl, hτ, fun i hi => ⟨?_, ?_, ?_, ?_, 1, ?_⟩⟩
          · change (0 : ℝ) ≤ 0.3
            norm_num
          · change (0 : ℝ) < 10
            norm_num
          · change (vzeros yInit.length : List ℝ).getD i 0 ≠ (List.replicate yInit.length (1 : ℝ)).getD i 0
            rw [vzeros, getD_replicate' hi, getD_replicate' hi]
            exact zero_ne_one
          · change (List.replicate yInit.length (1 : ℝ)).getD i 0 = 1
            exact getD_replicate' hi _
          · change max (1 : ℝ) 0.5 = _
            norm_num
      · intro h4 g hg hr
        simp only [h4, Bool.not_false] at hr
        cases hr
    · rw [if_neg h3] at hd
      cases hd
  obtain ⟨a1, ap, a2, a3, a4⟩ := hall
  have both : ∀ {P Q : Prop}, P → (P → Q) → P ∧ Q := fun a b => ⟨a, b a⟩
  refine both ?_ fun hset h4 => ⟨hset, fun g hg hr => ?_⟩
  · refine ⟨hinv, hτ, ?_, ?_, ?_, ?_, ?_, ?_, ?_, ?_⟩
    · change 0 < (o.transformation.getD _).tau
      rw [htr]
      exact hτ
    · change ∀ j, j < yInit.length → 0 < (o.transformation.getD _).spring.at' j
      rw [htr]
      exact hcrit
    · change ∀ j, j < yInit.length → 0 < (o.transformation.getD _).mass.at' j
      rw [htr]
      intro j _
      exact one_pos
    · intro _
      change ∀ j, j < yInit.length → 0 < (o.transformation.getD _).damping.at' j
      rw [htr]
      exact hα
    · intro g hg
      change o.damping.getD dflt.damping = some g at hg
      rw [hdp] at hg
      exact a1 g hg
    · change (o.phase.getD dflt.phase).Stays
      rw [hph]
      exact ap
    · change (o.gating.getD dflt.gating).Tends 1 _
      rw [hgt]
      exact a2
    · intro g hg
      change o.goal.getD dflt.goal = some g at hg
      rw [hgn] at hg
      exact a3 g hg
  · change o.goal.getD dflt.goal = some g at hg
    rw [hgn] at hg
    exact a4 h4 g hg hr

/-- Moreover, the dmp_type is not one of the variants with "NO_SCALING". -/
def DefaultScaled (tau : ℝ) (yInit yAttr : List ℝ) (o : Options) (s : Dmp) : Prop :=
  DefaultSystems tau yInit yAttr o s ∧ isIn "NO_SCALING" o.dmpType = false

theorem init_standard (tau : ℝ) (yInit yAttr : List ℝ) (fas : Option (List Fa)) (o : Options) (s : Dmp)
    (h : init tau yInit yAttr fas o = .ok s) (hi : yInit.length = d) (ha : yAttr.length = d)
    (ho : o.Fits d) (hg : DefaultScaled tau yInit yAttr o s) : Standard d s := by
  subst hi
  exact (init_settles h ha ho hg.1 fun h => by rw [hg.2] at h; cases h).2 hg.2

/-- C19, for the default subsystems, after any history of assignments, training and queries: each
motion that obeys the differential equation from any positions and velocities (and otherwise from the
state of integrate_start) comes to rest at the attractor. -/
theorem C19_defaults (d : Nat) (s : Dmp) (h : Reachable DefaultScaled Change.Forward d s)
    (x : ℝ → List ℝ) (hx : Obeys s x) (h0 : StartsLike s (x 0)) :
    ComesToRest d x s.yAttr := by
  have hs := kept_standard.reachable init_standard h
  have := settles_converges hs.toSettles hx h0
  rwa [hs.inv.dim] at this

/-- C19, for the dmp_types with "NO_SCALING", directly after the constructor, if start and attractor
differ in each dimension. (If they are equal, the goal system divides zero by zero; when start or
attractor are changed later, see `C24_refuted`.) -/
theorem C19_no_scaling {tau : ℝ} {yInit yAttr : List ℝ} {fas : Option (List Fa)} {o : Options} {s : Dmp}
    (h : init tau yInit yAttr fas o = .ok s) (ha : yAttr.length = yInit.length)
    (ho : o.Fits yInit.length) (hg : DefaultSystems tau yInit yAttr o s)
    (hne : ∀ j, j < yInit.length → yInit.getD j 0 ≠ yAttr.getD j 0)
    (x : ℝ → List ℝ) (hx : Obeys s x) (h0 : StartsLike s (x 0)) :
    ComesToRest yInit.length x yAttr := by
  have hs := (init_settles h ha ho hg fun _ => hne).1
  have := settles_converges hs hx h0
  rw [hs.inv.dim] at this
  obtain ⟨dflt, -, rfl⟩ := init_eq h
  exact this

/-- C24, for motions: after `dmp.y_attr = g`, the delayed goal along each motion tends to `g`, and the
motion comes to rest at `g`. -/
theorem C24_motions (d : Nat) (s : Dmp) (h : Reachable DefaultScaled Change.Forward d s) (g : List ℝ)
    (hg : g.length = d) : (setYAttr g s).1 = .ok () ∧
    ∀ x, Obeys (setYAttr g s).2 x → StartsLike (setYAttr g s).2 (x 0) → ComesToRest d x g ∧
      (s.goal ≠ none → ∃ ga : ℝ → List ℝ,
        (∀ t, 0 ≤ t → (setYAttr g s).2.scaleGoal (pickAt (x t) (GOAL d)) = .ok (ga t)) ∧
        ∀ j, j < d → Tendsto (fun t => (ga t).getD j 0) atTop (𝓝 (g.getD j 0))) := by
  have hs := kept_standard.reachable init_standard h
  have hl : g.length = s.dimY := hg.trans hs.inv.dim.symm
  have hs' : Standard d (s.aimed g) := kept_standard.aim s g hs hl
  rw [setYAttr_run hs.inv.wf hl]
  refine ⟨rfl, fun x hx h0 => ⟨?_, fun hgo => ?_⟩⟩
  · have := settles_converges hs'.toSettles hx h0
    rwa [hs'.inv.dim] at this
  · obtain ⟨e, he⟩ : ∃ e, (s.aimed g).goal = some e := by
      obtain ⟨e, he⟩ := Option.ne_none_iff_exists'.mp hgo
      change ∃ e', (if s.requiresScaling then s.goal else s.goal.map (Sub.withAttr g)) = some e'
      rw [he]
      split
      · exact ⟨_, rfl⟩
      · exact ⟨_, rfl⟩
    have := delayed_goal hs'.toSettles hx h0 he
    rw [hs'.inv.dim] at this
    exact this

theorem motion_of_deriv {n : Nat} {R : List ℝ → List ℝ → Prop} {x : ℝ → List ℝ}
    (hl : ∀ t, 0 ≤ t → (x t).length = n)
    (hd : ∀ t, ∃ xd, R (x t) xd ∧ ∀ i, i < n → HasDerivAt (fun u => (x u).getD i 0) (xd.getD i 0) t) :
    Spec.Motion n R x where
  len := hl
  cont i hi t _ := by
    obtain ⟨xd, -, h⟩ := hd t
    exact (h i hi).continuousAt.continuousWithinAt
  ode t _ := by
    obtain ⟨xd, h1, h⟩ := hd t
    exact ⟨xd, h1, fun i hi => (h i hi).hasDerivWithinAt⟩

/-- A motion from 0 to 1 without forcing term. -/
noncomputable def toOne (t : ℝ) : List ℝ :=
  [1 - (1 + 10 * t) * Real.exp (-10 * t), 100 * t * Real.exp (-10 * t), 1, Real.exp (-4 * t),
    Real.exp (-4 * t), 20]

/-- The hypotheses of C19 are met by a Dmp with the subsystems of Ijspeert et al. and a motion that
starts at 0 and heads for 1. -/
theorem C19_example : ∃ s, init 1 [0] [1] none { dmpType := "Ijs02" } = .ok s ∧
    Reachable DefaultScaled Change.Forward 1 s ∧ Obeys s toOne ∧ StartsLike s (toOne 0) := by
  have hfit : Options.Fits { dmpType := "Ijs02" } 1 :=
    ⟨(fun _ h => nomatch h), trivial, (fun _ h => nomatch h),
      (fun _ h => nomatch h), (fun _ h => nomatch h), (fun _ h => nomatch h), (fun _ h => nomatch h)⟩
  obtain ⟨s, hs⟩ := (C16_types 1 [0] [1] none { dmpType := "Ijs02" }).1 (by simp [known])
  have hr : Reachable DefaultScaled Change.Forward 1 s := by
    refine .init hs rfl rfl hfit ⟨⟨one_pos, fun j _ => ?_, rfl, rfl, rfl, rfl, rfl⟩, by decide⟩
    change (0 : ℝ) < 20
    norm_num
  have hi := (kept_standard.reachable init_standard hr).inv
  have w := hi.wf
  refine ⟨s, hs, hr, ?_⟩
  obtain ⟨dflt, hdf, hseq⟩ := init_eq hs
  unfold defaults at hdf
  simp only at hdf
  rw [if_pos (by decide)] at hdf
  cases hdf
  have hd : s.dimY = 1 := hi.dim
  have hgoal : s.goal = none := by rw [hseq]; rfl
  have hdamp : s.damping = none := by rw [hseq]; rfl
  have hpred : ∀ p, s.predictions p = .ok (List.replicate p.length (vzeros s.dimY)) := by
    intro p
    unfold predictions
    rw [show s.fas = none by rw [hseq]]
  have hforce : ∀ p q : ℝ, s.forcing [p] [q] = .ok [q * 0] := by
    intro p q
    unfold forcing
    rw [hpred, hd]
    change s.scaleForcing [q * 0] = _
    unfold scaleForcing
    rw [show s.scaling = .noScaling by rw [hseq]]
  have hvf : ∀ y z g p q c : ℝ, (diffEq [y, z, g, p, q, c] s).1 =
      .ok [z / 1, (-(20 * 20 / 4) * (y - 1) - 20 * z) / (1 * 1) + q * 0 / 1, 0, 4 * (0 - p) / 1,
        4 * (0 - q) / 1, 0] := by
    intro y z g p q c
    have hz : Sizes s.dimY [y] [z] [g] [p] [q] [c] := by rw [hd]; exact ⟨rfl, rfl, rfl, rfl, rfl, rfl⟩
    refine (congrArg Prod.fst (diffEq_run w hz)).trans ?_
    unfold vf springGoal
    rw [hgoal, hforce]
    refine congrArg Except.ok ?_
    unfold goalRate dampingRate zRate dampingAt
    rw [hgoal, hdamp, hd, hseq]
    rfl
  refine ⟨motion_of_deriv (fun t _ => ?_) (fun t => ?_), ?_⟩
  · rw [w.dimX, hd]; rfl
  · refine ⟨_, hvf _ _ _ _ _ _, ?_⟩
    have he : ∀ c : ℝ, HasDerivAt (fun u : ℝ => Real.exp (c * u)) (c * Real.exp (c * t)) t := by
      intro c
      have h1 : HasDerivAt (fun u : ℝ => c * u) c t := by
        simpa using (hasDerivAt_id t).const_mul c
      exact h1.exp.congr_deriv (by ring)
    have hl : HasDerivAt (fun u : ℝ => 1 + 10 * u) 10 t := by
      simpa using ((hasDerivAt_id t).const_mul (10 : ℝ)).const_add 1
    have hl2 : HasDerivAt (fun u : ℝ => 100 * u) 100 t := by
      simpa using (hasDerivAt_id t).const_mul (100 : ℝ)
    intro i hi
    rw [w.dimX, hd] at hi
    match i, hi with
    | 0, _ =>
      exact ((hl.mul (he (-10))).const_sub 1).congr_deriv (by
        change _ = 100 * t * Real.exp (-10 * t) / 1
        ring)
    | 1, _ =>
      exact (hl2.mul (he (-10))).congr_deriv (by
        change _ = (-(20 * 20 / 4) * (1 - (1 + 10 * t) * Real.exp (-10 * t) - 1) -
          20 * (100 * t * Real.exp (-10 * t))) / (1 * 1) + Real.exp (-4 * t) * 0 / 1
        ring)
    | 2, _ => exact hasDerivAt_const t _
    | 3, _ =>
      exact (he (-4)).congr_deriv (by
        change _ = 4 * (0 - Real.exp (-4 * t)) / 1
        ring)
    | 4, _ =>
      exact (he (-4)).congr_deriv (by
        change _ = 4 * (0 - Real.exp (-4 * t)) / 1
        ring)
    | 5, _ => exact hasDerivAt_const t _
  · have hx : s.startX = [0, 0, 1, 1, 1, 20] := by
      unfold startX goalStart dampingStart
      rw [hgoal, hdamp, hd, hseq]
      rfl
    have hg := hi.good
    have hscale : s.scaleGoal s.goalStart = .ok [1] := by
      unfold scaleGoal goalStart
      rw [if_neg (by rw [hseq]; decide), hgoal, show s.yAttr = [1] by rw [hseq]]
    have hlen : ([1] : List ℝ).length = 1 := rfl
    obtain ⟨c1, g1⟩ := started_good hg hlen
    obtain ⟨xd, hxd⟩ : ∃ xd, (diffEq s.startX s).1 = .ok xd := ⟨_, by rw [hx]; exact hvf _ _ _ _ _ _⟩
    have hst := (stable_diffEq (d := 1) (x := s.startX) (by rw [hx]; rfl) (s.started [1]) s g1 hg c1).1
    refine ⟨s.startX, xd, ?_, fun i hi' => ?_⟩
    · rw [integrateStart_run w, hscale]
      simp only
      rw [PyM.bind_apply]
      rw [hxd] at hst
      rcases e : diffEq s.startX (s.started [1]) with ⟨r, t⟩
      rw [e] at hst
      simp only at hst
      rw [hst]
      rfl
    · rw [hx]
      rw [hd] at hi'
      unfold toOne
      match i, hi' with
      | 2, _ => rfl
      | 3, _ => simp
      | 4, _ => simp
      | 5, _ => rfl
      | n + 6, _ => rfl

/-- A motion from 0 to 1 without forcing term, for the default subsystems. -/
noncomputable def joining (t : ℝ) : List ℝ :=
  [1 + (3 - 30 * t) * Real.exp (-10 * t) - 4 * Real.exp (-15 * t),
    (300 * t - 60) * Real.exp (-10 * t) + 60 * Real.exp (-15 * t), 1 - Real.exp (-15 * t),
    if t < 1 then t else 1, ((Sigmoid.forGating 1 0.1 1).xAt t).getD 0 0, 20]

/-- The hypotheses of C19 are met by the Dmp with the default subsystems and a motion that starts at 0
and heads for 1. Its phase stops at time 1, where it has a kink. -/
theorem C19_example_default : ∃ s, init 1 [0] [1] none {} = .ok s ∧
    Reachable DefaultScaled Change.Forward 1 s ∧ Obeys s joining ∧ StartsLike s (joining 0) := by
  have hfit : Options.Fits {} 1 :=
    ⟨(fun _ h => nomatch h), trivial, (fun _ h => nomatch h),
      (fun _ h => nomatch h), (fun _ h => nomatch h), (fun _ h => nomatch h), (fun _ h => nomatch h)⟩
  obtain ⟨s, hs⟩ := (C16_types 1 [0] [1] none {}).1 (by simp [known])
  have hr : Reachable DefaultScaled Change.Forward 1 s := by
    refine .init hs rfl rfl hfit ⟨⟨one_pos, fun j _ => ?_, rfl, rfl, rfl, rfl, rfl⟩, by decide⟩
    change (0 : ℝ) < 20
    norm_num
  have hst := kept_standard.reachable init_standard hr
  have hi := hst.inv
  have w := hi.wf
  refine ⟨s, hs, hr, ?_⟩
  obtain ⟨dflt, hdf, hseq⟩ := init_eq hs
  unfold defaults at hdf
  simp only at hdf
  rw [if_neg (by decide), if_pos (by decide)] at hdf
  cases hdf
  have hd : s.dimY = 1 := hi.dim
  have hgoal : s.goal = some (.exponential (.init 1 [0] [1] (.scalar 15))) := by rw [hseq]; rfl
  have hgat : s.gating = .sigmoid (.forGating 1 0.1) := by rw [hseq]; rfl
  have hpha : s.phase = .time (.init 1 false) := by rw [hseq]; rfl
  have hdamp : s.damping = none := by rw [hseq]; rfl
  have hpred : ∀ p, s.predictions p = .ok (List.replicate p.length (vzeros s.dimY)) := by
    intro p
    unfold predictions
    rw [show s.fas = none by rw [hseq]]
  have hforce : ∀ p q : ℝ, s.forcing [p] [q] = .ok [q * 0] := by
    intro p q
    unfold forcing
    rw [hpred, hd]
    change s.scaleForcing [q * 0] = _
    unfold scaleForcing
    rw [show s.scaling = .noScaling by rw [hseq]]
  have hphr : ∀ p : ℝ, s.phase.rate [p] = [if p < 1 then 1 else 0] := by
    intro p
    rw [hpha]
    unfold Sub.rate
    simp only [TimeSystem.diffEq, TimeSystem.init, Bool.false_eq_true, if_false]
    by_cases h : p < 1
    · rw [if_pos h, if_pos h]
      change [1 / (1 : ℝ)] = _
      norm_num
    · rw [if_neg h, if_neg h]
      rfl
  have hscale : ∀ g, s.scaleGoal g = .ok g := by
    intro g
    unfold scaleGoal
    rw [if_neg (by rw [hseq]; decide)]
  have hvf : ∀ y z g p q c : ℝ, (diffEq [y, z, g, p, q, c] s).1 =
      .ok ([z / 1, (-(20 * 20 / 4) * (y - g) - 20 * z) / (1 * 1) + q * 0 / 1, 15 * (1 - g) / 1,
        if p < 1 then 1 else 0] ++ s.gating.rate [q] ++ [0]) := by
    intro y z g p q c
    have hz : Sizes s.dimY [y] [z] [g] [p] [q] [c] := by rw [hd]; exact ⟨rfl, rfl, rfl, rfl, rfl, rfl⟩
    refine (congrArg Prod.fst (diffEq_run w hz)).trans ?_
    unfold vf springGoal
    rw [hgoal, hforce]
    simp only [hscale]
    refine congrArg Except.ok ?_
    rw [hphr]
    unfold goalRate dampingRate zRate dampingAt
    rw [hgoal, hdamp, hd, show s.yAttr = [1] by rw [hseq]]
    have e1 : s.spring.tau = 1 := by rw [hseq]; rfl
    have e2 : s.spring.spring = .scalar (20 * 20 / 4) := by rw [hseq]; rfl
    have e3 : s.spring.mass = .scalar 1 := by rw [hseq]; rfl
    have e4 : s.spring.damping = .scalar 20 := by rw [hseq]; rfl
    have e5 : s.tau = 1 := by rw [hseq]
    simp only [e1, e2, e3, e4, e5]
    rfl
  -- the gating
  have hsol := Sigmoid.solves (s := .forGating 1 0.1) (by
      have := w.gating
      rw [hgat] at this
      exact this.1) (fun j hj => by
      have hj : j < 1 := hj
      obtain rfl : j = 0 := by omega
      change (0 : ℝ) < 1
      norm_num)
  have hlen : ∀ t, ((Sigmoid.forGating 1 0.1 1).xAt t).length = 1 := fun t => by
    simp [Sigmoid.xAt, Sigmoid.forGating, Sigmoid.init, Base.init]
  have hone : ∀ t, [((Sigmoid.forGating 1 0.1 1).xAt t).getD 0 0] = (Sigmoid.forGating 1 0.1 1).xAt t := by
    intro t
    obtain ⟨x, hx⟩ := List.length_eq_one_iff.mp (hlen t)
    rw [hx]
    rfl
  have hq : ∀ t : ℝ, HasDerivAt (fun u => ((Sigmoid.forGating 1 0.1 1).xAt u).getD 0 0)
      ((s.gating.rate [((Sigmoid.forGating 1 0.1 1).xAt t).getD 0 0]).getD 0 0) t := by
    intro t
    have h1 := hsol.deriv t (mem_univ t)
    have h2 := hsol.ode t (mem_univ t)
    rw [h2] at h1
    rw [hone, hgat]
    exact h1.2 0 (by rw [← h1.1 t, hlen]; exact one_pos)
  have hql : ∀ q : ℝ, (s.gating.rate [q]).length = 1 := fun q => by
    rw [Sub.length_rate w.gating (by rw [w.gatingDim]; rfl), w.gatingDim]
  have he : ∀ c t : ℝ, HasDerivAt (fun u : ℝ => Real.exp (c * u)) (c * Real.exp (c * t)) t := by
    intro c t
    have h1 : HasDerivAt (fun u : ℝ => c * u) c t := by
      simpa using (hasDerivAt_id t).const_mul c
    exact h1.exp.congr_deriv (by ring)
  have hl : ∀ t : ℝ, HasDerivAt (fun u : ℝ => 3 - 30 * u) (-30) t := fun t => by
    simpa using ((hasDerivAt_id t).const_mul (30 : ℝ)).const_sub 3
  have hl2 : ∀ t : ℝ, HasDerivAt (fun u : ℝ => 300 * u - 60) 300 t := fun t => by
    simpa using ((hasDerivAt_id t).const_mul (300 : ℝ)).sub_const 60
  have dy : ∀ t : ℝ, HasDerivAt (fun u : ℝ => 1 + (3 - 30 * u) * Real.exp (-10 * u) - 4 * Real.exp (-15 * u))
      (((300 * t - 60) * Real.exp (-10 * t) + 60 * Real.exp (-15 * t)) / 1) t := fun t =>
    ((((hl t).mul (he (-10) t)).const_add 1).sub ((he (-15) t).const_mul 4)).congr_deriv (by ring)
  have dz : ∀ t : ℝ, HasDerivAt (fun u : ℝ => (300 * u - 60) * Real.exp (-10 * u) + 60 * Real.exp (-15 * u))
      ((-(20 * 20 / 4) * (1 + (3 - 30 * t) * Real.exp (-10 * t) - 4 * Real.exp (-15 * t) -
        (1 - Real.exp (-15 * t))) - 20 * ((300 * t - 60) * Real.exp (-10 * t) + 60 * Real.exp (-15 * t))) /
        (1 * 1) + ((Sigmoid.forGating 1 0.1 1).xAt t).getD 0 0 * 0 / 1) t := fun t =>
    (((hl2 t).mul (he (-10) t)).add ((he (-15) t).const_mul 60)).congr_deriv (by ring)
  have dg : ∀ t : ℝ, HasDerivAt (fun u : ℝ => 1 - Real.exp (-15 * u)) (15 * (1 - (1 - Real.exp (-15 * t))) / 1) t :=
    fun t => ((he (-15) t).const_sub 1).congr_deriv (by ring)
  have cp : Continuous (fun t : ℝ => if t < 1 then t else (1 : ℝ)) := by
    have : (fun t : ℝ => if t < 1 then t else (1 : ℝ)) = fun t => min t 1 := by
      funext t
      split
      · rw [min_eq_left (by linarith)]
      · rw [min_eq_right (by linarith)]
    rw [this]
    fun_prop
  refine ⟨⟨fun t _ => ?_, fun i hi => ?_, fun t _ => ?_⟩, ?_⟩
  · rw [w.dimX, hd]; rfl
  · rw [w.dimX, hd] at hi
    refine Continuous.continuousOn ?_
    match i, hi with
    | 0, _ => exact continuous_iff_continuousAt.mpr fun t => (dy t).continuousAt
    | 1, _ => exact continuous_iff_continuousAt.mpr fun t => (dz t).continuousAt
    | 2, _ => exact continuous_iff_continuousAt.mpr fun t => (dg t).continuousAt
    | 3, _ => exact cp
    | 4, _ => exact continuous_iff_continuousAt.mpr fun t => (hq t).continuousAt
    | 5, _ => exact continuous_const
  · refine ⟨_, hvf _ _ _ _ _ _, ?_⟩
    obtain ⟨r, hr⟩ := List.length_eq_one_iff.mp (hql (((Sigmoid.forGating 1 0.1 1).xAt t).getD 0 0))
    have hqt := hq t
    rw [hr] at hqt ⊢
    intro i hi
    rw [w.dimX, hd] at hi
    match i, hi with
    | 0, _ => exact (dy t).hasDerivWithinAt
    | 1, _ => exact (dz t).hasDerivWithinAt
    | 2, _ => exact (dg t).hasDerivWithinAt
    | 3, _ =>
      change HasDerivWithinAt (fun u : ℝ => if u < 1 then u else (1 : ℝ))
        (if (if t < 1 then t else (1 : ℝ)) < 1 then 1 else 0) (Ici t) t
      by_cases ht : t < 1
      · rw [if_pos ht, if_pos ht]
        refine ((hasDerivAt_id t).congr_of_eventuallyEq ?_).hasDerivWithinAt
        filter_upwards [Iio_mem_nhds ht] with u hu
        exact if_pos hu
      · rw [if_neg ht, if_neg (lt_irrefl 1)]
        refine (hasDerivWithinAt_const t (Ici t) (1 : ℝ)).congr (fun u hu => ?_) (if_neg ht)
        exact if_neg (by have : t ≤ u := hu; linarith)
    | 4, _ => exact hqt.hasDerivWithinAt
    | 5, _ => exact hasDerivWithinAt_const t _ _
  · have hx : s.startX = [0, 0, 0, 0, 1, 20] := by
      unfold startX goalStart dampingStart
      rw [hgoal, hdamp, hd, hseq]
      rfl
    have hg := hi.good
    have hlen1 : ([0] : List ℝ).length = 1 := rfl
    have hsc : s.scaleGoal s.goalStart = .ok [0] := by
      rw [hscale]
      unfold goalStart
      rw [hgoal]
      rfl
    obtain ⟨c1, g1⟩ := started_good hg hlen1
    obtain ⟨xd, hxd⟩ : ∃ xd, (diffEq s.startX s).1 = .ok xd := ⟨_, by rw [hx]; exact hvf _ _ _ _ _ _⟩
    have hstb := (stable_diffEq (d := 1) (x := s.startX) (by rw [hx]; rfl) (s.started [0]) s g1 hg c1).1
    refine ⟨s.startX, xd, ?_, fun i hi' => ?_⟩
    · rw [integrateStart_run w, hsc]
      simp only
      rw [PyM.bind_apply]
      rw [hxd] at hstb
      rcases e : diffEq s.startX (s.started [0]) with ⟨r, t⟩
      rw [e] at hstb
      simp only at hstb
      rw [hstb]
      rfl
    · rw [hx]
      rw [hd] at hi'
      unfold joining
      have h0 : (Sigmoid.forGating 1 0.1 1).xAt 0 = [1] := hsol.start
      match i, hi' with
      | 2, _ => simp
      | 3, _ => simp
      | 4, _ => simp [h0]
      | 5, _ => rfl
      | n + 6, _ => rfl

end Dmp

end Verif
