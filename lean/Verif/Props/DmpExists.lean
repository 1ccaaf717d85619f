import Verif.Proofs.DmpAnalytical
import Verif.Proofs.MotionExists
import Verif.Proofs.SubExact
import Verif.Props.DmpCloseRun

/- Dmp: there is exactly one exact motion from each start (C84). -/

set_option autoImplicit false

namespace Verif

namespace Dmp

open Filter Topology Set Spec
open DynSys (Method)
open scoped NNReal

variable {d : Nat}

/-! ### Parts -/

/-- A constant motion. -/
theorem constant_motion (n : Nat) {c : List ℝ} (hc : c.length = n) :
    Motion n (fun _ xd => xd = vzeros n) fun _ => c := by
  refine ⟨fun _ _ => hc, fun i _ => continuousOn_const, fun t _ => ⟨_, rfl, fun i hi => ?_⟩⟩
  refine (hasDerivWithinAt_const t (Ici t) (c.getD i 0)).congr_deriv ?_
  rw [getD_lt (by simpa [vzeros] using hi)]
  exact (List.getElem_replicate _).symm

section
variable {s : Dmp} (h : Settles d s)
include h

theorem goal_exact : Motion s.dimY (fun x xd => xd = s.goalRate x) (fun t => s.goalAt t) ∧
    s.goalAt 0 = s.goalStart := by
  have w := h.inv.wf
  obtain rfl := h.inv.dim
  have hsync := h.inv.good.sync
  have hg := h.goal
  unfold goalRate goalAt goalStart
  cases e : s.goal with
  | none => exact ⟨constant_motion _ w.yAttr, rfl⟩
  | some g =>
    simp only [hsync g e]
    exact Sub.tends_exact (w.goal g e) (w.goalDim g e) (hg g e)

theorem damp_exact : Motion s.dimY (fun x xd => xd = s.dampingRate x) (fun t => s.dampAt t) ∧
    s.dampAt 0 = s.dampingStart := by
  have w := h.inv.wf
  obtain rfl := h.inv.dim
  have hg := h.damped
  unfold dampingRate dampAt dampingStart
  cases e : s.damping with
  | none => exact ⟨constant_motion _ (by simp [full]), rfl⟩
  | some g =>
    obtain ⟨c, -, hc⟩ := hg g e
    exact Sub.tends_exact (w.damping g e) (w.dampingDim g e) hc

theorem gating_exact : Motion 1 (fun x xd => xd = s.gating.rate x) (fun t => s.gating.xAt t) ∧
    s.gating.xAt 0 = s.gating.base.xInit :=
  Sub.tends_exact h.inv.wf.gating h.inv.wf.gatingDim h.gating

theorem phase_exact (hp : s.phase.FromStart) : Motion 1 (fun x xd => xd = s.phase.rate x) (fun t => s.phase.xAt t) ∧
    s.phase.xAt 0 = s.phase.base.xInit :=
  Sub.stays_exact h.inv.wf.phase h.inv.wf.phaseDim h.phase hp

end

/-! ### The spring-damper system -/

/-- Position and velocity in one dimension, for inputs that change continuously. -/
theorem pair_exists (s : Dmp) (i : Nat) {G : ℝ → ℝ} (hG : ContDiff ℝ 1 G) {p : ℝ → ℝ × ℝ × ℝ × ℝ}
    (hp : ContinuousOn p (Ici 0)) (x0 : ℝ × ℝ) :
    ∃ f : ℝ → ℝ × ℝ, f 0 = x0 ∧ ContinuousOn f (Ici 0) ∧
      ∀ t, 0 ≤ t → HasDerivWithinAt f (s.pairRate i G (f t, p t)) (Ici t) t := by
  have cF := (s.pairRate_smooth i hG).continuous
  refine exists_forever (F := fun t x => s.pairRate i G (x, p t)) (fun T hT => ?_)
    (fun x => cF.comp_continuousOn (continuousOn_const.prodMk hp)) x0
  have sub : Icc 0 T ⊆ Ici (0 : ℝ) := fun t h => h.1
  obtain ⟨M, hM⟩ := isCompact_Icc.exists_bound_of_continuousOn
    ((cF.comp_continuousOn (continuousOn_const.prodMk hp) :
      ContinuousOn (fun t => s.pairRate i G (0, p t)) (Ici 0)).mono sub)
  obtain ⟨B, hB⟩ := isCompact_Icc.exists_bound_of_continuousOn
    ((((s.dampOf_smooth i).continuous.comp_continuousOn (continuous_fst.comp_continuousOn
      (continuous_snd.comp_continuousOn hp))) : ContinuousOn (fun t => s.dampOf i (p t).2.1) (Ici 0)).mono sub)
  have B0 : 0 ≤ B := (norm_nonneg _).trans (hB 0 ⟨le_rfl, hT⟩)
  set m := s.spring.mass.at' i * s.spring.tau
  set k := s.spring.spring.at' i
  refine ⟨Real.toNNReal (|1 / s.spring.tau| + (|k| + B) * |1 / m|), M, fun t ht => ⟨?_, hM t ht⟩⟩
  refine LipschitzWith.of_dist_le_mul fun a b => ?_
  rw [Real.coe_toNNReal _ (by positivity), dist_eq_norm, dist_eq_norm]
  have h1 := norm_fst_le (a - b)
  have h2 := norm_snd_le (a - b)
  rw [Real.norm_eq_abs] at h1 h2
  change |a.1 - b.1| ≤ _ at h1
  change |a.2 - b.2| ≤ _ at h2
  have hBt := hB t ht
  rw [Real.norm_eq_abs] at hBt
  change |s.dampOf i (p t).2.1| ≤ B at hBt
  have e1 : (s.pairRate i G (a, p t) - s.pairRate i G (b, p t)).1 = 1 / s.spring.tau * (a.2 - b.2) := by
    change a.2 / _ - b.2 / _ = _
    ring
  have e2 : (s.pairRate i G (a, p t) - s.pairRate i G (b, p t)).2 =
      (-k * (a.1 - b.1) - s.dampOf i (p t).2.1 * (a.2 - b.2)) * (1 / m) := by
    change (-k * (a.1 - _) - _ * a.2) / m + _ - ((-k * (b.1 - _) - _ * b.2) / m + _) = _
    ring
  have n0 := norm_nonneg (a - b)
  refine norm_prod_le_iff.mpr ⟨?_, ?_⟩
  · rw [e1, Real.norm_eq_abs, abs_mul]
    have := mul_le_mul_of_nonneg_left h2 (abs_nonneg (1 / s.spring.tau))
    have : 0 ≤ (|k| + B) * |1 / m| * ‖a - b‖ := by positivity
    linarith
  · rw [e2, Real.norm_eq_abs, abs_mul]
    have h3 : |-k * (a.1 - b.1) - s.dampOf i (p t).2.1 * (a.2 - b.2)| ≤ (|k| + B) * ‖a - b‖ := by
      refine (abs_sub _ _).trans ?_
      rw [abs_mul, abs_mul, abs_neg]
      have := mul_le_mul_of_nonneg_left h1 (abs_nonneg k)
      have := mul_le_mul hBt h2 (abs_nonneg _) B0
      linarith
    have h4 := mul_le_mul_of_nonneg_right h3 (abs_nonneg (1 / m))
    have : 0 ≤ |1 / s.spring.tau| * ‖a - b‖ := by positivity
    linarith

/-! ### The whole state -/

section
variable {n : Nat} {y z g p q c : List ℝ} (h : Sizes n y z g p q c)
include h

theorem Sizes.getD_y {i : Nat} (hi : i < n) : (pack y z g p q c).getD i 0 = y.getD i 0 := by
  have := getD_pick (pack y z g p q c) (a := 0) hi
  rw [zero_add] at this
  rw [← this]
  exact congrArg (·.getD i 0) h.pick_SPRING_Y

theorem Sizes.getD_z {i : Nat} (hi : i < n) : (pack y z g p q c).getD (n + i) 0 = z.getD i 0 := by
  rw [← getD_pick _ hi]
  exact congrArg (·.getD i 0) h.pick_SPRING_Z

theorem Sizes.getD_g {i : Nat} (hi : i < n) : (pack y z g p q c).getD (n + n + i) 0 = g.getD i 0 := by
  rw [← getD_pick _ hi]
  exact congrArg (·.getD i 0) h.pick_GOAL

theorem Sizes.getD_p : (pack y z g p q c).getD (n + n + n) 0 = p.getD 0 0 := by
  rw [← add_zero (n + n + n), ← getD_pick _ Nat.one_pos]
  exact congrArg (·.getD 0 0) h.pick_PHASE

theorem Sizes.getD_q : (pack y z g p q c).getD (n + n + n + 1) 0 = q.getD 0 0 := by
  rw [← add_zero (n + n + n + 1), ← getD_pick _ Nat.one_pos]
  exact congrArg (·.getD 0 0) h.pick_GATING

theorem Sizes.getD_c {i : Nat} (hi : i < n) : (pack y z g p q c).getD (n + n + n + 2 + i) 0 = c.getD i 0 := by
  rw [← getD_pick _ hi]
  exact congrArg (·.getD i 0) h.pick_DAMPING

theorem Sizes.inputs {i : Nat} (hi : i < n) : inputsOf n i (pack y z g p q c) =
    (g.getD i 0, c.getD i 0, p.getD 0 0, q.getD 0 0) := by
  unfold inputsOf
  rw [h.getD_g hi, h.getD_c hi, h.getD_p, h.getD_q]

end

/-- The parts of a state. -/
theorem index_cases {n i : Nat} (hi : i < 4 * n + 2) :
    (i < n) ∨ (∃ j, j < n ∧ i = n + j) ∨ (∃ j, j < n ∧ i = n + n + j) ∨ i = n + n + n ∨ i = n + n + n + 1 ∨
      ∃ j, j < n ∧ i = n + n + n + 2 + j := by
  rcases lt_or_ge i n with c | c
  · exact .inl c
  rcases lt_or_ge i (n + n) with c | c
  · exact .inr (.inl ⟨i - n, by omega, by omega⟩)
  rcases lt_or_ge i (n + n + n) with c | c
  · exact .inr (.inr (.inl ⟨i - (n + n), by omega, by omega⟩))
  rcases Nat.eq_or_lt_of_le c with c | c
  · exact .inr (.inr (.inr (.inl c.symm)))
  rcases Nat.eq_or_lt_of_le c with c | c
  · exact .inr (.inr (.inr (.inr (.inl c.symm))))
  · exact .inr (.inr (.inr (.inr (.inr ⟨i - (n + n + n + 2), by omega, by omega⟩))))

/-- From each position and velocity there is a motion in which the subsystems move according to their analytical
solutions. -/
theorem exists_motion {s : Dmp} (h : Settles d s) (hp : s.phase.FromStart)
    (ht : ∀ x : List ℝ, x.length = 4 * d + 2 → ∃ xd, (diffEq x s).1 = .ok xd) {y0 z0 : List ℝ} (hy : y0.length = d)
    (hz : z0.length = d) :
    ∃ x y z : ℝ → List ℝ, Obeys s x ∧
      x 0 = pack y0 z0 s.goalStart s.phase.base.xInit s.gating.base.xInit s.dampingStart ∧
      ∀ t, Sizes s.dimY (y t) (z t) (s.goalAt t) (s.phase.xAt t) (s.gating.xAt t) (s.dampAt t) ∧
        x t = pack (y t) (z t) (s.goalAt t) (s.phase.xAt t) (s.gating.xAt t) (s.dampAt t) := by
  have w := h.inv.wf
  have dx := w.dimX
  obtain rfl := h.inv.dim
  obtain ⟨G, hG, hG2⟩ := s.predictions_smooth
  obtain ⟨mg, sg⟩ := goal_exact h
  obtain ⟨mc, sc⟩ := damp_exact h
  obtain ⟨mq, sq⟩ := gating_exact h
  obtain ⟨mp, sp⟩ := phase_exact h hp
  have ex : ∀ i : Nat, i < s.dimY → ∃ f : ℝ → ℝ × ℝ, f 0 = (y0.getD i 0, z0.getD i 0) ∧ ContinuousOn f (Ici 0) ∧
      ∀ t, 0 ≤ t → HasDerivWithinAt f (s.pairRate i (G i) (f t, ((s.goalAt t).getD i 0, (s.dampAt t).getD i 0,
        (s.phase.xAt t).getD 0 0, (s.gating.xAt t).getD 0 0))) (Ici t) t := fun i hi =>
    pair_exists s i (hG i) ((mg.cont i hi).prodMk ((mc.cont i hi).prodMk ((mp.cont 0 one_pos).prodMk
      (mq.cont 0 one_pos)))) _
  choose! f f0 cf df using ex
  let y : ℝ → List ℝ := fun t => (List.range s.dimY).map fun i => (f i t).1
  let z : ℝ → List ℝ := fun t => (List.range s.dimY).map fun i => (f i t).2
  have ey : ∀ t i, i < s.dimY → (y t).getD i 0 = (f i t).1 := fun t i hi => getD_range_map hi 0
  have ez : ∀ t i, i < s.dimY → (z t).getD i 0 = (f i t).2 := fun t i hi => getD_range_map hi 0
  have sz : ∀ t, Sizes s.dimY (y t) (z t) (s.goalAt t) (s.phase.xAt t) (s.gating.xAt t) (s.dampAt t) := fun t =>
    ⟨by simp [y], by simp [z], goalAt_length w t, (Sub.length_xAt w.phase t).trans w.phaseDim,
      (Sub.length_xAt w.gating t).trans w.gatingDim, dampAt_length w t⟩
  refine ⟨fun t => pack (y t) (z t) (s.goalAt t) (s.phase.xAt t) (s.gating.xAt t) (s.dampAt t), y, z, ?_, ?_,
    fun t => ⟨sz t, rfl⟩⟩
  · have len : ∀ t, (pack (y t) (z t) (s.goalAt t) (s.phase.xAt t) (s.gating.xAt t) (s.dampAt t)).length = s.dimX :=
      fun t => (sz t).length.trans dx.symm
    refine ⟨fun t _ => len t, fun i hi => ?_, fun t t0 => ?_⟩
    · rw [dx] at hi
      rcases index_cases hi with c | ⟨j, hj, rfl⟩ | ⟨j, hj, rfl⟩ | rfl | rfl | ⟨j, hj, rfl⟩
      · simp only [(sz _).getD_y c, ey _ _ c]
        exact continuous_fst.comp_continuousOn (cf i c)
      · simp only [(sz _).getD_z hj, ez _ _ hj]
        exact continuous_snd.comp_continuousOn (cf j hj)
      · simp only [(sz _).getD_g hj]
        exact mg.cont j hj
      · simp only [(sz _).getD_p]
        exact mp.cont 0 one_pos
      · simp only [(sz _).getD_q]
        exact mq.cont 0 one_pos
      · simp only [(sz _).getD_c hj]
        exact mc.cont j hj
    · obtain ⟨xd, hxd⟩ := ht _ ((len t).trans dx)
      refine ⟨xd, hxd, fun i hi => ?_⟩
      have pr : ∀ j, j < s.dimY → (xd.getD j 0, xd.getD (s.dimY + j) 0) = s.pairRate j (G j) (f j t,
          ((s.goalAt t).getD j 0, (s.dampAt t).getD j 0, (s.phase.xAt t).getD 0 0, (s.gating.xAt t).getD 0 0)) := by
        intro j hj
        rw [pair_rates w hG2 (len t) hxd hj, (sz t).inputs hj, (sz t).getD_y hj, (sz t).getD_z hj, ey t j hj, ez t j hj]
      obtain ⟨ga, fo, -, -, -, -, rg, rp, rq, rc⟩ := rates w (len t) hxd
      rw [(sz t).pick_GOAL] at rg
      rw [(sz t).pick_PHASE] at rp
      rw [(sz t).pick_GATING] at rq
      rw [(sz t).pick_DAMPING] at rc
      rw [dx] at hi
      rcases index_cases hi with c | ⟨j, hj, rfl⟩ | ⟨j, hj, rfl⟩ | rfl | rfl | ⟨j, hj, rfl⟩
      · simp only [(sz _).getD_y c, ey _ _ c]
        have := (df i c t t0).fst
        rw [← pr i c] at this
        exact this
      · simp only [(sz _).getD_z hj, ez _ _ hj]
        have := (df j hj t t0).snd
        rw [← pr j hj] at this
        exact this
      · simp only [(sz _).getD_g hj]
        obtain ⟨r, hr, hd⟩ := mg.ode t t0
        refine (hd j hj).congr_deriv ?_
        rw [hr, ← rg]
        exact getD_pick xd hj
      · simp only [(sz _).getD_p]
        obtain ⟨r, hr, hd⟩ := mp.ode t t0
        refine (hd 0 one_pos).congr_deriv ?_
        rw [hr, ← rp]
        exact getD_pick xd one_pos
      · simp only [(sz _).getD_q]
        obtain ⟨r, hr, hd⟩ := mq.ode t t0
        refine (hd 0 one_pos).congr_deriv ?_
        rw [hr, ← rq]
        exact getD_pick xd one_pos
      · simp only [(sz _).getD_c hj]
        obtain ⟨r, hr, hd⟩ := mc.ode t t0
        refine (hd j hj).congr_deriv ?_
        rw [hr, ← rc]
        exact getD_pick xd hj
  · have e1 : y 0 = y0 := ext_getD 0 (by simp [y, hy]) fun i hi => by
      have hi : i < s.dimY := by simpa [y] using hi
      rw [ey 0 i hi, f0 i hi]
    have e2 : z 0 = z0 := ext_getD 0 (by simp [z, hz]) fun i hi => by
      have hi : i < s.dimY := by simpa [z] using hi
      rw [ez 0 i hi, f0 i hi]
    simp only [e1, e2, sg, sp, sq, sc]

end Dmp

end Verif
