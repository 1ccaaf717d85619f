import Verif.Props.ForceFieldCases

/-
Following a Dmp in a force field (C81): the task solver.
-/

set_option autoImplicit false

namespace Verif.ForceField

open Spec
open Dmp (Reachable DefaultLike Change)
open DmpWithSchedules (constFa)

theorem setParamVector_dmp {values : List ℝ} {s s' : DmpWithSchedules} {u : Unit}
    (h : DmpWithSchedules.setParamVector values s = (.ok u, s')) :
    s'.dmp = s.dmp ∨ ∃ v, s'.dmp = (Dmp.setParamVector v s.dmp).2 := by
  unfold DmpWithSchedules.setParamVector at h
  rw [PyM.self_bind] at h
  obtain ⟨size, s1, p1, h⟩ := PyM.bind_inv h
  have e1 : s1 = s := by
    cases e : s.paramVectorSize with
    | error er => rw [e] at p1; cases p1
    | ok v => rw [e] at p1; cases p1; rfl
  subst e1
  by_cases hl : values.length ≠ size
  · rw [if_pos hl] at h
    cases h
  rw [if_neg hl] at h
  obtain ⟨n, s2, p2, h⟩ := PyM.bind_inv h
  have e2 : s2 = s1 := by
    cases e : s1.dmp.paramVectorSize with
    | error er => rw [e] at p2; cases p2
    | ok v => rw [e] at p2; cases p2; rfl
  subst e2
  by_cases hf : DmpWithSchedules.floatSize s2.dmp = true
  · rw [if_pos hf] at h
    cases h
  rw [if_neg hf] at h
  have sched : ∀ {s3 : DmpWithSchedules}, (do
      let _ ← DmpWithSchedules.onSched ⟨Dmp.setFas (List.drop n values)⟩
      pure () : PyM DmpWithSchedules Unit) s3 = (.ok u, s') → s'.dmp = s3.dmp := by
    intro s3 h
    obtain ⟨u2, s4, p4, h⟩ := PyM.bind_inv h
    cases h
    exact congrArg (fun r => r.2.dmp) p4.symm
  by_cases hn : n > 0
  · simp only at h
    rw [if_pos hn] at h
    obtain ⟨u1, s3, p3, h⟩ := PyM.bind_inv h
    right
    refine ⟨List.take n values, (sched h).trans ?_⟩
    exact congrArg (fun r => r.2.dmp) p3.symm
  · simp only at h
    rw [if_neg hn] at h
    exact .inl (sched h)

/-- The parameters of a sample do not change the duration. -/
theorem keep_tau (t : ℝ) (values : List ℝ) : Dmp.Keep (fun s => s.tau = t) (Dmp.setParamVector values) := by
  unfold Dmp.setParamVector
  refine Dmp.Keep.self fun s => (Dmp.Keep.lift _).bind fun size => ?_
  by_cases h : values.length ≠ size
  · rw [if_pos h]; exact Dmp.Keep.raise _
  rw [if_neg h]
  refine Dmp.Keep.bind ?_ fun rest => ?_
  · cases s.fas with
    | none => exact Dmp.Keep.pure _
    | some _ =>
      intro s hs
      unfold Dmp.onFas
      cases e : s.fas with
      | none => simp only [e]; exact hs
      | some fas => simp only [e]; exact hs
  · by_cases hg : "goal" ∈ s.selected
    · rw [if_pos hg]
      generalize rest.take s.dimY = y
      unfold Dmp.setYAttr
      refine Dmp.Keep.self fun s => ?_
      by_cases hl : y.length ≠ s.dimY
      · rw [if_pos hl]; exact Dmp.Keep.raise _
      · rw [if_neg hl]
        refine Dmp.Keep.bind (fun s hs => hs) fun _ => ?_
        cases s.goal with
        | none => exact Dmp.Keep.pure _
        | some g =>
          by_cases hr : s.requiresScaling = true
          · simp only [hr, if_true]; exact Dmp.Keep.pure _
          · simp only [hr]
            intro s hs
            change (Dmp.onGoal _ s).2.tau = t
            unfold Dmp.onGoal
            cases e : s.goal with
            | none => simp only [e]; exact hs
            | some fas => simp only [e]; exact hs
    · rw [if_neg hg]; exact Dmp.Keep.pure _

/-- The parameters of a sample do not affect what is assumed of the Dmp. -/
theorem setParamVector_reachable {d : Nat} {values : List ℝ} {s s' : DmpWithSchedules} {u : Unit}
    (hs : Reachable DefaultLike Change.Valid d s.dmp)
    (h : DmpWithSchedules.setParamVector values s = (.ok u, s')) : Reachable DefaultLike Change.Valid d s'.dmp := by
  rcases setParamVector_dmp h with e | ⟨v, e⟩
  · rw [e]; exact hs
  · rw [e]; exact hs.change (.params v) trivial

/-- One of the seven blocks of `d` columns after the column with the times. -/
theorem block {d : Nat} {t : ℝ} {bs : List (List ℝ)} (hb : ∀ b ∈ bs, b.length = d) {k j : Nat} (hk : k < bs.length)
    (hj : j < d) : (t :: bs.flatten).getD (1 + k * d + j) 0 = (bs.getD k []).getD j 0 := by
  have h1 : (t :: bs.flatten).getD (1 + k * d + j) 0 = bs.flatten.getD (k * d + j) 0 := by
    rw [show 1 + k * d + j = (k * d + j) + 1 by omega]
    rfl
  rw [h1]
  clear h1
  induction bs generalizing k with
  | nil => simp at hk
  | cons b bs ih =>
    have hl : b.length = d := hb b (by simp)
    rw [List.flatten_cons]
    cases k with
    | zero =>
      rw [zero_mul, zero_add, getD_append_left' (by omega)]
      rfl
    | succ k =>
      have := ih (fun b hb' => hb b (by simp [hb'])) (k := k) (by simpa using hk)
      rw [List.getD_append_right _ _ _ _ (by rw [hl]; nlinarith), hl,
        show (k + 1) * d + j - d = k * d + j by
          have : (k + 1) * d = k * d + d := by ring
          omega]
      exact this

/-- C81, for the task solver: the parameters of the sample are set first; the cost-relevant variables have
one row for each time, with the time and the positions, velocities and accelerations, the gains, and the
desired positions, velocities and accelerations. The strength of the field is -20 unless it is drawn, and the
field is strongest after half of the duration of the Dmp. -/
theorem C81_solver (d : Nat) (solver : Solver) (sample : List ℝ) (draw : ℝ) (s s' : DmpWithSchedules) (cv : Arr2 ℝ)
    (hs : Reachable DefaultLike Change.Valid d s.dmp) (hτ : 0 < s.dmp.tau)
    (h : solver.performRollout sample draw s = (.ok cv, s')) :
    ∃ s1 r, DmpWithSchedules.setParamVector sample s = (.ok (), s1) ∧
      performRollout solver.integrateTime solver.nTimeSteps (if solver.stochasticField then draw else -20)
        (s.dmp.tau / 2) s1 = (.ok r, s') ∧
      cv.cols = 1 + 7 * d ∧ cv.rows.length = solver.nTimeSteps.toNat ∧ ∀ i, i < solver.nTimeSteps.toNat →
        (cv.rows.getD i []).length = 1 + 7 * d ∧
        (cv.rows.getD i []).getD 0 0 = i * stepLength solver.integrateTime solver.nTimeSteps ∧ ∀ j, j < d →
          (cv.rows.getD i []).getD (1 + 0 * d + j) 0 = (r.ysCur.getD i []).getD j 0 ∧
          (cv.rows.getD i []).getD (1 + 1 * d + j) 0 = (r.ydsCur.getD i []).getD j 0 ∧
          (cv.rows.getD i []).getD (1 + 2 * d + j) 0 = (r.yddsCur.getD i []).getD j 0 ∧
          (cv.rows.getD i []).getD (1 + 3 * d + j) 0 = (r.schedules.getD i []).getD j 0 ∧
          (cv.rows.getD i []).getD (1 + 4 * d + j) 0 = (r.ysDes.getD i []).getD j 0 ∧
          (cv.rows.getD i []).getD (1 + 5 * d + j) 0 = (r.ydsDes.getD i []).getD j 0 ∧
          (cv.rows.getD i []).getD (1 + 6 * d + j) 0 = (r.yddsDes.getD i []).getD j 0 := by
  unfold Solver.performRollout at h
  obtain ⟨u, s1, p1, h⟩ := PyM.bind_inv h
  have hs1 := setParamVector_reachable hs p1
  have et : s1.dmp.tau = s.dmp.tau := by
    rcases setParamVector_dmp p1 with e | ⟨v, e⟩
    · rw [e]
    · rw [e]; exact keep_tau s.dmp.tau v s.dmp rfl
  unfold Solver.performRolloutDmpSched at h
  rw [PyM.self_bind] at h
  obtain ⟨r, s2, p2, h⟩ := PyM.bind_inv h
  rw [PyM.self_bind] at h
  cases h
  rw [show (0.5 : ℝ) * s1.dmp.tau = s.dmp.tau / 2 by rw [et]; ring] at p2
  obtain ⟨hn, e2, rows, hi, fol⟩ := C81_rollout d s1 s' hs1 _ _ _ (by linarith) _ r p2
  have hd : s'.dmp.dimY = d := by
    have g := hs1.inv.good
    obtain ⟨hc, g1⟩ := ThrowBall.stable_run (Dmp.stable_integrate _ _) g hi
    exact g1.dim
  have hlen : r.ts.length = solver.nTimeSteps.toNat := by rw [fol.ts]; simp [Cpp.Dmp.evenly]
  refine ⟨s1, r, p1, p2, ?_, ?_, fun i hi => ?_⟩
  · unfold costVars
    rw [hd]
  · unfold costVars
    simp [hlen]
  have hrow : (costVars s'.dmp.dimY r).rows.getD i [] = r.ts.getD i 0 :: [r.ysCur.getD i [], r.ydsCur.getD i [],
      r.yddsCur.getD i [], r.schedules.getD i [], r.ysDes.getD i [], r.ydsDes.getD i [], r.yddsDes.getD i []].flatten := by
    unfold costVars
    simp only
    rw [getD_range_map (by rw [hlen]; exact hi)]
    simp
  obtain ⟨z1, z2, z3⟩ := fol.sizes i hi
  have hde := fol.desired i hi
  obtain ⟨z4, z5, z6⟩ := motion_sized (s := s1.dmp) hs1.inv.good.dim rows i
  rw [← hde] at z4 z5 z6
  obtain ⟨v, -, b2⟩ := fol.gains i hi
  have z7 := gainsRow_length b2
  have hb : ∀ b ∈ [r.ysCur.getD i [], r.ydsCur.getD i [], r.yddsCur.getD i [], r.schedules.getD i [],
      r.ysDes.getD i [], r.ydsDes.getD i [], r.yddsDes.getD i []], b.length = d := by
    simp only [List.mem_cons, List.not_mem_nil, or_false, forall_eq_or_imp, forall_eq]
    exact ⟨z1, z2, z3, z7, z4, z5, z6⟩
  rw [hrow]
  refine ⟨?_, ?_, fun j hj => ⟨block hb (by simp) hj, block hb (by simp) hj, block hb (by simp) hj,
    block hb (by simp) hj, block hb (by simp) hj, block hb (by simp) hj, block hb (by simp) hj⟩⟩
  · simp only [List.length_cons, List.flatten_cons, List.flatten_nil, List.length_append, List.append_nil]
    simp only at z1 z2 z3 z4 z5 z6
    omega
  · change r.ts.getD i 0 = _
    rw [fol.ts]
    unfold Cpp.Dmp.evenly
    rw [getD_range_map (by omega)]
    ring

/-- C81: the times end at `tau * factor`; their distance is at least `dt` and less than `2 dt`. -/
theorem C81_times (tau dt factor : ℝ) (b : Bool) (solver : Solver) (hdt : 0 < dt) (hT : dt ≤ tau * factor)
    (h : Solver.init tau dt factor b = .ok solver) :
    solver.integrateTime = tau * factor ∧ solver.stochasticField = b ∧ 2 ≤ solver.nTimeSteps ∧
      dt ≤ stepLength solver.integrateTime solver.nTimeSteps ∧
      stepLength solver.integrateTime solver.nTimeSteps < 2 * dt := by
  unfold Solver.init at h
  rw [if_neg hdt.ne'] at h
  cases h
  have q1 : 1 ≤ tau * factor / dt := by rw [le_div_iff₀ hdt]; linarith
  have f1 : 1 ≤ ⌊tau * factor / dt⌋ := Int.le_floor.mpr (by exact_mod_cast q1)
  have f2 := Int.floor_le (tau * factor / dt)
  have f3 := Int.lt_floor_add_one (tau * factor / dt)
  have f4 : (1 : ℝ) ≤ (⌊tau * factor / dt⌋ : ℝ) := by exact_mod_cast f1
  refine ⟨rfl, rfl, by simp only; omega, ?_, ?_⟩
  · unfold stepLength
    simp only
    push_cast
    rw [add_sub_cancel_right, le_div_iff₀ (by linarith)]
    rw [le_div_iff₀ hdt] at f2
    linarith
  · unfold stepLength
    simp only
    push_cast
    rw [add_sub_cancel_right, div_lt_iff₀ (by linarith)]
    rw [div_lt_iff₀ hdt] at f3
    nlinarith

end Verif.ForceField
