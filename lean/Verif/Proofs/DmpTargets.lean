import Verif.Proofs.DmpKept

/- Helper lemmas about a Dmp: targets for training, predictions for single phases. -/

set_option autoImplicit false

namespace Verif

namespace Dmp

variable {d : Nat}

/-! ### Predictions for single phases -/

theorem faColumn_single {fas : List Fa} {ps c : List ℝ} {i k : Nat} (hk : k < ps.length)
    (h : faColumn fas ps i = .ok c) : faColumn fas [ps.getD k 0] i = .ok [c.getD k 0] := by
  unfold faColumn at h ⊢
  cases e : fas[i]? with
  | none => rw [e] at h; cases h
  | some fa =>
    rw [e] at h
    simp only at h ⊢
    by_cases hm : fa.model.isSome = true
    · rw [if_pos hm] at h ⊢
      obtain ⟨p, hp, hc⟩ := except_bind_ok h
      cases hc
      have := (C39_batch fa (by omega) _ p).mp hp ⟨k, hk⟩
      have e1 : (fun (t : Fin [ps.getD k 0].length) (_ : Fin 1) => [ps.getD k 0][t]) =
          fun (_ : Fin 1) (_ : Fin 1) => ps[(⟨k, hk⟩ : Fin ps.length)] := by
        funext t _
        have : t = 0 := Fin.fin_one_eq_zero t
        subst this
        simp [List.getD_eq_getElem?_getD, hk]
      rw [e1]
      refine (congrArg (fun x : Except PyErr (Fin 1 → ℝ) =>
        x >>= fun v => (.ok (List.ofFn v) : Except PyErr (List ℝ))) this).trans ?_
      refine congrArg Except.ok ?_
      simp [List.getD_eq_getElem?_getD, hk]
    · rw [if_neg hm] at h ⊢
      cases h
      simp [vzeros, List.getD_replicate]

/-- Predictions are made phase by phase. -/
theorem predictions_single {s : Dmp} {ps : List ℝ} {r : List (List ℝ)} (h : s.predictions ps = .ok r)
    {k : Nat} (hk : k < ps.length) : s.predictions [ps.getD k 0] = .ok [r.getD k []] := by
  unfold predictions at h ⊢
  cases e : s.fas with
  | none =>
    rw [e] at h
    cases h
    simp [hk]
  | some fas =>
    cases fas with
    | nil =>
      rw [e] at h
      cases h
      simp [hk]
    | cons f fs =>
      rw [e] at h
      simp only at h ⊢
      obtain ⟨cols, h1, h2⟩ := except_bind_ok h
      cases h2
      have h3 : (List.range s.dimY).mapM (faColumn (f :: fs) [ps.getD k 0]) =
          .ok (cols.map fun c => [c.getD k 0]) := by
        rw [mapM_ok] at h1 ⊢
        rw [List.forall₂_map_right_iff]
        exact h1.imp fun _ _ => faColumn_single hk
      rw [h3, except_ok_bind]
      refine congrArg Except.ok ?_
      simp only [List.length_singleton, List.range_one, List.map_cons, List.map_nil, List.map_map]
      rw [getD_range_map hk]
      rfl

/-! ### Targets -/

theorem divide_ok {a b r : List ℝ} (h : divide a b = .ok r) : 0 ∉ b ∧ r = vdiv a b := by
  unfold divide at h
  by_cases h0 : 0 ∈ b
  · rw [if_pos h0] at h; cases h
  · rw [if_neg h0] at h; cases h; exact ⟨h0, rfl⟩

theorem getD_ne_zero {b : List ℝ} (h : 0 ∉ b) {j : Nat} (hj : j < b.length) : b.getD j 0 ≠ 0 := by
  intro e
  apply h
  rw [getD_lt hj] at e
  rw [← e]
  exact List.getElem_mem hj

theorem divide_mul {a b r : List ℝ} {n : Nat} (ha : a.length = n) (hb : b.length = n)
    (h : divide a b = .ok r) : r.length = n ∧
      ∀ j, j < n → b.getD j 0 ≠ 0 ∧ b.getD j 0 * r.getD j 0 = a.getD j 0 := by
  obtain ⟨h0, rfl⟩ := divide_ok h
  refine ⟨by simp [ha, hb], fun j hj => ?_⟩
  have hn := getD_ne_zero h0 (hb ▸ hj)
  refine ⟨hn, ?_⟩
  rw [getD_vdiv (by omega) (by omega)]
  field_simp

/-- Undoing the scaling. -/
theorem unscale_ok {s : Dmp} (w : s.Wf) {f r : List ℝ} (hf : f.length = s.dimY)
    (h : s.unscale f = .ok r) : s.CanForce ∧ r.length = s.dimY ∧
      ∀ j, j < s.dimY → s.forcingFactor j ≠ 0 ∧ s.forcingFactor j * r.getD j 0 = f.getD j 0 := by
  unfold unscale at h
  unfold CanForce forcingFactor
  cases e : s.scaling with
  | noScaling =>
    rw [e] at h
    cases h
    exact ⟨trivial, hf, fun j _ => ⟨one_ne_zero, one_mul _⟩⟩
  | gMinusY0 =>
    rw [e] at h
    simp only at h
    obtain ⟨y0, h1, h2⟩ := except_bind_ok h
    unfold getYInit at h1
    cases e2 : s.yInit? with
    | none => rw [e2] at h1; cases h1
    | some y =>
      rw [e2] at h1
      cases h1
      have ly := w.yInit _ e2
      obtain ⟨l, hm⟩ := divide_mul hf (by simp [ly, w.yAttr]) h2
      refine ⟨Option.some_ne_none _, l, fun j hj => ?_⟩
      have := hm j hj
      rwa [getD_vsub (by rw [w.yAttr]; exact hj) (by rw [ly]; exact hj)] at this
  | amplitude =>
    rw [e] at h
    simp only at h
    cases e2 : s.amplitudes with
    | none => rw [e2] at h; cases h
    | some a =>
      rw [e2] at h
      obtain ⟨l, hm⟩ := divide_mul hf (w.amplitudes a e2) h
      exact ⟨Option.some_ne_none _, l, hm⟩

theorem unscale_exists {s : Dmp} (w : s.Wf) (hc : s.CanForce) {f : List ℝ} (hf : f.length = s.dimY)
    (h : ∀ j, j < s.dimY → s.forcingFactor j ≠ 0) : ∃ r, s.unscale f = .ok r := by
  unfold CanForce at hc
  unfold forcingFactor at h
  unfold unscale
  have key : ∀ {b : List ℝ}, b.length = s.dimY → (∀ j, j < s.dimY → b.getD j 0 ≠ 0) → 0 ∉ b := by
    intro b hb h0 hm
    obtain ⟨j, hj, e⟩ := List.getElem_of_mem hm
    exact h0 j (hb ▸ hj) (by rw [getD_lt hj, e])
  cases e : s.scaling with
  | noScaling => exact ⟨_, rfl⟩
  | gMinusY0 =>
    rw [e] at h hc
    cases e2 : s.yInit? with
    | none => exact absurd e2 hc
    | some y =>
      rw [e2] at h
      have ly := w.yInit y e2
      have h0 : 0 ∉ vsub s.yAttr y := by
        refine key (by simp [ly, w.yAttr]) fun j hj => ?_
        rw [getD_vsub (by rw [w.yAttr]; exact hj) (by rw [ly]; exact hj)]
        exact h j hj
      refine ⟨vdiv f (vsub s.yAttr y), ?_⟩
      simp only [getYInit, e2, except_ok_bind, divide, if_neg h0]
  | amplitude =>
    rw [e] at h hc
    cases e2 : s.amplitudes with
    | none => exact absurd e2 hc
    | some a =>
      rw [e2] at h
      have h0 : 0 ∉ a := key (w.amplitudes a e2) h
      exact ⟨vdiv f a, by simp only [divide, if_neg h0]⟩

/-- What the forcing term must be for the demonstrated acceleration. -/
noncomputable def needed (s : Dmp) (t : ℝ) (y yd ydd : List ℝ) (j : Nat) : ℝ :=
  s.tau * s.tau * ydd.getD j 0 +
    (s.spring.spring.at' j * (y.getD j 0 - (s.scaled (s.goalAt t)).getD j 0) +
      (s.dampAt t).getD j 0 * s.tau * yd.getD j 0) / s.spring.mass.at' j

theorem inverse_eq {s : Dmp} (t : ℝ) (y yd ydd : List ℝ) :
    s.inverse (if s.damping.isSome then .array (s.dampAt t) else s.spring.damping)
      (s.scaled (s.goalAt t)) y yd ydd = (List.range s.dimY).map (s.needed t y yd ydd) := by
  unfold inverse
  apply List.map_congr_left
  intro j hj
  have hj := List.mem_range.mp hj
  have e : (if s.damping.isSome then .array (s.dampAt t) else s.spring.damping : Par ℝ).at' j =
      (s.dampAt t).getD j 0 := by
    unfold dampAt
    cases e : s.damping with
    | none =>
      rw [if_neg (by simp)]
      simp only
      rw [full, getD_range_map hj]
    | some g => rw [if_pos (by simp)]; rfl
  rw [e]
  rfl

/-- Targets, as factors of gating and scaling. -/
theorem targetRow_ok {s : Dmp} (w : s.Wf) (hc : s.CanScale) {ts : List ℝ} {F : List (List ℝ)} {k : Nat}
    {y yd ydd r : List ℝ} (h : s.targetRow (s.xRow ts F k) y yd ydd = .ok r) :
    s.CanForce ∧ r.length = s.dimY ∧ ∀ j, j < s.dimY →
      (s.gating.xAt (ts.getD k 0)).getD 0 0 ≠ 0 ∧ s.forcingFactor j ≠ 0 ∧
      s.forcingFactor j * ((s.gating.xAt (ts.getD k 0)).getD 0 0 * r.getD j 0) =
        s.needed (ts.getD k 0) y yd ydd j := by
  unfold targetRow at h
  have sx := xRow_sizes w ts F k
  have e1 : pickAt (s.xRow ts F k) (GOAL s.dimY) = _ := sx.pick_GOAL
  have e2 : pickAt (s.xRow ts F k) (DAMPING s.dimY) = _ := sx.pick_DAMPING
  have e3 : pickAt (s.xRow ts F k) (GATING s.dimY) = _ := sx.pick_GATING
  simp only [e1, e2, e3] at h
  rw [scaleGoal_ok hc, except_ok_bind, inverse_eq] at h
  obtain ⟨f, h1, h2⟩ := except_bind_ok h
  obtain ⟨l1, m1⟩ := divide_mul (n := s.dimY) (by simp) (by simp) h1
  obtain ⟨hcf, l2, m2⟩ := unscale_ok w l1 h2
  refine ⟨hcf, l2, fun j hj => ?_⟩
  obtain ⟨n1, q1⟩ := m1 j hj
  obtain ⟨n2, q2⟩ := m2 j hj
  rw [getD_replicate' hj] at n1 q1
  rw [getD_range_map hj] at q1
  refine ⟨n1, n2, ?_⟩
  rw [← q1, ← q2]
  ring

theorem targetRow_exists {s : Dmp} (w : s.Wf) (hc : s.CanScale) (hf : s.CanForce) {ts : List ℝ}
    {F : List (List ℝ)} {k : Nat} {y yd ydd : List ℝ}
    (hq : s.dimY ≠ 0 → (s.gating.xAt (ts.getD k 0)).getD 0 0 ≠ 0)
    (hs : ∀ j, j < s.dimY → s.forcingFactor j ≠ 0) :
    ∃ r, s.targetRow (s.xRow ts F k) y yd ydd = .ok r := by
  unfold targetRow
  have sx := xRow_sizes w ts F k
  have e1 : pickAt (s.xRow ts F k) (GOAL s.dimY) = _ := sx.pick_GOAL
  have e2 : pickAt (s.xRow ts F k) (DAMPING s.dimY) = _ := sx.pick_DAMPING
  have e3 : pickAt (s.xRow ts F k) (GATING s.dimY) = _ := sx.pick_GATING
  simp only [e1, e2, e3]
  rw [scaleGoal_ok hc, except_ok_bind, inverse_eq]
  have h0 : 0 ∉ List.replicate s.dimY ((s.gating.xAt (ts.getD k 0)).getD 0 0) := by
    intro hm
    have := List.mem_replicate.mp hm
    exact hq this.1 this.2.symm
  rw [divide, if_neg h0, except_ok_bind]
  exact unscale_exists w hf (by simp) hs

theorem computeTargets_inv {s : Dmp} (w : s.Wf) {traj : Trajectory ℝ} {phases : List ℝ}
    {targets : List (List ℝ)} : (computeTargets traj s).1 = .ok (phases, targets) ↔
    s.dimY = traj.ys.cols ∧ ∃ sol, s.solve traj.ts false = .ok sol ∧
      phases = sol.xs.map (fun x => (pickAt x (PHASE s.dimY)).getD 0 0) ∧
      (List.range traj.ts.length).mapM (fun t => s.targetRow (sol.xs.getD t [])
        (traj.ys.rows.getD t []) (traj.yds.rows.getD t []) (traj.ydds.rows.getD t [])) = .ok targets := by
  unfold computeTargets
  rw [PyM.self_bind]
  by_cases hd : s.dimY ≠ traj.ys.cols
  · rw [if_pos hd]
    constructor
    · intro h; cases h
    · rintro ⟨h, -⟩; exact absurd h hd
  rw [if_neg hd]
  rw [ne_eq, not_not] at hd
  cases e : s.solve traj.ts false with
  | error er =>
    have h1 := analytical_run w traj.ts false
    rw [e] at h1
    rw [PyM.bind_error h1]
    constructor
    · intro h; cases h
    · rintro ⟨-, sol, h, -⟩; cases h
  | ok sol =>
    obtain ⟨fa, h1, h2⟩ := except_bind_ok e
    obtain ⟨F, h3, h4⟩ := except_bind_ok h2
    have hrun := analytical_run w traj.ts false
    rw [e, h1, except_ok_bind, h3] at hrun
    rw [PyM.bind_ok hrun, PyM.self_bind]
    have ht : ∀ x y yd ydd, targetRow { s with
          phase := s.phase.touch
          gating := s.gating.touch
          goal := s.goal.map Sub.touch
          damping := s.damping.map Sub.touch } x y yd ydd = s.targetRow x y yd ydd := by
      intro x y yd ydd
      unfold targetRow
      simp only [Option.isSome_map]
      rfl
    simp only [ht]
    constructor
    · intro h
      refine ⟨hd, sol, rfl, ?_⟩
      cases e5 : (List.range traj.ts.length).mapM (fun t => s.targetRow (sol.xs.getD t [])
        (traj.ys.rows.getD t []) (traj.yds.rows.getD t []) (traj.ydds.rows.getD t [])) with
      | error er => rw [e5, PyM.lift_error_bind] at h; cases h
      | ok r =>
        rw [e5, PyM.lift_ok_bind] at h
        cases h
        exact ⟨rfl, rfl⟩
    · rintro ⟨-, sol', h5, rfl, h7⟩
      cases h5
      rw [h7, PyM.lift_ok_bind]
      rfl

/-- Targets: how they were computed. -/
theorem computeTargets_ok {s : Dmp} (w : s.Wf) (hτ : s.SameStart) {traj : Trajectory ℝ}
    {phases : List ℝ} {targets : List (List ℝ)}
    (h : (computeTargets traj s).1 = .ok (phases, targets)) :
    s.dimY = traj.ys.cols ∧ s.CanScale ∧ s.CanForce ∧ traj.ts ≠ [] ∧
      phases = traj.ts.map (fun t => (s.phase.xAt t).getD 0 0) ∧ targets.length = traj.ts.length ∧
      ∀ k, k < traj.ts.length → (targets.getD k []).length = s.dimY ∧ ∀ j, j < s.dimY →
        (s.gating.xAt (traj.ts.getD k 0)).getD 0 0 ≠ 0 ∧ s.forcingFactor j ≠ 0 ∧
        s.forcingFactor j * ((s.gating.xAt (traj.ts.getD k 0)).getD 0 0 * (targets.getD k []).getD j 0) =
          s.needed (traj.ts.getD k 0) (traj.ys.rows.getD k []) (traj.yds.rows.getD k [])
            (traj.ydds.rows.getD k []) j := by
  obtain ⟨hd, sol, h1, h2, h3⟩ := (computeTargets_inv w).mp h
  obtain ⟨hc, hf, hts, fa, hfa⟩ := solve_inv w h1
  rw [solve_ok w hτ hc hf hts hfa] at h1
  cases h1
  have h4 := mapM_ok.mp h3
  have hl : targets.length = traj.ts.length := by simpa using h4.length_eq.symm
  refine ⟨hd, hc, hf, hts, ?_, hl, fun k hk => ?_⟩
  · rw [h2]
    simp only [List.map_map]
    apply ext_getD 0
    · simp
    · intro k hk
      have hk : k < traj.ts.length := by simpa using hk
      rw [getD_range_map hk, getD_map' hk 0 0]
      simp only [Function.comp]
      have : pickAt (s.xRow traj.ts (s.gated traj.ts fa) k) (PHASE s.dimY) = _ :=
        (xRow_sizes w traj.ts (s.gated traj.ts fa) k).pick_PHASE
      rw [this]
  · have h5 := (List.forall₂_iff_get.mp h4).2 k (by simpa using hk) (by omega)
    simp only [List.get_eq_getElem, List.getElem_range] at h5
    have e : ((List.range traj.ts.length).map (s.xRow traj.ts (s.gated traj.ts fa))).getD k [] =
        s.xRow traj.ts (s.gated traj.ts fa) k := by
      simp [List.getD_eq_getElem?_getD, hk]
    rw [e] at h5
    have e2 : targets.getD k [] = targets[k]'(by omega) := by
      simp [List.getD_eq_getElem?_getD, hl, hk]
    rw [← e2] at h5
    exact (targetRow_ok w hc h5).2

/-- When the targets can be computed. -/
theorem computeTargets_exists {s : Dmp} (w : s.Wf) (hτ : s.SameStart) {traj : Trajectory ℝ}
    (hd : s.dimY = traj.ys.cols) (hc : s.CanScale) (hf : s.CanForce) (hts : traj.ts ≠ [])
    {fa : List (List ℝ)} (hfa : s.faUsed traj.ts false = .ok fa)
    (hq : ∀ t ∈ traj.ts, s.dimY ≠ 0 → (s.gating.xAt t).getD 0 0 ≠ 0)
    (hs : ∀ j, j < s.dimY → s.forcingFactor j ≠ 0) :
    ∃ phases targets, (computeTargets traj s).1 = .ok (phases, targets) := by
  have h1 : ∀ k, k < traj.ts.length → ∃ r, s.targetRow (((List.range traj.ts.length).map
      (s.xRow traj.ts (s.gated traj.ts fa))).getD k []) (traj.ys.rows.getD k []) (traj.yds.rows.getD k [])
      (traj.ydds.rows.getD k []) = .ok r := by
    intro k hk
    have e : ((List.range traj.ts.length).map (s.xRow traj.ts (s.gated traj.ts fa))).getD k [] =
        s.xRow traj.ts (s.gated traj.ts fa) k := by
      simp [List.getD_eq_getElem?_getD, hk]
    rw [e]
    refine targetRow_exists w hc hf (hq _ ?_) hs
    rw [getD_lt hk]
    exact List.getElem_mem hk
  have h2 : ∃ targets, (List.range traj.ts.length).mapM (fun t => s.targetRow (((List.range
      traj.ts.length).map (s.xRow traj.ts (s.gated traj.ts fa))).getD t []) (traj.ys.rows.getD t [])
      (traj.yds.rows.getD t []) (traj.ydds.rows.getD t [])) = .ok targets := by
    have : ∀ l : List Nat, (∀ k ∈ l, k < traj.ts.length) → ∃ targets, l.mapM (fun t => s.targetRow
        (((List.range traj.ts.length).map (s.xRow traj.ts (s.gated traj.ts fa))).getD t [])
        (traj.ys.rows.getD t []) (traj.yds.rows.getD t []) (traj.ydds.rows.getD t [])) =
          .ok targets := by
      intro l
      induction l with
      | nil => intro _; exact ⟨[], rfl⟩
      | cons a l ih =>
        intro hl
        obtain ⟨r, hr⟩ := h1 a (hl a List.mem_cons_self)
        obtain ⟨rs, hrs⟩ := ih fun k hk => hl k (List.mem_cons_of_mem _ hk)
        exact ⟨r :: rs, mapM_ok.mpr (.cons hr (mapM_ok.mp hrs))⟩
    exact this _ fun k hk => List.mem_range.mp hk
  obtain ⟨targets, h2⟩ := h2
  exact ⟨_, targets, (computeTargets_inv w).mpr ⟨hd, _, solve_ok w hτ hc hf hts hfa, rfl, h2⟩⟩

end Dmp

end Verif
