import Verif.Proofs.DmpTargets

/- Helper lemmas about a Dmp: the object after training. -/

set_option autoImplicit false

namespace Verif

namespace Dmp

variable {d : Nat}

/-- What targets must be, for the subsystems of `s` and the demonstration `traj`. -/
structure TargetsFor (s : Dmp) (traj : Trajectory ℝ) (phases : List ℝ) (targets : List (List ℝ)) :
    Prop where
  dim : s.dimY = traj.ys.cols
  scale : s.CanScale
  force : s.CanForce
  times : traj.ts ≠ []
  phases : phases = traj.ts.map (fun t => (s.phase.xAt t).getD 0 0)
  length : targets.length = traj.ts.length
  row : ∀ k, k < traj.ts.length → (targets.getD k []).length = s.dimY
  value : ∀ k, k < traj.ts.length → ∀ j, j < s.dimY →
    s.forcingFactor j * ((s.gating.xAt (traj.ts.getD k 0)).getD 0 0 * (targets.getD k []).getD j 0) =
      s.needed (traj.ts.getD k 0) (traj.ys.rows.getD k []) (traj.yds.rows.getD k [])
        (traj.ydds.rows.getD k []) j

theorem targetsFor_of {s : Dmp} (w : s.Wf) (hτ : s.SameStart) {traj : Trajectory ℝ}
    {phases : List ℝ} {targets : List (List ℝ)}
    (h : (computeTargets traj s).1 = .ok (phases, targets)) : s.TargetsFor traj phases targets := by
  obtain ⟨h1, h2, h3, h4, h5, h6, h7⟩ := computeTargets_ok w hτ h
  exact ⟨h1, h2, h3, h4, h5, h6, fun k hk => (h7 k hk).1, fun k hk j hj => ((h7 k hk).2 j hj).2.2⟩

/-- The object with analytical solutions cached, and other function approximators and training times. -/
noncomputable def refreshed (s : Dmp) (f : Option (List Fa)) (ts : Option (List ℝ)) : Dmp :=
  { s with
    phase := s.phase.touch
    gating := s.gating.touch
    goal := s.goal.map Sub.touch
    damping := s.damping.map Sub.touch
    fas := f
    tsTrain := ts }

theorem goalAt_refreshed (s : Dmp) (f : Option (List Fa)) (ts : Option (List ℝ)) :
    (s.refreshed f ts).goalAt = s.goalAt := by
  funext t; unfold goalAt
  cases e : s.goal <;> simp [refreshed, e]

theorem dampAt_refreshed (s : Dmp) (f : Option (List Fa)) (ts : Option (List ℝ)) :
    (s.refreshed f ts).dampAt = s.dampAt := by
  funext t; unfold dampAt
  cases e : s.damping <;> simp [refreshed, e]

theorem TargetsFor.refreshed {s : Dmp} {traj : Trajectory ℝ} {phases : List ℝ}
    {targets : List (List ℝ)} (h : s.TargetsFor traj phases targets) (f : Option (List Fa))
    (ts : Option (List ℝ)) : (s.refreshed f ts).TargetsFor traj phases targets where
  dim := h.dim
  scale := h.scale
  force := h.force
  times := h.times
  phases := by
    rw [h.phases]
    apply List.map_congr_left
    intro t _
    change _ = (s.phase.touch.xAt t).getD 0 0
    rw [Sub.xAt_touch]
  length := h.length
  row := h.row
  value := by
    intro k hk j hj
    have := h.value k hk j hj
    unfold needed at this ⊢
    rw [goalAt_refreshed, dampAt_refreshed]
    change s.forcingFactor j * ((s.gating.touch.xAt (traj.ts.getD k 0)).getD 0 0 * _) = _
    rw [Sub.xAt_touch]
    exact this

theorem TargetsFor.fas {s : Dmp} {traj : Trajectory ℝ} {phases : List ℝ} {targets : List (List ℝ)}
    {f : Option (List Fa)} (h : ({ s with fas := f } : Dmp).TargetsFor traj phases targets) :
    s.TargetsFor traj phases targets :=
  ⟨h.dim, h.scale, h.force, h.times, h.phases, h.length, h.row, h.value⟩

/-! ### Training -/

/-- The object when the function approximators are trained. -/
noncomputable def prepared (s : Dmp) (tau : ℝ) (y0 yg range : List ℝ) (f : Option (List Fa)) : Dmp :=
  { ((s.retimed tau).placed y0).aimed yg with amplitudes := some range, fas := f }

/-- The object after the targets were computed. -/
theorem computeTargets_state {s t1 : Dmp} (w : s.Wf) {traj : Trajectory ℝ} {phases : List ℝ}
    {targets : List (List ℝ)} (e6 : computeTargets traj s = (.ok (phases, targets), t1)) :
    t1 = s.refreshed s.fas s.tsTrain := by
  have h1 : (computeTargets traj s).1 =
      .ok (phases, targets) := by rw [e6]
  obtain ⟨-, sol, h2, -, h3⟩ := (computeTargets_inv w).mp h1
  obtain ⟨fa, h4, h5⟩ := except_bind_ok h2
  obtain ⟨F, h6, -⟩ := except_bind_ok h5
  have hrun := analytical_run w traj.ts false
  rw [h2, h4, except_ok_bind, h6] at hrun
  unfold computeTargets at e6
  rw [PyM.self_bind] at e6
  by_cases hdim : s.dimY ≠ traj.ys.cols
  · rw [if_pos hdim] at e6; cases e6
  rw [if_neg hdim, PyM.bind_ok hrun, PyM.self_bind] at e6
  simp only at e6
  rcases e7 : (List.range traj.ts.length).mapM (fun t => targetRow
    { s with
      phase := s.phase.touch
      gating := s.gating.touch
      goal := s.goal.map Sub.touch
      damping := s.damping.map Sub.touch }
    (sol.xs.getD t []) (traj.ys.rows.getD t []) (traj.yds.rows.getD t [])
    (traj.ydds.rows.getD t [])) with er | r
  · rw [e7, PyM.lift_error_bind] at e6; cases e6
  · rw [e7, PyM.lift_ok_bind] at e6
    exact (Prod.mk.inj e6).2.symm

/-- What happens in a successful training. -/
theorem train_inv {s t : Dmp} (i : Inv d s) {traj : Trajectory ℝ} (hs : traj.Shape)
    {newFas : Option (Option (List Fa))} (h : train traj newFas s = (.ok (), t)) :
    ∃ tau y0 yg range, traj.ts.getLast? = some tau ∧ traj.yInit = .ok y0 ∧ traj.yFinal = .ok yg ∧
      traj.rangePerDim = .ok range ∧ traj.ys.cols = d ∧ y0.length = d ∧ yg.length = d ∧
      Inv d (s.prepared tau y0 yg range (newFas.getD s.fas)) ∧
      ((newFas.getD s.fas = none ∧
        t = { s.prepared tau y0 yg range none with tsTrain := some traj.ts }) ∨
      ∃ fas0 fas1 phases targets, newFas.getD s.fas = some fas0 ∧
        (computeTargets traj (s.prepared tau y0 yg range (some fas0))).1 = .ok (phases, targets) ∧
        trainFas phases targets (List.range d) fas0 = (.ok (), fas1) ∧
        t = (s.prepared tau y0 yg range (some fas0)).refreshed (some fas1) (some traj.ts)) := by
  rw [train_eq] at h
  cases e1 : traj.ts.getLast? with
  | none => rw [e1] at h; cases h
  | some tau =>
    rw [e1] at h
    simp only at h
    rw [PyM.bind_ok (setTau_run s tau)] at h
    have i1 := inv_retimed i tau
    unfold trainRest at h
    cases e2 : traj.yInit with
    | error er => rw [e2, PyM.lift_error_bind] at h; cases h
    | ok y0 =>
      rw [e2, PyM.lift_ok_bind] at h
      by_cases hl : y0.length = (s.retimed tau).dimY
      · rw [PyM.bind_ok (setYInit_run i1.wf hl)] at h
        have i2 := inv_placed i1 hl
        cases e3 : traj.yFinal with
        | error er => rw [e3, PyM.lift_error_bind] at h; cases h
        | ok yg =>
          rw [e3, PyM.lift_ok_bind] at h
          have lg : yg.length = ((s.retimed tau).placed y0).dimY := by
            rw [yFinal_length hs e3, ← yInit_length hs e2]; exact hl
          rw [PyM.bind_ok (setYAttr_run i2.wf lg)] at h
          have i3 := inv_aimed i2 lg
          cases e4 : traj.rangePerDim with
          | error er => rw [e4, PyM.lift_error_bind] at h; cases h
          | ok range =>
            rw [e4, PyM.lift_ok_bind, PyM.modify_bind, PyM.modify_bind] at h
            have hd : y0.length = d := hl.trans i1.dim
            have hcols : traj.ys.cols = d := (yInit_length hs e2).symm.trans hd
            have i4 : Inv d (s.prepared tau y0 yg range (newFas.getD s.fas)) := by
              refine i3.congr rfl rfl rfl rfl rfl rfl rfl rfl rfl ?_
              rintro a ⟨⟩
              rw [rangePerDim_length e4, hcols]
            refine ⟨tau, y0, yg, range, rfl, rfl, rfl, rfl, hcols, hd, lg.trans i2.dim, i4, ?_⟩
            change trainLast traj (s.prepared tau y0 yg range (newFas.getD s.fas)) = _ at h
            unfold trainLast at h
            rw [PyM.self_bind] at h
            cases e5 : newFas.getD s.fas with
            | none =>
              rw [e5] at h
              left
              refine ⟨rfl, ?_⟩
              change (_, _) = _ at h
              exact (Prod.mk.inj h).2.symm
            | some fas0 =>
              right
              rw [e5] at h i4
              change (computeTargets traj >>= fun r => (do
                onFas (trainFas r.1 r.2 (List.range (s.prepared tau y0 yg range (some fas0)).dimY))
                PyM.modify fun s => { s with tsTrain := some traj.ts } : PyM Dmp Unit))
                (s.prepared tau y0 yg range (some fas0)) = _ at h
              rcases e6 : computeTargets traj (s.prepared tau y0 yg range (some fas0)) with ⟨r, t1⟩
              cases r with
              | error er => rw [PyM.bind_error e6] at h; cases h
              | ok r =>
                obtain ⟨phases, targets⟩ := r
                rw [PyM.bind_ok e6] at h
                have ht1 : t1 = (s.prepared tau y0 yg range (some fas0)).refreshed (some fas0)
                    (s.prepared tau y0 yg range (some fas0)).tsTrain :=
                  computeTargets_state i4.wf e6
                have hfas : t1.fas = some fas0 := by rw [ht1]; rfl
                rcases e8 : trainFas phases targets (List.range d) fas0 with ⟨r8, fas1⟩
                have hon : onFas (trainFas phases targets
                    (List.range (s.prepared tau y0 yg range (some fas0)).dimY)) t1 =
                    (r8, { t1 with fas := some fas1 }) := by
                  unfold onFas
                  rw [i4.dim]
                  simp only [hfas, e8]
                cases r8 with
                | error er => rw [PyM.bind_error hon] at h; cases h
                | ok u =>
                  rw [PyM.bind_ok hon] at h
                  refine ⟨fas0, fas1, phases, targets, rfl, by rw [e6], e8, ?_⟩
                  have := (Prod.mk.inj h).2
                  rw [← this, ht1]
                  rfl
      · rw [PyM.bind_error (setYInit_reject hl)] at h; cases h

/-- When training succeeds. -/
theorem train_exists {s : Dmp} (i : Inv d s) {traj : Trajectory ℝ} (hs : traj.Shape)
    {newFas : Option (Option (List Fa))} {tau : ℝ} {y0 yg range : List ℝ}
    (h1 : traj.ts.getLast? = some tau) (h2 : traj.yInit = .ok y0) (h3 : traj.yFinal = .ok yg)
    (h4 : traj.rangePerDim = .ok range) (h5 : traj.ys.cols = d) {fas0 fas1 : List Fa} {phases : List ℝ}
    {targets : List (List ℝ)} (h6 : newFas.getD s.fas = some fas0)
    (h7 : (computeTargets traj (s.prepared tau y0 yg range (some fas0))).1 = .ok (phases, targets))
    (h8 : trainFas phases targets (List.range d) fas0 = (.ok (), fas1)) :
    ∃ t, train traj newFas s = (.ok (), t) := by
  rw [train_eq, h1]
  simp only
  rw [PyM.bind_ok (setTau_run s tau)]
  have i1 := inv_retimed i tau
  unfold trainRest
  rw [h2, PyM.lift_ok_bind]
  have hl : y0.length = (s.retimed tau).dimY := by rw [yInit_length hs h2, h5]; exact i1.dim.symm
  rw [PyM.bind_ok (setYInit_run i1.wf hl), h3, PyM.lift_ok_bind]
  have i2 := inv_placed i1 hl
  have lg : yg.length = ((s.retimed tau).placed y0).dimY := by
    rw [yFinal_length hs h3, h5]; exact i2.dim.symm
  rw [PyM.bind_ok (setYAttr_run i2.wf lg), h4, PyM.lift_ok_bind, PyM.modify_bind, PyM.modify_bind]
  have i3 := inv_aimed i2 lg
  have i4 : Inv d (s.prepared tau y0 yg range (some fas0)) := by
    refine i3.congr rfl rfl rfl rfl rfl rfl rfl rfl rfl ?_
    rintro a ⟨⟩
    rw [rangePerDim_length h4, h5]
  have e0 : ({ ((s.retimed tau).placed y0).aimed yg with amplitudes := some range, fas := newFas.getD s.fas } :
    Dmp) = s.prepared tau y0 yg range (some fas0) := by rw [h6]; rfl
  change ∃ t, trainLast traj { ((s.retimed tau).placed y0).aimed yg with
    amplitudes := some range, fas := newFas.getD s.fas } = _
  rw [e0]
  unfold trainLast
  rw [PyM.self_bind]
  change ∃ t, (computeTargets traj >>= fun r => (do
    onFas (trainFas r.1 r.2 (List.range (s.prepared tau y0 yg range (some fas0)).dimY))
    PyM.modify fun s => { s with tsTrain := some traj.ts } : PyM Dmp Unit))
    (s.prepared tau y0 yg range (some fas0)) = _
  rcases e6 : computeTargets traj (s.prepared tau y0 yg range (some fas0)) with ⟨r, t1⟩
  rw [e6] at h7
  simp only at h7
  subst h7
  rw [PyM.bind_ok e6]
  have hfas : t1.fas = some fas0 := by rw [computeTargets_state i4.wf e6]; rfl
  have hon : onFas (trainFas phases targets
      (List.range (s.prepared tau y0 yg range (some fas0)).dimY)) t1 =
      (.ok (), { t1 with fas := some fas1 }) := by
    unfold onFas
    rw [i4.dim]
    simp only [hfas, h8]
  rw [PyM.bind_ok hon]
  exact ⟨_, rfl⟩

/-! ### Training of the function approximators -/

theorem trainFas_ok {phases : List ℝ} {targets : List (List ℝ)} : ∀ (l : List Nat) {fas fas' : List Fa},
    l.Nodup → trainFas phases targets l fas = (.ok (), fas') →
    fas'.length = fas.length ∧ (∀ dd, dd ∉ l → fas'[dd]? = fas[dd]?) ∧ ∀ dd ∈ l, ∃ fa fa', fas[dd]? = some fa ∧
      fas'[dd]? = some fa' ∧ Fa.train (fun (t : Fin phases.length) (_ : Fin 1) => phases[t])
        (fun t => (targets.getD t []).getD dd 0) none fa = (.ok (), fa') := by
  intro l
  induction l with
  | nil =>
    intro fas fas' _ h
    have := (Prod.mk.inj h).2
    change fas = fas' at this
    subst this
    exact ⟨rfl, fun _ _ => rfl, fun _ h => absurd h List.not_mem_nil⟩
  | cons a l ih =>
    intro fas fas' hn h
    change (trainFa phases targets a >>= fun _ => trainFas phases targets l) fas = _ at h
    obtain ⟨hna, hn⟩ := List.nodup_cons.mp hn
    rcases e : trainFa phases targets a fas with ⟨r, fas1⟩
    cases r with
    | error er => rw [PyM.bind_error e] at h; cases h
    | ok u =>
      rw [PyM.bind_ok e] at h
      obtain ⟨k0, k1, k2⟩ := ih hn h
      unfold trainFa at e
      simp only at e
      cases e2 : fas[a]? with
      | none => rw [e2] at e; cases e
      | some fa =>
        rw [e2] at e
        simp only at e
        obtain ⟨e3, e4⟩ := Prod.mk.inj e
        have ha : a < fas.length := by
          by_contra hc
          rw [List.getElem?_eq_none (by omega)] at e2
          cases e2
        refine ⟨by rw [k0, ← e4, List.length_set], fun dd hdd => ?_, fun dd hdd => ?_⟩
        · rw [List.mem_cons, not_or] at hdd
          rw [k1 dd hdd.2, ← e4, List.getElem?_set_ne (Ne.symm hdd.1)]
        · rcases List.mem_cons.mp hdd with rfl | hdd
          · refine ⟨fa, _, e2, ?_, Prod.ext e3 rfl⟩
            rw [k1 dd hna, ← e4, List.getElem?_set_self ha]
          · obtain ⟨fb, fb', q1, q2, q3⟩ := k2 dd hdd
            have hne : a ≠ dd := by rintro rfl; exact hna hdd
            rw [← e4, List.getElem?_set_ne hne] at q1
            exact ⟨fb, fb', q1, q2, q3⟩

/-- Predictions are the targets if each function approximator reproduces its targets. -/
theorem predictions_of_columns {s : Dmp} {fas : List Fa} (hf : s.fas = some fas) {phases : List ℝ}
    {targets : List (List ℝ)} (hl : targets.length = phases.length)
    (hr : ∀ k, k < phases.length → (targets.getD k []).length = s.dimY)
    (h : ∀ dd, dd < s.dimY → ∃ fa, fas[dd]? = some fa ∧
      fa.predict (fun (t : Fin phases.length) (_ : Fin 1) => phases[t]) =
        .ok fun t => (targets.getD t []).getD dd 0) : s.predictions phases = .ok targets := by
  unfold predictions
  rw [hf]
  cases fas with
  | nil =>
    have h0 : s.dimY = 0 := by
      by_contra hne
      obtain ⟨fa, hfa, -⟩ := h 0 (Nat.pos_of_ne_zero hne)
      cases hfa
    refine congrArg Except.ok ?_
    apply List.ext_getElem
    · simp [hl]
    · intro k h1 h2
      have := hr k (by simpa using h1)
      rw [h0] at this
      have e : targets.getD k [] = targets[k] := by simp [List.getD_eq_getElem?_getD, h2]
      rw [e, List.length_eq_zero_iff] at this
      simp [this, h0, vzeros]
  | cons f fs =>
    simp only
    have h1 : (List.range s.dimY).mapM (faColumn (f :: fs) phases) =
        .ok ((List.range s.dimY).map fun dd => List.ofFn fun t : Fin phases.length =>
          (targets.getD t []).getD dd 0) := by
      rw [mapM_ok, List.forall₂_map_right_iff, List.forall₂_same]
      intro dd hdd
      obtain ⟨fa, q1, q2⟩ := h dd (List.mem_range.mp hdd)
      unfold faColumn
      rw [q1]
      simp only
      have hm : fa.model.isSome = true := by
        cases e : fa.model with
        | none => unfold Fa.predict at q2; rw [e] at q2; cases q2
        | some m => rfl
      rw [if_pos hm, q2]
      rfl
    rw [h1, except_ok_bind]
    refine congrArg Except.ok ?_
    apply List.ext_getElem
    · simp [hl]
    · intro k h1 h2
      have hk : k < phases.length := by simpa using h1
      have e : targets.getD k [] = targets[k] := by simp [List.getD_eq_getElem?_getD, h2]
      have lk := hr k hk
      rw [e] at lk
      simp only [List.getElem_map, List.getElem_range, List.map_map]
      rw [← range_getD lk]
      apply List.map_congr_left
      intro dd _
      simp [List.getD_eq_getElem?_getD, hk, h2]

end Dmp

end Verif
