import Verif.Props.DmpTraining
import Verif.Props.Scaling

/- Dmp: setting tau changes only the speed (C20). -/

set_option autoImplicit false

namespace Verif

/-- The tau setter of the class slows the motion down. -/
def Sub.Scalable : Sub → Prop
  | .sigmoid _ => False
  | _ => True

theorem Sub.xAt_withTau {g : Sub} (h : g.Scalable) {c : ℝ} (hc : 0 < c) (t : ℝ) :
    (g.withTau (c * g.base.tau)).xAt (c * t) = g.xAt t := by
  cases g with
  | time s =>
    obtain ⟨xs, xds, h1, h2⟩ := (TimeSystem.C11_time_scaling s c hc).2 [t]
    have h1 := (Prod.mk.inj (Except.ok.inj h1)).1
    have h2 := (Prod.mk.inj (Except.ok.inj h2)).1
    exact (List.cons.inj (h2.trans h1.symm)).1
  | exponential s =>
    obtain ⟨xs, xds, h1, h2⟩ := (Exponential.C11_time_scaling s c hc).2 [t]
    have h1 := (Prod.mk.inj (Except.ok.inj h1)).1
    have h2 := (Prod.mk.inj (Except.ok.inj h2)).1
    exact (List.cons.inj (h2.trans h1.symm)).1
  | sigmoid s => cases h
  | richards s =>
    obtain ⟨xs, xds, h1, h2⟩ := (Richards.C11_time_scaling s c hc).2 [t]
    simp only [Richards.analytical_run] at h1 h2
    have h1 := (Prod.mk.inj (Except.ok.inj h1)).1
    have h2 := (Prod.mk.inj (Except.ok.inj h2)).1
    exact (List.cons.inj (h2.trans h1.symm)).1

theorem Sub.xdAt_withTau {g : Sub} (h : g.Scalable) {c : ℝ} (hc : 0 < c) (t : ℝ) :
    (g.withTau (c * g.base.tau)).xdAt (c * t) = vdivs (g.xdAt t) c := by
  cases g with
  | time s =>
    obtain ⟨xs, xds, h1, h2⟩ := (TimeSystem.C11_time_scaling s c hc).2 [t]
    have h1 := (Prod.mk.inj (Except.ok.inj h1)).2
    have h2 := (Prod.mk.inj (Except.ok.inj h2)).2
    rw [← h1] at h2
    exact (List.cons.inj h2).1
  | exponential s =>
    obtain ⟨xs, xds, h1, h2⟩ := (Exponential.C11_time_scaling s c hc).2 [t]
    have h1 := (Prod.mk.inj (Except.ok.inj h1)).2
    have h2 := (Prod.mk.inj (Except.ok.inj h2)).2
    rw [← h1] at h2
    exact (List.cons.inj h2).1
  | sigmoid s => cases h
  | richards s =>
    obtain ⟨xs, xds, h1, h2⟩ := (Richards.C11_time_scaling s c hc).2 [t]
    simp only [Richards.analytical_run] at h1 h2
    have h1 := (Prod.mk.inj (Except.ok.inj h1)).2
    have h2 := (Prod.mk.inj (Except.ok.inj h2)).2
    rw [← h1] at h2
    exact (List.cons.inj h2).1

namespace Dmp

variable {d : Nat}

/-- The goal system is not a SigmoidSystem, and there is no damping system. -/
structure MotScalable (s : Dmp) : Prop where
  goal : ∀ g, s.goal = some g → g.Scalable
  damping : s.damping = none

/-- No SigmoidSystem and no damping system. -/
structure Scalable (s : Dmp) : Prop extends s.MotScalable where
  phase : s.phase.Scalable
  gating : s.gating.Scalable

section

variable {s : Dmp} {c : ℝ}

theorem withTau_ratio (h0 : s.tau ≠ 0) (g : Sub) :
    g.withTau (g.base.tau * (c * s.tau / s.tau)) = g.withTau (c * g.base.tau) := by
  rw [mul_div_assoc, div_self h0, mul_one, mul_comm]

theorem retimed_phase (h0 : s.tau ≠ 0) :
    (s.retimed (c * s.tau)).phase = s.phase.withTau (c * s.phase.base.tau) := withTau_ratio h0 _

theorem retimed_gating (h0 : s.tau ≠ 0) :
    (s.retimed (c * s.tau)).gating = s.gating.withTau (c * s.gating.base.tau) := withTau_ratio h0 _

theorem retimed_goal (h0 : s.tau ≠ 0) :
    (s.retimed (c * s.tau)).goal = s.goal.map fun g => g.withTau (c * g.base.tau) := by
  change s.goal.map _ = _
  simp only [withTau_ratio h0]

theorem vdivs_vzeros (n : Nat) (c : ℝ) : vdivs (vzeros n) c = vzeros n := by
  simp [vdivs, vzeros]

theorem goalAt_slow (h : s.MotScalable) (h0 : s.tau ≠ 0) (hc : 0 < c) (t : ℝ) :
    (s.retimed (c * s.tau)).goalAt (c * t) = s.goalAt t := by
  unfold goalAt
  rw [retimed_goal h0]
  cases e : s.goal with
  | none => rfl
  | some g => exact Sub.xAt_withTau (h.goal g e) hc t

theorem goalDotAt_slow (h : s.MotScalable) (h0 : s.tau ≠ 0) (hc : 0 < c) (t : ℝ) :
    (s.retimed (c * s.tau)).goalDotAt (c * t) = vdivs (s.goalDotAt t) c := by
  unfold goalDotAt
  rw [retimed_goal h0]
  cases e : s.goal with
  | none =>
    exact (vdivs_vzeros s.dimY c).symm
  | some g => exact Sub.xdAt_withTau (h.goal g e) hc t

theorem dampAt_slow (h : s.MotScalable) (t t' : ℝ) :
    (s.retimed (c * s.tau)).dampAt t' = s.dampAt t := by
  unfold dampAt
  have : (s.retimed (c * s.tau)).damping = none := h.damping
  rw [this, h.damping]
  rfl

theorem dampDotAt_slow (h : s.MotScalable) (t t' : ℝ) :
    (s.retimed (c * s.tau)).dampDotAt t' = vdivs (s.dampDotAt t) c := by
  unfold dampDotAt
  have : (s.retimed (c * s.tau)).damping = none := h.damping
  rw [this, h.damping]
  exact (vdivs_vzeros s.dimY c).symm

theorem acc_slow (h0 : s.tau ≠ 0) (j : Nat) (g q f y z : ℝ) :
    (s.retimed (c * s.tau)).acc j g q f y z = s.acc j g q f y z / c := by
  unfold acc
  change (-s.spring.spring.at' j * (y - g) - q * z) /
    (s.spring.mass.at' j * (s.spring.tau * (c * s.tau / s.tau))) + f / (c * s.tau) = _
  rw [mul_div_assoc, div_self h0, mul_one, ← mul_assoc, ← div_div, mul_comm c, ← div_div f]
  ring

theorem getD_times (ts : List ℝ) (k : Nat) : (ts.map (c * ·)).getD k 0 = c * ts.getD k 0 := by
  simp only [List.getD_eq_getElem?_getD, List.getElem?_map]
  cases ts[k]? <;> simp

theorem scaled_retimed (t : ℝ) (g : List ℝ) : (s.retimed t).scaled g = s.scaled g := rfl

theorem mot_slow (h : s.MotScalable) (h0 : s.tau ≠ 0) (hc : 0 < c) (ts : List ℝ) (F : List (List ℝ))
    (j k : Nat) : (s.retimed (c * s.tau)).mot (ts.map (c * ·)) F j k = s.mot ts F j k := by
  induction k with
  | zero => rfl
  | succ k ih =>
    unfold mot
    simp only
    rw [ih, getD_times, getD_times, goalAt_slow h h0 hc, dampAt_slow h (ts.getD k 0), acc_slow h0,
      scaled_retimed]
    change (_ + _ * (_ / (c * s.tau)), _) = _
    refine Prod.ext ?_ ?_
    · simp only; field_simp
    · simp only; field_simp

theorem motAcc_slow (h : s.MotScalable) (h0 : s.tau ≠ 0) (hc : 0 < c) (ts : List ℝ) (F : List (List ℝ))
    (j k : Nat) : (s.retimed (c * s.tau)).motAcc (ts.map (c * ·)) F j k = s.motAcc ts F j k / c := by
  unfold motAcc
  simp only
  rw [mot_slow h h0 hc, getD_times, goalAt_slow h h0 hc, dampAt_slow h (ts.getD k 0), acc_slow h0,
    scaled_retimed]

theorem xRow_slow (h : s.Scalable) (h0 : s.tau ≠ 0) (hc : 0 < c) (ts : List ℝ) (F : List (List ℝ))
    (k : Nat) : (s.retimed (c * s.tau)).xRow (ts.map (c * ·)) F k = s.xRow ts F k := by
  unfold xRow
  simp only [mot_slow h.toMotScalable h0 hc, getD_times]
  rw [goalAt_slow h.toMotScalable h0 hc, dampAt_slow h.toMotScalable (ts.getD k 0), retimed_phase h0, retimed_gating h0,
    Sub.xAt_withTau h.phase hc, Sub.xAt_withTau h.gating hc]
  rfl

theorem vdivs_append (a b : List ℝ) (c : ℝ) : vdivs (a ++ b) c = vdivs a c ++ vdivs b c := by
  simp [vdivs]

theorem vdivs_pack (y z g p q e : List ℝ) (c : ℝ) : vdivs (pack y z g p q e) c =
    pack (vdivs y c) (vdivs z c) (vdivs g c) (vdivs p c) (vdivs q c) (vdivs e c) := by
  unfold pack
  simp only [vdivs_append]

theorem xdRow_slow (h : s.Scalable) (h0 : s.tau ≠ 0) (hc : 0 < c) (ts : List ℝ) (F : List (List ℝ))
    (k : Nat) : (s.retimed (c * s.tau)).xdRow (ts.map (c * ·)) F k = vdivs (s.xdRow ts F k) c := by
  unfold xdRow
  simp only [mot_slow h.toMotScalable h0 hc, motAcc_slow h.toMotScalable h0 hc, getD_times]
  rw [goalDotAt_slow h.toMotScalable h0 hc, dampDotAt_slow h.toMotScalable (ts.getD k 0), retimed_phase h0, retimed_gating h0,
    Sub.xdAt_withTau h.phase hc, Sub.xdAt_withTau h.gating hc, vdivs_pack]
  congr 1
  · simp only [vdivs, List.map_map]
    refine List.map_congr_left fun j _ => ?_
    change _ / (c * s.tau) = _ / s.tau / c
    rw [mul_comm, div_div]
  · simp only [vdivs, List.map_map]
    rfl

theorem gated_slow (h : s.Scalable) (h0 : s.tau ≠ 0) (hc : 0 < c) (ts : List ℝ) (fa : List (List ℝ)) :
    (s.retimed (c * s.tau)).gated (ts.map (c * ·)) fa = s.gated ts fa := by
  unfold gated
  rw [List.zipWith_map_right, retimed_gating h0]
  simp only [Sub.xAt_withTau h.gating hc]
  rfl

theorem faUsed_slow (h : s.Scalable) (h0 : s.tau ≠ 0) (hc : 0 < c) (ts : List ℝ) (b : Bool) :
    (s.retimed (c * s.tau)).faUsed (ts.map (c * ·)) b = s.faUsed ts b := by
  unfold faUsed
  rw [List.map_map, retimed_phase h0]
  simp only [Function.comp_def, Sub.xAt_withTau h.phase hc]
  rfl

end

/-- The solution with rates of change divided by `c`. -/
noncomputable def Solution.slowed (sol : Solution) (c : ℝ) : Solution :=
  { sol with xds := sol.xds.map fun r => vdivs r c }

theorem analytical_slow {s : Dmp} (hT : Timed d s) (h : s.Scalable) {c : ℝ} (hc : 0 < c) {ts : List ℝ}
    {b : Bool} {sol : Solution} (hs : (analytical (some ts) b s).1 = .ok sol) :
    (analytical (some (ts.map (c * ·))) b (s.retimed (c * s.tau))).1 = .ok (sol.slowed c) := by
  have h0 := hT.tau.ne'
  have hT' := kept_timed.tau s (c * s.tau) hT (mul_pos hc hT.tau)
  rw [analytical_iff hT'.inv.wf (sameStart_of_tau hT'.springTau)]
  obtain ⟨h1, h2, h3, fa, h4, h5⟩ := (analytical_iff hT.inv.wf (sameStart_of_tau hT.springTau)).mp hs
  refine ⟨h1, h2, by simpa using h3, fa, by rw [faUsed_slow h h0 hc]; exact h4, ?_⟩
  have e1 := funext fun k => xRow_slow h h0 hc ts (s.gated ts fa) k
  have e2 := funext fun k => xdRow_slow h h0 hc ts (s.gated ts fa) k
  rw [h5]
  unfold Solution.slowed
  simp only [List.length_map, List.map_map, Function.comp_def, gated_slow h h0 hc]
  rw [e1, e2]

/-- Trajectory `r'` is `r`, slowed down by `c`. -/
def SlowerBy (c : ℝ) (r r' : Trajectory ℝ) : Prop :=
  r'.ts = r.ts.map (fun t => c * t) ∧ r'.ys = r.ys ∧
  r'.yds = ⟨r.yds.cols, r.yds.rows.map fun row => row.map fun v => v / c⟩ ∧
  r'.ydds = ⟨r.ydds.cols, r.ydds.rows.map fun row => row.map fun a => a / c ^ 2⟩

/-- What C20 says of an object. -/
def OnlySpeed (s : Dmp) : Prop :=
  ∀ c : ℝ, 0 < c → (setTau (c * s.tau) s).1 = .ok () ∧
    ∀ (ts : List ℝ) (b : Bool) (sol : Solution) (r : Trajectory ℝ), (analytical (some ts) b s).1 = .ok sol →
      s.asTrajectory ts sol.xs sol.xds = .ok r →
      ∃ sol' r', (analytical (some (ts.map fun t => c * t)) b (setTau (c * s.tau) s).2).1 = .ok sol' ∧
        (setTau (c * s.tau) s).2.asTrajectory (ts.map fun t => c * t) sol'.xs sol'.xds = .ok r' ∧
        SlowerBy c r r'

/-- C20 for all objects. -/
def C20_statement : Prop :=
  ∀ (d : Nat) (s : Dmp), Reachable Consistent Change.Forward d s → OnlySpeed s

/-- C20 without SigmoidSystem and damping system. Missing for C20: gating by a SigmoidSystem
(`C20_refuted`) and a damping system (`C20_damping_refuted`). -/
theorem C20_only_speed_partial (d : Nat) (s : Dmp) (h : Reachable Consistent Change.Forward d s)
    (hs : s.Scalable) : OnlySpeed s := by
  have hT := kept_timed.reachable init_timed h
  intro c hc
  rw [setTau_run]
  refine ⟨rfl, fun ts b sol r h1 h2 => ?_⟩
  have h3 := analytical_slow hT hs hc h1
  obtain ⟨-, -, -, fa, -, h5⟩ := (analytical_iff hT.inv.wf (sameStart_of_tau hT.springTau)).mp h1
  have l1 : sol.xs.length = ts.length := by rw [h5]; simp
  have l2 : sol.xds.length = ts.length := by rw [h5]; simp
  rw [asTrajectory_ok s l1 l2] at h2
  cases h2
  refine ⟨_, _, h3, asTrajectory_ok _ (by simpa [Solution.slowed] using l1)
    (by simpa [Solution.slowed] using l2), rfl, rfl, ?_, ?_⟩
  · refine congrArg (Arr2.mk _) ?_
    simp only [Solution.slowed, List.map_map]
    refine List.map_congr_left fun r _ => ?_
    change pickAt (vdivs r c) (SPRING_Y s.dimY) = (pickAt r (SPRING_Y s.dimY)).map _
    simp only [pickAt, getD_vdivs, List.map_map]
    rfl
  · refine congrArg (Arr2.mk _) ?_
    simp only [Solution.slowed, List.map_map]
    refine List.map_congr_left fun r _ => ?_
    change vdivs (pickAt (vdivs r c) (SPRING_Z s.dimY)) (c * s.tau) =
      (vdivs (pickAt r (SPRING_Z s.dimY)) s.tau).map _
    simp only [pickAt, getD_vdivs]
    simp only [vdivs, List.map_map]
    refine List.map_congr_left fun j _ => ?_
    have h0 := hT.tau.ne'
    have hc0 := hc.ne'
    simp only [Function.comp]
    field_simp

/-- The Ijspeert Dmp is covered, and types with scaled goal. -/
example : ∀ n ∈ ["Ijs02", "2022", "SCT23_NO_SCALING"], ∃ s, init 1 [0] [1] none { dmpType := n } = .ok s ∧
    Reachable Consistent Change.Forward 1 s ∧ s.Scalable ∧ s.tau ≠ 0 := by
  intro n hn
  have hk : known n := by
    simp only [List.mem_cons, List.not_mem_nil, or_false] at hn
    rcases hn with rfl | rfl | rfl
    · exact Or.inl (by simp)
    · exact Or.inr (Or.inl ⟨"", "", rfl⟩)
    · exact Or.inr (Or.inr ⟨"", "_NO_SCALING", rfl⟩)
  obtain ⟨s, hs⟩ := (C16_types 1 [0] [1] none { dmpType := n }).1 hk
  refine ⟨s, hs, .init hs rfl rfl ⟨(fun _ h => nomatch h), trivial, (fun _ h => nomatch h),
    (fun _ h => nomatch h), (fun _ h => nomatch h), (fun _ h => nomatch h), (fun _ h => nomatch h)⟩
    ⟨(fun _ h => nomatch h), one_pos, (fun _ h => nomatch h)⟩, ?_⟩
  obtain ⟨dflt, hd, rfl⟩ := init_eq hs
  unfold defaults at hd
  simp only [List.mem_cons, List.not_mem_nil, or_false] at hn
  rcases hn with rfl | rfl | rfl
  · rw [if_pos (by decide)] at hd
    cases hd
    exact ⟨⟨⟨(fun _ h => nomatch h), rfl⟩, trivial, trivial⟩, one_ne_zero⟩
  · rw [if_neg (by decide), if_neg (by decide), if_pos (by decide), if_neg (by decide)] at hd
    cases hd
    exact ⟨⟨⟨(fun _ h => by cases h; trivial), rfl⟩, trivial, trivial⟩, one_ne_zero⟩
  · rw [if_neg (by decide), if_neg (by decide), if_pos (by decide), if_neg (by decide)] at hd
    cases hd
    exact ⟨⟨⟨(fun _ h => by cases h; trivial), rfl⟩, trivial, trivial⟩, one_ne_zero⟩

/-! ### Gating by a SigmoidSystem -/

/-- A trained function approximator that gives 1. -/
noncomputable def one : Fa := ⟨.wls true 0, some ⟨1, .wls ⟨fun _ => 0, some 1⟩⟩, none⟩

theorem predictions_one {s : Dmp} (hf : s.fas = some [one]) (hd : s.dimY = 1) (p : List ℝ) (hp : p ≠ []) :
    s.predictions p = .ok (p.map fun _ => [1]) := by
  refine predictions_of_columns hf (by simp) (fun k hk => ?_) (fun dd hdd => ?_)
  · rw [getD_map' hk [] 0]; simp [hd]
  · have : dd = 0 := by omega
    subst this
    refine ⟨one, rfl, ?_⟩
    have hl : p.length ≠ 0 := fun h => hp (List.length_eq_zero_iff.mp h)
    rw [predict_model (m := .wls ⟨fun _ => 0, some 1⟩) rfl hl]
    refine congrArg Except.ok ?_
    funext t
    rw [getD_map' t.2 [] 0]
    simp [WlsModel.predict]

/-- The position after three steps determines the forcing term at the second time. -/
theorem third_position {s : Dmp} (htau : s.tau = 1) {F F' : List (List ℝ)}
    (h0 : (F.getD 0 []).getD 0 0 = (F'.getD 0 []).getD 0 0)
    (h : (s.mot [0, 1, 2, 3] F 0 3).1 = (s.mot [0, 1, 2, 3] F' 0 3).1) :
    (F.getD 1 []).getD 0 0 = (F'.getD 1 []).getD 0 0 := by
  have e : ∀ k < 3, ([0, 1, 2, 3] : List ℝ).getD (k + 1) 0 - ([0, 1, 2, 3] : List ℝ).getD k 0 = 1 := by
    intro k hk
    match k, hk with
    | 0, _ => norm_num
    | 1, _ => norm_num
    | 2, _ => norm_num
  simp only [mot, acc, htau, div_one] at h
  rw [h0, e 0 (by omega), e 1 (by omega), e 2 (by omega)] at h
  linarith

theorem gating_start (u : ℝ) : (((Sub.sigmoid (.forGating 1 0.1)).withTau u).xAt 0).getD 0 0 = 1 := by
  simp [Sub.withTau, Sub.xAt, Sigmoid.xAt, Sigmoid.forGating, Sigmoid.init, Sigmoid.xComp, Sigmoid.ksNow,
    Sigmoid.kComp]
  positivity

theorem gating_values : ((Sub.sigmoid (.forGating 1 0.1)).xAt 1).getD 0 0 ≠
    (((Sub.sigmoid (.forGating 1 0.1)).withTau 2).xAt 2).getD 0 0 := by
  set g := Sigmoid.forGating 1 0.1 with hg
  have h1 : (Sub.xAt 1 (.sigmoid g)).getD 0 0 = _ :=
    Sigmoid.xAt_getD (s := g) (Sigmoid.forGating_wf 1 0.1 1) (i := 0) Nat.one_pos one_pos 1
  have h2 : (((Sub.sigmoid g).withTau 2).xAt 2).getD 0 0 = _ :=
    Sigmoid.xAt_getD (s := { g with tau := 2, ksCached := none }) ⟨rfl, rfl, trivial, trivial⟩ (i := 0)
      Nat.one_pos one_pos 2
  rw [h1, h2]
  unfold Sigmoid.kComp
  simp only
  have e0 : g.xInit.getD 0 0 = 1 := rfl
  have e1 : g.tau = 1 := rfl
  have e2 : g.maxRate.at' 0 = -Real.log ((((1 + Sigmoid.gatingD) / 0.1) - 1) / Sigmoid.gatingD) := by
    change -Real.log _ / 1 = _; rw [div_one]
  set L := Real.log ((((1 + Sigmoid.gatingD) / 0.1) - 1) / Sigmoid.gatingD) with hL
  have e3 : g.inflRatio.at' 0 = -Real.log (1 / Sigmoid.gatingD) / (-L) := by
    change -Real.log (1 / Sigmoid.gatingD) / (-Real.log _ / 1) / 1 = _
    rw [div_one, div_one]
  have hLpos : 0 < L := by
    apply Real.log_pos
    unfold Sigmoid.gatingD; norm_num
  have e4 : -L * (-Real.log (1 / Sigmoid.gatingD) / (-L)) = Real.log Sigmoid.gatingD := by
    rw [one_div, Real.log_inv]; field_simp
  have eD : Real.exp (Real.log Sigmoid.gatingD) = Sigmoid.gatingD :=
    Real.exp_log (by unfold Sigmoid.gatingD; norm_num)
  have eL : Real.exp L = (((1 + Sigmoid.gatingD) / 0.1) - 1) / Sigmoid.gatingD :=
    Real.exp_log (by unfold Sigmoid.gatingD; norm_num)
  rw [e0, e1, e2, e3]
  have a1 : -L * (1 * (-Real.log (1 / Sigmoid.gatingD) / (-L)) - 1) = Real.log Sigmoid.gatingD + L := by
    rw [one_mul, mul_sub, e4]; ring
  have a2 : -L * (2 * (-Real.log (1 / Sigmoid.gatingD) / (-L)) - 2) =
      (Real.log Sigmoid.gatingD + L) + (Real.log Sigmoid.gatingD + L) := by
    rw [mul_sub, mul_left_comm, e4]; ring
  have a3 : - -L * (1 * (-Real.log (1 / Sigmoid.gatingD) / (-L))) = -Real.log Sigmoid.gatingD := by
    rw [one_mul, neg_mul, e4]
  have a4 : - -L * (2 * (-Real.log (1 / Sigmoid.gatingD) / (-L))) =
      -(Real.log Sigmoid.gatingD + Real.log Sigmoid.gatingD) := by
    rw [neg_mul, mul_left_comm, e4]; ring
  rw [a1, a2, a3, a4]
  simp only [Real.exp_neg, Real.exp_add, eD, eL]
  unfold Sigmoid.gatingD
  norm_num

/-- C20 is false for the default Dmp. -/
theorem C20_refuted : ¬ C20_statement := by
  intro H
  obtain ⟨s, hs⟩ := (C16_types 1 [0] [1] (some [one]) {}).1 (by simp [known])
  have hr : Reachable Consistent Change.Forward 1 s := .init hs rfl rfl
    ⟨(fun _ h => nomatch h), trivial, (fun _ h => nomatch h),
      (fun _ h => nomatch h), (fun _ h => nomatch h), (fun _ h => nomatch h), (fun _ h => nomatch h)⟩
    ⟨(fun _ h => nomatch h), one_pos, (fun _ h => nomatch h)⟩
  have hT := kept_timed.reachable init_timed hr
  have hO := H 1 s hr
  obtain ⟨dflt, hd, hseq⟩ := init_eq hs
  unfold defaults at hd
  simp only at hd
  rw [if_neg (by decide), if_pos (by decide)] at hd
  have hd := Except.ok.inj hd
  have hreq : s.requiresScaling = false := by rw [hseq]; simp only; rw [← hd]
  have hgoal : ∀ g, s.goal = some g → g.Scalable := by
    intro g hg; rw [hseq] at hg; simp only at hg; rw [← hd] at hg
    cases hg; trivial
  have hdamp : s.damping = none := by rw [hseq]; simp only; rw [← hd]; rfl
  have hph : s.phase.Scalable := by rw [hseq]; simp only; rw [← hd]; trivial
  have hgat : s.gating = .sigmoid (.forGating 1 0.1) := by rw [hseq]; simp only; rw [← hd]; rfl
  have hsc : s.scaling = .noScaling := by rw [hseq]
  have hfas : s.fas = some [one] := by rw [hseq]
  have htau : s.tau = 1 := by rw [hseq]
  have hdim : s.dimY = 1 := by rw [hseq]; rfl
  clear hseq hd
  have w := hT.inv.wf
  have hM : s.MotScalable := ⟨hgoal, hdamp⟩
  obtain ⟨-, h2⟩ := hO 2 two_pos
  rw [setTau_run] at h2
  simp only at h2
  have hT' := kept_timed.tau s (2 * s.tau) hT (by rw [htau]; norm_num)
  have hfa : s.faUsed [0, 1, 2, 3] false = .ok [[1], [1], [1], [1]] := by
    unfold faUsed
    rw [predictions_one hfas hdim _ (by simp)]
    rfl
  have hsol := (analytical_iff w (sameStart_of_tau hT.springTau) (ts := [0, 1, 2, 3]) (b := false)).mpr
    ⟨fun h => (by rw [hreq] at h; cases h), by unfold CanForce; rw [hsc]; trivial, by simp, _, hfa, rfl⟩
  obtain ⟨sol', r', h3, h4, -, h5, -⟩ := h2 _ _ _ _ hsol (asTrajectory_ok s (by simp) (by simp))
  obtain ⟨-, -, -, fa', hfa', hsol'⟩ :=
    (analytical_iff hT'.inv.wf (sameStart_of_tau hT'.springTau)).mp h3
  have hfa2 : fa' = [[1], [1], [1], [1]] := by
    unfold faUsed at hfa'
    rw [predictions_one (s := s.retimed (2 * s.tau)) hfas hdim _ (by simp)] at hfa'
    cases hfa'
    rfl
  subst hfa2
  rw [asTrajectory_ok _ (by rw [hsol']; simp) (by rw [hsol']; simp)] at h4
  cases h4
  have h6 := congrArg (fun a : Arr2 ℝ => (a.rows.getD 3 []).getD 0 0) h5
  simp only [hsol', List.map_map] at h6
  have hF : ∀ (u : Dmp), u.scaling = .noScaling → u.dimY = 1 → ∀ k, k < 4 → ∀ ts : List ℝ, ts.length = 4 →
      ((u.gated ts [[1], [1], [1], [1]]).getD k []).getD 0 0 = (u.gating.xAt (ts.getD k 0)).getD 0 0 := by
    intro u hu hud k hk ts hts
    rw [gated_getD (by rw [hts]; rfl) (by omega) (by omega)]
    have : (([[1], [1], [1], [1]] : List (List ℝ)).getD k []).getD 0 0 = 1 := by
      match k, hk with
      | 0, _ => rfl
      | 1, _ => rfl
      | 2, _ => rfl
      | 3, _ => rfl
    unfold forcingFactor
    rw [this, hu]
    ring
  have hg' : (s.retimed (2 * s.tau)).gating = (Sub.sigmoid (.forGating 1 0.1)).withTau 2 := by
    rw [retimed_gating hT.tau.ne', hgat]
    have : (2 : ℝ) * (Sub.sigmoid (.forGating 1 0.1)).base.tau = 2 := mul_one 2
    rw [this]
  have e1 : ∀ k < 4, ((s.gated [0, 1, 2, 3] [[1], [1], [1], [1]]).getD k []).getD 0 0 =
      (s.gating.xAt (([0, 1, 2, 3] : List ℝ).getD k 0)).getD 0 0 := fun k hk => hF s hsc hdim k hk _ rfl
  have e2 : ∀ k < 4, (((s.retimed (2 * s.tau)).gated (([0, 1, 2, 3] : List ℝ).map fun t => 2 * t)
      [[1], [1], [1], [1]]).getD k []).getD 0 0 = ((s.retimed (2 * s.tau)).gating.xAt
        ((([0, 1, 2, 3] : List ℝ).map fun t => 2 * t).getD k 0)).getD 0 0 :=
    fun k hk => hF (s.retimed (2 * s.tau)) hsc hdim k hk _ rfl
  have p1 : ∀ (u : Dmp), u.Wf → u.dimY = 1 → ∀ (ts : List ℝ) (F : List (List ℝ)), ts.length = 4 →
      (((List.range ts.length).map ((fun x => pickAt x (SPRING_Y u.dimY)) ∘ u.xRow ts F)).getD 3 []).getD 0 0
        = (u.mot ts F 0 3).1 := by
    intro u wu du ts F hts
    rw [getD_range_map (by omega)]
    simp only [Function.comp]
    rw [pick_xRow_Y wu, getD_range_map (by omega)]
  rw [p1 _ hT'.inv.wf hdim _ _ (by simp), p1 _ w hdim _ _ (by simp), mot_slow hM hT.tau.ne' two_pos] at h6
  have h7 := third_position htau ?_ h6
  · rw [e1 1 (by omega), e2 1 (by omega), hg', hgat] at h7
    have a1 : (([0, 1, 2, 3] : List ℝ).map fun t => 2 * t).getD 1 0 = 2 := mul_one 2
    have a2 : ([0, 1, 2, 3] : List ℝ).getD 1 0 = 1 := rfl
    rw [a1, a2] at h7
    exact gating_values h7.symm
  · rw [e1 0 (by omega), e2 0 (by omega), hg', hgat]
    have a1 : (([0, 1, 2, 3] : List ℝ).map fun t => 2 * t).getD 0 0 = 0 := mul_zero 2
    have a2 : ([0, 1, 2, 3] : List ℝ).getD 0 0 = 0 := rfl
    rw [a1, a2, gating_start]
    exact (gating_start 1).symm

/-! ### Damping system -/

/-- Ijspeert Dmp with a damping system. -/
noncomputable def dampedOptions : Options :=
  { dmpType := "Ijs02"
    damping := some (some (.exponential (.init 1 [2] [20] (.scalar 4)))) }

/-- C20 is also false if there is no SigmoidSystem, but a damping system: the tau setter does not set its
time constant (Dmp.py:569-584). -/
theorem C20_damping_refuted : ¬ ∀ (d : Nat) (s : Dmp), Reachable Consistent Change.Forward d s →
    s.phase.Scalable → s.gating.Scalable → (∀ g, s.goal = some g → g.Scalable) → OnlySpeed s := by
  intro H
  obtain ⟨s, hs⟩ := (C16_types 1 [0] [1] none dampedOptions).1 (Or.inl (by simp [dampedOptions]))
  have hr : Reachable Consistent Change.Forward 1 s := .init hs rfl rfl
    ⟨(fun _ h => nomatch h), trivial, (fun _ h => nomatch h),
      (fun _ h => nomatch h), (fun _ h => nomatch h),
      (fun _ h => by cases h; exact ⟨exponential_fits 1 [2] [20] 4 rfl, rfl⟩), (fun _ h => nomatch h)⟩
    ⟨(fun _ h => nomatch h), one_pos, (fun _ h => nomatch h)⟩
  have hT := kept_timed.reachable init_timed hr
  obtain ⟨dflt, hd, hseq⟩ := init_eq hs
  unfold defaults dampedOptions at hd
  simp only at hd
  rw [if_pos (by decide)] at hd
  have hd := Except.ok.inj hd
  have hreq : s.requiresScaling = false := by rw [hseq]; simp only; rw [← hd]
  have hgoal : s.goal = none := by rw [hseq]; simp only; rw [← hd]; rfl
  have hdamp : s.damping = some (.exponential (.init 1 [2] [20] (.scalar 4))) := by rw [hseq]; rfl
  have hph : s.phase.Scalable := by rw [hseq]; simp only; rw [← hd]; trivial
  have hgat : s.gating.Scalable := by rw [hseq]; simp only; rw [← hd]; trivial
  have hsc : s.scaling = .noScaling := by rw [hseq]; rfl
  have hfas : s.fas = none := by rw [hseq]
  have htau : s.tau = 1 := by rw [hseq]
  have hdim : s.dimY = 1 := by rw [hseq]; rfl
  have hya : s.yAttr = [1] := by rw [hseq]
  have hxi : s.spring.xInit = [0, 0] := by rw [hseq]; rfl
  have hk : s.spring.spring.at' 0 = 100 := by
    rw [hseq]; simp [dampedOptions, SpringDamper.init, SpringDamper.criticalSpring, Par.at']; norm_num
  have hm : s.spring.mass.at' 0 = 1 := by
    rw [hseq]; simp [dampedOptions, SpringDamper.init, Par.at']
  have hO := H 1 s hr hph hgat (fun g h => by rw [hgoal] at h; cases h)
  clear hseq hd H
  have w := hT.inv.wf
  obtain ⟨-, h2⟩ := hO 2 two_pos
  rw [setTau_run] at h2
  simp only at h2
  have hT' := kept_timed.tau s (2 * s.tau) hT (by rw [htau]; norm_num)
  have hfa : ∀ u : Dmp, u.fas = none → u.dimY = 1 → ∀ ts, u.faUsed ts false = .ok (ts.map fun _ => [0]) := by
    intro u hu hud ts
    unfold faUsed predictions
    rw [hu, hud]
    simp only [List.length_map]
    rw [← List.map_const']
    rfl
  have hsol := (analytical_iff w (sameStart_of_tau hT.springTau) (ts := [0, 1, 2, 3]) (b := false)).mpr
    ⟨fun h => (by rw [hreq] at h; cases h), by unfold CanForce; rw [hsc]; trivial, by simp, _,
      hfa s hfas hdim _, rfl⟩
  obtain ⟨sol', r', h3, h4, -, h5, -⟩ := h2 _ _ _ _ hsol (asTrajectory_ok s (by simp) (by simp))
  obtain ⟨-, -, -, fa', hfa', hsol'⟩ :=
    (analytical_iff hT'.inv.wf (sameStart_of_tau hT'.springTau)).mp h3
  rw [hfa (s.retimed (2 * s.tau)) hfas hdim] at hfa'
  cases hfa'
  rw [asTrajectory_ok _ (by rw [hsol']; simp) (by rw [hsol']; simp)] at h4
  cases h4
  have h6 := congrArg (fun a : Arr2 ℝ => (a.rows.getD 3 []).getD 0 0) h5
  simp only [hsol', List.map_map] at h6
  have p1 : ∀ (u : Dmp), u.Wf → u.dimY = 1 → ∀ (ts : List ℝ) (F : List (List ℝ)), ts.length = 4 →
      (((List.range ts.length).map ((fun x => pickAt x (SPRING_Y u.dimY)) ∘ u.xRow ts F)).getD 3 []).getD 0 0
        = (u.mot ts F 0 3).1 := by
    intro u wu du ts F hts
    rw [getD_range_map (by omega)]
    simp only [Function.comp]
    rw [pick_xRow_Y wu, getD_range_map (by omega)]
  rw [p1 _ hT'.inv.wf hdim _ _ (by simp), p1 _ w hdim _ _ (by simp)] at h6
  have hF : ∀ u : Dmp, u.scaling = .noScaling → u.dimY = 1 → ∀ ts : List ℝ, ts.length = 4 → ∀ k < 4,
      ((u.gated ts (ts.map fun _ => [0])).getD k []).getD 0 0 = 0 := by
    intro u hu hud ts hts k hk
    rw [gated_getD (by simp) (by omega) (by omega), getD_map' (by omega) [] 0]
    simp
  have key : ∀ (u : Dmp) (ts : List ℝ) (c : ℝ), ts = [0, c, c + c, c + c + c] → c ≠ 0 → u.tau = c →
      u.spring.tau = c → u.spring.spring.at' 0 = 100 → u.spring.mass.at' 0 = 1 → u.spring.xInit = [0, 0] →
      u.dimY = 1 → u.scaling = .noScaling → u.goal = none → u.yAttr = [1] → u.requiresScaling = false →
      (u.mot ts (u.gated ts (ts.map fun _ => [0])) 0 3).1 =
        300 - 100 * (u.dampAt (ts.getD 1 0)).getD 0 0 := by
    intro u ts c hts hc q1 q2 q3 q4 q5 q6 q7 q8 q9 q10
    have hsca : ∀ t, (u.scaled (u.goalAt t)).getD 0 0 = 1 := by
      intro t; unfold scaled goalAt; rw [q8, q10, q9]; rfl
    have f := fun k hk => hF u q7 q6 ts (by rw [hts]; rfl) k hk
    simp only [mot, acc, hsca, q1, q2, q3, q4, q5, q6, f 0 (by omega), f 1 (by omega)]
    rw [hts]
    have b0 : ([0, c, c + c, c + c + c] : List ℝ).getD 0 0 = 0 := rfl
    have b1 : ([0, c, c + c, c + c + c] : List ℝ).getD (0 + 1) 0 = c := rfl
    have b1' : ([0, c, c + c, c + c + c] : List ℝ).getD 1 0 = c := rfl
    have b2 : ([0, c, c + c, c + c + c] : List ℝ).getD (1 + 1) 0 = c + c := rfl
    have b3 : ([0, c, c + c, c + c + c] : List ℝ).getD (0 + 1 + 1) 0 = c + c := rfl
    have b4 : ([0, c, c + c, c + c + c] : List ℝ).getD (0 + 1 + 1 + 1) 0 = c + c + c := rfl
    have b5 : ([0, 0] : List ℝ).getD 0 0 = 0 := rfl
    have b6 : ([0, 0] : List ℝ).getD (1 + 0) 0 = 0 := rfl
    simp only [b0, b1, b1', b2, b3, b4, b5, b6]
    field_simp
    ring
  have emap : ([0, 1, 2, 3] : List ℝ).map ((fun _ => ([0] : List ℝ)) ∘ fun t => 2 * t) =
      (([0, 1, 2, 3] : List ℝ).map fun t => 2 * t).map fun _ => [0] := rfl
  rw [emap] at h6
  have t' : (s.retimed (2 * s.tau)).tau = 2 := by change 2 * s.tau = 2; rw [htau]; norm_num
  rw [key (s.retimed (2 * s.tau)) _ 2 (by norm_num) (by norm_num) t' (by rw [hT'.springTau, t']) hk hm hxi hdim
      hsc (by change s.goal.map _ = none; rw [hgoal]; rfl) hya hreq,
    key s _ 1 (by norm_num) (by norm_num) htau (by rw [hT.springTau, htau]) hk hm hxi hdim hsc hgoal hya
      hreq] at h6
  have hD : ∀ t : ℝ, ((Sub.exponential (.init 1 [2] [20] (.scalar 4))).xAt t).getD 0 0 =
      (2 - 20) * Real.exp (-4 * t) + 20 := by
    intro t
    simp [Sub.xAt, Exponential.xAt, Exponential.init, Exponential.xComp]
  have d1 : ∀ t, s.dampAt t = (Sub.exponential (.init 1 [2] [20] (.scalar 4))).xAt t := by
    intro t; unfold dampAt; rw [hdamp]
  have d2 : ∀ t, (s.retimed (2 * s.tau)).dampAt t = s.dampAt t := fun t => rfl
  rw [d2, d1, d1, hD, hD] at h6
  have h7 : Real.exp (-4 * ([0, 1, 2, 3] : List ℝ).getD 1 0) =
      Real.exp (-4 * (([0, 1, 2, 3] : List ℝ).map fun t => 2 * t).getD 1 0) := by linarith
  have h8 := Real.exp_injective h7
  norm_num at h8

end Dmp

end Verif
