import Verif.Model.DemoDmp
import Verif.Props.DemoTraining
import Verif.Props.TrajectoryVia

/-
C114: the script demos/python/dmps/demo_dmp.py.
-/

set_option autoImplicit false

namespace Verif

open Spec Dmp

/-- What demo_dmp.py shows for a demonstration and the times `ts`, with the trained Dmp `s`. -/
structure ShowsDemo (traj : Trajectory ℝ) (ts : List ℝ) (s : Dmp) (r : DmpDemo) : Prop where
  /-- The analytical solution of the trained Dmp at the times, -/
  analytical : (Dmp.analytical (some ts) false s).1 = .ok r.analytical
  /-- its integration step by step, which visits these times, -/
  steps : (integrate ts .rungeKutta s).1 = .ok r.steps ∧ r.steps.length = ts.length
  /-- the first figure: the analytical solution, the demonstration, and the motion without forcing term, -/
  picture : ∃ u, (Dmp.analytical (some ts) true s).1 = .ok u ∧
    ShowsDmp traj.dim s.tau (.rows (List.range 8)) (List.range 8) ts r.analytical (some traj) (some u) true r.picture
  /-- the second figure: the states of the integration, -/
  pictureSteps : ShowsDmp traj.dim s.tau (.rows (List.range 8)) (List.range 8) ts
    ⟨r.steps.map Prod.fst, r.steps.map Prod.snd, [], []⟩ none none true r.pictureSteps
  /-- the third figure: the demonstration and both reproductions in the same panels. -/
  comparison : ∃ misc, misc = (match traj.misc with | some m => if 0 < m.rows.length * m.cols then [m.rows] else [] | none => []) ∧
    r.axs = List.range (3 + misc.length) ∧
    r.demonstration = panels r.axs traj.ts ([traj.ys.rows, traj.yds.rows, traj.ydds.rows] ++ misc) ∧
    r.reproducedSteps = panels r.axs ts (motionCurves traj.dim s.tau (r.steps.map Prod.fst) (r.steps.map Prod.snd)) ∧
    r.reproduced = panels r.axs ts (motionCurves traj.dim s.tau r.analytical.xs r.analytical.xds)

/-- The drawing of states as a trajectory. -/
theorem plot_states (s : Dmp) {ts : List ℝ} {xs xds : List (List ℝ)} (hx : xs.length = ts.length)
    (hxd : xds.length = ts.length) (axs : List Nat) (ha : axs ≠ []) :
    ∃ t, s.asTrajectory ts xs xds = .ok t ∧ t.plot (some axs) = .ok (panels axs ts (motionCurves s.dimY s.tau xs xds), axs) := by
  obtain ⟨t, h1, h2, h3⟩ := C99_same_trajectory s ts xs xds hx hxd
  refine ⟨t, h1, ?_⟩
  have hk := asTrajectory_ok s hx hxd
  rw [h1] at hk
  obtain rfl := Except.ok.inj hk
  rw [Trajectory.C99_plot_none _ rfl axs ha ⟨by simpa using hx, by simpa using hxd, by simpa using hxd⟩, h3]

/-- C114: the demo succeeds with each Dmp that C++ can read, for any demonstration, duration, and number of time steps. -/
theorem C114_run {traj : Trajectory ℝ} (hs : traj.Shape) {s : Dmp} (h : Deployable traj.dim s)
    (hsm : ∀ l, s.fas = some l → ∀ fa ∈ l, Cpp.Dmp.Smooth fa) (T : ℝ) {n : Nat} (hn : 2 ≤ n) :
    ∃ r, (runDmpDemo traj (linspace 0 T n) s).1 = .ok r ∧ ShowsDemo traj (linspace 0 T n) s r := by
  have hlen : (linspace 0 T n).length = n := by simp [linspace]
  obtain ⟨ts, hts⟩ : ∃ ts, ts = linspace 0 T n := ⟨_, rfl⟩
  rw [← hts] at hlen ⊢
  have hne : ts ≠ [] := fun e => by rw [e] at hlen; simp at hlen; omega
  have hdt : ts[1]? = some (T / ((n : ℝ) - 1)) := by
    rw [hts]
    unfold linspace
    rw [List.getElem?_map, List.getElem?_range (by omega)]
    simp
  have hrange : ts = (List.range n).map fun i : Nat => T / ((n : ℝ) - 1) * i := by
    rw [hts]
    unfold linspace
    refine List.map_congr_left fun i _ => ?_
    ring
  obtain ⟨sol, hsol, l1, l2⟩ := analytical_total h hsm hne
  obtain ⟨q1, q2⟩ := h.query (.analytical (some ts) false) trivial
  rw [show (Dmp.Call.run (.analytical (some ts) false) s).2 = (Dmp.analytical (some ts) false s).2 from
    run_state _ _ s] at q1 q2
  rcases ea : Dmp.analytical (some ts) false s with ⟨ra, s1⟩
  rw [ea] at hsol q1 q2
  simp only at hsol q1 q2
  subst hsol
  obtain ⟨start, rows, s2, s3, e1, e2, e3, e4⟩ := rollout_total h hsm q1.inv.good q2 (T / ((n : ℝ) - 1))
    (n := n) (by omega)
  rw [← hrange] at e4
  obtain ⟨p1, p2⟩ := q1.query .start trivial
  rw [show (Dmp.Call.run .start s1).2 = (Dmp.integrateStart none s1).2 from run_state _ _ s1, e1] at p1 p2
  obtain ⟨-, m2, m3⟩ := integrateEndEffector_run p1 e2
  have hτ : ∀ {u : Dmp}, Deployable traj.dim u → u.spring.tau = u.tau := fun hu => (Cpp.Dmp.reachable_common hu.reachable).springTau
  have hsolu : ∀ {u : Dmp}, Good traj.dim u → u.core = s.core → (Dmp.analytical (some ts) false u).1 = .ok sol := by
    intro u hu hc
    rw [(stable_analytical (some ts) false u s hu h.inv.good hc).1, ea]
  obtain ⟨v, hv⟩ : ∃ v, (Dmp.analytical (some ts) true s).1 = .ok v := by
    have hst := sameStart_of_tau (hτ h)
    obtain ⟨h1, h2, h3, fa, h4, -⟩ := (analytical_iff h.inv.wf hst).mp (hsolu h.inv.good rfl)
    unfold faUsed at h4
    rcases hp : s.predictions (ts.map fun t' => (s.phase.xAt t').getD 0 0) with e | out
    · rw [hp] at h4; cases h4
    · refine ⟨_, (analytical_iff h.inv.wf hst).mpr ⟨h1, h2, h3, out.map fun r => vzeros r.length, ?_, rfl⟩⟩
      unfold faUsed
      rw [hp]
      rfl
  have hv3 : (Dmp.analytical (some ts) true s3).1 = .ok v := by
    rw [(stable_analytical (some ts) true s3 s m2.inv.good h.inv.good e3).1, hv]
  obtain ⟨pic, s4, f1, f2, f3, f4⟩ := C99_dmp m2.inv.good h.pos (hτ m2) { unforced := true, demonstration := some traj }
    (some ts) ts (.inl rfl) sol (hsolu m2.inv.good e3) (List.range 8) (.inr ⟨.inl rfl, rfl⟩) (by simp)
    (fun t ht => by cases ht; exact hs) (some v) (.inr ⟨rfl, v, rfl, hv3⟩)
  have hsteps : (start :: rows).length = ts.length := by
    rw [List.length_cons, integrateRows_length e2, hlen]
    omega
  have hx : ((start :: rows).map Prod.fst).length = ts.length := by rw [List.length_map, hsteps]
  have hxd : ((start :: rows).map Prod.snd).length = ts.length := by rw [List.length_map, hsteps]
  obtain ⟨pic2, s5, g1, g2, g3, g4⟩ := C99_dmp_states f3 h.pos (by rw [core_springTau f4, core_tau f4, hτ m2]) {}
    (some ts) ts (.inl rfl) hne _ _ hx hxd (.inr (by simp)) (.inr (by simp)) (List.range 8) (.inr ⟨.inl rfl, rfl⟩) (by simp)
    (fun t ht => nomatch ht) none (.inl ⟨rfl, rfl⟩)
  have hc5 : s5.core = s.core := (g4.trans f4).trans e3
  obtain ⟨misc, hmisc⟩ : ∃ misc : List (List (List ℝ)), misc =
    match traj.misc with | some m => if 0 < m.rows.length * m.cols then [m.rows] else [] | none => [] := ⟨_, rfl⟩
  have ht := Trajectory.C99_trajectory traj hs none (List.range (3 + misc.length)) misc hmisc (.inl ⟨.inl rfl, rfl⟩)
  have haxs : List.range (3 + misc.length) ≠ [] := by simp
  obtain ⟨t1, a1, a2⟩ := plot_states s5 hx hxd _ haxs
  obtain ⟨t2, b1, b2⟩ := plot_states s5 l1 l2 _ haxs
  have hd5 : s5.dimY = traj.dim := g3.dim
  rw [hd5, core_tau hc5] at a2 b2
  rw [core_tau e3] at f2
  rw [core_tau (f4.trans e3)] at g2
  refine ⟨⟨sol, start :: rows, pic, pic2,
    panels (List.range (3 + misc.length)) traj.ts ([traj.ys.rows, traj.yds.rows, traj.ydds.rows] ++ misc),
    panels (List.range (3 + misc.length)) ts
      (motionCurves traj.dim s.tau ((start :: rows).map Prod.fst) ((start :: rows).map Prod.snd)),
    panels (List.range (3 + misc.length)) ts (motionCurves traj.dim s.tau sol.xs sol.xds),
    List.range (3 + misc.length)⟩, ?_, by rw [ea], ⟨e4, hsteps⟩, ⟨v, hv, f2⟩, g2,
    ⟨misc, hmisc, rfl, rfl, rfl, rfl⟩⟩
  unfold runDmpDemo
  rw [PyM.bind_ok ea]
  simp only [hdt]
  rw [PyM.lift_ok_bind, PyM.bind_ok e1, hlen, PyM.bind_ok e2, PyM.bind_ok f1, PyM.bind_ok g1, ht, PyM.lift_ok_bind]
  simp only
  rw [PyM.self_bind, a1, PyM.lift_ok_bind, a2, PyM.lift_ok_bind, b1, PyM.lift_ok_bind, b2, PyM.lift_ok_bind]
  rfl

/-- C114: the demonstration is a movement of 0.5 s that starts at (0, 0.7), passes (-0.2, 0.4) at time 0.2 and ends at
(0.4, 0.5), both ends at rest. -/
theorem C114_demonstration : ∃ traj, dmpDemoTrajectory = .ok traj ∧ traj.Shape ∧ traj.dim = 2 ∧
    traj.ts = equidistant 0 (1 / 200) 101 ∧ SampleIs traj 0 0 0 0 0 ∧ SampleIs traj 0 1 0.7 0 0 ∧
    SampleIs traj 40 0 (-0.2) 0 0 ∧ SampleIs traj 40 1 0.4 0 0 ∧
    SampleIs traj 100 0 0.4 0 0 ∧ SampleIs traj 100 1 0.5 0 0 := by
  obtain ⟨s, h1, h2, -, h4, hd, h5⟩ := Trajectory.C66_viapoint_partial (0 : ℝ) (1 / 200) 0.2 101 40 [0, 0.7] [-0.2, 0.4] [0, 0] [0, 0]
    [0.4, 0.5] (by norm_num) (by omega) (by omega) (by norm_num) (by norm_num) rfl rfl rfl rfl
  have e : dmpDemoTrajectory = .ok s := by
    rw [← h1]
    unfold dmpDemoTrajectory
    congr 1
    · unfold linspace equidistant
      refine List.map_congr_left fun i _ => ?_
      norm_num
    · norm_num [linspace, List.range_succ]
    · norm_num
    · norm_num [linspace, List.range_succ]
  have h0 := h5 0 (by simp)
  have h1' := h5 1 (by simp)
  refine ⟨s, e, h4, hd, h2, ?_⟩
  have all := And.intro h0.1 (And.intro h1'.1 (And.intro h0.2.2.1 (And.intro h1'.2.2.1 (And.intro h0.2.2.2 h1'.2.2.2))))
  simpa using all

/-- C114 (full statement): the demo succeeds for all three types of Dmps. -/
def C114_statement : Prop := ∀ dmpType ∈ ["IJSPEERT_2002_MOVEMENT", "KULVICIUS_2012_JOINING", "2022"],
  ∃ traj s r, dmpDemoTrajectory = .ok traj ∧ dmpDemoTrain traj dmpType = .ok s ∧ dmpDemo dmpType = .ok r ∧
    ShowsDemo traj (linspace 0 0.7 141) s r

/-- C114: the demo succeeds for the type KULVICIUS_2012_JOINING: a Dmp with 10 basis functions in each of the two dimensions
is trained, and the figures show its motion. Missing compared to the full claim: the other two types, whose training
succeeds for demonstrations with enough different phases, which is not proved here. -/
theorem C114_demo_partial : ∃ traj s r, dmpDemoTrajectory = .ok traj ∧
    dmpDemoTrain traj "KULVICIUS_2012_JOINING" = .ok s ∧ s.tau = 0.5 ∧
    (∃ l, s.fas = some l ∧ l.length = 2 ∧ ∀ fa ∈ l, fa.params = .rbfn [10] 0.7 0) ∧
    dmpDemo "KULVICIUS_2012_JOINING" = .ok r ∧ ShowsDemo traj (linspace 0 0.7 141) s r := by
  obtain ⟨traj, h1, hs, hd, hts, -⟩ := C114_demonstration
  have hlast : traj.ts.getLast? = some 0.5 := by
    rw [hts]
    unfold equidistant
    rw [List.getLast?_map, List.getLast?_range]
    norm_num
  have hi : traj.ts.Pairwise (· < ·) := by
    rw [hts]
    exact Trajectory.equidistant_increasing _ _ _ (by norm_num)
  have ht := C103_increasing hs hlast (by norm_num) hi (by omega) (n := 10) (by omega)
  rw [if_pos (by rw [hts]; simp [equidistant])] at ht
  have htr : dmpDemoTrain traj "KULVICIUS_2012_JOINING" =
      Dmp.fromTraj traj (some (List.replicate traj.dim (Fa.new (.rbfn [10] 0.7 0)))) trainOptions := by
    rw [hd]
    rfl
  have htd : trainDmp traj 10 = dmpDemoTrain traj "KULVICIUS_2012_JOINING" >>= fun t =>
      (Dmp.setSelected ["weights"] t).1 >>= fun _ => pure (Dmp.setSelected ["weights"] t).2 := by
    rw [htr]
    rfl
  rw [htd] at ht
  cases e : dmpDemoTrain traj "KULVICIUS_2012_JOINING" with
  | error er => rw [e] at ht; cases ht
  | ok s =>
    obtain ⟨a1, a2, a3, l, b1, b2, b3⟩ := fromTraj_deployable hs hlast (by norm_num) (by omega) (n := 10) (by omega)
      (htr.symm.trans e)
    obtain ⟨r, hr, hshow⟩ := C114_run hs a1 (fun l' e fa hfa => by
      rw [b1] at e
      cases e
      exact (b3 fa hfa).2) 0.7 (n := 141) (by omega)
    refine ⟨traj, s, r, h1, e, a2, ⟨l, b1, by rw [b2, hd], fun fa hfa => (b3 fa hfa).1⟩, ?_, hshow⟩
    unfold dmpDemo
    rw [h1]
    change (dmpDemoTrain traj "KULVICIUS_2012_JOINING" >>= _) = _
    rw [e]
    exact hr

/-! ### Cases that meet the hypotheses -/

/-- The Dmp of the demo, with three time steps until time 2. -/
example : ∃ traj s r, dmpDemoTrain traj "KULVICIUS_2012_JOINING" = .ok s ∧
    (runDmpDemo traj (linspace 0 2 3) s).1 = .ok r ∧ r.steps.length = 3 := by
  obtain ⟨file, traj, h, -⟩ := example_robot_file
  obtain ⟨hs, -⟩ := loadtxt_shape h.load
  have ht := C103_increasing hs h.last (by norm_num) h.increasing (by rw [h.dim]; exact two_pos) (n := 10) (by omega)
  rw [if_pos (by have := h.many; omega)] at ht
  have htr : dmpDemoTrain traj "KULVICIUS_2012_JOINING" =
      Dmp.fromTraj traj (some (List.replicate traj.dim (Fa.new (.rbfn [10] 0.7 0)))) trainOptions := by
    rw [h.dim]
    rfl
  have htd : trainDmp traj 10 = dmpDemoTrain traj "KULVICIUS_2012_JOINING" >>= fun t =>
      (Dmp.setSelected ["weights"] t).1 >>= fun _ => pure (Dmp.setSelected ["weights"] t).2 := by
    rw [htr]
    rfl
  rw [htd] at ht
  cases e : dmpDemoTrain traj "KULVICIUS_2012_JOINING" with
  | error er => rw [e] at ht; cases ht
  | ok s =>
    obtain ⟨a1, -, -, l, b1, -, b3⟩ := fromTraj_deployable hs h.last (by norm_num) (by rw [h.dim]; exact two_pos)
      (n := 10) (by omega) (htr.symm.trans e)
    obtain ⟨r, hr, hshow⟩ := C114_run hs a1 (fun l' e fa hfa => by
      rw [b1] at e
      cases e
      exact (b3 fa hfa).2) 2 (n := 3) (by omega)
    exact ⟨traj, s, r, e, hr, by rw [hshow.steps.2]; simp [linspace]⟩

end Verif
