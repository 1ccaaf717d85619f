import Verif.Model.RobotExploration
import Verif.Props.RolloutPlots

/-
C111: the exploration in the demos for the robot, and its plots.
-/

set_option autoImplicit false

namespace Verif

/-- C111: the names of the files of samples: those with results are plotted, those with trajectories are not. -/
theorem C111_names {i : Nat} (h : i < 10) : isCostVars (twoDigits i ++ "_cost_vars.txt") = true ∧
    isCostVars (twoDigits i ++ "_traj.txt") = false := by
  interval_cases i <;> refine ⟨?_, ?_⟩ <;> decide

/-- C111: the number of a sample below 100 is written with two digits. -/
theorem C111_digits : ∀ i < 100, (twoDigits i).toList = [Char.ofNat (48 + i / 10), Char.ofNat (48 + i % 10)] := by
  decide

/-- C111: the files of a sample. -/
theorem C111_files (f : SavedSample) (traj : Bool) {m : Arr2 ℝ} {rows : List (List ℝ)} (h : robotExecute traj f = some rows)
    (i : Nat) :
    (f.traj = none → sampleFiles traj i f = [(twoDigits i ++ "_cost_vars.txt", rows.map (List.map (roundTo 6)))]) ∧
    (f.traj = some m → sampleFiles traj i f = [(twoDigits i ++ "_traj.txt", m.rows.map (List.map (roundTo 7))),
      (twoDigits i ++ "_cost_vars.txt", rows.map (List.map (roundTo 6)))]) := by
  unfold sampleFiles
  rw [h]
  exact ⟨fun e => by rw [e]; rfl, fun e => by rw [e]; rfl⟩

/-- C111: if the program for the robot fails, or there is no trajectory, then there are no results, and no file with them. -/
theorem C111_fails (f : SavedSample) (i : Nat) :
    (∀ e, Cpp.robotProgram f.forCpp = .error e → robotExecute false f = none) ∧
    (f.traj = none → robotExecute true f = none) ∧
    (∀ m e, f.traj = some m → Cpp.robotTrajectoryProgram "traj.txt" (.only (m.rows.map (List.map (roundTo 7)))) = .error e →
      robotExecute true f = none) ∧
    ∀ traj, robotExecute traj f = none → ∀ g ∈ sampleFiles traj i f, g.1 = twoDigits i ++ "_traj.txt" := by
  refine ⟨fun e h => ?_, fun h => ?_, fun m e h h' => ?_, fun traj h g hg => ?_⟩
  · unfold robotExecute
    simp only [Bool.false_eq_true, if_false]
    rw [h]
  · unfold robotExecute
    simp only [if_true]
    rw [h]
  · unfold robotExecute
    rw [h]
    simp only [if_true]
    rw [h']
  · unfold sampleFiles at hg
    rw [h] at hg
    simp only [Option.toList_none, List.map_nil, List.append_nil] at hg
    obtain ⟨m, -, rfl⟩ := List.mem_map.mp hg
    rfl

theorem sampleFiles_filter (traj : Bool) : ∀ (fs : List SavedSample) (k : Nat), k + fs.length ≤ 10 →
    (∀ f ∈ fs, ∃ rows, robotExecute traj f = some rows) →
    (((fs.mapIdx fun i => sampleFiles traj (k + i)).flatten).filter fun f => isCostVars f.1).map (fun f => f.2) =
      fs.map fun f => ((robotExecute traj f).getD []).map (List.map (roundTo 6))
  | [], _, _, _ => rfl
  | f :: fs, k, hk, h => by
    rw [List.length_cons] at hk
    obtain ⟨rows, hr⟩ := h f (by simp)
    have ih := sampleFiles_filter traj fs (k + 1) (by omega) fun g hg => h g (List.mem_cons_of_mem _ hg)
    obtain ⟨n1, n2⟩ := C111_names (i := k) (by omega)
    have e : (fs.mapIdx fun i => sampleFiles traj (k + (i + 1))) = fs.mapIdx fun i => sampleFiles traj (k + 1 + i) := by
      congr 1
      funext i
      rw [Nat.add_assoc, Nat.add_comm i 1]
    have e1 : ((sampleFiles traj k f).filter fun f => isCostVars f.1) =
        [(twoDigits k ++ "_cost_vars.txt", rows.map (List.map (roundTo 6)))] := by
      unfold sampleFiles
      rw [hr]
      cases f.traj <;> simp [n1, n2]
    rw [List.mapIdx_cons, List.flatten_cons, List.filter_append, Nat.add_zero, e1, e, List.map_append, ih]
    simp [hr]

theorem forall₂_right {α β : Type} {R : α → β → Prop} {xs : List α} {ys : List β} (h : List.Forall₂ R xs ys) {y : β}
    (hy : y ∈ ys) : ∃ x, R x y := by
  induction h with
  | nil => cases hy
  | cons hab _ ih =>
    rcases List.mem_cons.mp hy with rfl | hy
    · exact ⟨_, hab⟩
    · exact ih hy

theorem plottable_rounded {rows : List (List ℝ)} (h2 : 2 ≤ rows.length) (h : ∀ r ∈ rows, r.length = 14) :
    Plottable (rows.map (List.map (roundTo 6))) := by
  refine ⟨by simpa using h2, 14, by omega, fun l hl => ?_⟩
  obtain ⟨r, hr, rfl⟩ := List.mem_map.mp hl
  rw [List.length_map, h r hr]

/-- The rollout of a sample `x`, whose files are those of `f`, on the robot. -/
structure RolledOut (traj : Bool) (dmp0 : TunableDmp 20) (tau : ℝ) (x : Fin 20 → ℝ) (f : SavedSample)
    (rows : List (List ℝ)) : Prop where
  /-- The files are those of the given Dmp with the sample as parameters. -/
  wrote : TunableDmp.Wrote 2 traj (!traj) dmp0 x f
  /-- The robot performs the trajectory of this Dmp, -/
  fromTraj : traj = true → ∃ m, (dmp0.tuned x).dmp.trainMatrix = .ok m ∧ Cpp.Robot (m.rows.map (List.map (roundTo 7))) rows
  /-- or the Dmp, as in the simulation in Python. -/
  fromDmp : traj = false → Cpp.robotProgram f.forCpp = .ok rows ∧ rows.length = ⌊150 * tau⌋₊ ∧
    ∃ s' m, ThrowBall.runPythonSimulation (-0.3) f.dmp = (.ok m, s') ∧ rows.length ≤ m.rows.length ∧
      ∀ i, i < rows.length → ((rows.getD i []).drop 1).take 4 = ((m.rows.getD i []).drop 1).take 4 ∧
        ((rows.getD i []).drop 7).take 2 = (m.rows.getD i []).drop 7

/-- C111: the exploration, with any sigma. The robot performs the rollouts of all samples, and they are all drawn, in the order of
the samples; the figure is saved. -/
theorem C111_exploration {file : Lines} {traj0 : Trajectory ℝ} {tau : ℝ} (h : ForRobot file traj0 tau) {dmp0 : TunableDmp 20}
    (h0 : robotTrain file = some dmp0.dmp) (traj : Bool)
    (hr : traj = true → (traj0.ts.map (roundTo 7)).Pairwise (· < ·)) (h2 : traj = false → 2 ≤ 150 * tau) (sigma : ℝ)
    (draws : (k : Nat) → Fin 10 → Fin k → ℝ) :
    ∃ plots, robotExploration traj sigma dmp0.dmp draws =
        some (⟨20, ⟨dmp0.params, (sigma ^ 2) • 1, none⟩⟩, plots, .ok (.saved "plot_rollouts.png")) ∧
      List.Forall₂ (fun x p => ∃ f rows, RolledOut traj dmp0 tau x f rows ∧
        Drawn robotTask (rows.map (List.map (roundTo 6))) p) (List.ofFn (draws 20)) plots := by
  obtain ⟨u, h1, -, h3, h4, h5, h6⟩ := C107_train h
  obtain rfl : u = dmp0 := TunableDmp.ext (Option.some.inj (h1.symm.trans h0))
  have hmany := h.many
  obtain ⟨fs, t, e, hw⟩ := u.C94_explore h3 sigma traj (!traj) (fun k => List.ofFn (draws k)) (fun _ => by omega)
    (fun _ x => u.matrix_total h3 h6 h5 (fun e => by rw [e] at hmany; simp at hmany) x)
  have key : ∀ x f, TunableDmp.Wrote 2 traj (!traj) u x f → ∃ rows, robotExecute traj f = some rows ∧
      RolledOut traj u tau x f rows ∧ Plottable (rows.map (List.map (roundTo 6))) := by
    intro x f hf
    cases traj with
    | true =>
      obtain ⟨m, e1, e2⟩ := hf.traj rfl
      obtain ⟨m', e3, e3', e4⟩ := u.C109_rollout h3 h6 h5 (by omega) x
      cases e2.symm.trans e3
      obtain ⟨rows, e5, e6⟩ := e4 (roundTo 7) (hr rfl) "traj.txt" (.only _) rfl
      have hts' : (u.tuned x).dmp.tsTrain = some traj0.ts := by
        rw [(Dmp.norm_parts (u.norm_tuned x)).2.2.2.1, h5]
      obtain ⟨m', f1, f2, -⟩ := Dmp.trainMatrix_planar (u.deploy_tuned h3 x)
        (Dmp.smooth_norm (u.norm_tuned x).symm h6) hts' (by intro e; rw [e] at hmany; simp at hmany)
      cases e2.symm.trans f1
      refine ⟨rows, ?_, ⟨hf, fun _ => ⟨m, e2, e6⟩, fun h => (by cases h)⟩, C110_robot e6 ?_ ?_⟩
      · unfold robotExecute
        rw [e1]
        simp only [if_true]
        rw [e5]
      · rw [List.length_map, e3']
        omega
      · intro l hl
        obtain ⟨r, hr, rfl⟩ := List.mem_map.mp hl
        rw [List.length_map, f2 r hr]
    | false =>
      obtain ⟨g1, g2, g3⟩ := hf.file
      obtain ⟨s', m, rows, a1, a2, a3, a4, a5, -, a6⟩ := C94_rollout g3 (Dmp.smooth_norm g2.symm h6)
      rw [(Dmp.norm_parts g2).2.2.2.2.2, h4] at a3
      rw [← g1] at a2
      refine ⟨rows, ?_, ⟨hf, fun h => (by cases h), fun _ => ⟨a2, a3, s', m, a1, a5, fun i hi => ⟨(a6 i hi).1, (a6 i hi).2.1⟩⟩⟩,
        plottable_rounded ?_ a4⟩
      · unfold robotExecute
        simp only [Bool.false_eq_true, if_false]
        rw [a2]
      · rw [a3]
        exact Nat.le_floor (by exact_mod_cast h2 rfl)
  have hall : ∀ f ∈ fs, ∃ x rows, robotExecute traj f = some rows ∧ RolledOut traj u tau x f rows ∧
      Plottable (rows.map (List.map (roundTo 6))) := by
    intro f hf
    obtain ⟨x, hx⟩ := forall₂_right hw hf
    obtain ⟨rows, h⟩ := key x f hx
    exact ⟨x, rows, h⟩
  have hlen : fs.length = 10 := by rw [← hw.length_eq, List.length_ofFn]
  have hfil := sampleFiles_filter traj fs 0 (by omega) fun f hf => by
    obtain ⟨-, rows, h, -⟩ := hall f hf
    exact ⟨rows, h⟩
  simp only [Nat.zero_add] at hfil
  obtain ⟨plots, p1, p2⟩ := C110_directory robotTask (files := (fs.mapIdx (sampleFiles traj)).flatten) (by
    intro g hg hc
    have hmem : g.2 ∈ fs.map fun f => ((robotExecute traj f).getD []).map (List.map (roundTo 6)) := by
      rw [← hfil]
      exact List.mem_map.mpr ⟨g, List.mem_filter.mpr ⟨hg, hc⟩, rfl⟩
    obtain ⟨f, hf, he⟩ := List.mem_map.mp hmem
    obtain ⟨-, rows, k1, -, k2⟩ := hall f hf
    rw [← he, k1]
    exact k2) true
  have hfil' : (((fs.mapIdx (sampleFiles traj)).flatten).filter fun f => isCostVars f.1).map (fun f => f.2) =
      fs.map fun f => ((robotExecute traj f).getD []).map (List.map (roundTo 6)) := hfil
  rw [hfil', List.forall₂_map_left_iff] at p2
  refine ⟨plots, ?_, ?_⟩
  · unfold robotExploration
    rw [e]
    simp only
    rw [p1]
    rfl
  · clear e hall hlen hfil hfil' p1
    generalize List.ofFn (draws 20) = xs at hw
    induction hw generalizing plots with
    | nil => cases p2; exact .nil
    | cons hab _ ih =>
      cases p2 with
      | cons q1 q2 =>
        refine .cons ?_ (ih _ q2)
        obtain ⟨rows, k1, k2, -⟩ := key _ _ hab
        rw [k1] at q1
        exact ⟨_, rows, k2, q1⟩

/-- C111: the three explorations of both demos. -/
theorem C111_demos {file : Lines} {traj0 : Trajectory ℝ} {tau : ℝ} (h : ForRobot file traj0 tau) (h2 : 2 ≤ 150 * tau)
    (hr : (traj0.ts.map (roundTo 7)).Pairwise (· < ·)) :
    ∃ dmp0 : TunableDmp 20, robotTrain file = some dmp0.dmp ∧ ∀ traj, ∀ sigma ∈ [(1 : ℝ), 20, 40], ∀ draws,
      ∃ plots, robotExploration traj sigma dmp0.dmp draws =
        some (⟨20, ⟨dmp0.params, (sigma ^ 2) • 1, none⟩⟩, plots, .ok (.saved "plot_rollouts.png")) ∧
        plots.length = 10 := by
  obtain ⟨u, h1, -⟩ := C107_train h
  refine ⟨u, h1, fun traj sigma _ draws => ?_⟩
  obtain ⟨plots, e, p⟩ := C111_exploration h h1 traj (fun _ => hr) (fun _ => h2) sigma draws
  exact ⟨plots, e, by rw [← p.length_eq, List.length_ofFn]⟩

/-- C111: for a movement that ends before 2/150 s, the files with results of demo_robot.bash have a single line, so that
they cannot be plotted. -/
theorem C111_short {file : Lines} {traj0 : Trajectory ℝ} {tau : ℝ} (h : ForRobot file traj0 tau) {dmp0 : TunableDmp 20}
    (h0 : robotTrain file = some dmp0.dmp) (h2 : 150 * tau < 2) (sigma : ℝ) (draws : (k : Nat) → Fin 10 → Fin k → ℝ) :
    robotExploration false sigma dmp0.dmp draws =
      some (⟨20, ⟨dmp0.params, (sigma ^ 2) • 1, none⟩⟩, [], .error .indexError) := by
  obtain ⟨u, h1, -, h3, h4, h5, h6⟩ := C107_train h
  obtain rfl : u = dmp0 := TunableDmp.ext (Option.some.inj (h1.symm.trans h0))
  have hmany := h.many
  obtain ⟨fs, t, e, hw⟩ := u.C94_explore h3 sigma false true (fun k => List.ofFn (draws k)) (fun _ => by omega)
    (fun _ x => u.matrix_total h3 h6 h5 (fun e => by rw [e] at hmany; simp at hmany) x)
  have key : ∀ f ∈ fs, ∃ r, robotExecute false f = some [r] ∧ r ≠ [] := by
    intro f hf
    obtain ⟨x, hx⟩ := forall₂_right hw hf
    obtain ⟨g1, g2, g3⟩ := hx.file
    obtain ⟨s', m, rows, -, a2, a3, a4, -⟩ := C94_rollout g3 (Dmp.smooth_norm g2.symm h6)
    rw [(Dmp.norm_parts g2).2.2.2.2.2, h4] at a3
    have hfl : ⌊150 * tau⌋₊ = 1 := by
      rw [Nat.floor_eq_iff (by linarith [h.late])]
      exact ⟨by exact_mod_cast h.late, by norm_num; exact h2⟩
    rw [hfl] at a3
    rw [← g1] at a2
    obtain ⟨r, rfl⟩ := List.length_eq_one_iff.mp a3
    refine ⟨r, ?_, ?_⟩
    · unfold robotExecute
      simp only [Bool.false_eq_true, if_false]
      rw [a2]
    · rintro rfl
      exact absurd (a4 [] (by simp)) (by simp)
  have hlen : fs.length = 10 := by rw [← hw.length_eq, List.length_ofFn]
  have hfil := sampleFiles_filter false fs 0 (by omega) fun f hf => by
    obtain ⟨r, h, -⟩ := key f hf
    exact ⟨[r], h⟩
  simp only [Nat.zero_add] at hfil
  match fs, hlen with
  | f :: fs, _ =>
    obtain ⟨r, k1, k2⟩ := key f (by simp)
    have hfil' : ((((f :: fs).mapIdx (sampleFiles false)).flatten).filter fun f => isCostVars f.1).map (fun f => some f.2) =
        ((f :: fs).map fun f => ((robotExecute false f).getD []).map (List.map (roundTo 6))).map some := by
      rw [← hfil, List.map_map]
      rfl
    unfold robotExploration
    rw [Bool.not_false, e]
    simp only [plotRollouts]
    rw [hfil', List.map_cons, List.map_cons, k1]
    have hl := (C110_raises robotTask).2.1 (r.map (roundTo 6)) (by simpa using k2)
    simp [drawRollouts, hl]

/-! ### Cases that meet the hypotheses -/

example : twoDigits 7 = "07" ∧ twoDigits 12 = "12" := by decide

example : ∃ (file : Lines) (dmp0 : TunableDmp 20), robotTrain file = some dmp0.dmp ∧
    ∀ traj, ∀ sigma ∈ [(1 : ℝ), 20, 40], ∀ draws, ∃ plots,
      robotExploration traj sigma dmp0.dmp draws =
        some (⟨20, ⟨dmp0.params, (sigma ^ 2) • 1, none⟩⟩, plots, .ok (.saved "plot_rollouts.png")) ∧ plots.length = 10 := by
  obtain ⟨file, traj, h, hts⟩ := example_robot_file
  obtain ⟨dmp0, h1, h2⟩ := C111_demos h (by norm_num) (by
      rw [hts, List.pairwise_map, List.pairwise_map]
      refine List.pairwise_lt_range.imp fun {a b} hab => ?_
      have e : ∀ n : Nat, roundTo 7 (n : ℝ) = n := fun n => by
        unfold roundTo
        rw [show (n : ℝ) * 10 ^ 7 = ((n * 10 ^ 7 : ℕ) : ℝ) by norm_num, round_natCast]
        push_cast
        norm_num
      rw [e, e]
      exact_mod_cast hab)
  exact ⟨file, dmp0, h1, h2⟩

/-- A movement of 0.01 seconds. -/
theorem example_robot_short : ∃ (file : Lines) (traj : Trajectory ℝ), ForRobot file traj (1 / 100) := by
  have hload : ∃ traj, Trajectory.loadtxt ((List.range 15).map fun i : Nat => [(i : ℝ) / 1400, i, 2 * i, 0, 0, 0, 0]) =
      .ok traj ∧ traj.dim = 2 ∧ traj.ts = (List.range 15).map fun i : Nat => (i : ℝ) / 1400 := by
    unfold Trajectory.loadtxt
    rw [show (((List.range 15).map fun i : Nat => [(i : ℝ) / 1400, i, 2 * i, 0, 0, 0, 0]).filter fun l => decide (l ≠ [])) =
      (List.range 15).map fun i : Nat => [(i : ℝ) / 1400, i, 2 * i, 0, 0, 0, 0] by simp]
    simp only [List.range_succ, List.range_zero, List.nil_append, List.cons_append, List.map_cons, List.map_nil]
    rw [if_neg (by simp), if_neg (by simp), Trajectory.fromMatrix_run (n := 2) (by simp)]
    exact ⟨_, rfl, rfl, by simp⟩
  obtain ⟨traj, h1, h2, h3⟩ := hload
  refine ⟨_, traj, ⟨h1, h2, by rw [h3]; simp, ?_, ?_, ⟨1 / 100, ?_, by norm_num⟩, by norm_num⟩⟩
  · rw [h3, List.pairwise_map]
    refine List.pairwise_lt_range.imp fun {a b} hab => ?_
    have : (a : ℝ) < b := by exact_mod_cast hab
    linarith
  · rw [h3]
    norm_num [List.range_succ]
  · unfold Trajectory.duration
    rw [h3]
    norm_num [List.range_succ]

example : ∃ (file : Lines) (dmp0 : TunableDmp 20), robotTrain file = some dmp0.dmp ∧ ∀ draws,
    ∃ d, robotExploration false 20 dmp0.dmp draws = some (d, [], .error .indexError) := by
  obtain ⟨file, traj, h⟩ := example_robot_short
  obtain ⟨u, h1, -⟩ := C107_train h
  exact ⟨file, u, h1, fun draws => ⟨_, C111_short h h1 (by norm_num) 20 draws⟩⟩

end Verif
