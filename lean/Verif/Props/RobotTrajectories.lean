import Verif.Model.RobotTrajectories
import Verif.Props.RobotDemo
import Verif.Props.ThrowBallCpp
import Verif.Props.TrajectoryFiles

/-
C109: the demo for the robot with trajectories instead of Dmps.
-/

set_option autoImplicit false

namespace Verif

open Spec

/-! ### The program -/

namespace Cpp

/-- What the program for the robot writes for the lines of a file: a line for each line of the file, with the time that has
passed, what is asked of the robot, and the ball: in the hand until 0.6 s have passed, flying, then lying on the floor. -/
structure Robot (ls : Lines) (rows : List (List ℝ)) : Prop where
  length : rows.length = ls.length
  motion : ∃ ball bvel bacc,
    (∀ i, i < ls.length → ∃ flag : ℝ, rows.getD i [] =
      [((ls.getD 1 []).getD 0 0 - (ls.getD 0 []).getD 0 0) + ((ls.getD i []).getD 0 0 - (ls.getD 0 []).getD 0 0)] ++
      (ls.getD i []).drop 1 ++ [(ball i).1, (ball i).2, (bvel i).1, (bvel i).2, (bacc i).1, (bacc i).2, flag] ∧
      (flag = 1 ∧ (∀ j, j ≤ i → elapsed (ls.map fun l => l.getD 0 0) j ≤ 0.6) ∨
        flag = 0 ∧ ∃ r, r ≤ i ∧ Released (elapsed (ls.map fun l => l.getD 0 0)) r)) ∧
    ThrownFully ls.length (-0.3) (stepLength (ls.map fun l => l.getD 0 0)) (elapsed (ls.map fun l => l.getD 0 0))
      (fun i => pair ((ls.getD i []).drop 1)) (fun i => pair ((ls.getD i []).drop 3)) (fun i => pair ((ls.getD i []).drop 5))
      ball bvel bacc

theorem getD_map_nil {f : List ℝ → List ℝ} (hf : f [] = []) (ls : Lines) (i : Nat) :
    (ls.map f).getD i [] = f (ls.getD i []) := by
  rw [List.getD_eq_getElem?_getD, List.getElem?_map, List.getD_eq_getElem?_getD]
  cases ls[i]? with
  | none => exact hf.symm
  | some l => rfl

theorem getD_map_times (ls : Lines) (i : Nat) : (ls.map fun l => l.getD 0 0).getD i 0 = (ls.getD i []).getD 0 0 := by
  rw [List.getD_eq_getElem?_getD, List.getElem?_map, List.getD_eq_getElem?_getD (l := ls)]
  cases ls[i]? <;> rfl

theorem pair_take (l : List ℝ) : pair (l.take 2) = pair l := by
  match l with
  | [] => rfl
  | [_] => rfl
  | _ :: _ :: _ => rfl

theorem drop_split {l : List ℝ} (h : l.length = 7) :
    (l.drop 1).take 2 ++ (l.drop 3).take 2 ++ (l.drop 5).take 2 = l.drop 1 := by
  match l, h with
  | [_, _, _, _, _, _, _], _ => rfl

theorem readFile_planar {ls : Lines} (hne : ls ≠ []) (h7 : ∀ l ∈ ls, l.length = 7) {name : String} {k : Disk}
    (hk : k.files name = some ls) :
    Trajectory.readFile name 0 k = .ok ⟨ls.map fun l => l.getD 0 0, ⟨2, ls.map fun l => (l.drop 1).take 2⟩,
      ⟨2, ls.map fun l => (l.drop 3).take 2⟩, ⟨2, ls.map fun l => (l.drop 5).take 2⟩,
      ⟨0, List.replicate ls.length []⟩⟩ := by
  unfold Trajectory.readFile
  rw [loadMatrix_eq hk hne (by omega) h7]
  change Trajectory.ofMatrix ⟨7, ls⟩ 0 = _
  unfold Trajectory.ofMatrix
  dsimp only
  rw [if_neg (by decide), if_neg (by decide)]
  unfold Trajectory.init Trajectory.columns
  simp

/-- C109: the program for the robot. It accepts each file with at least two lines of 7 numbers with increasing times, and
performs the movement that is described by the file. -/
theorem C109_program {ls : Lines} (h2 : 2 ≤ ls.length) (h7 : ∀ l ∈ ls, l.length = 7)
    (hi : (ls.map fun l => l.getD 0 0).Pairwise (· < ·)) {name : String} {k : Disk} (hk : k.files name = some ls) :
    ∃ rows, robotTrajectoryProgram name k = .ok rows ∧ Robot ls rows := by
  have hne : ls ≠ [] := by
    rintro rfl
    simp at h2
  have hread := readFile_planar hne h7 hk
  have hp : ∀ n ≤ 5, ∀ r ∈ ls.map fun l => (l.drop n).take 2, r.length = 2 := by
    intro n hn r hr
    obtain ⟨l, hl, rfl⟩ := List.mem_map.mp hr
    simp only [List.length_take, List.length_drop, h7 l hl]
    omega
  obtain ⟨rows, e, hl, ball, bvel, bacc, hrow, hth⟩ := C79_trajectory ⟨ls.map fun l => l.getD 0 0,
    ⟨2, ls.map fun l => (l.drop 1).take 2⟩, ⟨2, ls.map fun l => (l.drop 3).take 2⟩, ⟨2, ls.map fun l => (l.drop 5).take 2⟩,
    ⟨0, List.replicate ls.length []⟩⟩ (by simpa using h2) hi (by simp) (by simp) (by simp) (hp 1 (by omega)) (hp 3 (by omega))
    (hp 5 (by omega))
  refine ⟨rows, ?_, by simpa using hl, ball, bvel, bacc, fun i hlt => ?_, ?_⟩
  · unfold robotTrajectoryProgram
    rw [hread]
    exact e
  · obtain ⟨flag, hr, hf⟩ := hrow i (by simpa using hlt)
    refine ⟨flag, ?_, hf⟩
    rw [hr]
    dsimp only
    rw [getD_map_times, getD_map_times, getD_map_times, getD_map_nil (by simp), getD_map_nil (by simp),
      getD_map_nil (by simp), List.append_assoc [_], List.append_assoc [_], drop_split]
    rw [List.getD_eq_getElem _ _ hlt]
    exact h7 _ (List.getElem_mem _)
  · dsimp only at hth
    simp only [getD_map_nil (f := fun l => (l.drop 1).take 2) (by simp), getD_map_nil (f := fun l => (l.drop 3).take 2) (by simp),
      getD_map_nil (f := fun l => (l.drop 5).take 2) (by simp), pair_take, List.length_map] at hth
    exact hth

theorem Robot.width {ls : Lines} {rows : List (List ℝ)} (h : Robot ls rows) (h7 : ∀ l ∈ ls, l.length = 7) :
    ∀ r ∈ rows, r.length = 14 := by
  intro r hr
  obtain ⟨i, hi, rfl⟩ := List.getElem_of_mem hr
  have hi' : i < ls.length := by rw [← h.length]; exact hi
  obtain ⟨ball, bvel, bacc, h1, -⟩ := h.motion
  obtain ⟨flag, e, -⟩ := h1 i hi'
  rw [List.getD_eq_getElem _ _ hi] at e
  rw [e, List.getD_eq_getElem _ _ hi']
  simp [h7 _ (List.getElem_mem hi')]

/-- C109: without the file, and for a single line, an assertion fails; an empty file is a division by zero. -/
theorem C109_files (name : String) (k : Disk) :
    (k.files name = none → robotTrajectoryProgram name k = .error .assertion) ∧
    (k.files name = some [] → robotTrajectoryProgram name k = .error .divZero) ∧
    ∀ l : List ℝ, l.length = 7 → k.files name = some [l] → robotTrajectoryProgram name k = .error .assertion := by
  obtain ⟨h1, h2, -⟩ := Trajectory.C73_read_errors name 0 k
  refine ⟨fun h => ?_, fun h => ?_, fun l hl h => ?_⟩
  · unfold robotTrajectoryProgram
    rw [h1 h]
    rfl
  · unfold robotTrajectoryProgram
    rw [h2 h]
    rfl
  · unfold robotTrajectoryProgram
    rw [readFile_planar (by simp) (by simpa using hl) h]
    rfl

/-- C109: a movement in at most 0.6 s. The ball is not thrown: it is in the hand to the end. -/
theorem C109_held {ls : Lines} {rows : List (List ℝ)} (h : Robot ls rows) {i : Nat} (hi : i < ls.length)
    (ht : ∀ j < i, ((ls.getD 1 []).getD 0 0 - (ls.getD 0 []).getD 0 0) + ((ls.getD j []).getD 0 0 - (ls.getD 0 []).getD 0 0)
      ≤ 0.6) :
    ∃ flag : ℝ, rows.getD i [] =
      [((ls.getD 1 []).getD 0 0 - (ls.getD 0 []).getD 0 0) + ((ls.getD i []).getD 0 0 - (ls.getD 0 []).getD 0 0)] ++
      (ls.getD i []).drop 1 ++ [(pair ((ls.getD i []).drop 1)).1, (pair ((ls.getD i []).drop 1)).2,
        (pair ((ls.getD i []).drop 3)).1, (pair ((ls.getD i []).drop 3)).2, (pair ((ls.getD i []).drop 5)).1,
        (pair ((ls.getD i []).drop 5)).2, flag] := by
  obtain ⟨ball, bvel, bacc, h1, h2⟩ := h.motion
  have hc : ∀ j, j < i → elapsed (ls.map fun l => l.getD 0 0) j ≤ 0.6 := by
    intro j hj
    cases j with
    | zero => simp [elapsed]; norm_num
    | succ j =>
      rw [elapsed_eq, getD_map_times, getD_map_times, getD_map_times]
      exact ht j (by omega)
  obtain ⟨flag, e, -⟩ := h1 i hi
  rw [h2.held i hi hc, (h2.heldRates i hi hc).1, (h2.heldRates i hi hc).2] at e
  exact ⟨flag, e⟩

end Cpp

/-! ### The trajectories of Dmps -/

/-- The matrix of a planar trajectory has 7 columns, the first one for the times. -/
theorem matrix_planar {t : Cpp.Trajectory} (h : t.Shape) (hd : t.ys.cols = 2) (hm : t.misc.cols = 0) :
    (∀ l ∈ t.asMatrix.rows, l.length = 7) ∧ t.asMatrix.rows.map (fun l => l.getD 0 0) = t.ts := by
  refine ⟨fun l hl => ?_, ?_⟩
  · rw [Cpp.Trajectory.asMatrix_cols h l hl]
    change 1 + 3 * t.ys.cols + t.misc.cols = 7
    rw [hd, hm]
  · refine List.ext_getElem (by simp [Cpp.Trajectory.asMatrix, Cpp.Trajectory.length]) fun i h1 h2 => ?_
    simp [Cpp.Trajectory.asMatrix, h2]

/-- C109: the trajectory of a Dmp with two dimensions at the times with which it was trained. -/
theorem Dmp.trainMatrix_planar {s : Dmp} (h : Deployable 2 s) (hs : ∀ l, s.fas = some l → ∀ fa ∈ l, Cpp.Dmp.Smooth fa)
    {ts : List ℝ} (hts : s.tsTrain = some ts) (hne : ts ≠ []) :
    ∃ m, s.trainMatrix = .ok m ∧ (∀ l ∈ m.rows, l.length = 7) ∧ m.rows.map (fun l => l.getD 0 0) = ts := by
  obtain ⟨sol, h1, l1, l2⟩ := Dmp.analytical_total h hs hne
  have htr := Dmp.asTrajectory_ok s l1 l2
  have hsh := (ArmSolver.asTrajectory_shape htr).1
  have hm := Cpp.Trajectory.asMatrix_ofPy hsh
  refine ⟨_, ?_, matrix_planar (Cpp.Trajectory.ofPy_shape hsh) ?_ rfl⟩
  · unfold Dmp.trainMatrix
    rw [hts]
    simp only
    rw [h1]
    change (do
      let traj ← s.asTrajectory ts sol.xs sol.xds
      traj.asMatrix) = _
    rw [htr]
    exact hm
  · exact h.inv.dim

namespace TunableDmp

variable {n : Nat}

/-- C109: whatever the parameters, the program for the robot accepts the trajectory of the Dmp, also if its numbers are
rounded, as long as the times are different then. -/
theorem C109_rollout (s : TunableDmp n) (h : Deployable 2 s.dmp)
    (hsm : ∀ l, s.dmp.fas = some l → ∀ fa ∈ l, Cpp.Dmp.Smooth fa ∧ "widths" ∉ fa.selected.getD []) {ts : List ℝ}
    (hts : s.dmp.tsTrain = some ts) (h2 : 2 ≤ ts.length) (x : Fin n → ℝ) :
    ∃ m, (s.tuned x).dmp.trainMatrix = .ok m ∧ m.rows.length = ts.length ∧ ∀ f : ℝ → ℝ, (ts.map f).Pairwise (· < ·) →
      ∀ name k, k.files name = some (m.rows.map (List.map f)) →
        ∃ rows, Cpp.robotTrajectoryProgram name k = .ok rows ∧ Cpp.Robot (m.rows.map (List.map f)) rows := by
  have hts' : (s.tuned x).dmp.tsTrain = some ts := by
    rw [(Dmp.norm_parts (s.norm_tuned x)).2.2.2.1, hts]
  obtain ⟨m, h1, h7, ht⟩ := Dmp.trainMatrix_planar (s.deploy_tuned h x) (Dmp.smooth_norm (s.norm_tuned x).symm hsm) hts'
    (by rintro rfl; simp at h2)
  have hl : m.rows.length = ts.length := by rw [← ht, List.length_map]
  refine ⟨m, h1, hl, fun f hf name k hk => Cpp.C109_program (by simpa [hl] using h2) ?_ ?_ hk⟩
  · intro l hl
    obtain ⟨r, hr, rfl⟩ := List.mem_map.mp hl
    rw [List.length_map, h7 r hr]
  · have e : (m.rows.map (List.map f)).map (fun l => l.getD 0 0) = ts.map f := by
      rw [← ht, List.map_map, List.map_map]
      refine List.map_congr_left fun r hr => ?_
      match r, h7 r hr with
      | _ :: _, _ => rfl
    rw [e]
    exact hf

end TunableDmp

/-! ### The demo -/

/-- C109: the exploration with sigma 20. If the times of the trajectory file differ after rounding to 7 decimals, the robot
executes the trajectories of all 10 samples. -/
theorem C109_explore {file : Lines} {traj : Trajectory ℝ} {tau : ℝ} (h : ForRobot file traj tau) {dmp0 : TunableDmp 20}
    (h0 : robotTrain file = some dmp0.dmp) (hr : (traj.ts.map (roundTo 7)).Pairwise (· < ·))
    (draws : (k : Nat) → Fin 10 → Fin k → ℝ) :
    ∃ results, robotExploreTraj dmp0.dmp draws = some (⟨20, ⟨dmp0.params, (400 : ℝ) • 1, none⟩⟩, results) ∧
      List.Forall₂ (fun x r => ∃ m rows, (dmp0.tuned x).dmp.trainMatrix = .ok m ∧ r = some (.ok rows) ∧
        Cpp.Robot (m.rows.map (List.map (roundTo 7))) rows) (List.ofFn (draws 20)) results := by
  obtain ⟨u, h1, -, h3, -, h5, h6⟩ := C107_train h
  obtain rfl : u = dmp0 := TunableDmp.ext (Option.some.inj (h1.symm.trans h0))
  have hmany := h.many
  obtain ⟨fs, t, e, hw⟩ := u.C94_explore h3 20 true false (fun k => List.ofFn (draws k)) (fun h => by cases h)
    (fun _ x => u.matrix_total h3 h6 h5 (fun e => by rw [e] at hmany; simp at hmany) x)
  refine ⟨fs.map fun f => f.traj.map fun m =>
      Cpp.robotTrajectoryProgram "traj.txt" (.only (m.rows.map (List.map (roundTo 7)))), ?_, ?_⟩
  · unfold robotExploreTraj
    rw [e]
    norm_num
  · rw [List.forall₂_map_right_iff]
    refine hw.imp fun x f hf => ?_
    obtain ⟨m, e1, e2⟩ := hf.traj rfl
    obtain ⟨m', e3, -, e4⟩ := u.C109_rollout h3 h6 h5 (by omega) x
    cases e2.symm.trans e3
    obtain ⟨rows, e5, e6⟩ := e4 (roundTo 7) hr "traj.txt" (.only _) rfl
    refine ⟨m, rows, e2, ?_, e6⟩
    rw [e1, Option.map_some, e5]

/-- C109: the demo. As C107, but the robot performs the trajectories which are stored in the session with the Dmps: those of
the Dmps at the times of the trajectory file. The rollouts end with these times. -/
theorem C109_demo {file : Lines} {traj : Trajectory ℝ} {tau : ℝ} (h : ForRobot file traj tau)
    (hr : (traj.ts.map (roundTo 7)).Pairwise (· < ·))
    (draws0 : (k : Nat) → Fin 10 → Fin k → ℝ) (argsort : List ℝ → List Nat) (draws : Nat → Fin 5 → Fin 20 → ℝ)
    (reopen : Nat → Bool × Bool) (w0 : World (Obj 20 (TunableDmp 20))) (hf : w0.files = []) :
    ∃ (dmp0 : TunableDmp 20) (d0 : Dist 20) (u : Updater) (trajOf : (Fin 20 → ℝ) → Arr2 ℝ)
      (rolled : (Fin 20 → ℝ) → List (List ℝ)) (d : Nat → Dist 20) (weights : Nat → List ℝ)
      (w : World (Obj 20 (TunableDmp 20))),
      robotTrain file = some dmp0.dmp ∧ (∃ results, robotExploreTraj dmp0.dmp draws0 = some (⟨20, d0⟩, results)) ∧
      Updater.initDecay demoRobotArgs = .ok u ∧
      (∀ x, (dmp0.tuned x).dmp.trainMatrix = .ok (trajOf x) ∧ (trajOf x).rows.map (fun l => l.getD 0 0) = traj.ts ∧
        (∀ name k, k.files name = some (trajOf x).rows → Cpp.robotTrajectoryProgram name k = .ok (rolled x)) ∧
        Cpp.Robot (trajOf x).rows (rolled x)) ∧
      stepByStep (TunableDmp.throwTask robotTask) rolled (robotRolloutTraj 20) argsort u d0 dmp0 true 16 draws reopen w0 =
        (.ok (), w) ∧
      d 0 = d0 ∧ d0.mean = dmp0.params ∧
      (∀ i : Nat, i ≤ 16 → asked w "distribution" (some i) none = .ok (.dist (d i)) ∧
        (d i).covar = (400 * 0.8 ^ (2 * i) : ℝ) • 1 ∧
        asked w "samples" (some i) none = .ok (.samples (List.ofFn (draws i))) ∧
        ForRollouts w "dmp" i (d i) (List.ofFn (draws i)) (fun x => .dmp (dmp0.tuned x)) ∧
        ForRollouts w "traj" i (d i) (List.ofFn (draws i)) (fun x => .array (trajOf x).rows)) ∧
      ∀ i : Nat, i < 16 →
        ForRollouts w "cost_vars" i (d i) (List.ofFn (draws i)) (fun x => .array (rolled x)) ∧
        ForRollouts w "costs" i (d i) (List.ofFn (draws i)) (fun x => .vec (TunableDmp.throwCosts robotTask (rolled x))) ∧
        asked w "weights" (some i) none = .ok (.vec (weights i)) ∧ (weights i).length = 5 ∧ IsProb (weights i) ∧
        (∀ j, (d (i + 1)).mean j = (List.zipWith (fun x s => x * s j) (weights i) (List.ofFn (draws i))).sum) ∧
        ∀ a b : Fin 5, ∃ ca cb wa wb, (TunableDmp.throwCosts robotTask (rolled (draws i a))).head? = some ca ∧
          (TunableDmp.throwCosts robotTask (rolled (draws i b))).head? = some cb ∧
          (weights i)[(a : Nat)]? = some wa ∧ (weights i)[(b : Nat)]? = some wb ∧ 0 < wa ∧
          (ca < cb ↔ wb < wa) := by
  obtain ⟨dmp0, h1, -, h3, -, h5, h6⟩ := C107_train h
  obtain ⟨results, hx, -⟩ := C109_explore h h1 hr draws0
  have hmany := h.many
  have hmap : ∀ m : List (List ℝ), m.map (List.map id) = m := fun m => by simp
  have key : ∀ x, ∃ (m : Arr2 ℝ) (rows : List (List ℝ)), (dmp0.tuned x).dmp.trainMatrix = .ok m ∧
      m.rows.map (fun l => l.getD 0 0) = traj.ts ∧ (∀ l ∈ m.rows, l.length = 7) ∧
      (∀ name k, k.files name = some m.rows → Cpp.robotTrajectoryProgram name k = .ok rows) ∧ Cpp.Robot m.rows rows := by
    intro x
    obtain ⟨m, e1, -, e2⟩ := dmp0.C109_rollout h3 h6 h5 (by omega) x
    have e2 := e2 id (by simpa using h.increasing)
    rw [hmap] at e2
    obtain ⟨rows, e3, e4⟩ := e2 "traj.txt" (.only m.rows) rfl
    have hts' : (dmp0.tuned x).dmp.tsTrain = some traj.ts := by
      rw [(Dmp.norm_parts (dmp0.norm_tuned x)).2.2.2.1, h5]
    obtain ⟨m', f1, f3, f2⟩ := Dmp.trainMatrix_planar (dmp0.deploy_tuned h3 x)
      (Dmp.smooth_norm (dmp0.norm_tuned x).symm h6) hts' (by intro e; rw [e] at hmany; simp at hmany)
    cases e1.symm.trans f1
    refine ⟨m, rows, e1, f2, f3, fun name k hk => ?_, e4⟩
    rw [← e3]
    unfold Cpp.robotTrajectoryProgram Cpp.Trajectory.readFile Cpp.loadMatrix
    rw [hk]
    rfl
  choose trajOf rolled hk1 hk2 hk7 hk3 hk4 using key
  have hroll : ∀ x, rolled x = robotRolloutTraj 20 (DmpLike.setParams dmp0 x) := by
    intro x
    unfold robotRolloutTraj
    have e : (DmpLike.trajMatrix 20 (DmpLike.setParams dmp0 x) : List (List ℝ)) = (trajOf x).rows := by
      change rowsOr (dmp0.tuned x).dmp.trainMatrix = _
      rw [hk1]
      rfl
    rw [e, hk3 x "traj.txt" (.only _) rfl]
  have hlen : ∀ x, (rolled x).length = traj.ts.length := fun x => by
    rw [(hk4 x).length, ← hk2 x, List.length_map]
  have hne : ∀ x, rolled x ≠ [] := by
    intro x e
    have := hlen x
    rw [e, List.length_nil] at this
    omega
  have hw14 : ∀ x, ∀ r ∈ rolled x, r.length = 14 := fun x => (hk4 x).width (hk7 x)
  have hcost : ∀ x, TunableDmp.throwTask robotTask (rolled x) x = TunableDmp.throwCosts robotTask (rolled x) := fun x =>
    TunableDmp.throwTask_eq robotTask (hne x) (hw14 x) x
  obtain ⟨dN, wm, hrun⟩ := C55_succeeds (D := TunableDmp 20) (fun x => TunableDmp.throwCosts robotTask (rolled x)) argsort
    ⟨.int 10, "PI-BB", .decay 0.8⟩ ⟨dmp0.params, (400 : ℝ) • 1, none⟩ 16 true
    draws ⟨0, true, true, [], none, [], []⟩ (by omega) (fun x => by unfold TunableDmp.throwCosts; simp) (by simp) (by simp)
    (by simp) (fun _ _ _ => ⟨_, rfl⟩)
  obtain ⟨d, samples, weights, k2, -⟩ := runOptimization_ok hrun
  have hh2 : IsHistory (fun x => TunableDmp.throwTask robotTask (rolled x) x) argsort ⟨.int 10, "PI-BB", .decay 0.8⟩
      ⟨dmp0.params, (400 : ℝ) • 1, none⟩ 16 draws d samples weights := by
    simp only [hcost]
    exact k2
  obtain ⟨hh, hh'⟩ := robot_history k2
  have law := fun (s : TunableDmp 20) x y => (s.C93_laws x y).2.2.2
  have law2 := fun (s : TunableDmp 20) x => (s.C93_laws x x).2.2.1
  obtain ⟨w, a1, a2, a3⟩ := C62_files law law2 (TunableDmp.throwTask robotTask) rolled (robotRolloutTraj 20) _ dmp0 hroll
    argsort true 16 draws reopen _ d samples weights hh2 (by simp) (fun _ => by omega) w0 hf
  obtain ⟨w', b1, b2, b3⟩ := C62_history law law2 (TunableDmp.throwTask robotTask) rolled (robotRolloutTraj 20) _ dmp0 hroll
    argsort true 16 draws reopen _ d samples weights hh2 (by simp) (fun _ => by omega) w0 hf
  cases (Prod.mk.inj (a1.symm.trans b1)).2
  simp only [hcost] at a3
  refine ⟨dmp0, _, _, trajOf, rolled, d, weights, w, h1, ⟨results, hx⟩, C105_demos.2.2.1,
    fun x => ⟨hk1 x, hk2 x, hk3 x, hk4 x⟩, a1, k2.start, rfl, fun i hi => ?_, fun i hi => ?_⟩
  · obtain ⟨s, c1, c2, c3, c4⟩ := a2 i hi
    obtain rfl := (hh i hi).2 c1
    have e : (fun x => (Obj.array (DmpLike.trajMatrix 20 (DmpLike.setParams dmp0 x)) : Obj 20 (TunableDmp 20))) =
        fun x => .array (trajOf x).rows := by
      funext x
      change Obj.array (rowsOr (dmp0.tuned x).dmp.trainMatrix) = _
      rw [hk1]
      rfl
    have c4 := c4 rfl
    rw [e] at c4
    exact ⟨b2 i hi, (hh i hi).1, c2, c3, c4⟩
  · obtain ⟨c1, c2⟩ := hh' i hi
    have f1 := (a3 i hi).1
    have f2 := (a3 i hi).2
    rw [c1] at f1 f2
    exact ⟨f1, f2, (b3 i hi).2.1, c2⟩

/-! ### Cases that meet the hypotheses -/

example : ∃ rows, Cpp.robotTrajectoryProgram "a" (.only [[0, 1, 2, 3, 4, 5, 6], [0.5, 1, 2, 3, 4, 5, 6], [2, 1, 2, 3, 4, 5, 6]]) =
    .ok rows ∧ rows.length = 3 ∧ ∃ flag : ℝ, rows.getD 1 [] = [1, 1, 2, 3, 4, 5, 6, 1, 2, 3, 4, 5, 6, flag] := by
  obtain ⟨rows, h1, h2⟩ := Cpp.C109_program (ls := [[0, 1, 2, 3, 4, 5, 6], [0.5, 1, 2, 3, 4, 5, 6], [2, 1, 2, 3, 4, 5, 6]])
    (by simp) (by simp) (by norm_num) (name := "a") (k := .only _) rfl
  obtain ⟨flag, h3⟩ := Cpp.C109_held h2 (i := 1) (by simp) (by
    intro j hj
    obtain rfl : j = 0 := by omega
    norm_num)
  refine ⟨rows, h1, h2.length, flag, ?_⟩
  rw [h3]
  norm_num [pair]

example (w0 : World (Obj 20 (TunableDmp 20))) (hf : w0.files = []) :
    ∃ (file : Lines) (dmp0 : TunableDmp 20) (rolled : (Fin 20 → ℝ) → List (List ℝ)) (d0 : Dist 20) (u : Updater)
      (w : World (Obj 20 (TunableDmp 20))),
      robotTrain file = some dmp0.dmp ∧ d0.mean = dmp0.params ∧ (∀ x, (rolled x).length = 15) ∧
      stepByStep (nSamples := 5) (TunableDmp.throwTask robotTask) rolled (robotRolloutTraj 20) (fun _ => []) u d0 dmp0 true 16
        (fun i a j => i + a * j) (fun _ => (true, true)) w0 = (.ok (), w) := by
  obtain ⟨file, traj, h, hts⟩ := example_robot_file
  obtain ⟨dmp0, d0, u, trajOf, rolled, d, weights, w, h1, -, -, h2, h3, -, h4, -⟩ :=
    C109_demo h (by
      rw [hts, List.pairwise_map, List.pairwise_map]
      refine List.pairwise_lt_range.imp fun {a b} hab => ?_
      have e : ∀ n : Nat, roundTo 7 (n : ℝ) = n := fun n => by
        unfold roundTo
        rw [show (n : ℝ) * 10 ^ 7 = ((n * 10 ^ 7 : ℕ) : ℝ) by norm_num, round_natCast]
        push_cast
        norm_num
      rw [e, e]
      exact_mod_cast hab) (fun _ _ _ => 0) (fun _ => []) (fun i a j => i + a * j) (fun _ => (true, true)) w0 hf
  refine ⟨file, dmp0, rolled, d0, u, w, h1, h4, fun x => ?_, h3⟩
  obtain ⟨-, e1, -, e2⟩ := h2 x
  rw [e2.length, ← List.length_map (f := fun l => l.getD 0 0), e1, hts]
  simp

end Verif
