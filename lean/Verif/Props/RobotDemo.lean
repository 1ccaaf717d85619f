import Verif.Model.RobotDemo
import Verif.Props.Arm2D
import Verif.Props.DemoBbo
import Verif.Props.RobotWorkflow
import Verif.Props.TrainScript

/-
C107: the demo for the robot, from the trajectory file to the last update.
-/

set_option autoImplicit false

namespace Verif

open Spec

theorem writtenDmp_append (k : Nat) (a b : List TrainFile) :
    writtenDmp k (a ++ b) = (writtenDmp k b).or (writtenDmp k a) := by
  induction a with
  | nil =>
    change writtenDmp k b = (writtenDmp k b).or none
    cases writtenDmp k b <;> rfl
  | cons f a ih =>
    cases f with
    | dmp n d =>
      change (writtenDmp k (a ++ b)).or _ = (writtenDmp k b).or ((writtenDmp k a).or _)
      rw [ih, Option.or_assoc]
    | trajectory ls => exact ih
    | forCpp n j => exact ih

theorem writtenDmp_trained {k : Nat} {dmps : Nat → Dmp} : ∀ {ns : List Nat}, k ∈ ns →
    writtenDmp k (trainedFiles dmps ns) = some (dmps k) := by
  have other : ∀ ns : List Nat, k ∉ ns → writtenDmp k (trainedFiles dmps ns) = none := by
    intro ns
    induction ns with
    | nil => intro _; rfl
    | cons n ns ih =>
      intro h
      obtain ⟨h1, h2⟩ := not_or.mp (mt List.mem_cons.mpr h)
      change (writtenDmp k (trainedFiles dmps ns)).or (if n = k then _ else none) = none
      rw [ih h2, if_neg (Ne.symm h1)]
      rfl
  intro ns
  induction ns with
  | nil => intro h; cases h
  | cons n ns ih =>
    intro h
    change (writtenDmp k (trainedFiles dmps ns)).or (if n = k then some (dmps n) else none) = _
    by_cases hk : k ∈ ns
    · rw [ih hk]
      rfl
    · obtain rfl := (List.mem_cons.mp h).resolve_right hk
      rw [other ns hk, if_pos rfl]
      rfl

/-- A Dmp of the optimisation has a trajectory at the times with which it was trained. -/
theorem TunableDmp.matrix_total {n d : Nat} (s : TunableDmp n) (h : Deployable d s.dmp)
    (hsm : ∀ l, s.dmp.fas = some l → ∀ fa ∈ l, Cpp.Dmp.Smooth fa ∧ "widths" ∉ fa.selected.getD []) {ts : List ℝ}
    (hts : s.dmp.tsTrain = some ts) (hne : ts ≠ []) (x : Fin n → ℝ) : ∃ m, (s.tuned x).dmp.trainMatrix = .ok m := by
  have hd := s.deploy_tuned h x
  have hts' : (s.tuned x).dmp.tsTrain = some ts := by
    rw [(Dmp.norm_parts (s.norm_tuned x)).2.2.2.1, hts]
  obtain ⟨sol, h1, l1, l2⟩ := Dmp.analytical_total hd (Dmp.smooth_norm (s.norm_tuned x).symm hsm) hne
  have htr := Dmp.asTrajectory_ok (s.tuned x).dmp l1 l2
  obtain ⟨m, hm⟩ : ∃ m, (Trajectory.asMatrix (K := ℝ) _) = .ok m :=
    ⟨_, Cpp.Trajectory.asMatrix_ofPy (ArmSolver.asTrajectory_shape htr).1⟩
  refine ⟨m, ?_⟩
  unfold Dmp.trainMatrix
  rw [hts']
  simp only
  rw [h1]
  change (do
    let traj ← (s.tuned x).dmp.asTrajectory ts sol.xs sol.xds
    traj.asMatrix) = _
  rw [htr]
  exact hm

/-- C107: a trajectory file as the demo needs it: two dimensions, at least 15 samples at increasing times, and a duration of
at least 1/130 s that ends at time 1/150 s or later. -/
structure ForRobot (file : Lines) (traj : Trajectory ℝ) (tau : ℝ) : Prop where
  load : Trajectory.loadtxt file = .ok traj
  dim : traj.dim = 2
  many : 15 ≤ traj.ts.length
  increasing : traj.ts.Pairwise (· < ·)
  last : traj.ts.getLast? = some tau
  long : ∃ D, traj.duration = .ok D ∧ 1 ≤ 130 * D
  late : 1 ≤ 150 * tau

/-- C107: the training, and the choice of the Dmp with 10 basis functions. -/
theorem C107_train {file : Lines} {traj : Trajectory ℝ} {tau : ℝ} (h : ForRobot file traj tau) :
    ∃ dmp0 : TunableDmp 20, robotTrain file = some dmp0.dmp ∧ trainDmp traj 10 = .ok dmp0.dmp ∧
      Deployable 2 dmp0.dmp ∧ dmp0.dmp.tau = tau ∧ dmp0.dmp.tsTrain = some traj.ts ∧
      ∀ l, dmp0.dmp.fas = some l → ∀ fa ∈ l, Cpp.Dmp.Smooth fa ∧ "widths" ∉ fa.selected.getD [] := by
  obtain ⟨D, hD, hD1⟩ := h.long
  have hτ : 0 < tau := by linarith [h.late]
  have hd : 0 < traj.dim := by rw [h.dim]; exact two_pos
  obtain ⟨ls, dmps, res, -, h1, h2, -⟩ := C103_script h.load h.increasing h.last hτ hd hD hD1 15 []
  obtain ⟨ht, -⟩ := h1 10 (by omega) (by have := h.many; omega)
  obtain ⟨a1, a2, a3, -, ⟨l, b1, -, b2⟩, hu⟩ := C103_dmp (loadtxt_shape h.load).1 h.last hτ hd (by omega) ht
  rw [h.dim] at a1 hu
  obtain ⟨u, hu⟩ := hu
  rw [← hu] at ht a1 a2 a3 b1
  refine ⟨u, ?_, ht, a1, a2, a3, ?_⟩
  · unfold robotTrain
    rw [h2 (.inr h.many)]
    simp only
    rw [writtenDmp_append, writtenDmp_trained (by simp [List.range'_succ]), hu]
    rfl
  · intro l' e fa hfa
    rw [b1] at e
    cases e
    obtain ⟨-, c2, c3, -⟩ := b2 fa hfa
    exact ⟨c3, by rw [c2]; simp⟩

/-- C107: the exploration. The distribution has the parameters of the Dmp as mean and standard deviation 20 in each
dimension. -/
theorem C107_explore {file : Lines} {traj : Trajectory ℝ} {tau : ℝ} (h : ForRobot file traj tau) {dmp0 : TunableDmp 20}
    (h0 : robotTrain file = some dmp0.dmp) (draws : (k : Nat) → Fin 10 → Fin k → ℝ) :
    robotExplore dmp0.dmp draws = some ⟨20, ⟨dmp0.params, (400 : ℝ) • 1, none⟩⟩ := by
  obtain ⟨u, h1, -, h3, -, h5, h6⟩ := C107_train h
  obtain rfl : u = dmp0 := TunableDmp.ext (Option.some.inj (h1.symm.trans h0))
  obtain ⟨fs, t, e, -⟩ := u.C94_explore h3 20 false true (fun k => List.ofFn (draws k)) (fun _ => by omega)
    (fun _ x => u.matrix_total h3 h6 h5 (fun e => by have := h.many; rw [e] at this; simp at this) x)
  unfold robotExplore
  rw [e]
  norm_num

/-- The updates of the demo, for all results of the rollouts. -/
theorem robot_history {rolled : (Fin 20 → ℝ) → List (List ℝ)} {argsort : List ℝ → List Nat} {mean : Fin 20 → ℝ}
    {draws : Nat → Fin 5 → Fin 20 → ℝ} {d : Nat → Dist 20} {samples : Nat → List (Fin 20 → ℝ)} {weights : Nat → List ℝ}
    (k2 : IsHistory (fun x => TunableDmp.throwCosts robotTask (rolled x)) argsort ⟨.int 10, "PI-BB", .decay 0.8⟩
      ⟨mean, (400 : ℝ) • 1, none⟩ 16 draws d samples weights) :
    (∀ i ≤ 16, (d i).covar = (400 * 0.8 ^ (2 * i) : ℝ) • 1 ∧
      ∀ {s}, (d i).generateSamples (List.ofFn (draws i)) = .ok s → s = List.ofFn (draws i)) ∧
    ∀ i < 16, samples i = List.ofFn (draws i) ∧ (weights i).length = 5 ∧ IsProb (weights i) ∧
      (∀ j, (d (i + 1)).mean j = (List.zipWith (fun x s => x * s j) (weights i) (List.ofFn (draws i))).sum) ∧
      ∀ a b : Fin 5, ∃ ca cb wa wb, (TunableDmp.throwCosts robotTask (rolled (draws i a))).head? = some ca ∧
        (TunableDmp.throwCosts robotTask (rolled (draws i b))).head? = some cb ∧
        (weights i)[(a : Nat)]? = some wa ∧ (weights i)[(b : Nat)]? = some wb ∧ 0 < wa ∧
        (ca < cb ↔ wb < wa) := by
  have hcov : ∀ i ≤ 16, (d i).covar = (400 * 0.8 ^ (2 * i) : ℝ) • 1 ∧ (d i).bounds = none := by
    intro i hi
    have hup := history_updates (fun i hi => (k2.step i hi).2) i hi
    refine ⟨?_, ?_⟩
    · rw [(C51_decay _ _ _ _ _ _ hup).1, k2.start]
      change _ • ((400 : ℝ) • (1 : Matrix (Fin 20) (Fin 20) ℝ)) = _
      rw [smul_smul, mul_comm]
    · induction i with
      | zero => rw [k2.start]
      | succ i ih =>
        rw [(C50_convex _ _ _ _ _ _ _ _ (k2.step i (by omega)).2).2.2.2.2.2.2]
        exact ih (by omega) (history_updates (fun i hi => (k2.step i hi).2) i (by omega))
  have hgen : ∀ i ≤ 16, ∀ {s}, (d i).generateSamples (List.ofFn (draws i)) = .ok s → s = List.ofFn (draws i) := by
    intro i hi s hs
    unfold Dist.generateSamples at hs
    rw [(hcov i hi).2] at hs
    exact (Except.ok.inj hs).symm
  have hs : ∀ i < 16, samples i = List.ofFn (draws i) := fun i hi => hgen i hi.le (k2.step i hi).1
  refine ⟨fun i hi => ⟨(hcov i hi).1, hgen i hi⟩, fun i hi => ?_⟩
  have hst := (k2.step i hi).2
  rw [hs i hi] at hst
  obtain ⟨-, b1, b2, b3, -⟩ := C50_convex _ _ _ _ _ _ _ _ hst
  refine ⟨hs i hi, by rw [b1]; simp, b2, b3, fun a b => ?_⟩
  obtain ⟨-, hw, -⟩ := update_ok hst
  obtain ⟨w', c1, c2, c3⟩ := C48_pibb_order_partial argsort
    ((List.ofFn (draws i)).map fun x => TunableDmp.throwCosts robotTask (rolled x)) "PI-BB" (.int 10) (by simp)
    (by
      intro r hr
      obtain ⟨x, -, rfl⟩ := List.mem_map.mp hr
      unfold TunableDmp.throwCosts
      simp) (by simp) (by simp) (by simp [Elite.toReal])
  obtain rfl : w' = weights i := Except.ok.inj (c1.symm.trans hw)
  have hget : ∀ a : Fin 5, (total ((List.ofFn (draws i)).map fun x => TunableDmp.throwCosts robotTask (rolled x)))[(a : Nat)]? =
      some ((TunableDmp.throwCosts robotTask (rolled (draws i a))).headD 0) := by
    intro a
    rw [total, List.getElem?_map, List.getElem?_map, List.getElem?_eq_getElem (by simp), List.getElem_ofFn]
    rfl
  have hwl : (weights i).length = 5 := by rw [b1]; simp
  have hwt : ∀ a : Fin 5, ∃ x, (weights i)[(a : Nat)]? = some x := fun a =>
    ⟨_, List.getElem?_eq_getElem (by rw [hwl]; exact a.2)⟩
  obtain ⟨wa, hwa⟩ := hwt a
  obtain ⟨wb, hwb⟩ := hwt b
  refine ⟨_, _, wa, wb, rfl, rfl, hwa, hwb, c2 _ (List.mem_of_getElem? hwa), fun hlt => ?_, fun hlt => ?_⟩
  · exact (c3 a b _ _ wa wb (hget a) (hget b) hwa hwb).2.2.1 (by simp [Elite.toReal]) hlt
  · by_contra hc
    exact absurd ((c3 b a _ _ wb wa (hget b) (hget a) hwb hwa).1 (not_lt.mp hc)) (not_le.mpr hlt)

/-- C107: the demo. With any such trajectory file, whatever is drawn and whenever the session is re-opened, no step fails.
In the 16 updates the robot performs a rollout for the mean and for each of the 5 samples. After update `i`, the covariance
matrix is 400 * 0.8^(2i) times the identity matrix, and the mean is the average of the samples, weighted by weights that are
positive, sum to 1, and decrease with the costs of the rollouts. -/
theorem C107_demo {file : Lines} {traj : Trajectory ℝ} {tau : ℝ} (h : ForRobot file traj tau)
    (draws0 : (k : Nat) → Fin 10 → Fin k → ℝ) (argsort : List ℝ → List Nat) (draws : Nat → Fin 5 → Fin 20 → ℝ)
    (reopen : Nat → Bool × Bool) (w0 : World (Obj 20 (TunableDmp 20))) (hf : w0.files = []) :
    ∃ (dmp0 : TunableDmp 20) (d0 : Dist 20) (u : Updater) (rolled : (Fin 20 → ℝ) → List (List ℝ)) (d : Nat → Dist 20)
      (weights : Nat → List ℝ) (w : World (Obj 20 (TunableDmp 20))),
      robotTrain file = some dmp0.dmp ∧ robotExplore dmp0.dmp draws0 = some ⟨20, d0⟩ ∧
      Updater.initDecay demoRobotArgs = .ok u ∧
      (∀ x, Cpp.robotProgram (dmp0.tuned x).dmp.json = .ok (rolled x) ∧ (rolled x).length = ⌊150 * tau⌋₊) ∧
      stepByStep (TunableDmp.throwTask robotTask) rolled TunableDmp.robotRollout argsort u d0 dmp0 false 16 draws reopen w0 =
        (.ok (), w) ∧
      d 0 = d0 ∧ d0.mean = dmp0.params ∧
      (∀ i : Nat, i ≤ 16 → asked w "distribution" (some i) none = .ok (.dist (d i)) ∧
        (d i).covar = (400 * 0.8 ^ (2 * i) : ℝ) • 1 ∧
        asked w "samples" (some i) none = .ok (.samples (List.ofFn (draws i))) ∧
        ForRollouts w "dmp" i (d i) (List.ofFn (draws i)) (fun x => .dmp (dmp0.tuned x))) ∧
      ∀ i : Nat, i < 16 →
        ForRollouts w "cost_vars" i (d i) (List.ofFn (draws i)) (fun x => .array (rolled x)) ∧
        ForRollouts w "costs" i (d i) (List.ofFn (draws i)) (fun x => .vec (TunableDmp.throwCosts robotTask (rolled x))) ∧
        asked w "weights" (some i) none = .ok (.vec (weights i)) ∧ (weights i).length = 5 ∧ IsProb (weights i) ∧
        (∀ j, (d (i + 1)).mean j = (List.zipWith (fun x s => x * s j) (weights i) (List.ofFn (draws i))).sum) ∧
        ∀ a b : Fin 5, ∃ ca cb wa wb, (TunableDmp.throwCosts robotTask (rolled (draws i a))).head? = some ca ∧
          (TunableDmp.throwCosts robotTask (rolled (draws i b))).head? = some cb ∧
          (weights i)[(a : Nat)]? = some wa ∧ (weights i)[(b : Nat)]? = some wb ∧ 0 < wa ∧
          (ca < cb ↔ wb < wa) := by
  obtain ⟨dmp0, h1, -, h3, h4, h5, h6⟩ := C107_train h
  have hx := C107_explore h h1 draws0
  have hu := C105_demos.2.2.1
  obtain ⟨rolled, d, samples, weights, w, k1, k2, k3, k4, k5⟩ := dmp0.C94_demo (nSamples := 5) h3 h6
    (by rw [h4]; exact h.late) robotTask ⟨.int 10, "PI-BB", .decay 0.8⟩ argsort (by simp) (by simp)
    (fun _ _ _ => ⟨_, rfl⟩) 16 draws (by omega) reopen (fun _ => by omega) ⟨dmp0.params, (400 : ℝ) • 1, none⟩ (by simp) w0 hf
  obtain ⟨hh, hh'⟩ := robot_history k2
  refine ⟨dmp0, _, _, rolled, d, weights, w, h1, hx, hu, fun x => ⟨(k1 x).1, by rw [(k1 x).2.1, h4]⟩, k3, k2.start, rfl,
    fun i hi => ?_, fun i hi => ?_⟩
  · obtain ⟨a1, s, a2, a3, a4⟩ := k4 i hi
    obtain rfl := (hh i hi).2 a2
    exact ⟨a1, (hh i hi).1, a3, a4⟩
  · obtain ⟨a1, a2, a3, -⟩ := k5 i hi
    obtain ⟨b1, b2⟩ := hh' i hi
    rw [b1] at a1 a2
    exact ⟨a1, a2, a3, b2⟩

/-- C107: the task. The ball is to land at -0.7, within a margin of 0.01; the floor is at -0.3. -/
theorem C107_task (rows : List (List ℝ)) {x : ℝ} (hx : (rows.getLastD []).getD 7 0 = x) :
    robotTask.yFloor = -0.3 ∧ TunableDmp.throwCosts robotTask rows =
      [max 0 (|x + 0.7| - 0.01) + 0.001 * (rows.map fun r => r.getD 5 0 ^ 2 + r.getD 6 0 ^ 2).sum / rows.length,
        max 0 (|x + 0.7| - 0.01), 0.001 * (rows.map fun r => r.getD 5 0 ^ 2 + r.getD 6 0 ^ 2).sum / rows.length] ∧
    ((TunableDmp.throwCosts robotTask rows)[1]? = some 0 ↔ -0.71 ≤ x ∧ x ≤ -0.69) := by
  have e : TunableDmp.throwCosts robotTask rows =
      [max 0 (|x + 0.7| - 0.01) + 0.001 * (rows.map fun r => r.getD 5 0 ^ 2 + r.getD 6 0 ^ 2).sum / rows.length,
        max 0 (|x + 0.7| - 0.01), 0.001 * (rows.map fun r => r.getD 5 0 ^ 2 + r.getD 6 0 ^ 2).sum / rows.length] := by
    unfold TunableDmp.throwCosts ThrowBall.distanceCost ThrowBall.effortCost robotTask
    rw [hx]
    simp only
    rw [if_pos (by norm_num), sub_neg_eq_add, show (0.70 : ℝ) = 0.7 by norm_num]
  refine ⟨rfl, e, ?_⟩
  rw [e]
  simp only [List.getElem?_cons_succ, List.getElem?_cons_zero, Option.some.injEq, max_eq_left_iff, sub_nonpos, abs_le]
  constructor
  · rintro ⟨h1, h2⟩
    constructor <;> linarith
  · rintro ⟨h1, h2⟩
    constructor <;> linarith

/-! ### A case that meets the hypotheses -/

/-- A movement of one second with two dimensions, 15 samples. -/
private noncomputable def robotFile : Lines :=
  (List.range 15).map fun i : Nat => [(i : ℝ) / 14, i, 2 * i, 0, 0, 0, 0]

private theorem robotFile_fits : ∃ traj, ForRobot robotFile traj 1 := by
  have hf : (robotFile.filter fun l => decide (l ≠ [])) = robotFile := by simp [robotFile]
  have hload : ∃ traj, Trajectory.loadtxt robotFile = .ok traj ∧ traj.dim = 2 ∧
      traj.ts = (List.range 15).map fun i : Nat => (i : ℝ) / 14 := by
    unfold Trajectory.loadtxt
    rw [hf]
    unfold robotFile
    simp only [List.range_succ, List.range_zero, List.nil_append, List.cons_append, List.map_cons, List.map_nil]
    rw [if_neg (by simp), if_neg (by simp), Trajectory.fromMatrix_run (n := 2) (by simp)]
    exact ⟨_, rfl, rfl, by simp⟩
  obtain ⟨traj, h1, h2, h3⟩ := hload
  refine ⟨traj, h1, h2, by rw [h3]; simp, ?_, ?_, ⟨1, ?_, by norm_num⟩, by norm_num⟩
  · rw [h3, List.pairwise_map]
    refine List.pairwise_lt_range.imp fun {a b} hab => ?_
    have : (a : ℝ) < b := by exact_mod_cast hab
    linarith
  · rw [h3]
    norm_num [List.range_succ]
  · unfold Trajectory.duration
    rw [h3]
    norm_num [List.range_succ]

/-- A movement of 14 seconds with two dimensions, 15 samples. -/
theorem example_robot_file : ∃ (file : Lines) (traj : Trajectory ℝ), ForRobot file traj 14 ∧
    traj.ts = (List.range 15).map fun i : Nat => (i : ℝ) := by
  have hload : ∃ traj, Trajectory.loadtxt ((List.range 15).map fun i : Nat => [(i : ℝ), i, 2 * i, 0, 0, 0, 0]) = .ok traj ∧
      traj.dim = 2 ∧ traj.ts = (List.range 15).map fun i : Nat => (i : ℝ) := by
    unfold Trajectory.loadtxt
    rw [show (((List.range 15).map fun i : Nat => [(i : ℝ), i, 2 * i, 0, 0, 0, 0]).filter fun l => decide (l ≠ [])) =
      (List.range 15).map fun i : Nat => [(i : ℝ), i, 2 * i, 0, 0, 0, 0] by simp]
    simp only [List.range_succ, List.range_zero, List.nil_append, List.cons_append, List.map_cons, List.map_nil]
    rw [if_neg (by simp), if_neg (by simp), Trajectory.fromMatrix_run (n := 2) (by simp)]
    exact ⟨_, rfl, rfl, by simp⟩
  obtain ⟨traj, h1, h2, h3⟩ := hload
  refine ⟨_, traj, ⟨h1, h2, by rw [h3]; simp, ?_, ?_, ⟨14, ?_, by norm_num⟩, by norm_num⟩, h3⟩
  · rw [h3, List.pairwise_map]
    exact List.pairwise_lt_range.imp fun {a b} hab => by exact_mod_cast hab
  · rw [h3]
    norm_num [List.range_succ]
  · unfold Trajectory.duration
    rw [h3]
    norm_num [List.range_succ]

example (w0 : World (Obj 20 (TunableDmp 20))) (hf : w0.files = []) :
    ∃ (dmp0 : TunableDmp 20) (rolled : (Fin 20 → ℝ) → List (List ℝ)) (d0 : Dist 20) (u : Updater) (w : World (Obj 20 (TunableDmp 20))),
      robotTrain robotFile = some dmp0.dmp ∧ d0.mean = dmp0.params ∧ (∀ x, (rolled x).length = 150) ∧
      stepByStep (nSamples := 5) (TunableDmp.throwTask robotTask) rolled TunableDmp.robotRollout (fun _ => []) u d0 dmp0 false 16
        (fun i a j => i + a * j) (fun _ => (true, true)) w0 = (.ok (), w) := by
  obtain ⟨traj, h⟩ := robotFile_fits
  obtain ⟨dmp0, d0, u, rolled, d, weights, w, h1, -, -, h2, h3, -, h4, -⟩ :=
    C107_demo h (fun _ _ _ => 0) (fun _ => []) (fun i a j => i + a * j) (fun _ => (true, true)) w0 hf
  exact ⟨dmp0, rolled, d0, u, w, h1, h4, fun x => by rw [(h2 x).2]; norm_num, h3⟩

example : (TunableDmp.throwCosts robotTask [[0, 0, 0, 0, 0, 0, 0, -0.7]])[1]? = some 0 :=
  (C107_task [[0, 0, 0, 0, 0, 0, 0, -0.7]] rfl).2.2.mpr (by norm_num)

end Verif
