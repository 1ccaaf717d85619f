import Verif.Props.PlotOptimization
import Verif.Props.RobotDemo
import Verif.Model.RolloutPlots

/-
C113: plot_optimization.py at the end of the demo for the robot.
-/

set_option autoImplicit false

namespace Verif

open Spec

theorem exploration_scalar {n : Nat} (hn : 0 < n) {r : ℝ} (hr : 0 ≤ r) :
    Exploration ((r ^ 2) • (1 : Matrix (Fin n) (Fin n) ℝ)) r := by
  have h := (C91_exploration (⟨fun _ => 0, (r ^ 2) • 1, none⟩ : Dist n) (Matrix.isSymm_one.smul _) r).mp (by
    rw [C91_initial _ _ hn, abs_of_nonneg hr])
  exact h

/-- C113: plot_optimization.py at the end of demo_robot.bash. Whatever trajectory file is trained with, whatever is drawn
and whenever the session is re-opened, it does not fail. All 16 updates are shown; the rollouts of the 16 means are plotted
by the task with the positions of hand and ball; the exploration is 20 * 0.8^i before update `i`; there is a dot for the
costs of each of the 80 samples; and the learning curve is the mean of the costs of the 5 samples of each update. -/
theorem C113_demo {file : Lines} {traj : Trajectory ℝ} {tau : ℝ} (h : ForRobot file traj tau)
    (argsort : List ℝ → List Nat) (draws : Nat → Fin 5 → Fin 20 → ℝ) (reopen : Nat → Bool × Bool)
    (svd : Matrix (Fin 2) (Fin 2) ℝ → SvdResult)
    (getLabels : Obj 20 (TunableDmp 20) → Except PyErr (Option (List String)))
    (hl : getLabels (.task (TunableDmp.throwTask robotTask)) = .ok (some robotTask.costLabels))
    (w0 : World (Obj 20 (TunableDmp 20))) (hf : w0.files = []) :
    ∃ (dmp0 : TunableDmp 20) (rolled : (Fin 20 → ℝ) → List (List ℝ)) (d : Nat → Dist 20) (m : Nat → List ℝ)
      (w w' : World (Obj 20 (TunableDmp 20))) (P : TaskSessionPlot 20 (TunableDmp 20)) (l : List Int),
      robotTrain file = some dmp0.dmp ∧
      (∀ x, Cpp.robotProgram (dmp0.tuned x).dmp.json = .ok (rolled x)) ∧
      stepByStep (TunableDmp.throwTask robotTask) rolled TunableDmp.robotRollout argsort ⟨.int 10, "PI-BB", .decay 0.8⟩
        ⟨dmp0.params, (400 : ℝ) • 1, none⟩ dmp0 false 16 draws reopen w0 = (.ok (), w) ∧
      (∀ i : Nat, i ≤ 16 → asked w "distribution" (some i) none = .ok (.dist (d i))) ∧
      plotOptimization svd getLabels w = (.ok P, w') ∧
      P.updates.length = 16 ∧
      (∀ i < 16, ∃ p, P.updates[i]? = some (some p) ∧ p.highlight = decide (i = 0) ∧
        p.old = ((d i).mean 0, (d i).mean 1) ∧ p.new = ((d (i + 1)).mean 0, (d (i + 1)).mean 1) ∧
        (d i).plot svd = .ok p.ellipse ∧ (d (i + 1)).plot svd = .ok p.ellipseNew) ∧
      l = (List.range 17).map (fun (i : Nat) => (i : Int)) ∧
      P.rollouts = (l.map fun (i : Int) =>
        ((i, if i < 16 then some (.array (rolled (d i.toNat).mean)) else none,
          if i = 0 then (0.8, 0, 0) else (0.3 * (1 - i / 16), i / 16, 0)) :
            Int × Option (Obj 20 (TunableDmp 20)) × (ℝ × ℝ × ℝ))) ∧
      (∀ i < 16, ∃ p, robotTask.plotRollout ⟨14, rolled (d i).mean⟩ = .ok p ∧
        p.hand = (rolled (d i).mean).map (fun r => (r.getD 1 0, r.getD 2 0)) ∧
        p.ball = (rolled (d i).mean).map (fun r => (r.getD 7 0, r.getD 8 0))) ∧
      P.exploration = ((List.range 16).map fun (i : Nat) => ((i : ℝ) * 5, 20 * 0.8 ^ i)) ∧
      P.dots = ((List.range 16).flatMap fun i =>
        (List.ofFn (draws i)).map fun x => (TunableDmp.throwCosts robotTask (rolled x)).headD 0) ∧
      (∀ i < 16, IsMean ((List.ofFn (draws i)).map fun x => TunableDmp.throwCosts robotTask (rolled x)) (m i)) ∧
      P.curve.lines = ((List.range 3).map fun j => (List.range 16).map fun (i : Nat) =>
        (((i : ℝ) + 1 / 2) * 5, (m i).getD j 0)) ∧
      P.curve.legend = some (["total cost", "landing site", "acceleration"].zip P.curve.lines) := by
  obtain ⟨dmp0, h1, -, h3, h4, h5, h6⟩ := C107_train h
  obtain ⟨rolled, d, samples, weights, w, k1, k2, k3, k4, k5⟩ := dmp0.C94_demo (nSamples := 5) h3 h6
    (by rw [h4]; exact h.late) robotTask ⟨.int 10, "PI-BB", .decay 0.8⟩ argsort (by simp) (by simp)
    (fun _ _ _ => ⟨_, rfl⟩) 16 draws (by omega) reopen (fun _ => by omega) ⟨dmp0.params, (400 : ℝ) • 1, none⟩ (by simp) w0 hf
  obtain ⟨hh, hh'⟩ := robot_history k2
  have hne : ∀ x, rolled x ≠ [] := by
    intro x e
    have e1 := (k1 x).2.1
    rw [e, List.length_nil, h4] at e1
    have e2 : 1 ≤ ⌊150 * tau⌋₊ := Nat.le_floor (by exact_mod_cast h.late)
    omega
  have hcost : ∀ x, TunableDmp.throwTask robotTask (rolled x) x = TunableDmp.throwCosts robotTask (rolled x) := fun x =>
    TunableDmp.throwTask_eq robotTask (hne x) (k1 x).2.2 x
  have hroll : ∀ x, rolled x = TunableDmp.robotRollout (DmpLike.setParams dmp0 x) := by
    intro x
    change _ = TunableDmp.robotRollout (dmp0.tuned x)
    unfold TunableDmp.robotRollout
    rw [(k1 x).1]
  have hist : IsHistory (fun x => TunableDmp.throwTask robotTask (rolled x) x) argsort ⟨.int 10, "PI-BB", .decay 0.8⟩
      ⟨dmp0.params, (400 : ℝ) • 1, none⟩ 16 draws d samples weights := by
    simp only [hcost]
    exact k2
  have hs : ∀ i < 16, samples i = List.ofFn (draws i) := fun i hi => (hh' i hi).1
  obtain ⟨w2, w', P, l, m, a1, a2, a3, a4, a5, a6, a7, a8, a9, a10, a11, a12, a13⟩ :=
    C113_plot (nSamples := 5) (fun (s : TunableDmp 20) x y => (s.C93_laws x y).2.2.2)
      (fun s x => (s.C93_laws x x).2.2.1) (TunableDmp.throwTask robotTask) rolled TunableDmp.robotRollout _ dmp0 hroll
      argsort false 16 draws reopen _ d samples weights hist (by simp) (by omega) (by omega) (by omega) (by omega)
      3 (by omega) (fun x => by rw [hcost]; rfl) (fun i => 20 * 0.8 ^ i)
      (fun i hi => by
        rw [(hh i hi.le).1]
        refine ⟨Matrix.isSymm_one.smul _, ?_⟩
        rw [show (400 * 0.8 ^ (2 * i) : ℝ) = (20 * 0.8 ^ i) ^ 2 by rw [mul_pow, ← pow_mul, mul_comm i 2]; norm_num]
        exact exploration_scalar (by omega) (by positivity))
      svd getLabels _ hl w0 hf
  cases (Prod.mk.inj (a1.symm.trans k3)).2
  have hl17 : l = (List.range 17).map (fun (i : Nat) => (i : Int)) := by
    have e : updatesList 16 20 = .ok ((List.range 17).map (fun (i : Nat) => (i : Int))) := by
      rfl
    exact Except.ok.inj (a5.symm.trans e)
  refine ⟨dmp0, rolled, d, m, w, w', P, l, h1, fun x => (k1 x).1, k3, fun i hi => (k4 i hi).1, a2, a3, fun i hi => ?_, hl17,
    ?_, fun i _ => ⟨_, if_neg (by norm_num), rfl, rfl⟩, ?_, ?_, fun i hi => ?_, ?_, ?_⟩
  · obtain ⟨p, b1, b2, b3, b4, b5, b6, -⟩ := a4 i hi
    exact ⟨p, b1, b2, b3, b4, b5, b6⟩
  · rw [a6]
    norm_num
  · rw [a7]
    norm_num
  · rw [a9]
    refine List.flatMap_congr fun i hi => ?_
    rw [hs i (List.mem_range.mp hi)]
    simp only [hcost]
  · have := a10 i hi
    rw [hs i hi] at this
    simpa only [hcost] using this
  · rw [a11]
    norm_num
  · exact a12 _ rfl

/-! ### A case that meets the hypotheses -/

/-- The exploration shown for the demo with a movement of 14 seconds, when the session is re-opened before each step. -/
example (svd : Matrix (Fin 2) (Fin 2) ℝ → SvdResult) :
    ∃ (file : Lines) (dmp0 : TunableDmp 20) (rolled : (Fin 20 → ℝ) → List (List ℝ))
      (w w' : World (Obj 20 (TunableDmp 20))) (P : TaskSessionPlot 20 (TunableDmp 20)),
      robotTrain file = some dmp0.dmp ∧
      stepByStep (nSamples := 5) (TunableDmp.throwTask robotTask) rolled TunableDmp.robotRollout (fun _ => [])
        ⟨.int 10, "PI-BB", .decay 0.8⟩ ⟨dmp0.params, (400 : ℝ) • 1, none⟩ dmp0 false 16 (fun i a j => i + a * j)
        (fun _ => (true, true)) ⟨0, true, true, [], none, [], []⟩ = (.ok (), w) ∧
      plotOptimization svd (fun _ => .ok (some robotTask.costLabels)) w = (.ok P, w') ∧
      P.exploration[1]? = some (5, 16) := by
  obtain ⟨file, traj, h, -⟩ := example_robot_file
  obtain ⟨dmp0, rolled, d, m, w, w', P, l, h1, -, h2, -, h3, -, -, -, -, -, h4, -⟩ :=
    C113_demo h (fun _ => []) (fun i a j => i + a * j) (fun _ => (true, true)) svd
      (fun _ => .ok (some robotTask.costLabels)) rfl ⟨0, true, true, [], none, [], []⟩ rfl
  refine ⟨file, dmp0, rolled, w, w', P, h1, h2, h3, ?_⟩
  rw [h4]
  norm_num [List.range_succ]

end Verif
