import Verif.Model.DemoTraining
import Verif.Proofs.ThrowPython
import Verif.Props.DmpPlots
import Verif.Props.RobotDemo
import Verif.Props.TrainScript

/-
C112: the demo that trains a Dmp for C++ (demo_dmp_training.py).
-/

set_option autoImplicit false

namespace Verif

open Spec Dmp

/-- Queries do not change whether C++ can read the Dmp. -/
theorem Deployable.query {d : Nat} {s : Dmp} (h : Deployable d s) (c : Dmp.Call) (hc : c.Sized d) :
    Deployable d (c.run s).2 ∧ (c.run s).2.core = s.core := by
  obtain ⟨-, h2, -⟩ := Dmp.Call.stable hc s s h.inv.good h.inv.good rfl
  exact ⟨h.of_norm (Dmp.norm_of_core h2).symm (h.reachable.query c hc), h2⟩

theorem run_state {α : Type} (m : PyM Dmp α) (f : α → Dmp.Answer) (s : Dmp) :
    (((do let r ← m; pure (f r)) : PyM Dmp Dmp.Answer) s).2 = (m s).2 := by
  rw [PyM.bind_apply]
  rcases m s with ⟨_ | _, _⟩ <;> rfl

/-- A Dmp that is trained with radial basis functions. -/
theorem fromTraj_deployable {traj : Trajectory ℝ} (hs : traj.Shape) {tau : ℝ} (hlast : traj.ts.getLast? = some tau)
    (h0 : 0 < tau) (hd : 0 < traj.dim) {n : Nat} (h1 : 1 ≤ n) {t : Dmp}
    (ht : Dmp.fromTraj traj (some (List.replicate traj.dim (Fa.new (.rbfn [n] 0.7 0)))) trainOptions = .ok t) :
    Deployable traj.dim t ∧ t.tau = tau ∧ t.tsTrain = some traj.ts ∧
      ∃ l, t.fas = some l ∧ l.length = traj.dim ∧ ∀ fa ∈ l, fa.params = .rbfn [n] 0.7 0 ∧ Cpp.Dmp.Smooth fa := by
  have hs' : trainDmp traj n = .ok { t with fas := t.fas.map fun fas => fas.map fun fa => { fa with selected := some ["weights"] } } := by
    unfold trainDmp
    change (Dmp.fromTraj traj _ trainOptions >>= _) = _
    rw [ht]
    change ((Dmp.setSelected ["weights"] t).1 >>= fun _ => pure (Dmp.setSelected ["weights"] t).2) = _
    rw [setSelected_run]
    simp
  obtain ⟨a1, a2, a3, -, ⟨l, b1, b2, b3⟩, -⟩ := C103_dmp hs hlast h0 hd h1 hs'
  have hlast' : ∀ T, traj.ts.getLast? = some T → 0 < T := by
    intro T hT
    rw [hlast] at hT
    cases hT
    exact h0
  obtain ⟨tau', y0, yg, he, hr, -⟩ := C87_made (G := Cpp.Dmp.Known) (A := Change.Forward) hs ht
    (trainOptions_fits _) (fun T y0 yg s he hi => ⟨trainOptions_consistent (hlast' T he.last) y0 yg s,
      trainOptions_known (hlast' T he.last) y0 yg s⟩) ⟨hs, hlast'⟩
  rw [← hs.dim] at hr
  simp only at b1
  obtain ⟨l0, hl0, rfl⟩ := Option.map_eq_some_iff.mp b1
  have own : ∀ fa ∈ l0, ({ fa with selected := some ["weights"] } : Fa) ∈
      l0.map fun fa : Fa => { fa with selected := some ["weights"] } := fun fa hfa => List.mem_map.mpr ⟨fa, hfa, rfl⟩
  refine ⟨⟨hd, hr, ⟨a1.prepared.damping, a1.prepared.yInit, fun i hi => ?_, a1.prepared.amplitudes⟩, ?_⟩, a2, a3, l0, hl0,
    by simpa using b2, fun fa hfa => ?_⟩
  · obtain ⟨l', fa', c1, c2, c3⟩ := a1.prepared.fas i hi
    simp only [hl0, Option.map_some, Option.some.injEq] at c1
    subst c1
    rw [List.getElem?_map] at c2
    obtain ⟨fa, c4, rfl⟩ := Option.map_eq_some_iff.mp c2
    exact ⟨l0, fa, hl0, c4, c3⟩
  · intro l' hl' fa hfa
    rw [hl0] at hl'
    cases hl'
    have := a1.own _ b1 _ (own fa hfa)
    exact this
  · have := b3 _ (own fa hfa)
    exact ⟨this.1, this.2.2.1⟩

/-- The loop of the script computes the motion of an integration. -/
theorem integrateEndEffector_run {d : Nat} {dt : ℝ} : ∀ {k : Nat} {x : List ℝ} {s t : Dmp} {rows : List (List ℝ × List ℝ)},
    Deployable d s → integrateRows dt k x s = (.ok rows, t) →
    integrateEndEffector dt k x s = (.ok (rows.map fun r => s.posVelAcc r.1 r.2), t) ∧ Deployable d t ∧ t.core = s.core
  | 0, x, s, t, rows, h, e => by
    obtain rfl : [] = rows := Except.ok.inj (congrArg Prod.fst e)
    obtain rfl : s = t := congrArg Prod.snd e
    exact ⟨rfl, h, rfl⟩
  | k + 1, x, s, t, rows, h, e => by
    obtain ⟨r, s1, e1, e⟩ := PyM.bind_inv e
    obtain ⟨rest, t2, e2, e⟩ := PyM.bind_inv e
    obtain ⟨rfl, rfl⟩ : r :: rest = rows ∧ t2 = t := ⟨Except.ok.inj (congrArg Prod.fst e), congrArg Prod.snd e⟩
    obtain ⟨q1, q2⟩ := h.query (.step .rungeKutta dt x) trivial
    have hq : (Dmp.Call.run (.step .rungeKutta dt x) s).2 = s1 := by
      refine (run_state _ _ s).trans ?_
      change (DynSys.integrateStep dt x s).2 = s1
      rw [e1]
    rw [hq] at q1 q2
    obtain ⟨i1, i2, i3⟩ := integrateEndEffector_run q1 e2
    refine ⟨?_, i2, i3.trans q2⟩
    unfold integrateEndEffector
    rw [PyM.bind_ok e1, PyM.self_bind, PyM.bind_ok i1, ThrowBall.posVelAcc_core q2]
    rfl

/-- What the demo computes for a demonstration, with the trained Dmp `s`. -/
structure Trains (traj : Trajectory ℝ) (D : ℝ) (s : Dmp) (r : TrainingDemo) : Prop where
  /-- The reproduction is the solution of the Dmp at the times of the demonstration, -/
  reproduced : ∃ sol, (analytical (some traj.ts) false s).1 = .ok sol ∧ s.asTrajectory traj.ts sol.xs sol.xds = .ok r.reproduced
  /-- the motion that of an integration with time step 0.001, until time 1.3 D, -/
  motion : ∃ rows, (integrate ((List.range (⌊1300 * D⌋₊ - 1 + 1)).map fun i : Nat => (i : ℝ) / 1000) .rungeKutta s).1 = .ok rows ∧
    rows.length = ⌊1300 * D⌋₊ - 1 + 1 ∧ r.motion = (rows.drop 1).map fun x => s.posVelAcc x.1 x.2
  /-- the file is that of a Dmp which behaves as the trained one, and with which C++ makes the same movements, also after
  changes of duration, start and goal. -/
  json : ∃ u : Dmp, r.json = u.json ∧ (∀ cs : List Dmp.Call, (∀ c ∈ cs, c.Sized traj.dim) → answers cs u = answers cs s) ∧
    ∃ c, Cpp.Dmp.fromJson r.json = .ok c ∧ Cpp.Dmp.Usable c ∧ ∀ os : List Cpp.Dmp.Setting,
      (∀ o ∈ os, o.Fits traj.dim) → ∃ c', Cpp.Dmp.setAll os c = .ok c' ∧
        Cpp.Dmp.SameMotions traj.dim c' (Cpp.Dmp.setAllPy os u)
  /-- The first figure shows the solution and the demonstration, -/
  picture : ∃ sol, (analytical (some traj.ts) false s).1 = .ok sol ∧
    ShowsDmp traj.dim s.tau (.rows (List.range 8)) (List.range 8) traj.ts sol (some traj) none true r.picture
  /-- the second one compares them. -/
  comparison : ∃ sol, (analytical (some traj.ts) false s).1 = .ok sol ∧ ∃ axs misc,
    r.comparison = (panels axs traj.ts ([traj.ys.rows, traj.yds.rows, traj.ydds.rows] ++ misc),
      panels axs traj.ts (motionCurves traj.dim s.tau sol.xs sol.xds), axs) ∧ axs = List.range (3 + misc.length) ∧
    misc = match traj.misc with | some m => if 0 < m.rows.length * m.cols then [m.rows] else [] | none => []

/-- C112: the demo, with a trained Dmp. -/
theorem C112_run {traj : Trajectory ℝ} (hs : traj.Shape) (hne : traj.ts ≠ []) {D : ℝ} (hD : traj.duration = .ok D) {s : Dmp}
    (h : Deployable traj.dim s) (hts : s.tsTrain = some traj.ts) (hsm : ∀ l, s.fas = some l → ∀ fa ∈ l, Cpp.Dmp.Smooth fa) :
    ∃ r, (runTrainingDemo traj s).1 = .ok r ∧ Trains traj D s r := by
  obtain ⟨sol, hsol, l1, l2⟩ := analytical_total h hsm hne
  obtain ⟨q1, q2⟩ := h.query (.analytical (some traj.ts) false) trivial
  rw [show (Dmp.Call.run (.analytical (some traj.ts) false) s).2 = (analytical (some traj.ts) false s).2 from
    run_state _ _ s] at q1 q2
  rcases ea : analytical (some traj.ts) false s with ⟨ra, s1⟩
  rw [ea] at hsol q1 q2
  simp only at hsol q1 q2
  subst hsol
  have hbase : ∀ {u : Dmp}, u.core = s.core → u.toBase = s.toBase := fun {u} hu => by
    have : u.core.toBase = s.core.toBase := by rw [hu]
    exact this
  have hrep := Dmp.asTrajectory_ok s l1 l2
  obtain ⟨start, rows, s2, s3, e1, e2, e3, e4⟩ := rollout_total h hsm q1.inv.good q2 (0.001 : ℝ)
    (n := ⌊1300 * D⌋₊ - 1 + 1) (by omega)
  obtain ⟨p1, p2⟩ := q1.query .start trivial
  rw [show (Dmp.Call.run .start s1).2 = (Dmp.integrateStart none s1).2 from run_state _ _ s1, e1] at p1 p2
  obtain ⟨m1, m2, m3⟩ := integrateEndEffector_run p1 e2
  have hc2 : s2.core = s.core := p2.trans q2
  have hc3 : s3.core = s.core := m3.trans hc2
  have hτ : ∀ {u : Dmp}, Deployable traj.dim u → u.spring.tau = u.tau := fun hu => (Cpp.Dmp.reachable_common hu.reachable).springTau
  have hsolu : ∀ {u : Dmp}, Good traj.dim u → u.core = s.core → (analytical (some traj.ts) false u).1 = .ok sol := by
    intro u hu hc
    rw [(stable_analytical (some traj.ts) false u s hu h.inv.good hc).1, ea]
  have htsu : s3.tsTrain = some traj.ts := by
    have : s3.core.tsTrain = s.core.tsTrain := by rw [hc3]
    exact this.trans hts
  obtain ⟨pic, s4, f1, f2, f3, f4⟩ := C99_dmp m2.inv.good h.pos (hτ m2) { demonstration := some traj } none traj.ts
    (.inr ⟨rfl, htsu⟩) sol (hsolu m2.inv.good hc3) (List.range 8) (.inr ⟨.inl rfl, rfl⟩) (by simp)
    (fun t ht => by cases ht; exact hs) none (.inl ⟨rfl, rfl⟩)
  have hc4 : s4.core = s.core := f4.trans hc3
  obtain ⟨misc, hmisc⟩ : ∃ misc : List (List (List ℝ)), misc =
    match traj.misc with | some m => if 0 < m.rows.length * m.cols then [m.rows] else [] | none => [] := ⟨_, rfl⟩
  obtain ⟨s5, g1, -⟩ := C99_comparison f3 (by rw [core_springTau f4, core_tau f4, hτ m2]) traj hs none traj.ts
    (.inr ⟨rfl, rfl⟩) sol (hsolu f3 hc4) misc hmisc none _ (.inl ⟨.inl rfl, rfl⟩)
  have hn : 1.3 * D / 0.001 = 1300 * D := by ring
  refine ⟨⟨_, rows.map fun x => s.posVelAcc x.1 x.2, s3.json, pic, _⟩, ?_, ⟨sol, by rw [ea], hrep⟩,
    ⟨start :: rows, ?_, ?_, rfl⟩, ⟨s3, rfl, ?_, ?_⟩, ⟨sol, by rw [ea], ?_⟩, ⟨sol, by rw [ea], _, misc, rfl, rfl, hmisc⟩⟩
  · unfold runTrainingDemo
    rw [PyM.bind_ok ea, PyM.self_bind, TunableDmp.asTrajectory_base (hbase q2), hrep, PyM.lift_ok_bind]
    simp only
    rw [hD, PyM.lift_ok_bind, hn, PyM.bind_ok e1]
    rw [Nat.add_sub_cancel] at m1
    rw [PyM.bind_ok m1, PyM.self_bind, PyM.bind_ok f1, PyM.bind_ok g1, ThrowBall.posVelAcc_core hc2, core_tau f4, core_tau hc3]
    rfl
  · rw [← e4]
    congr 3
    refine List.map_congr_left fun i _ => ?_
    ring
  · rw [List.length_cons, integrateRows_length e2]
    rfl
  · intro cs hcs
    rw [answers_eq cs _ _ m2.inv.good h.inv.good hc3 hcs, answers_eq cs _ _ h.inv.good h.inv.good rfl hcs]
  · obtain ⟨c, k1, -, k3⟩ := m2.cpp
    exact ⟨c, k1, k3, fun os hos => Cpp.C90_same_motions m2.reachable m2.pos m2.own k1 k3 hos⟩
  · rw [core_tau hc3] at f2
    exact f2

/-- C112: the demo, for a trajectory file with increasing times that end after time 0. Exactly if there are at least as many
samples as basis functions, a Dmp is trained; then the whole demo succeeds. -/
theorem C112_demo {file : Lines} {traj : Trajectory ℝ} (h : Trajectory.loadtxt file = .ok traj)
    (hi : traj.ts.Pairwise (· < ·)) {tau D : ℝ} (hlast : traj.ts.getLast? = some tau) (h0 : 0 < tau) (hd : 0 < traj.dim)
    (hD : traj.duration = .ok D) :
    (10 ≤ traj.ts.length → ∃ s r, demoDmp traj = .ok s ∧ s.tau = tau ∧ s.tsTrain = some traj.ts ∧
      (∃ l, s.fas = some l ∧ l.length = traj.dim ∧ ∀ fa ∈ l, fa.params = .rbfn [10] 0.7 0) ∧
      demoTraining file = .ok r ∧ Trains traj D s r) ∧
    (traj.ts.length < 10 → demoTraining file = .error .linAlgError) := by
  obtain ⟨hs, hl⟩ := loadtxt_shape h
  have hne : traj.ts ≠ [] := fun e => by rw [e] at hl; simp at hl
  have ht := C103_increasing hs hlast h0 hi hd (n := 10) (by omega)
  have hdemo : demoTraining file = demoDmp traj >>= fun dmp => (runTrainingDemo traj dmp).1 := by
    unfold demoTraining
    rw [h]
    rfl
  have htd : trainDmp traj 10 = demoDmp traj >>= fun t => (Dmp.setSelected ["weights"] t).1 >>= fun _ =>
    pure (Dmp.setSelected ["weights"] t).2 := rfl
  rw [htd] at ht
  rw [hdemo]
  refine ⟨fun h10 => ?_, fun h10 => ?_⟩
  · rw [if_pos h10] at ht
    cases e : demoDmp traj with
    | error er => rw [e] at ht; cases ht
    | ok s =>
      obtain ⟨a1, a2, a3, l, b1, b2, b3⟩ := fromTraj_deployable hs hlast h0 hd (by omega) e
      obtain ⟨r, hr, htr⟩ := C112_run hs hne hD a1 a3 (fun l' e fa hfa => by
        rw [b1] at e
        cases e
        exact (b3 fa hfa).2)
      exact ⟨s, r, rfl, a2, a3, ⟨l, b1, b2, fun fa hfa => (b3 fa hfa).1⟩, hr, htr⟩
  · rw [if_neg (by omega), if_neg (by omega)] at ht
    cases e : demoDmp traj with
    | ok s =>
      rw [e] at ht
      change Except.map _ ((Dmp.setSelected ["weights"] s).1 >>= fun _ => pure (Dmp.setSelected ["weights"] s).2) = _ at ht
      rw [setSelected_run] at ht
      simp [Except.map] at ht
    | error er =>
      rw [e] at ht
      cases ht
      rfl

/-- C112: a file that cannot be loaded. -/
theorem C112_unreadable {file : Lines} {e : PyErr} (h : Trajectory.loadtxt file = .error e) : demoTraining file = .error e := by
  unfold demoTraining
  rw [h]
  rfl

/-! ### Cases that meet the hypotheses -/

example : ∃ (file : Lines) (r : TrainingDemo), demoTraining file = .ok r ∧ r.motion.length = 18199 := by
  obtain ⟨file, traj, h, hts⟩ := example_robot_file
  obtain ⟨h1, -⟩ := C112_demo h.load h.increasing h.last (by norm_num) (by rw [h.dim]; exact two_pos) (D := 14) (by
    unfold Trajectory.duration
    rw [hts]
    norm_num [List.range_succ])
  obtain ⟨s, r, -, -, -, -, h2, h3⟩ := h1 (by have := h.many; omega)
  refine ⟨file, r, h2, ?_⟩
  obtain ⟨rows, -, e1, e2⟩ := h3.motion
  rw [e2, List.length_map, List.length_drop, e1]
  norm_num

example : demoTraining [[0, 1, 2, 0], [1, 3, 2, 0]] = .error .linAlgError := by
  obtain ⟨traj, h1, h2, h3⟩ : ∃ traj, Trajectory.loadtxt [[0, 1, 2, 0], [1, 3, 2, 0]] = .ok traj ∧ traj.dim = 1 ∧
      traj.ts = [0, 1] := by
    unfold Trajectory.loadtxt
    rw [show ([[0, 1, 2, 0], [1, 3, 2, 0]] : Lines).filter (fun l => decide (l ≠ [])) = [[0, 1, 2, 0], [1, 3, 2, 0]] by simp]
    simp only
    rw [if_neg (by simp), if_neg (by simp), Trajectory.fromMatrix_run (n := 1) (by simp)]
    exact ⟨_, rfl, rfl, by simp⟩
  refine (C112_demo h1 (by rw [h3]; simp) (tau := 1) (by rw [h3]; rfl) one_pos (by omega) (D := 1) ?_).2 (by rw [h3]; simp)
  unfold Trajectory.duration
  rw [h3]
  norm_num

end Verif
