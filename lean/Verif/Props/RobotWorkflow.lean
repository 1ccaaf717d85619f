import Verif.Model.RobotWorkflow
import Verif.Proofs.RobotWorkflow
import Verif.Props.ThrowBallCost

/-
C94: the programs of demos/robot. The Dmps that Python samples and writes are read by the program for the
robot and executed as Python would; and an optimisation with the robot equals run_optimization_task.
-/

set_option autoImplicit false

namespace Verif

noncomputable section

open Spec

/-- Dmps with the default subsystems, that C++ can read: start set, function approximators trained. -/
structure Deployable (d : Nat) (s : Dmp) : Prop where
  pos : 0 < d
  reachable : Dmp.Reachable Cpp.Dmp.Known Dmp.Change.Forward d s
  prepared : Cpp.Dmp.Prepared s
  own : ∀ l, s.fas = some l → ∀ fa ∈ l, OwnModel fa

namespace Deployable

variable {d : Nat} {s t : Dmp}

theorem of_norm (hs : Deployable d s) (h : s.norm = t.norm)
    (ht : Dmp.Reachable Cpp.Dmp.Known Dmp.Change.Forward d t) : Deployable d t :=
  ⟨hs.pos, ht, Dmp.prepared_norm h (Cpp.Dmp.reachable_common hs.reachable).noDamping
    (Cpp.Dmp.reachable_common ht).noDamping hs.prepared, Dmp.ownModel_norm h hs.own⟩

theorem cpp (h : Deployable d s) : ∃ c, Cpp.Dmp.fromJson s.json = .ok c ∧ Cpp.Dmp.read s = .ok c ∧ Cpp.Dmp.Usable c := by
  obtain ⟨c, h1, h2⟩ := (Cpp.Dmp.C70_partial h.reachable h.pos).mpr h.prepared
  exact ⟨c, by rw [Cpp.C90_python_dmp s h.own]; exact h1, h1, h2⟩

theorem inv (h : Deployable d s) : Dmp.Inv d s := h.reachable.valid.inv

end Deployable

namespace TunableDmp

variable {n d : Nat}

theorem norm_tuned (s : TunableDmp n) (x : Fin n → ℝ) : (s.tuned x).dmp.norm = s.dmp.norm := by
  obtain ⟨e, hr⟩ := s.reachable
  exact (Dmp.norm_setParamVector hr.inv.wf _).1

theorem deploy_tuned (s : TunableDmp n) (h : Deployable d s.dmp) (x : Fin n → ℝ) : Deployable d (s.tuned x).dmp :=
  h.of_norm (s.norm_tuned x).symm (h.reachable.change (.params (List.ofFn x)) trivial)

theorem core_tuned {s u : TunableDmp n} (h : u.dmp.norm = s.dmp.norm) (x : Fin n → ℝ) :
    (u.tuned x).dmp.core = (s.tuned x).dmp.core := by
  obtain ⟨e, hr⟩ := s.reachable
  obtain ⟨e', hr'⟩ := u.reachable
  have := (Dmp.setParamVector_norm hr'.inv.wf hr.inv.wf h (List.ofFn x)).2
  rw [u.tuned_run x, s.tuned_run x] at this
  exact this rfl

/-- The Dmp after its solution has been computed. -/
theorem solved (s : TunableDmp n) (h : Deployable d s.dmp) {ts : List ℝ} (hts : s.dmp.tsTrain = some ts) :
    ∃ u : TunableDmp n, Dmp.analytical none false s.dmp = ((Dmp.analytical (some ts) false s.dmp).1, u.dmp) ∧
      u.dmp.core = s.dmp.core ∧ Deployable d u.dmp := by
  have e : Dmp.analytical none false s.dmp = Dmp.analytical (some ts) false s.dmp := by
    unfold Dmp.analytical
    simp only [PyM.self_bind, hts, PyM.pure_bind]
  obtain ⟨-, k1, k2, -⟩ := Dmp.analytical_core h.inv.wf ts false
  have hr := h.reachable.query (.analytical (some ts) false) trivial
  have hq : (Dmp.Call.run (.analytical (some ts) false) s.dmp).2 = (Dmp.analytical (some ts) false s.dmp).2 := by
    change ((Dmp.analytical (some ts) false >>= fun r => Pure.pure (Dmp.Answer.solution r) : PyM Dmp Dmp.Answer)
      s.dmp).2 = _
    rw [PyM.bind_apply]
    rcases Dmp.analytical (some ts) false s.dmp with ⟨_ | _, _⟩ <;> rfl
  rw [hq] at hr
  have hn := Dmp.norm_of_core k1
  have hf : (Dmp.analytical (some ts) false s.dmp).2.fas = s.dmp.fas := by
    have := congrArg Dmp.fas k1
    exact this
  refine ⟨⟨(Dmp.analytical (some ts) false s.dmp).2, ⟨d, hr.valid⟩, ?_, (Dmp.size_norm hn).trans s.size⟩, e, k1,
    h.of_norm hn.symm hr⟩
  intro fa hfa
  rw [hf] at hfa
  exact s.selects fa hfa

theorem asTrajectory_base {s t : Dmp} (h : s.toBase = t.toBase) : s.asTrajectory = t.asTrajectory := by
  funext ts xs xds
  unfold Dmp.asTrajectory
  rw [h]

theorem trainMatrix_core {s t : Dmp} (ws : s.Wf) (wt : t.Wf) (h : s.core = t.core) : s.trainMatrix = t.trainMatrix := by
  unfold Dmp.trainMatrix
  have h1 : s.tsTrain = t.tsTrain := by
    have : s.core.tsTrain = t.core.tsTrain := by rw [h]
    exact this
  have h2 : s.toBase = t.toBase := by
    have : s.core.toBase = t.core.toBase := by rw [h]
    exact this
  rw [h1]
  cases t.tsTrain with
  | none => rfl
  | some ts =>
    simp only
    rw [(Dmp.analytical_core ws ts false).1, (Dmp.analytical_core wt ts false).1, h, asTrajectory_base h2]

/-- The trajectory can be computed, and the Dmp is as before. -/
theorem trainTrajectory_run (s : TunableDmp n) (h : Deployable d s.dmp) {m : Arr2 ℝ} (hm : s.dmp.trainMatrix = .ok m) :
    ∃ (u : TunableDmp n) (traj : Trajectory ℝ), trainTrajectory s.dmp.tsTrain s.dmp = (.ok traj, u.dmp) ∧
      traj.asMatrix = .ok m ∧ u.dmp.core = s.dmp.core ∧ Deployable d u.dmp := by
  unfold Dmp.trainMatrix at hm
  cases hts : s.dmp.tsTrain with
  | none => rw [hts] at hm; cases hm
  | some ts =>
    rw [hts] at hm
    obtain ⟨u, e, hc, hu⟩ := s.solved h hts
    obtain ⟨sol, e1, hm⟩ := except_bind_ok hm
    obtain ⟨traj, e2, hm⟩ := except_bind_ok hm
    refine ⟨u, traj, ?_, hm, hc, hu⟩
    rw [e1] at e
    unfold trainTrajectory
    rw [PyM.bind_ok e, PyM.self_bind]
    have h2 : u.dmp.toBase = s.dmp.toBase := by
      have : u.dmp.core.toBase = s.dmp.core.toBase := by rw [hc]
      exact this
    simp only
    rw [asTrajectory_base h2, e2]
    rfl

/-- What is written for the sample `x` of the Dmp `s`. -/
structure Wrote (d : Nat) (withTraj plots : Bool) (s : TunableDmp n) (x : Fin n → ℝ) (f : SavedSample) : Prop where
  /-- the Dmp has the sample as parameters, -/
  params : f.dmp.getParamVector = .ok (List.ofFn x)
  /-- behaves as the Dmp `s` with these parameters: all sequences of queries have the same results, -/
  same : ∀ cs : List Dmp.Call, (∀ c ∈ cs, c.Sized d) → Dmp.answers cs f.dmp = Dmp.answers cs (s.tuned x).dmp
  /-- and is this Dmp, if no solutions were computed. -/
  equal : withTraj = false → plots = false → f.dmp = (s.tuned x).dmp
  /-- The trajectory is that of this Dmp, -/
  traj : withTraj = true → ∃ m, f.traj = some m ∧ (s.tuned x).dmp.trainMatrix = .ok m
  /-- if it was asked for. -/
  noTraj : withTraj = false → f.traj = none
  /-- The file for C++ is that of the Dmp, which differs from `s` in parameters and caches only, and can be executed. -/
  file : f.forCpp = f.dmp.json ∧ f.dmp.norm = s.dmp.norm ∧ Deployable d f.dmp
  /-- C++ reads the Dmp, and makes the same movements with it, also after changes of duration, start and goal. -/
  cpp : ∃ c, Cpp.Dmp.fromJson f.forCpp = .ok c ∧ Cpp.Dmp.Usable c ∧ ∀ os : List Cpp.Dmp.Setting,
    (∀ o ∈ os, o.Fits d) → ∃ c', Cpp.Dmp.setAll os c = .ok c' ∧ Cpp.Dmp.SameMotions d c' (Cpp.Dmp.setAllPy os f.dmp)

theorem wrote_dmp {s u : TunableDmp n} (hs : Deployable d s.dmp) (hu : Deployable d u.dmp)
    (hn : u.dmp.norm = s.dmp.norm) (withTraj plots : Bool)
    (heq : withTraj = false → plots = false → ∀ y, u.tuned y = s.tuned y) (x : Fin n → ℝ) (tr : Option (Arr2 ℝ))
    (h1 : withTraj = true → ∃ m, tr = some m ∧ (s.tuned x).dmp.trainMatrix = .ok m)
    (h2 : withTraj = false → tr = none) :
    Wrote d withTraj plots s x ⟨(u.tuned x).dmp, (u.tuned x).dmp.json, tr⟩ where
  params := (u.C93_laws x x).2.1
  same cs hcs := by
    have i1 := (s.deploy_tuned hs x).inv.good
    have i2 := (u.deploy_tuned hu x).inv.good
    rw [Dmp.answers_eq cs _ _ i2 i1 (core_tuned hn x) hcs, Dmp.answers_eq cs _ _ i1 i1 rfl hcs]
  equal a b := by rw [heq a b x]
  traj := h1
  noTraj := h2
  file := ⟨rfl, (u.norm_tuned x).trans hn, u.deploy_tuned hu x⟩
  cpp := by
    have hd := u.deploy_tuned hu x
    obtain ⟨c, e1, e2, e3⟩ := hd.cpp
    exact ⟨c, e1, e3, fun os hos => Cpp.C90_same_motions hd.reachable hd.pos hd.own e1 e3 hos⟩

theorem saveSample_run {s u : TunableDmp n} (hs : Deployable d s.dmp) (hu : Deployable d u.dmp)
    (hn : u.dmp.norm = s.dmp.norm) (withTraj plots : Bool)
    (heq : withTraj = false → plots = false → ∀ y, u.tuned y = s.tuned y)
    (hm : withTraj = true ∨ plots = true → ∀ x, ∃ m, (s.tuned x).dmp.trainMatrix = .ok m) (x : Fin n → ℝ) :
    ∃ (f : SavedSample) (v : TunableDmp n),
      saveSample withTraj plots s.dmp.tsTrain (List.ofFn x) u.dmp = (.ok f, v.dmp) ∧
      Wrote d withTraj plots s x f ∧ Deployable d v.dmp ∧ v.dmp.norm = s.dmp.norm ∧
      (withTraj = false → plots = false → ∀ y, v.tuned y = s.tuned y) := by
  have hw := wrote_dmp hs hu hn withTraj plots heq x
  unfold saveSample
  rw [PyM.bind_ok (u.tuned_run x), PyM.self_bind]
  have hts : s.dmp.tsTrain = (u.tuned x).dmp.tsTrain :=
    (Dmp.norm_parts (((u.norm_tuned x).trans hn).symm)).2.2.2.1
  by_cases ha : withTraj = true ∨ plots = true
  · rw [if_pos (by rcases ha with h | h <;> simp [h])]
    obtain ⟨m, hm⟩ := hm ha x
    have hd := u.deploy_tuned hu x
    have hc := core_tuned hn x
    have hm' : (u.tuned x).dmp.trainMatrix = .ok m := by
      rw [trainMatrix_core hd.inv.wf (s.deploy_tuned hs x).inv.wf hc]; exact hm
    obtain ⟨v, traj, e1, e2, e3, e4⟩ := (u.tuned x).trainTrajectory_run hd hm'
    rw [hts, PyM.bind_ok e1]
    have hv : v.dmp.norm = s.dmp.norm := (Dmp.norm_of_core e3).trans ((u.norm_tuned x).trans hn)
    have hno : withTraj = false → plots = false → ∀ y, v.tuned y = s.tuned y := by
      intro a b
      rcases ha with h | h
      · rw [a] at h; cases h
      · rw [b] at h; cases h
    by_cases ht : withTraj = true
    · rw [if_pos ht, e2, PyM.lift_ok_bind]
      exact ⟨_, v, rfl, hw (some m) (fun _ => ⟨m, rfl, hm⟩) (fun a => by rw [ht] at a; cases a), e4, hv, hno⟩
    · rw [if_neg ht]
      exact ⟨_, v, rfl, hw none (fun a => absurd a ht) (fun _ => rfl), e4, hv, hno⟩
  · rw [if_neg (by simpa [and_comm] using ha)]
    have hf : withTraj = false := by
      cases withTraj
      · rfl
      · exact absurd (.inl rfl) ha
    refine ⟨_, u.tuned x, rfl, hw none (fun a => by rw [hf] at a; cases a) (fun _ => rfl), u.deploy_tuned hu x,
      (u.norm_tuned x).trans hn, fun a b y => ?_⟩
    rw [(u.C93_laws x y).2.2.2, heq a b y]

theorem saveSamples_run {s : TunableDmp n} (hs : Deployable d s.dmp) (withTraj plots : Bool)
    (hm : withTraj = true ∨ plots = true → ∀ x, ∃ m, (s.tuned x).dmp.trainMatrix = .ok m) :
    ∀ (xs : List (Fin n → ℝ)) (u : TunableDmp n), Deployable d u.dmp → u.dmp.norm = s.dmp.norm →
      (withTraj = false → plots = false → ∀ y, u.tuned y = s.tuned y) → ∃ (fs : List SavedSample) (t : Dmp),
        saveSamples withTraj plots s.dmp.tsTrain (xs.map List.ofFn) u.dmp = (.ok fs, t) ∧
        List.Forall₂ (Wrote d withTraj plots s) xs fs := by
  intro xs
  induction xs with
  | nil => intro u _ _ _; exact ⟨[], _, rfl, .nil⟩
  | cons x xs ih =>
    intro u hu hn heq
    obtain ⟨f, v, e, hw, hv, hvn, hve⟩ := saveSample_run hs hu hn withTraj plots heq hm x
    obtain ⟨fs, t, e2, hws⟩ := ih v hv hvn hve
    refine ⟨f :: fs, t, ?_, .cons hw hws⟩
    rw [List.map_cons]
    unfold saveSamples
    rw [PyM.bind_ok e, PyM.bind_ok e2]
    rfl

/-- C94: step3_tune_exploration saves the distribution with the parameters of the Dmp as mean and the
covariance `sigma² I`, and for each sample a Dmp that has it as parameters and behaves as the given Dmp with
these parameters, whatever was done with the samples before; C++ can read it, and makes the same movements. -/
theorem C94_explore (s : TunableDmp n) (hs : Deployable d s.dmp) (sigma : ℝ) (withTraj plots : Bool)
    (draws : (k : Nat) → List (Fin k → ℝ)) (hp : plots = true → 2 ≤ n)
    (hm : withTraj = true ∨ plots = true → ∀ x, ∃ m, (s.tuned x).dmp.trainMatrix = .ok m) :
    ∃ (fs : List SavedSample) (t : Dmp), tuneExploration sigma withTraj plots draws s.dmp =
        (.ok (⟨n, ⟨s.params, (sigma ^ 2) • 1, none⟩⟩, fs), t) ∧
      List.Forall₂ (Wrote d withTraj plots s) (draws n) fs := by
  obtain ⟨v, hv, hl, hset, hp'⟩ : ∃ v, s.dmp.getParamVector = .ok v ∧ v.length = n ∧
      Dmp.setParamVector v s.dmp = (.ok (), s.dmp) ∧
      ∀ i (h : i < v.length) (h' : i < n), v[i] = s.params ⟨i, h'⟩ := by
    obtain ⟨e, hr⟩ := s.reachable
    obtain ⟨v0, h1, h2, h3, -⟩ := Dmp.C27_roundtrip e s.dmp hr s.selects
    refine ⟨v0, h1, ?_, h3, fun i h h' => ?_⟩
    · rw [s.size] at h2
      exact (Except.ok.inj h2).symm
    · unfold TunableDmp.params
      rw [h1]
      simp [h]
  subst hl
  have hmean : v.get = s.params := by
    funext i
    exact hp' i i.2 i.2
  have hself : s.tuned s.params = s := by
    apply ext
    change (Dmp.setParamVector (List.ofFn s.params) s.dmp).2 = _
    rw [← hmean, List.ofFn_get, hset]
  unfold tuneExploration
  rw [PyM.self_bind, hv, PyM.lift_ok_bind]
  have hinit : Dist.init (n := v.length) v.get ((sigma * sigma) • 1) none =
      .ok ⟨s.params, (sigma ^ 2) • 1, none⟩ := by
    unfold Dist.init
    rw [dif_pos rfl, hmean, sq]
    rfl
  rw [hinit, PyM.lift_ok_bind]
  have hgen : (⟨s.params, (sigma ^ 2) • 1, none⟩ : Dist v.length).generateSamples (draws v.length) =
    .ok (draws v.length) := rfl
  rw [hgen, PyM.lift_ok_bind]
  by_cases hpl : plots = true
  · rw [if_pos hpl, if_neg (not_lt.mpr (hp hpl))]
    obtain ⟨m, hm0⟩ := hm (.inr hpl) s.params
    rw [hself] at hm0
    obtain ⟨u, traj, e1, -, e3, e4⟩ := s.trainTrajectory_run hs hm0
    obtain ⟨fs, t, e5, e6⟩ := saveSamples_run hs withTraj plots hm (draws v.length) u e4 (Dmp.norm_of_core e3)
      (fun _ b => by rw [hpl] at b; cases b)
    refine ⟨fs, t, ?_, e6⟩
    beta_reduce
    rw [PyM.bind_ok e1, PyM.bind_ok e5]
    rfl
  · rw [if_neg hpl]
    obtain ⟨fs, t, e5, e6⟩ := saveSamples_run hs withTraj plots hm (draws v.length) s hs rfl (fun _ _ _ => rfl)
    refine ⟨fs, t, ?_, e6⟩
    beta_reduce
    rw [PyM.bind_ok e5]
    rfl

/-- C94: plotting needs two parameters. -/
theorem C94_explore_few (s : Dmp) {v : List ℝ} (hv : s.getParamVector = .ok v) (h : v.length < 2) (sigma : ℝ)
    (withTraj : Bool) (draws : (k : Nat) → List (Fin k → ℝ)) :
    tuneExploration sigma withTraj true draws s = (.error .valueError, s) := by
  unfold tuneExploration
  rw [PyM.self_bind, hv, PyM.lift_ok_bind]
  have hinit : Dist.init (n := v.length) v.get ((sigma * sigma) • 1) none =
      .ok ⟨v.get, (sigma * sigma) • 1, none⟩ := by
    unfold Dist.init
    rw [dif_pos rfl]
    rfl
  have hgen : (⟨v.get, (sigma * sigma) • 1, none⟩ : Dist v.length).generateSamples (draws v.length) =
    .ok (draws v.length) := rfl
  rw [hinit, PyM.lift_ok_bind, hgen, PyM.lift_ok_bind, if_pos rfl, if_pos h]
  rfl

/-- C94: trajectories can be saved only if the Dmp was trained. -/
theorem C94_explore_untrained (s : TunableDmp n) (h : s.dmp.tsTrain = none) (sigma : ℝ) (plots : Bool)
    (hp : plots = true → 2 ≤ n) (draws : (k : Nat) → List (Fin k → ℝ)) (hd : draws n ≠ []) :
    (tuneExploration sigma true plots draws s.dmp).1 = .error .valueError := by
  have hfail : ∀ u : TunableDmp n, u.dmp.tsTrain = none →
      trainTrajectory none u.dmp = (.error .valueError, u.dmp) := by
    intro u hu
    have e : Dmp.analytical none false u.dmp = (.error .valueError, u.dmp) := by
      unfold Dmp.analytical
      simp only [PyM.self_bind, hu, PyM.raise_bind]
      rfl
    unfold trainTrajectory
    exact PyM.bind_error e
  obtain ⟨v, hv, hl⟩ : ∃ v, s.dmp.getParamVector = .ok v ∧ v.length = n := by
    obtain ⟨e, hr⟩ := s.reachable
    obtain ⟨v0, h1, h2, -⟩ := Dmp.C27_roundtrip e s.dmp hr s.selects
    refine ⟨v0, h1, ?_⟩
    rw [s.size] at h2
    exact (Except.ok.inj h2).symm
  subst hl
  unfold tuneExploration
  rw [PyM.self_bind, hv, PyM.lift_ok_bind]
  have hinit : Dist.init (n := v.length) v.get ((sigma * sigma) • 1) none =
      .ok ⟨v.get, (sigma * sigma) • 1, none⟩ := by
    unfold Dist.init
    rw [dif_pos rfl]
    rfl
  have hgen : (⟨v.get, (sigma * sigma) • 1, none⟩ : Dist v.length).generateSamples (draws v.length) =
    .ok (draws v.length) := rfl
  rw [hinit, PyM.lift_ok_bind, hgen, PyM.lift_ok_bind, h]
  by_cases hpl : plots = true
  · rw [if_pos hpl, if_neg (not_lt.mpr (hp hpl))]
    beta_reduce
    rw [PyM.bind_error (hfail s h)]
  · rw [if_neg hpl]
    beta_reduce
    obtain ⟨x, xs, hx⟩ := List.exists_cons_of_ne_nil hd
    have e : ∃ t, saveSample true plots none (List.ofFn x) s.dmp = (.error .valueError, t) := by
      unfold saveSample
      rw [PyM.bind_ok (s.tuned_run x), PyM.self_bind, if_pos (by simp),
        PyM.bind_error (hfail _ ((Dmp.norm_parts (s.norm_tuned x)).2.2.2.1.trans h))]
      exact ⟨_, rfl⟩
    obtain ⟨t, e⟩ := e
    rw [hx, List.map_cons]
    have e2 : saveSamples true plots none (List.ofFn x :: xs.map List.ofFn) s.dmp = (.error .valueError, t) := by
      unfold saveSamples
      exact PyM.bind_error e
    rw [PyM.bind_error e2]

/-- C94: parameters that cannot be read are an error. -/
theorem C94_explore_unreadable (s : Dmp) {e : PyErr} (h : s.getParamVector = .error e) (sigma : ℝ)
    (withTraj plots : Bool) (draws : (k : Nat) → List (Fin k → ℝ)) :
    tuneExploration sigma withTraj plots draws s = (.error e, s) := by
  unfold tuneExploration
  rw [PyM.self_bind, h, PyM.lift_error_bind]
  rfl

end TunableDmp

/-! ### Rollouts on the robot -/

/-- C94: the program for the robot reads the file that Python wrote for a Dmp with two dimensions, and its
rows are those of the simulation in Python (except time, and accelerations in the row of the release). -/
theorem C94_rollout {s : Dmp} (h : Deployable 2 s) (hs : ∀ l, s.fas = some l → ∀ fa ∈ l, Cpp.Dmp.Smooth fa) :
    ∃ s' m rows, ThrowBall.runPythonSimulation (-0.3) s = (.ok m, s') ∧ Cpp.robotProgram s.json = .ok rows ∧
      rows.length = ⌊150 * s.tau⌋₊ ∧ (∀ r ∈ rows, r.length = 14) ∧
      rows.length ≤ m.rows.length ∧ m.rows.length ≤ rows.length + 1 ∧ ∀ i, i < rows.length →
        ((rows.getD i []).drop 1).take 4 = ((m.rows.getD i []).drop 1).take 4 ∧
        ((rows.getD i []).drop 7).take 2 = (m.rows.getD i []).drop 7 ∧
        (i ≠ 61 → ((rows.getD i []).drop 5).take 2 = ((m.rows.getD i []).drop 5).take 2) ∧
        (rows.getD i []).getD 0 0 = (m.rows.getD i []).getD 0 0 + 0.01 := by
  obtain ⟨c, e1, e2, e3⟩ := h.cpp
  obtain ⟨s', m, rows, a1, a2, a3, a4, a5, a6, a7⟩ := Cpp.C79_same_partial s h.reachable c e2 e3 hs
  obtain ⟨_, _, rows', _, _, -, b1, b2, -⟩ := Cpp.both s h.reachable c e2 e3 hs
  rw [a2] at b1
  cases b1
  refine ⟨s', m, rows, a1, ?_, b2, Cpp.C79_width c rows a2, a3, a4, a7⟩
  unfold Cpp.robotProgram
  rw [e1]
  exact a2

/-- C94: if the file cannot be read, there is no rollout. -/
theorem C94_unreadable {j : Json} {e : CppErr} (h : Cpp.Dmp.fromJson j = .error e) : Cpp.robotProgram j = .error e := by
  unfold Cpp.robotProgram
  rw [h]
  rfl

namespace TunableDmp

variable {n : Nat}

/-- demos/robot/demo_robot.bash:62-69: the cost_vars of a Dmp that is stored in the session, from the program
for the robot. If the program fails, there is no file; this does not happen in the theorems below. -/
def robotRollout (s : TunableDmp n) : List (List ℝ) :=
  match Cpp.robotProgram s.dmp.json with
  | .ok rows => rows
  | .error _ => []

/-- The costs of the task to throw a ball (C80). -/
def throwCosts (t : ThrowBall.Task) (rows : List (List ℝ)) : List ℝ :=
  [ThrowBall.distanceCost t.xGoal t.xMargin ((rows.getLastD []).getD 7 0) + ThrowBall.effortCost t.accelerationWeight rows,
    ThrowBall.distanceCost t.xGoal t.xMargin ((rows.getLastD []).getD 7 0), ThrowBall.effortCost t.accelerationWeight rows]

/-- TaskThrowBall as the task of an optimisation. The matrix that is read from the file has 14 columns. -/
def throwTask (t : ThrowBall.Task) : Task n := fun rows _ =>
  match t.evaluateRollout ⟨14, rows⟩ with
  | .ok costs => costs
  | .error _ => []

theorem throwTask_eq (t : ThrowBall.Task) {rows : List (List ℝ)} (hr : rows ≠ []) (hw : ∀ r ∈ rows, r.length = 14)
    (x : Fin n → ℝ) : throwTask t rows x = throwCosts t rows := by
  obtain ⟨front, last, rfl⟩ := (List.eq_nil_or_concat rows).resolve_left hr
  unfold throwTask throwCosts
  rw [ThrowBall.C80_costs t ⟨14, _⟩ hw (by norm_num) front last (by simp)]
  simp

/-- C94: the optimisation with the robot of demo_robot.bash. For all parameters the program for the robot reads
the file of the Dmp and writes the rows of the rollout; no step of the optimisation fails, whatever the random
numbers; and the session contains the history of the optimisation of the costs of these rollouts. -/
theorem C94_demo {nSamples : Nat} (dmp0 : TunableDmp n) (h : Deployable 2 dmp0.dmp)
    (hsm : ∀ l, dmp0.dmp.fas = some l → ∀ fa ∈ l, Cpp.Dmp.Smooth fa ∧ "widths" ∉ fa.selected.getD [])
    (ht : 1 ≤ 150 * dmp0.dmp.tau) (t : ThrowBall.Task) (u : Updater) (argsort : List ℝ → List Nat)
    (h1 : u.method ≠ "CEM") (h2 : u.method ≠ "CMA-ES")
    (hc : ∀ samples w (d : Dist n), ∃ c, u.covarNew samples w d = .ok c) (N : Nat)
    (draws : Nat → Fin nSamples → Fin n → ℝ) (hn : 0 < nSamples) (reopen : Nat → Bool × Bool)
    (hre : (∃ i < N, (reopen i).1 = true ∨ (reopen i).2 = true) → nSamples ≠ 1 ∧ n ≠ 1) (d0 : Dist n)
    (hb : d0.bounds ≠ some (none, none)) (w0 : World (Obj n (TunableDmp n))) (hf : w0.files = []) :
    ∃ (rolled : (Fin n → ℝ) → List (List ℝ)) (d : Nat → Dist n) (samples : Nat → List (Fin n → ℝ))
      (weights : Nat → List ℝ) (w : World (Obj n (TunableDmp n))),
      (∀ x, Cpp.robotProgram (dmp0.tuned x).dmp.json = .ok (rolled x) ∧
        (rolled x).length = ⌊150 * dmp0.dmp.tau⌋₊ ∧ ∀ r ∈ rolled x, r.length = 14) ∧
      IsHistory (fun x => throwCosts t (rolled x)) argsort u d0 N draws d samples weights ∧
      stepByStep (throwTask t) rolled robotRollout argsort u d0 dmp0 false N draws reopen w0 = (.ok (), w) ∧
      (∀ i : Nat, i ≤ N → asked w "distribution" (some i) none = .ok (.dist (d i)) ∧
        ∃ s, (d i).generateSamples (List.ofFn (draws i)) = .ok s ∧
        asked w "samples" (some i) none = .ok (.samples s) ∧
        ForRollouts w "dmp" i (d i) s (fun x => .dmp (dmp0.tuned x))) ∧
      ∀ i : Nat, i < N →
        ForRollouts w "cost_vars" i (d i) (samples i) (fun x => .array (rolled x)) ∧
        ForRollouts w "costs" i (d i) (samples i) (fun x => .vec (throwCosts t (rolled x))) ∧
        asked w "weights" (some i) none = .ok (.vec (weights i)) ∧
        asked w "distribution_new" (some i) none = .ok (.dist (d (i + 1))) := by
  have key : ∀ x : Fin n → ℝ, ∃ rows, Cpp.robotProgram (dmp0.tuned x).dmp.json = .ok rows ∧
      rows.length = ⌊150 * dmp0.dmp.tau⌋₊ ∧ ∀ r ∈ rows, r.length = 14 := by
    intro x
    have hd := dmp0.deploy_tuned h x
    obtain ⟨_, _, rows, -, a1, a2, a3, -⟩ := C94_rollout hd
      (Dmp.smooth_norm (dmp0.norm_tuned x).symm hsm)
    rw [(Dmp.norm_parts (dmp0.norm_tuned x)).2.2.2.2.2] at a2
    exact ⟨rows, a1, a2, a3⟩
  choose rolled hrolled using key
  have hne : ∀ x, rolled x ≠ [] := by
    intro x e
    have e1 := (hrolled x).2.1
    rw [e, List.length_nil] at e1
    have e2 : 1 ≤ ⌊150 * dmp0.dmp.tau⌋₊ := Nat.le_floor (by exact_mod_cast ht)
    omega
  have hcost : ∀ x, throwTask t (rolled x) x = throwCosts t (rolled x) := fun x =>
    throwTask_eq t (hne x) (hrolled x).2.2 x
  obtain ⟨dN, wm, hrun⟩ := C55_succeeds (D := TunableDmp n) (fun x => throwCosts t (rolled x)) argsort u d0 N true
    draws ⟨0, true, true, [], none, [], []⟩ hn (fun x => by unfold throwCosts; simp) hb h1 h2 hc
  obtain ⟨d, samples, weights, hh, -⟩ := runOptimization_ok hrun
  have hroll : ∀ x, rolled x = robotRollout (DmpLike.setParams dmp0 x) := by
    intro x
    change _ = robotRollout (dmp0.tuned x)
    unfold robotRollout
    rw [(hrolled x).1]
  have hh' : IsHistory (fun x => throwTask t (rolled x) x) argsort u d0 N draws d samples weights := by
    simp only [hcost]
    exact hh
  have law := fun (s : TunableDmp n) x y => (s.C93_laws x y).2.2.2
  have law2 := fun (s : TunableDmp n) x => (s.C93_laws x x).2.2.1
  obtain ⟨w, a1, a2, a3⟩ := C62_files law law2 (throwTask t) rolled robotRollout u dmp0 hroll argsort false N draws
    reopen d0 d samples weights hh' hb hre w0 hf
  obtain ⟨w', b1, b2, b3⟩ := C62_history law law2 (throwTask t) rolled robotRollout u dmp0 hroll argsort false N
    draws reopen d0 d samples weights hh' hb hre w0 hf
  cases (Prod.mk.inj (a1.symm.trans b1)).2
  simp only [hcost] at a3
  refine ⟨rolled, d, samples, weights, w, hrolled, hh, a1, fun i hi => ⟨b2 i hi, ?_⟩,
    fun i hi => ⟨(a3 i hi).1, (a3 i hi).2, (b3 i hi).2.1, (b3 i hi).2.2⟩⟩
  obtain ⟨s, c1, c2, c3, -⟩ := a2 i hi
  exact ⟨s, c1, c2, c3⟩

/-! ### An example -/

/-- A Dmp with two dimensions, whose function approximators have an offset each as parameter. -/
theorem example_robot : ∃ s : TunableDmp 2, Deployable 2 s.dmp ∧
    (∀ l, s.dmp.fas = some l → ∀ fa ∈ l, Cpp.Dmp.Smooth fa ∧ "widths" ∉ fa.selected.getD []) ∧ s.dmp.tau = 1 := by
  have ho : Dmp.Options.Fits {} 2 :=
    ⟨(fun _ h => nomatch h), trivial, (fun _ h => nomatch h), (fun _ h => nomatch h),
      (fun _ h => nomatch h), (fun _ h => nomatch h), (fun _ h => nomatch h)⟩
  obtain ⟨s0, h0⟩ := (Dmp.C16_types 1 [0, 0] [1, 1] (some [Cpp.Dmp.level 3, Cpp.Dmp.level 3]) {}).1 (.inl (by simp))
  have r0 : Dmp.Reachable Cpp.Dmp.Known Dmp.Change.Forward 2 s0 :=
    .init h0 rfl rfl ho ⟨one_pos, by simp, rfl, rfl, rfl, rfl, rfl⟩
  have r1 := (r0.change (.yInit [0, 0]) trivial).change (.select ["offsets"]) trivial
  have w : s0.Wf := Dmp.init_wf h0 rfl ho
  have hd : s0.dimY = 2 := (Dmp.C16_size _ _ _ _ _ _ h0).1
  have e : (Dmp.Change.run (.yInit [0, 0]) s0).2 = s0.placed [0, 0] := by
    change (Dmp.setYInit [0, 0] s0).2 = _
    rw [Dmp.setYInit_run w (by rw [hd]; rfl)]
  rw [e] at r1
  have e2 : (Dmp.Change.run (.select ["offsets"]) (s0.placed [0, 0])).2 =
      { s0.placed [0, 0] with
        fas := some [{ Cpp.Dmp.level 3 with selected := some ["offsets"] },
          { Cpp.Dmp.level 3 with selected := some ["offsets"] }] } := by
    change (Dmp.setSelected ["offsets"] (s0.placed [0, 0])).2 = _
    rw [Dmp.setSelected_run]
    obtain ⟨dflt, hd, rfl⟩ := Dmp.init_eq h0
    rfl
  rw [e2] at r1
  refine ⟨⟨_, ⟨2, r1.valid⟩, ?_, ?_⟩, ⟨two_pos, r1, ?_, ?_⟩, ?_, ?_⟩
  · intro fa hfa
    simp only [Option.getD_some, List.mem_cons, List.not_mem_nil, or_false, or_self] at hfa
    subst hfa
    intro _
    refine ⟨["offsets"], rfl, by simp, ?_⟩
    intro m hm
    obtain rfl : m = "offsets" := by simpa using hm
    exact ⟨_, _, rfl⟩
  · have hs : s0.selected = [] := by
      obtain ⟨dflt, hd, rfl⟩ := Dmp.init_eq h0
      rfl
    have hf : ({ Cpp.Dmp.level 3 with selected := some ["offsets"] } : Fa).paramVectorSize = .ok 1 := by
      change (List.mapM _ ["offsets"] >>= _) = _
      rfl
    unfold Dmp.paramVectorSize
    simp only [Option.getD_some, List.mapM_cons, List.mapM_nil, hf]
    change Except.ok (_ + if "goal" ∈ s0.selected then _ else 0) = _
    rw [hs]
    rfl
  · obtain ⟨dflt, hd, rfl⟩ := Dmp.init_eq h0
    refine ⟨⟨20, rfl⟩, rfl, fun i hi => ?_, fun e => nomatch e⟩
    have hi : i < 2 := hi
    match i, hi with
    | 0, _ => exact ⟨_, _, rfl, rfl, Cpp.Dmp.level_trained 3⟩
    | 1, _ => exact ⟨_, _, rfl, rfl, Cpp.Dmp.level_trained 3⟩
  · rintro l ⟨⟩ fa hfa
    simp only [List.mem_cons, List.not_mem_nil, or_false, or_self] at hfa
    subst hfa
    trivial
  · rintro l ⟨⟩ fa hfa
    simp only [List.mem_cons, List.not_mem_nil, or_false, or_self] at hfa
    subst hfa
    exact ⟨Cpp.Dmp.level_smooth 3, by simp⟩
  · obtain ⟨dflt, hd, rfl⟩ := Dmp.init_eq h0
    rfl

/-- The hypotheses of C94 can be met: ten samples are saved; and an optimisation with 16 updates, 5 samples per
update, and a new process for each step. -/
example (draws : (k : Nat) → List (Fin k → ℝ)) (draws2 : Nat → Fin 5 → Fin 2 → ℝ) : ∃ s : TunableDmp 2,
    (∃ fs t, tuneExploration 20 false false draws s.dmp = (.ok (⟨2, ⟨s.params, ((20 : ℝ) ^ 2) • 1, none⟩⟩, fs), t) ∧
      fs.length = (draws 2).length) ∧
    ∃ rolled w, stepByStep (throwTask ⟨-0.7, 0.01, -0.3, 0.001⟩) rolled robotRollout (fun _ => [])
      ⟨.int 10, "PI-BB", .decay 0.8⟩ ⟨s.params, ((20 : ℝ) ^ 2) • 1, none⟩ s false 16 draws2 (fun _ => (false, true))
      ⟨0, true, true, [], none, [], []⟩ = (.ok (), w) := by
  obtain ⟨s, h1, h2, h3⟩ := example_robot
  refine ⟨s, ?_, ?_⟩
  · obtain ⟨fs, t, e1, e2⟩ := C94_explore s h1 20 false false draws (fun h => nomatch h) (by simp)
    exact ⟨fs, t, e1, e2.length_eq.symm⟩
  · obtain ⟨rolled, d, samples, weights, w, -, -, e, -⟩ := C94_demo s h1 h2 (by rw [h3]; norm_num)
      ⟨-0.7, 0.01, -0.3, 0.001⟩ ⟨.int 10, "PI-BB", .decay 0.8⟩ (fun _ => []) (by simp) (by simp)
      (fun samples w d => ⟨_, rfl⟩) 16 draws2 (by norm_num) (fun _ => (false, true)) (fun _ => by norm_num)
      ⟨s.params, ((20 : ℝ) ^ 2) • 1, none⟩ (by simp) ⟨0, true, true, [], none, [], []⟩ rfl
    exact ⟨rolled, w, e⟩

end TunableDmp

end

end Verif
