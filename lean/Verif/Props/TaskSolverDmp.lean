import Verif.Model.TaskSolverDmp
import Verif.Proofs.ParamOverwrite
import Verif.Spec.Grid
import Verif.Props.DmpTraining
import Mathlib.Tactic.FieldSimp

/- TaskSolverDmp: rollouts are functions of the sample (C29). -/

set_option autoImplicit false

namespace Verif

namespace Memory

variable {α β : Type}

theorem onDmp_run {r : Nat} {mem : Memory} {s : Dmp} (h : mem.dmps[r]? = some s) (m : PyM Dmp α) :
    onDmp r m mem = ((m s).1, ⟨mem.dmps.set r (m s).2⟩) := by
  change (match mem.dmps[r]? with
    | none => _
    | some s => _) = _
  rw [h]

theorem set_self {r : Nat} {l : List Dmp} {s : Dmp} (h : l[r]? = some s) : l.set r s = l := by
  obtain ⟨hr, rfl⟩ := List.getElem?_eq_some_iff.mp h
  simp

theorem set_get {r : Nat} {mem : Memory} {s : Dmp} (h : mem.dmps[r]? = some s) (t : Dmp) :
    (⟨mem.dmps.set r t⟩ : Memory).dmps[r]? = some t := by
  have : r < mem.dmps.length := by
    by_contra hc
    rw [List.getElem?_eq_none (by omega)] at h
    cases h
  simp [this]

theorem onDmp_other {r r' : Nat} (h : r' ≠ r) (m : PyM Dmp α) (mem : Memory) :
    (onDmp r m mem).2.dmps[r']? = mem.dmps[r']? := by
  change (match mem.dmps[r]? with
    | none => (Except.error PyErr.attributeError, mem)
    | some s => ((m s).1, ⟨mem.dmps.set r (m s).2⟩) : Except PyErr α × Memory).2.dmps[r']? = _
  cases mem.dmps[r]? with
  | none => rfl
  | some s => exact List.getElem?_set_ne (Ne.symm h)

theorem onDmp_bind {r : Nat} {mem : Memory} {s : Dmp} (h : mem.dmps[r]? = some s) (m : PyM Dmp α)
    {f : α → PyM Memory β} {g : α → PyM Dmp β}
    (hf : ∀ a mem' t, mem'.dmps[r]? = some t → f a mem' = onDmp r (g a) mem') :
    (onDmp r m >>= f) mem = onDmp r (m >>= g) mem := by
  rw [PyM.bind_apply, onDmp_run h, onDmp_run h, PyM.bind_apply]
  rcases e : m s with ⟨x, t⟩
  cases x with
  | error er => rfl
  | ok a =>
    simp only
    rw [hf a _ t (set_get h t), onDmp_run (set_get h t)]
    simp

theorem lift_bind {r : Nat} {mem : Memory} {s : Dmp} (h : mem.dmps[r]? = some s) (e : Except PyErr α)
    {f : α → PyM Memory β} {g : α → PyM Dmp β}
    (hf : ∀ a mem' t, mem'.dmps[r]? = some t → f a mem' = onDmp r (g a) mem') :
    (PyM.lift e >>= f) mem = onDmp r (PyM.lift e >>= g) mem := by
  have hs : mem = ⟨mem.dmps.set r s⟩ := by
    rw [set_self h]
  cases e with
  | error x =>
    rw [onDmp_run h, PyM.lift_error_bind, PyM.lift_error_bind]
    exact congrArg (Prod.mk _) hs
  | ok a =>
    rw [PyM.lift_ok_bind, hf a mem s h, onDmp_run h, onDmp_run h, PyM.lift_ok_bind]

theorem lift_eq {r : Nat} {mem : Memory} {s : Dmp} (h : mem.dmps[r]? = some s) (e : Except PyErr α) :
    (PyM.lift e : PyM Memory α) mem = onDmp r (PyM.lift e) mem := by
  have hs : mem = ⟨mem.dmps.set r s⟩ := by
    rw [set_self h]
  rw [onDmp_run h]
  exact congrArg (Prod.mk _) hs

end Memory

namespace TaskSolverDmp

/-- The rollout as a method of the copied Dmp. -/
noncomputable def rolloutOn (solver : TaskSolverDmp) (sample : List ℝ) : PyM Dmp (Arr2 ℝ) := do
  Dmp.setParamVector sample
  let ts ← PyM.lift (linspaceInt 0 solver.integrateTime solver.nTimeSteps)
  let sol ← Dmp.analytical (some ts)
  let dmp ← PyM.self
  let traj ← PyM.lift (dmp.asTrajectory ts sol.xs sol.xds)
  PyM.lift traj.asMatrix

theorem performRollout_eq {solver : TaskSolverDmp} {mem : Memory} {s : Dmp}
    (h : mem.dmps[solver.dmp]? = some s) (sample : List ℝ) :
    performRollout solver sample mem = Memory.onDmp solver.dmp (solver.rolloutOn sample) mem := by
  unfold performRollout rolloutOn performRolloutDmp
  refine Memory.onDmp_bind h _ fun _ _ _ h => ?_
  refine Memory.lift_bind h _ fun _ _ _ h => ?_
  refine Memory.onDmp_bind h _ fun _ _ _ h => ?_
  refine Memory.onDmp_bind h _ fun _ _ _ h => ?_
  refine Memory.lift_bind h _ fun _ _ _ h => ?_
  exact Memory.lift_eq h _

theorem performRolloutDmp_other {solver : TaskSolverDmp} {r : Nat} {r' : Nat} (hr : r' ≠ r) (mem : Memory) :
    (performRolloutDmp solver r mem).2.dmps[r']? = mem.dmps[r']? := by
  unfold performRolloutDmp
  have bind : ∀ {α β : Type} {m : PyM Memory α} {f : α → PyM Memory β},
      (∀ mem, (m mem).2.dmps[r']? = mem.dmps[r']?) → (∀ a mem, (f a mem).2.dmps[r']? = mem.dmps[r']?) →
      ∀ mem, ((m >>= f) mem).2.dmps[r']? = mem.dmps[r']? := by
    intro α β m f hm hf mem
    rw [PyM.bind_apply]
    have := hm mem
    rcases e : m mem with ⟨x, t⟩
    rw [e] at this
    cases x with
    | error _ => exact this
    | ok a => exact (hf a t).trans this
  refine bind (fun _ => rfl) (fun ts => bind (Memory.onDmp_other hr _) fun sol =>
    bind (Memory.onDmp_other hr _) fun d => bind (fun _ => rfl) fun t _ => rfl) mem

/-- A rollout changes no Dmp but the one of the solver. -/
theorem performRollout_other {solver : TaskSolverDmp} {r' : Nat} (hr : r' ≠ solver.dmp) (sample : List ℝ)
    (mem : Memory) : (performRollout solver sample mem).2.dmps[r']? = mem.dmps[r']? := by
  unfold performRollout
  rw [PyM.bind_apply]
  have := Memory.onDmp_other hr (Dmp.setParamVector sample) mem
  rcases e : Memory.onDmp solver.dmp (Dmp.setParamVector sample) mem with ⟨x, t⟩
  rw [e] at this
  cases x with
  | error _ => exact this
  | ok a => exact (performRolloutDmp_other hr t).trans this

/-- The constructor. -/
theorem init_run {mem mem' : Memory} {r : Nat} {dt factor : ℝ} {solver : TaskSolverDmp}
    (h : init r dt factor mem = (.ok solver, mem')) : ∃ s, mem.dmps[r]? = some s ∧
      solver = ⟨mem.dmps.length, s.tau * factor, ⌊s.tau * factor / dt⌋ + 1⟩ ∧ mem' = ⟨mem.dmps ++ [s]⟩ ∧
      dt ≠ 0 := by
  unfold init at h
  rw [PyM.bind_apply] at h
  cases e : mem.dmps[r]? with
  | none =>
    have : Memory.deepcopy r mem = (.error .attributeError, mem) := by
      change (match mem.dmps[r]? with
        | none => _
        | some s => _) = _
      rw [e]
    rw [this] at h
    cases h
  | some s =>
    have hc : Memory.deepcopy r mem = (.ok mem.dmps.length, ⟨mem.dmps ++ [s]⟩) := by
      change (match mem.dmps[r]? with
        | none => _
        | some s => _) = _
      rw [e]
    rw [hc] at h
    simp only at h
    have hl : r < mem.dmps.length := by
      by_contra hc
      rw [List.getElem?_eq_none (by omega)] at e
      cases e
    have e' : (⟨mem.dmps ++ [s]⟩ : Memory).dmps[r]? = some s := by
      simp only
      rw [List.getElem?_append_left hl, e]
    rw [PyM.bind_apply, Memory.onDmp_run e'] at h
    simp only [PyM.reads_apply] at h
    by_cases hd : dt = 0
    · rw [if_pos hd] at h; cases h
    · rw [if_neg hd] at h
      have hs : (mem.dmps ++ [s]).set r s = mem.dmps ++ [s] := Memory.set_self e'
      simp only [hs] at h
      cases h
      exact ⟨s, rfl, rfl, rfl, hd⟩

/-! ### Histories -/

/-- What a program can do with the solver and with other Dmps. -/
inductive Event
  /-- `solver.perform_rollout(sample)`; an exception is caught. -/
  | rollout (sample : List ℝ)
  /-- Any method call of another Dmp, also one that changes or trains it, or fails. -/
  | other (r : Nat) (m : PyM Dmp Unit)
  /-- Another Dmp is created. -/
  | create (s : Dmp)

/-- The memory after an event. -/
noncomputable def Event.run (solver : TaskSolverDmp) : Event → Memory → Memory
  | .rollout sample, mem => (performRollout solver sample mem).2
  | .other r m, mem => (Memory.onDmp r m mem).2
  | .create s, mem => ⟨mem.dmps ++ [s]⟩

/-- The event does not use the private Dmp of the solver but by rollouts. -/
def Event.Fair (solver : TaskSolverDmp) : Event → Prop
  | .other r _ => r ≠ solver.dmp
  | _ => True

/-- The memory after a history. -/
noncomputable def after (solver : TaskSolverDmp) (history : List Event) (mem : Memory) : Memory :=
  history.foldl (fun mem e => e.run solver mem) mem

theorem rolloutOn_norm {solver : TaskSolverDmp} {s t : Dmp} (ws : s.Wf) (wt : t.Wf) (h : s.norm = t.norm)
    (sample : List ℝ) : (solver.rolloutOn sample s).1 = (solver.rolloutOn sample t).1 ∧
      (solver.rolloutOn sample s).2.norm = s.norm ∧ (solver.rolloutOn sample s).2.Wf := by
  obtain ⟨h1, h2⟩ := Dmp.setParamVector_norm ws wt h sample
  obtain ⟨n1, w1⟩ := Dmp.norm_setParamVector ws sample
  obtain ⟨n2, w2⟩ := Dmp.norm_setParamVector wt sample
  unfold rolloutOn
  rw [PyM.bind_apply, PyM.bind_apply]
  rcases e : Dmp.setParamVector sample s with ⟨x, s1⟩
  rcases e' : Dmp.setParamVector sample t with ⟨x', t1⟩
  rw [e] at h1 h2 n1 w1
  rw [e'] at h1 h2 n2 w2
  simp only at h1 h2 n1 w1 n2 w2
  subst h1
  cases x with
  | error er => exact ⟨rfl, n1, w1⟩
  | ok u =>
    have hc := h2 rfl
    simp only
    cases linspaceInt 0 solver.integrateTime solver.nTimeSteps with
    | error er => exact ⟨rfl, n1, w1⟩
    | ok ts =>
      rw [PyM.lift_ok_bind, PyM.bind_apply, PyM.bind_apply]
      obtain ⟨a1, a2, a3, a4⟩ := Dmp.analytical_core w1 ts false
      obtain ⟨b1, b2, b3, b4⟩ := Dmp.analytical_core w2 ts false
      rw [← hc] at b1 b2
      rcases e2 : Dmp.analytical (some ts) false s1 with ⟨y, s2⟩
      rcases e3 : Dmp.analytical (some ts) false t1 with ⟨y', t2⟩
      rw [e2] at a1 a2 a3 a4
      rw [e3] at b1 b2 b3 b4
      simp only at a1 a2 a3 a4 b1 b2 b3 b4
      subst a1
      rw [← b1]
      have n3 : s2.norm = s.norm := (Dmp.norm_of_core a2).trans n1
      cases y' with
      | error er => exact ⟨rfl, n3, a3⟩
      | ok sol =>
        simp only [PyM.self_bind]
        have hb : s2.toBase = t2.toBase := by
          rw [a4, b4]
          exact show s1.core.toBase = t1.core.toBase by rw [hc]
        have ht : s2.asTrajectory ts sol.xs sol.xds = t2.asTrajectory ts sol.xs sol.xds := by
          unfold Dmp.asTrajectory
          rw [hb]
        rw [← ht]
        cases s2.asTrajectory ts sol.xs sol.xds with
        | error er => exact ⟨rfl, n3, a3⟩
        | ok traj => exact ⟨rfl, n3, a3⟩

/-- The private Dmp of the solver differs from the copied one in selected parameters only. -/
theorem after_norm {solver : TaskSolverDmp} {s : Dmp} (w : s.Wf) : ∀ (history : List Event),
    (∀ e ∈ history, e.Fair solver) → ∀ (mem : Memory) (t : Dmp), mem.dmps[solver.dmp]? = some t → t.Wf →
    t.norm = s.norm → ∃ t', (after solver history mem).dmps[solver.dmp]? = some t' ∧ t'.Wf ∧ t'.norm = s.norm := by
  intro history
  induction history with
  | nil => intro _ mem t h wt hn; exact ⟨t, h, wt, hn⟩
  | cons e history ih =>
    intro hf mem t h wt hn
    have next : ∃ t', (e.run solver mem).dmps[solver.dmp]? = some t' ∧ t'.Wf ∧ t'.norm = s.norm := by
      cases e with
      | rollout sample =>
        obtain ⟨-, h2, h3⟩ := rolloutOn_norm (solver := solver) wt w hn sample
        refine ⟨_, ?_, h3, h2.trans hn⟩
        change (performRollout solver sample mem).2.dmps[solver.dmp]? = _
        rw [performRollout_eq h, Memory.onDmp_run h]
        exact Memory.set_get h _
      | other r m =>
        refine ⟨t, ?_, wt, hn⟩
        change (Memory.onDmp r m mem).2.dmps[solver.dmp]? = _
        rw [Memory.onDmp_other (Ne.symm (hf (.other r m) (by simp))), h]
      | create u =>
        refine ⟨t, ?_, wt, hn⟩
        change (mem.dmps ++ [u])[solver.dmp]? = _
        obtain ⟨hl, -⟩ := List.getElem?_eq_some_iff.mp h
        rw [List.getElem?_append_left hl, h]
    obtain ⟨t', h1, h2, h3⟩ := next
    exact ih (fun e he => hf e (by simp [he])) _ t' h1 h2 h3

/-! ### C29 -/

/-- C29: the result of a rollout does not depend on what has happened before: neither on rollouts with
other samples (also failed ones), nor on changes of other Dmps, also of the one passed to the
constructor. -/
theorem C29_same_result (mem mem' : Memory) (r : Nat) (dt factor : ℝ) (solver : TaskSolverDmp) (s : Dmp)
    (hr : mem.dmps[r]? = some s) (w : s.Wf) (h : init r dt factor mem = (.ok solver, mem'))
    (history : List Event) (hf : ∀ e ∈ history, e.Fair solver) (sample : List ℝ) :
    (performRollout solver sample (after solver history mem')).1 = (performRollout solver sample mem').1 := by
  obtain ⟨s', h1, rfl, rfl, -⟩ := init_run h
  cases hr.symm.trans h1
  have hs : (⟨mem.dmps ++ [s]⟩ : Memory).dmps[mem.dmps.length]? = some s := by simp
  obtain ⟨t, h2, h3, h4⟩ := after_norm w history hf ⟨mem.dmps ++ [s]⟩ s hs w rfl
  rw [performRollout_eq h2, Memory.onDmp_run h2]
  refine (rolloutOn_norm h3 w h4 sample).1.trans ?_
  rw [performRollout_eq (s := s) hs, Memory.onDmp_run (s := s) hs]

/-- C29: neither the constructor nor rollouts change a Dmp that was there before, in particular the one
passed to the constructor. -/
theorem C29_original (mem mem' : Memory) (r : Nat) (dt factor : ℝ) (solver : TaskSolverDmp)
    (h : init r dt factor mem = (.ok solver, mem')) (samples : List (List ℝ)) (r' : Nat)
    (hr : r' < mem.dmps.length) :
    (after solver (samples.map .rollout) mem').dmps[r']? = mem.dmps[r']? := by
  obtain ⟨s, -, rfl, rfl, -⟩ := init_run h
  have key : ∀ (samples : List (List ℝ)) (mem1 : Memory), mem1.dmps[r']? = mem.dmps[r']? →
      (after ⟨mem.dmps.length, s.tau * factor, ⌊s.tau * factor / dt⌋ + 1⟩ (samples.map .rollout)
        mem1).dmps[r']? = mem.dmps[r']? := by
    intro samples
    induction samples with
    | nil => intro _ h; exact h
    | cons v samples ih =>
      intro mem1 h1
      exact ih _ ((performRollout_other (by simp only; omega) v mem1).trans h1)
  exact key samples _ (by simp only; rw [List.getElem?_append_left hr])

/-- The times of a rollout. -/
theorem uniform {T dt : ℝ} (hdt : 0 < dt) (hT : dt ≤ T) :
    ∃ ts, linspaceInt 0 T (⌊T / dt⌋ + 1) = .ok ts ∧ Spec.UniformGrid T dt ts := by
  obtain ⟨n, hn⟩ : ∃ n : Nat, ⌊T / dt⌋ = ((n + 1 : Nat) : ℤ) := by
    have h1 : 1 ≤ ⌊T / dt⌋ := Int.le_floor.mpr (by rw [le_div_iff₀ hdt]; simpa using hT)
    obtain ⟨k, hk⟩ := Int.eq_ofNat_of_zero_le (show 0 ≤ ⌊T / dt⌋ - 1 by omega)
    exact ⟨k, by push_cast; omega⟩
  have hlo : ((n + 1 : Nat) : ℝ) * dt ≤ T := by
    have := Int.floor_le (T / dt)
    rw [hn, le_div_iff₀ hdt] at this
    exact_mod_cast this
  have hhi : T < ((n + 1 : Nat) : ℝ) * dt + dt := by
    have := Int.lt_floor_add_one (T / dt)
    rw [hn, div_lt_iff₀ hdt] at this
    have e : (((n + 1 : Nat) : ℤ) : ℝ) = ((n + 1 : Nat) : ℝ) := by norm_cast
    rw [e] at this
    linarith
  have hpos : (0 : ℝ) < ((n + 1 : Nat) : ℝ) := by positivity
  have hge : (1 : ℝ) ≤ ((n + 1 : Nat) : ℝ) := by exact_mod_cast Nat.le_add_left 1 n
  have hlen : (⌊T / dt⌋ + 1).toNat = n + 1 + 1 := by rw [hn]; omega
  refine ⟨_, by unfold linspaceInt; rw [if_neg (by omega)], ?_⟩
  have e : ((n + 1 + 1 : Nat) : ℝ) - 1 = ((n + 1 : Nat) : ℝ) := by push_cast; ring
  rw [hlen]
  have hval : ∀ i, i < n + 1 + 1 → (linspace 0 T (n + 1 + 1)).getD i 0 = (i : ℝ) * (T / ((n + 1 : Nat) : ℝ)) := by
    intro i hi
    unfold linspace
    rw [getD_range_map hi, e]
    ring
  have hl : (linspace 0 T (n + 1 + 1)).length = n + 1 + 1 := by simp [linspace]
  refine ⟨by rw [hl, hn]; push_cast; ring, ?_, ?_, T / ((n + 1 : Nat) : ℝ), ?_, ?_, ?_⟩
  · have := hval 0 (by omega)
    rw [List.head?_eq_getElem?, List.getElem?_eq_getElem (by omega)]
    rw [List.getD_eq_getElem _ _ (by omega)] at this
    rw [this]; simp
  · have := hval (n + 1) (by omega)
    rw [List.getLast?_eq_getElem?, hl, List.getElem?_eq_getElem (by omega)]
    rw [List.getD_eq_getElem _ _ (by omega)] at this
    simp only [Nat.add_sub_cancel]
    rw [this, mul_div_cancel₀ _ (ne_of_gt hpos)]
  · rw [le_div_iff₀ hpos]; linarith
  · rw [div_lt_iff₀ hpos]; nlinarith
  · intro i hi
    rw [hl] at hi
    rw [hval _ hi, hval i (by omega)]
    push_cast; ring

/-- C29: what a rollout returns. With `s` the Dmp passed to the constructor, it is the matrix of the
trajectory of the analytical solution of a copy of `s` whose parameters have been set to the sample. The
times of the analytical solution, and therefore the first column of the matrix, are uniformly spaced
between 0 and `tau * factor`, with a spacing of at least `dt` and less than `2 * dt`. -/
theorem C29_result (mem mem' : Memory) (r : Nat) (dt factor : ℝ) (solver : TaskSolverDmp) (s : Dmp)
    (hr : mem.dmps[r]? = some s) (w : s.Wf) (h : init r dt factor mem = (.ok solver, mem')) (hdt : 0 < dt)
    (hT : dt ≤ s.tau * factor) : ∃ ts, Spec.UniformGrid (s.tau * factor) dt ts ∧ ∀ (sample : List ℝ),
      (∀ m, (performRollout solver sample mem').1 = .ok m ↔ ∃ s' sol traj,
        Dmp.setParamVector sample s = (.ok (), s') ∧ (Dmp.analytical (some ts) false s').1 = .ok sol ∧
        s'.asTrajectory ts sol.xs sol.xds = .ok traj ∧ traj.asMatrix = .ok m) ∧
      (∀ m, (performRollout solver sample mem').1 = .ok m → m.rows.map List.head? = ts.map some) ∧
      (∀ e, (Dmp.setParamVector sample s).1 = .error e → (performRollout solver sample mem').1 = .error e) := by
  obtain ⟨s', h1, rfl, rfl, -⟩ := init_run h
  cases hr.symm.trans h1
  have hs : (⟨mem.dmps ++ [s]⟩ : Memory).dmps[mem.dmps.length]? = some s := by simp
  obtain ⟨ts, ht, hg⟩ := uniform hdt hT
  refine ⟨ts, hg, fun sample => ?_⟩
  rw [performRollout_eq hs, Memory.onDmp_run hs]
  simp only
  have key : ∀ m, ((rolloutOn ⟨mem.dmps.length, s.tau * factor, ⌊s.tau * factor / dt⌋ + 1⟩ sample) s).1 = .ok m ↔
      ∃ s' sol traj, Dmp.setParamVector sample s = (.ok (), s') ∧ (Dmp.analytical (some ts) false s').1 = .ok sol ∧
        s'.asTrajectory ts sol.xs sol.xds = .ok traj ∧ traj.asMatrix = .ok m := by
    intro m
    have w1 := (Dmp.norm_setParamVector w sample).2
    unfold rolloutOn
    rw [PyM.bind_apply]
    rcases e : Dmp.setParamVector sample s with ⟨x, s1⟩
    rw [e] at w1
    cases x with
    | error er =>
      constructor
      · intro h; cases h
      · rintro ⟨_, _, _, h, -⟩; cases h
    | ok u =>
      simp only [ht]
      rw [PyM.lift_ok_bind, PyM.bind_apply]
      obtain ⟨-, -, -, a4⟩ := Dmp.analytical_core w1 ts false
      rcases e2 : Dmp.analytical (some ts) false s1 with ⟨y, s2⟩
      rw [e2] at a4
      cases y with
      | error er =>
        constructor
        · intro h; cases h
        · rintro ⟨_, _, _, h, h2, -⟩
          cases h
          rw [e2] at h2
          cases h2
      | ok sol =>
        have hb : s2.asTrajectory ts sol.xs sol.xds = s1.asTrajectory ts sol.xs sol.xds := by
          unfold Dmp.asTrajectory
          rw [show s2.toBase = s1.toBase from a4]
        simp only [PyM.self_bind, hb]
        constructor
        · intro h
          cases e3 : s1.asTrajectory ts sol.xs sol.xds with
          | error er => rw [e3] at h; cases h
          | ok traj =>
            rw [e3] at h
            exact ⟨s1, sol, traj, rfl, by rw [e2], e3, h⟩
        · rintro ⟨_, sol', traj, h, h2, h3, h4⟩
          cases h
          rw [e2] at h2
          cases h2
          rw [h3]
          exact h4
  refine ⟨key, fun m hm => ?_, fun e he => ?_⟩
  · obtain ⟨s', sol, traj, -, -, h3, h4⟩ := (key m).mp hm
    have hts : traj.ts = ts ∧ traj.misc = none := by
      unfold Dmp.asTrajectory Trajectory.init at h3
      simp only at h3
      split at h3
      · cases h3
      · obtain ⟨_, _, h3⟩ := except_bind_ok h3
        obtain ⟨_, _, h3⟩ := except_bind_ok h3
        obtain ⟨_, _, h3⟩ := except_bind_ok h3
        split at h3
        · cases h3
        · cases h3; exact ⟨rfl, rfl⟩
    unfold Trajectory.asMatrix at h4
    simp only at h4
    split at h4
    · rw [hts.2] at h4
      cases h4
      simp only [List.map_map, hts.1]
      apply List.ext_getElem
      · simp
      · intro i h1 h2
        have hi : i < ts.length := by simpa using h2
        simp [hi]
    · cases h4
  · unfold rolloutOn
    rw [PyM.bind_apply]
    rcases e2 : Dmp.setParamVector sample s with ⟨x, s1⟩
    rw [e2] at he
    cases he
    rfl

/-- C29: the constructor succeeds exactly for an existing Dmp and `dt` other than 0. -/
theorem C29_init (mem : Memory) (r : Nat) (dt factor : ℝ) :
    (∃ solver, (init r dt factor mem).1 = .ok solver) ↔ r < mem.dmps.length ∧ dt ≠ 0 := by
  constructor
  · rintro ⟨solver, h⟩
    obtain ⟨s, h1, -, -, h2⟩ := init_run (mem' := (init r dt factor mem).2) (Prod.ext h rfl)
    exact ⟨(List.getElem?_eq_some_iff.mp h1).1, h2⟩
  · rintro ⟨hl, hd⟩
    have e : mem.dmps[r]? = some mem.dmps[r] := List.getElem?_eq_getElem hl
    unfold init
    rw [PyM.bind_apply]
    have hc : Memory.deepcopy r mem = (.ok mem.dmps.length, ⟨mem.dmps ++ [mem.dmps[r]]⟩) := by
      change (match mem.dmps[r]? with
        | none => _
        | some s => _) = _
      rw [e]
    rw [hc]
    simp only
    have e' : (⟨mem.dmps ++ [mem.dmps[r]]⟩ : Memory).dmps[r]? = some mem.dmps[r] := by
      simp only
      rw [List.getElem?_append_left hl, e]
    rw [PyM.bind_apply, Memory.onDmp_run e']
    simp only [PyM.reads_apply]
    rw [if_neg hd]
    exact ⟨_, rfl⟩

/-- A default Dmp with the goal as parameter, a time step of 1/4 and integration until 1.1: all
hypotheses hold, and rollouts succeed for all samples. -/
example : ∃ s solver mem', Dmp.init 1 [0] [2] none = .ok s ∧
    init 0 (1 / 4) 1.1 ⟨[(Dmp.setSelected ["goal"] s).2]⟩ = (.ok solver, mem') ∧
    (Dmp.setSelected ["goal"] s).2.Wf ∧ (1 / 4 : ℝ) ≤ (Dmp.setSelected ["goal"] s).2.tau * 1.1 ∧
    (∀ g, ∃ m, (performRollout solver [g] mem').1 = .ok m) ∧
    (performRollout solver [1, 2] mem').1 = .error .valueError := by
  obtain ⟨s, hs⟩ := (Dmp.C16_types 1 [0] [2] none {}).1 (by simp [Dmp.known])
  have hr : Dmp.Reachable Dmp.Consistent Dmp.Change.Forward 1 s := .init hs rfl rfl
    ⟨(fun _ h => nomatch h), trivial, (fun _ h => nomatch h), (fun _ h => nomatch h),
      (fun _ h => nomatch h), (fun _ h => nomatch h), (fun _ h => nomatch h)⟩
    ⟨(fun _ h => nomatch h), one_pos, (fun _ h => nomatch h)⟩
  have hT := Dmp.kept_timed.reachable Dmp.init_timed hr
  obtain ⟨t, ht⟩ : ∃ t, t = (Dmp.setSelected ["goal"] s).2 := ⟨_, rfl⟩
  refine ⟨s, ?_⟩
  rw [← ht]
  have hTt : Dmp.Timed 1 t := Dmp.kept_timed.reachable Dmp.init_timed (ht ▸ .change hr (.select ["goal"]) trivial)
  have hts : t = { s with selected := ["goal"], fas := s.fas.map fun fas => fas.map fun fa => (Fa.setSelected [] fa).2 } := by
    rw [ht, Dmp.setSelected_run]
    rfl
  obtain ⟨D, hD, hseq⟩ := Dmp.init_eq hs
  unfold Dmp.defaults at hD
  rw [if_neg (by simp only; decide), if_pos (by simp only; decide)] at hD
  have hD := Except.ok.inj hD
  have hfas : t.fas = none := by rw [hts, hseq]; rfl
  have hsel : t.selected = ["goal"] := by rw [hts]
  have htau : t.tau = 1 := by rw [hts, hseq]
  have hdim : t.dimY = 1 := hTt.inv.dim
  have hreq : t.requiresScaling = false := by rw [hts, hseq, ← hD]
  have hsca : t.scaling = .noScaling := by rw [hts, hseq]
  have hsize : t.paramVectorSize = .ok 1 := by
    unfold Dmp.paramVectorSize
    rw [hfas, hsel, hdim]
    rfl
  have hinit : ∃ solver, (init 0 (1 / 4) 1.1 ⟨[t]⟩).1 = .ok solver :=
    (C29_init _ _ _ _).mpr ⟨by simp, by norm_num⟩
  obtain ⟨solver, hsolver⟩ := hinit
  have hi : init 0 (1 / 4) 1.1 ⟨[t]⟩ = (.ok solver, (init 0 (1 / 4) 1.1 ⟨[t]⟩).2) := Prod.ext hsolver rfl
  have hle : (1 / 4 : ℝ) ≤ t.tau * 1.1 := by rw [htau]; norm_num
  obtain ⟨ts, hg, hres⟩ := C29_result _ _ 0 _ _ _ t rfl hTt.inv.wf hi (by norm_num) hle
  refine ⟨solver, _, hs, hi, hTt.inv.wf, hle, fun g => ?_, (hres [1, 2]).2.2 .valueError ?_⟩
  · have hset : Dmp.setParamVector [g] t = (.ok (), t.aimed [g]) := by
      unfold Dmp.setParamVector
      rw [PyM.self_bind, hsize, PyM.lift_ok_bind, if_neg (by simp), hfas, hsel, hdim]
      exact Dmp.setYAttr_run hTt.inv.wf (by simp [hdim])
    have hT2 : Dmp.Timed 1 (t.aimed [g]) := Dmp.kept_timed.aim _ _ hTt (by simp [hdim])
    have hne : ts ≠ [] := by rintro rfl; cases hg.first
    have hfa : (t.aimed [g]).faUsed ts false = .ok (List.replicate ts.length (vzeros 1)) := by
      unfold Dmp.faUsed Dmp.predictions
      have : (t.aimed [g]).fas = none := hfas
      rw [this, show (t.aimed [g]).dimY = 1 from hdim]
      simp only [List.length_map]
      rfl
    have hcf : (t.aimed [g]).CanForce := by
      unfold Dmp.CanForce
      rw [show (t.aimed [g]).scaling = .noScaling from hsca]
      trivial
    have hcs : (t.aimed [g]).CanScale := by
      intro h
      rw [show (t.aimed [g]).requiresScaling = false from hreq] at h
      cases h
    have han := (Dmp.analytical_iff hT2.inv.wf (Dmp.sameStart_of_tau hT2.springTau)).mpr
      ⟨hcs, hcf, hne, _, hfa, rfl⟩
    have htr := Dmp.asTrajectory_ok (t.aimed [g]) (ts := ts)
      (xs := (List.range ts.length).map ((t.aimed [g]).xRow ts ((t.aimed [g]).gated ts (List.replicate ts.length (vzeros 1)))))
      (xds := (List.range ts.length).map ((t.aimed [g]).xdRow ts ((t.aimed [g]).gated ts (List.replicate ts.length (vzeros 1)))))
      (by simp) (by simp)
    have hm : ∀ traj : Trajectory ℝ, traj.ys.rows.length = traj.ts.length →
        traj.yds.rows.length = traj.ts.length → traj.ydds.rows.length = traj.ts.length → traj.misc = none →
        ∃ m, traj.asMatrix = .ok m := by
      intro traj h1 h2 h3 h4
      unfold Trajectory.asMatrix
      simp only
      rw [if_pos ⟨h1, h2, h3⟩, h4]
      exact ⟨_, rfl⟩
    have hfin : ∀ traj, (t.aimed [g]).asTrajectory ts _ _ = .ok traj → (∃ m, traj.asMatrix = .ok m) →
        ∃ m, (performRollout solver [g] _).1 = .ok m :=
      fun traj h1 ⟨m, h2⟩ => ⟨m, ((hres [g]).1 m).mpr ⟨_, _, traj, hset, han, h1, h2⟩⟩
    refine hfin _ htr (hm _ ?_ ?_ ?_ rfl) <;> simp
  · unfold Dmp.setParamVector
    rw [PyM.self_bind, hsize, PyM.lift_ok_bind, if_pos (by simp)]
    rfl

end TaskSolverDmp

end Verif
