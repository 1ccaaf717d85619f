import Verif.Proofs.Loop
import Mathlib.Tactic.FinCases

/- C54, C55: whole optimisations. -/

set_option autoImplicit false

namespace Verif

open Spec

variable {n : Nat} {D : Type}

/-! ### One iteration -/

/-- Entry of an update. -/
def ukey (name : String) (i : Nat) : SKey := (name, some (i : Int), none)

/-- Entry of a sample of an update. -/
def skey (name : String) (i k : Nat) : SKey := (name, some (i : Int), some (.int k))

/-- What add_update tells. -/
def updateTells (i : Nat) (d : Dist n) (samples : List (Fin n → ℝ)) (costs : List (List ℝ))
    (weights : List ℝ) (dNew : Dist n) : List (Obj n D × SKey) :=
  [(.dist d, ukey "distribution" i), (.samples samples, ukey "samples" i),
   (.costs costs, ukey "costs" i), (.vec weights, ukey "weights" i),
   (.dist dNew, ukey "distribution_new" i)]

/-- What one iteration of run_optimization tells. -/
def stepTells (f : (Fin n → ℝ) → List ℝ) (i : Nat) (d : Dist n) (samples : List (Fin n → ℝ))
    (weights : List ℝ) (dNew : Dist n) : List (Obj n D × SKey) :=
  [(.vec (f d.mean), ukey "eval_cost" i), (.params d.mean, ukey "eval_sample" i)] ++
    updateTells i d samples (samples.map f) weights dNew

/-- What is told about the rollouts of one iteration of run_optimization_task. -/
def rolloutTells (task : Task n) (solver : Solver n) (i : Nat) (es : List (Nat × (Fin n → ℝ))) :
    List (Obj n D × SKey) :=
  es.flatMap fun e => [(.params e.2, skey "sample" i e.1),
    (.array (solver e.2), skey "cost_vars" i e.1),
    (.vec (task (solver e.2) e.2), skey "cost" i e.1)]

/-- What one iteration of run_optimization_task tells. -/
def taskTells (task : Task n) (solver : Solver n) (i : Nat) (d : Dist n)
    (samples : List (Fin n → ℝ)) (weights : List ℝ) (dNew : Dist n) : List (Obj n D × SKey) :=
  [(.vec (task (solver d.mean) d.mean), ukey "eval_cost" i), (.params d.mean, ukey "eval_sample" i),
   (.array (solver d.mean), ukey "eval_cost_vars" i)] ++
    (rolloutTells task solver i ((List.range samples.length).zip samples) ++
      updateTells i d samples (samples.map fun x => task (solver x) x) weights dNew)

/-- One update of a distribution: drawing samples, and updating with their costs. -/
def IsStep (f : (Fin n → ℝ) → List ℝ) (argsort : List ℝ → List Nat) (u : Updater)
    (draw : List (Fin n → ℝ)) (d : Dist n) (samples : List (Fin n → ℝ)) (weights : List ℝ)
    (dNew : Dist n) : Prop :=
  d.generateSamples draw = .ok samples ∧
    u.update argsort samples (samples.map f) d = (.ok (dNew, weights), d)

section
variable {V : Type} [Storable V]

theorem addEval_eq (i : Nat) (s c : V) :
    World.addEval i s c = tellAll [(c, ukey "eval_cost" i), (s, ukey "eval_sample" i)] := by
  simp [World.addEval, tellAll, ukey]

theorem addEvalTask_eq (i : Nat) (s v c : V) : World.addEvalTask i s v c =
    tellAll [(c, ukey "eval_cost" i), (s, ukey "eval_sample" i), (v, ukey "eval_cost_vars" i)] := by
  simp [World.addEvalTask, World.addEval, tellAll, ukey]

theorem addRollout_eq (i k : Nat) (s v c : V) : World.addRollout i (.int k) s v c =
    tellAll [(s, skey "sample" i k), (v, skey "cost_vars" i k), (c, skey "cost" i k)] := by
  simp [World.addRollout, tellAll, skey]

theorem addUpdate_eq (i : Nat) (d s c w d' : V) :
    World.addUpdate i d s c w (some d') = (do
      tellAll [(d, ukey "distribution" i), (s, ukey "samples" i), (c, ukey "costs" i),
        (w, ukey "weights" i), (d', ukey "distribution_new" i)]
      PyM.modify fun w => { w with lastUpdate := some (i : Int) }) := by
  simp [World.addUpdate, tellAll, ukey, bind_assoc]

end

theorem update_state_eq {argsort : List ℝ → List Nat} {u : Updater} {samples : List (Fin n → ℝ)}
    {costs : List (List ℝ)} {d : Dist n} {r : Dist n × List ℝ}
    (h : (u.update argsort samples costs d).1 = .ok r) :
    u.update argsort samples costs d = (.ok r, d) :=
  Prod.ext h (C50_not_modified argsort u samples costs d)

theorem optStep_ok {f : (Fin n → ℝ) → List ℝ} {argsort : List ℝ → List Nat} {u : Updater}
    {draw : List (Fin n → ℝ)} {i : Nat} {d dNew : Dist n} {w w' : World (Obj n D)}
    (ht : w.task = false) (h : optStep f argsort u draw i d w = (.ok dNew, w')) :
    ∃ samples weights, IsStep f argsort u draw d samples weights dNew ∧
      w' = { w.afterAll (stepTells f i d samples weights dNew) with lastUpdate := some (i : Int) } := by
  unfold optStep at h
  cases hg : d.generateSamples draw with
  | error e => rw [hg] at h; cases h
  | ok samples =>
    simp only [hg, PyM.lift_ok_bind] at h
    cases hu : (u.update argsort samples (samples.map f) d).1 with
    | error e => rw [hu] at h; cases h
    | ok r =>
      obtain ⟨d1, weights⟩ := r
      rw [update_state_eq hu] at h
      simp only [PyM.lift_ok_bind, addEval_eq, addUpdate_eq, bind_assoc] at h
      rw [PyM.bind_ok (tellAll_apply _ w (fun _ _ => by rw [ht]; rfl)),
        PyM.bind_ok (tellAll_apply _ _ (fun _ _ => by rw [(afterAll_fields _ _).2.1, ht]; rfl)),
        PyM.modify_bind, PyM.pure_apply, Prod.mk.injEq] at h
      obtain ⟨h1, h2⟩ := h
      cases h1
      refine ⟨samples, weights, ⟨hg, update_state_eq hu⟩, ?_⟩
      rw [← h2, ← afterAll_append]
      rfl

theorem names_no_dmp : ∀ name ∈ ["eval_cost", "eval_sample", "eval_cost_vars", "sample", "cost_vars",
    "cost", "distribution", "samples", "costs", "weights", "distribution_new",
    "n_samples_per_update", "cost_function", "updater", "task", "task_solver"],
    dmpIn name = false := by decide

theorem rollouts_ok (task : Task n) (solver : Solver n) (i : Nat) (es : List (Nat × (Fin n → ℝ)))
    (costs : List (List ℝ)) (w : World (Obj n D)) :
    es.foldlM (taskRollout task solver i) costs w =
      (.ok (costs ++ es.map fun e => task (solver e.2) e.2), w.afterAll (rolloutTells task solver i es)) := by
  induction es generalizing costs w with
  | nil => simp [rolloutTells, World.afterAll]
  | cons e es ih =>
    rw [List.foldlM_cons]
    have e1 : taskRollout task solver i costs e w = (.ok (costs ++ [task (solver e.2) e.2]),
        w.afterAll [(.params e.2, skey "sample" i e.1), (.array (solver e.2), skey "cost_vars" i e.1),
          (.vec (task (solver e.2) e.2), skey "cost" i e.1)]) := by
      unfold taskRollout
      simp only [addRollout_eq]
      rw [PyM.bind_ok (tellAll_apply _ w ?_)]
      · rfl
      · intro t ht
        simp only [List.mem_cons, List.not_mem_nil, or_false] at ht
        have : dmpIn t.2.1 = false := by rcases ht with rfl | rfl | rfl <;> exact names_no_dmp _ (by simp [skey])
        simp [this]
    rw [PyM.bind_ok e1, ih, ← afterAll_append]
    simp [rolloutTells]

theorem taskStep_ok {task : Task n} {solver : Solver n} {argsort : List ℝ → List Nat} {u : Updater}
    {draw : List (Fin n → ℝ)} {i : Nat} {d dNew : Dist n} {w w' : World (Obj n D)}
    (h : taskStep task solver argsort u draw i d w = (.ok dNew, w')) :
    ∃ samples weights, IsStep (fun x => task (solver x) x) argsort u draw d samples weights dNew ∧
      w' = { w.afterAll (taskTells task solver i d samples weights dNew) with
        lastUpdate := some (i : Int) } := by
  unfold taskStep at h
  have noDmp : ∀ (ts : List (Obj n D × SKey)) (w : World (Obj n D)),
      (∀ t ∈ ts, dmpIn t.2.1 = false) → tellAll ts w = (.ok (), w.afterAll ts) := fun ts w h =>
    tellAll_apply ts w fun t ht => by simp [h t ht]
  have d1 : ∀ t ∈ [(Obj.vec (task (solver d.mean) d.mean), ukey "eval_cost" i),
      (Obj.params d.mean, ukey "eval_sample" i),
      (Obj.array (solver d.mean), ukey "eval_cost_vars" i)], dmpIn (t : Obj n D × SKey).2.1 = false := by
    intro t ht
    simp only [List.mem_cons, List.not_mem_nil, or_false] at ht
    rcases ht with rfl | rfl | rfl <;> exact names_no_dmp _ (by simp [ukey])
  simp only [addEvalTask_eq] at h
  rw [PyM.bind_ok (noDmp _ w d1)] at h
  cases hg : d.generateSamples draw with
  | error e => rw [hg] at h; cases h
  | ok samples =>
    rw [hg, PyM.lift_ok_bind, PyM.bind_ok (rollouts_ok _ _ _ _ _ _)] at h
    have hzip : ((List.range samples.length).zip samples).map (fun e => task (solver e.2) e.2) =
        samples.map fun x => task (solver x) x := by
      apply List.ext_getElem
      · simp
      · intro k h1 h2; simp
    rw [List.nil_append, hzip] at h
    cases hu : (u.update argsort samples (samples.map fun x => task (solver x) x) d).1 with
    | error e => rw [hu] at h; cases h
    | ok r =>
      obtain ⟨d2, weights⟩ := r
      have d3 : ∀ t ∈ updateTells i d samples (samples.map fun x => task (solver x) x) weights d2,
          dmpIn (t : Obj n D × SKey).2.1 = false := by
        intro t ht
        simp only [updateTells, List.mem_cons, List.not_mem_nil, or_false] at ht
        rcases ht with rfl | rfl | rfl | rfl | rfl <;> exact names_no_dmp _ (by simp [ukey])
      unfold updateTells at d3
      rw [update_state_eq hu] at h
      simp only [PyM.lift_ok_bind, addUpdate_eq, bind_assoc] at h
      rw [PyM.bind_ok (noDmp _ _ d3), PyM.modify_bind, PyM.pure_apply, Prod.mk.injEq] at h
      obtain ⟨h1, h2⟩ := h
      cases h1
      refine ⟨samples, weights, ⟨hg, update_state_eq hu⟩, ?_⟩
      rw [← h2, taskTells, afterAll_append, afterAll_append]
      rfl

/-! ### Keys -/

theorem stepTells_good (f : (Fin n → ℝ) → List ℝ) (i : Nat) (d : Dist n)
    (samples : List (Fin n → ℝ)) (weights : List ℝ) (dNew : Dist n) :
    (∀ t ∈ stepTells (D := D) f i d samples weights dNew,
      GoodKey NoLabel t.2 ∧ t.2.2.1 = some (i : Int)) ∧
    ((stepTells (D := D) f i d samples weights dNew).map Prod.snd).Nodup := by
  constructor
  · intro t ht
    have hg := good_names
    have key : ∀ name, GoodName NoLabel name ∧ ¬ "cpp".toList <:+ name.toList →
        GoodKey NoLabel (ukey name i) ∧ (ukey name i).2.1 = some (i : Int) :=
      fun name h => ⟨⟨h.1, trivial, h.2⟩, rfl⟩
    simp only [stepTells, updateTells, List.cons_append, List.nil_append, List.mem_cons,
      List.not_mem_nil, or_false] at ht
    rcases ht with rfl | rfl | rfl | rfl | rfl | rfl | rfl <;> exact key _ (hg _ (by simp))
  · simp [stepTells, updateTells, ukey]

theorem taskTells_good (task : Task n) (solver : Solver n) (i : Nat) (d : Dist n)
    (samples : List (Fin n → ℝ)) (weights : List ℝ) (dNew : Dist n) :
    (∀ t ∈ taskTells (D := D) task solver i d samples weights dNew,
      GoodKey NoLabel t.2 ∧ t.2.2.1 = some (i : Int)) ∧
    ((taskTells (D := D) task solver i d samples weights dNew).map Prod.snd).Nodup := by
  have hg := good_names
  have key : ∀ name, GoodName NoLabel name ∧ ¬ "cpp".toList <:+ name.toList →
      GoodKey NoLabel (ukey name i) ∧ (ukey name i).2.1 = some (i : Int) :=
    fun name h => ⟨⟨h.1, trivial, h.2⟩, rfl⟩
  have key' : ∀ name k, GoodName NoLabel name ∧ ¬ "cpp".toList <:+ name.toList →
      GoodKey NoLabel (skey name i k) ∧ (skey name i k).2.1 = some (i : Int) :=
    fun name k h => ⟨⟨h.1, trivial, h.2⟩, rfl⟩
  constructor
  · intro t ht
    simp only [taskTells, updateTells, rolloutTells, List.mem_append, List.mem_flatMap, List.mem_cons,
      List.not_mem_nil, or_false] at ht
    rcases ht with (rfl | rfl | rfl) | ⟨e, -, (rfl | rfl | rfl)⟩ | (rfl | rfl | rfl | rfl | rfl)
    · exact key _ (hg _ (by simp))
    · exact key _ (hg _ (by simp))
    · exact key _ (hg _ (by simp))
    · exact key' _ _ (hg _ (by simp))
    · exact key' _ _ (hg _ (by simp))
    · exact key' _ _ (hg _ (by simp))
    · exact key _ (hg _ (by simp))
    · exact key _ (hg _ (by simp))
    · exact key _ (hg _ (by simp))
    · exact key _ (hg _ (by simp))
    · exact key _ (hg _ (by simp))
  · have hro : ∀ es : List (Nat × (Fin n → ℝ)), (es.map Prod.fst).Nodup →
        ((rolloutTells (D := D) task solver i es).map Prod.snd).Nodup := by
      intro es hes
      rw [rolloutTells, List.map_flatMap, List.nodup_flatMap]
      refine ⟨fun e _ => by simp [skey], ?_⟩
      rw [List.nodup_iff_pairwise_ne, List.pairwise_map] at hes
      refine hes.imp fun {a b} hab => ?_
      intro k h1 h2
      simp only [List.map_cons, List.map_nil, List.mem_cons, List.not_mem_nil, or_false] at h1 h2
      have hlab : ∀ (x y : String), skey x i a.1 ≠ skey y i b.1 := by
        intro x y h
        simp only [skey, Prod.mk.injEq, Option.some.injEq, Label.int.injEq, true_and] at h
        exact hab (by exact_mod_cast h.2)
      rcases h1 with rfl | rfl | rfl <;> rcases h2 with h | h | h <;> exact hlab _ _ h
    have hrs : ∀ (es : List (Nat × (Fin n → ℝ))) (k : SKey),
        k ∈ (rolloutTells (D := D) task solver i es).map Prod.snd → k.2.2 ≠ none := by
      intro es k hk
      simp only [rolloutTells, List.mem_map, List.mem_flatMap, List.mem_cons, List.not_mem_nil,
        or_false] at hk
      obtain ⟨t, ⟨e, -, (rfl | rfl | rfl)⟩, rfl⟩ := hk <;> simp [skey]
    rw [taskTells, List.map_append, List.map_append, List.nodup_append, List.nodup_append]
    refine ⟨by simp [ukey], ⟨hro _ ?_, by simp [updateTells, ukey], ?_⟩, ?_⟩
    · have : ((List.range samples.length).zip samples).map Prod.fst = List.range samples.length := by
        rw [List.map_fst_zip]; simp
      rw [this]; exact List.nodup_range
    · intro a ha b hb hab
      subst hab
      apply hrs _ _ ha
      simp only [updateTells, List.map_cons, List.map_nil, List.mem_cons, List.not_mem_nil,
        or_false] at hb
      rcases hb with rfl | rfl | rfl | rfl | rfl <;> rfl
    · intro a ha b hb hab
      subst hab
      simp only [List.map_cons, List.map_nil, List.mem_cons, List.not_mem_nil, or_false] at ha
      rcases List.mem_append.mp hb with hb | hb
      · apply hrs _ _ hb
        rcases ha with rfl | rfl | rfl <;> rfl
      · revert ha hb
        simp only [updateTells, List.map_cons, List.map_nil, List.mem_cons, List.not_mem_nil,
          or_false]
        rintro (rfl | rfl | rfl) hb <;> simp [ukey] at hb

/-! ### The whole optimisation -/

/-- The sequence of distributions, samples and weights of an optimisation. -/
structure IsHistory {nSamples : Nat} (f : (Fin n → ℝ) → List ℝ) (argsort : List ℝ → List Nat)
    (u : Updater) (d0 : Dist n) (N : Nat) (draws : Nat → Fin nSamples → Fin n → ℝ)
    (d : Nat → Dist n) (samples : Nat → List (Fin n → ℝ)) (weights : Nat → List ℝ) : Prop where
  start : d 0 = d0
  step : ∀ i < N, IsStep f argsort u (List.ofFn (draws i)) (d i) (samples i) (weights i) (d (i + 1))

/-- What is told before the first iteration of run_optimization. -/
def initTells (nSamples : Nat) (f : (Fin n → ℝ) → List ℝ) (u : Updater) : List (Obj n D × SKey) :=
  [(.int nSamples, nKey), (.costFunction f, ("cost_function", none, none)),
    (.updater u, ("updater", none, none))]

/-- What is told before the first iteration of run_optimization_task. -/
def initTaskTells (nSamples : Nat) (task : Task n) (solver : Solver n) (u : Updater) :
    List (Obj n D × SKey) :=
  [(.int nSamples, nKey), (.task task, ("task", none, none)),
    (.solver solver, ("task_solver", none, none)), (.updater u, ("updater", none, none))]

/-- A session in which nothing was told yet. -/
def blank {V : Type} (w : World V) (nSamples : Nat) (hasDir task : Bool) : World V :=
  { w with nSamples, hasDir, task, cache := [], lastUpdate := none }

theorem blank_ok {V : Type} (w : World V) (nSamples : Nat) (hasDir task : Bool) :
    (blank w nSamples hasDir task).CacheOk := fun _ _ h => by cases h

/-- The session after an optimisation. -/
def finished {V : Type} [Storable V] (w : World V) (init : List (V × SKey))
    (steps : Nat → List (V × SKey)) (N : Nat) : World V :=
  { w.afterAll (init ++ (List.range N).flatMap steps) with
    lastUpdate := if N = 0 then none else some ((N - 1 : Nat) : Int) }

theorem runOptimization_ok {nSamples : Nat} {f : (Fin n → ℝ) → List ℝ} {argsort : List ℝ → List Nat}
    {u : Updater} {d0 dN : Dist n} {N : Nat} {hasDir : Bool}
    {draws : Nat → Fin nSamples → Fin n → ℝ} {w0 w : World (Obj n D)}
    (h : runOptimization f argsort u d0 N hasDir draws w0 = (.ok dN, w)) :
    ∃ d samples weights, IsHistory f argsort u d0 N draws d samples weights ∧ d N = dN ∧
      w = finished (blank w0 nSamples hasDir false) (initTells nSamples f u)
        (fun i => stepTells f i (d i) (samples i) (weights i) (d (i + 1))) N := by
  unfold runOptimization at h
  rw [PyM.bind_ok ((init_apply _ _ _ _ _).trans (tellAll_apply _ _ (fun _ _ => rfl)))] at h
  obtain ⟨d, ts, h1, h2, h3, h4⟩ := loop_ok (tk := false) (step := fun i d =>
      optStep f argsort u (List.ofFn (draws i)) i d)
    (R := fun i d ts d' => ∃ p : List (Fin n → ℝ) × List ℝ,
      IsStep f argsort u (List.ofFn (draws i)) d p.1 p.2 d' ∧ ts = stepTells f i d p.1 p.2 d')
    (fun i d d' w w' ht h => by
      obtain ⟨s, wt, hs, hw⟩ := optStep_ok ht h
      exact ⟨_, ⟨(s, wt), hs, rfl⟩, hw⟩) ((afterAll_fields _ _).2.1) h
  have h5 : ∀ i, ∃ p : List (Fin n → ℝ) × List ℝ, i < N →
      IsStep f argsort u (List.ofFn (draws i)) (d i) p.1 p.2 (d (i + 1)) ∧
        ts i = stepTells f i (d i) p.1 p.2 (d (i + 1)) := by
    intro i
    by_cases hi : i < N
    · obtain ⟨p, hp⟩ := h3 i hi
      exact ⟨p, fun _ => hp⟩
    · exact ⟨([], []), fun h => absurd h hi⟩
  choose p hp using h5
  refine ⟨d, fun i => (p i).1, fun i => (p i).2, ⟨h1, fun i hi => (hp i hi).1⟩, h2, ?_⟩
  rw [h4, (afterAll_fields _ _).2.2.2, ← afterAll_append,
    List.flatMap_congr fun i hi => (hp i (List.mem_range.mp hi)).2]
  rfl

theorem runOptimizationTask_ok {nSamples : Nat} {task : Task n} {solver : Solver n}
    {argsort : List ℝ → List Nat}
    {u : Updater} {d0 dN : Dist n} {N : Nat} {hasDir : Bool}
    {draws : Nat → Fin nSamples → Fin n → ℝ} {w0 w : World (Obj n D)}
    (h : runOptimizationTask task solver argsort u d0 N hasDir draws w0 = (.ok dN, w)) :
    ∃ d samples weights, IsHistory (fun x => task (solver x) x) argsort u d0 N draws d samples weights ∧
      d N = dN ∧
      w = finished (blank w0 nSamples hasDir true) (initTaskTells nSamples task solver u)
        (fun i => taskTells task solver i (d i) (samples i) (weights i) (d (i + 1))) N := by
  unfold runOptimizationTask at h
  rw [PyM.bind_ok ((init_apply _ _ _ _ _).trans (tellAll_apply _ _ (fun t ht => by
    have : dmpIn t.2.1 = false := by
      simp only [kwTells, List.map_cons, List.map_nil, List.mem_cons, List.not_mem_nil, or_false] at ht
      rcases ht with rfl | rfl | rfl | rfl <;> exact names_no_dmp _ (by simp [nKey])
    simp [this])))] at h
  obtain ⟨d, ts, h1, h2, h3, h4⟩ := loop_ok (tk := true) (step := fun i d =>
      taskStep task solver argsort u (List.ofFn (draws i)) i d)
    (R := fun i d ts d' => ∃ p : List (Fin n → ℝ) × List ℝ,
      IsStep (fun x => task (solver x) x) argsort u (List.ofFn (draws i)) d p.1 p.2 d' ∧
        ts = taskTells task solver i d p.1 p.2 d')
    (fun i d d' w w' ht h => by
      obtain ⟨s, wt, hs, hw⟩ := taskStep_ok h
      exact ⟨_, ⟨(s, wt), hs, rfl⟩, hw⟩) ((afterAll_fields _ _).2.1) h
  have h5 : ∀ i, ∃ p : List (Fin n → ℝ) × List ℝ, i < N →
      IsStep (fun x => task (solver x) x) argsort u (List.ofFn (draws i)) (d i) p.1 p.2 (d (i + 1)) ∧
        ts i = taskTells task solver i (d i) p.1 p.2 (d (i + 1)) := by
    intro i
    by_cases hi : i < N
    · obtain ⟨p, hp⟩ := h3 i hi
      exact ⟨p, fun _ => hp⟩
    · exact ⟨([], []), fun h => absurd h hi⟩
  choose p hp using h5
  refine ⟨d, fun i => (p i).1, fun i => (p i).2, ⟨h1, fun i hi => (hp i hi).1⟩, h2, ?_⟩
  rw [h4, (afterAll_fields _ _).2.2.2, ← afterAll_append,
    List.flatMap_congr fun i hi => (hp i (List.mem_range.mp hi)).2]
  rfl

/-- Everything that was told is in the cache. -/
theorem cached_finished {V : Type} [Storable V] {w : World V} (hw : w.CacheOk)
    {init : List (V × SKey)} {steps : Nat → List (V × SKey)} {N : Nat}
    (hi : ∀ t ∈ init, GoodKey NoLabel t.2 ∧ t.2.2.1 = none) (hin : (init.map Prod.snd).Nodup)
    (hs : ∀ i, (∀ t ∈ steps i, GoodKey NoLabel t.2 ∧ t.2.2.1 = some (i : Int)) ∧
      ((steps i).map Prod.snd).Nodup) {t : V × SKey}
    (ht : t ∈ init ++ (List.range N).flatMap steps) :
    (finished w init steps N).cached t.2.base = some t.1 := by
  change (w.afterAll (init ++ (List.range N).flatMap steps)).cached t.2.base = some t.1
  refine cached_good goodLabels_none hw ?_ ?_ ht
  · intro t ht
    rcases List.mem_append.mp ht with ht | ht
    · exact (hi t ht).1
    · obtain ⟨i, -, hti⟩ := List.mem_flatMap.mp ht
      exact ((hs i).1 t hti).1
  · rw [List.map_append, List.nodup_append]
    refine ⟨hin, nodup_flatMap (fun i _ t ht => ((hs i).1 t ht).2) (fun i _ => (hs i).2), ?_⟩
    intro a ha b hb hab
    subst hab
    obtain ⟨t, ht, rfl⟩ := List.mem_map.mp ha
    obtain ⟨t', ht', he⟩ := List.mem_map.mp hb
    obtain ⟨i, -, hti⟩ := List.mem_flatMap.mp ht'
    have h1 := (hi t ht).2
    have h2 := ((hs i).1 t' hti).2
    rw [he, h1] at h2
    cases h2

theorem initTells_good (nSamples : Nat) (f : (Fin n → ℝ) → List ℝ) (u : Updater) :
    (∀ t ∈ initTells (D := D) nSamples f u, GoodKey NoLabel t.2 ∧ t.2.2.1 = none) ∧
      ((initTells (D := D) nSamples f u).map Prod.snd).Nodup := by
  have hg := good_names
  have key : ∀ name, GoodName NoLabel name ∧ ¬ "cpp".toList <:+ name.toList →
      GoodKey NoLabel (name, none, none) := fun name h => ⟨h.1, trivial, h.2⟩
  refine ⟨fun t ht => ?_, by simp [initTells, nKey]⟩
  simp only [initTells, List.mem_cons, List.not_mem_nil, or_false] at ht
  rcases ht with rfl | rfl | rfl <;> exact ⟨key _ (hg _ (by simp)), rfl⟩

theorem initTaskTells_good (nSamples : Nat) (task : Task n) (solver : Solver n) (u : Updater) :
    (∀ t ∈ initTaskTells (D := D) nSamples task solver u, GoodKey NoLabel t.2 ∧ t.2.2.1 = none) ∧
      ((initTaskTells (D := D) nSamples task solver u).map Prod.snd).Nodup := by
  have hg := good_names
  have key : ∀ name, GoodName NoLabel name ∧ ¬ "cpp".toList <:+ name.toList →
      GoodKey NoLabel (name, none, none) := fun name h => ⟨h.1, trivial, h.2⟩
  refine ⟨fun t ht => ?_, by simp [initTaskTells, nKey]⟩
  simp only [initTaskTells, List.mem_cons, List.not_mem_nil, or_false] at ht
  rcases ht with rfl | rfl | rfl | rfl <;> exact ⟨key _ (hg _ (by simp)), rfl⟩

/-! ### C55 -/

/-- The result of asking the session. -/
noncomputable def asked (w : World (Obj n D)) (name : String) (i : Option Int) (s : Option Label) :
    Except PyErr (Obj n D) := (World.askValue name i s w).1

theorem asked_cached {w : World (Obj n D)} {k : SKey} {v : Obj n D}
    (h : w.cached k.base = some v) : asked w k.1 k.2.1 k.2.2 = .ok v := by
  unfold asked
  rw [World.askValue_cached h]

/-- C55: the session after run_optimization contains for each update the distribution, the samples
drawn from it (after clipping), their costs, the weights, and the new distribution, which the updater
computed from these and which is the distribution of the next update; and the mean of the
distribution with its costs. The last new distribution is the result. -/
theorem C55_history {nSamples : Nat} (f : (Fin n → ℝ) → List ℝ) (argsort : List ℝ → List Nat)
    (u : Updater) (d0 dN : Dist n) (N : Nat) (hasDir : Bool)
    (draws : Nat → Fin nSamples → Fin n → ℝ) (w0 w : World (Obj n D))
    (h : runOptimization f argsort u d0 N hasDir draws w0 = (.ok dN, w)) :
    ∃ (d : Nat → Dist n) (samples : Nat → List (Fin n → ℝ)) (weights : Nat → List ℝ),
      d 0 = d0 ∧ d N = dN ∧
      (∀ i : Nat, i < N →
        (d i).generateSamples (List.ofFn (draws i)) = .ok (samples i) ∧
        u.update argsort (samples i) ((samples i).map f) (d i) =
          (.ok (d (i + 1), weights i), d i) ∧
        asked w "distribution" (some i) none = .ok (.dist (d i)) ∧
        asked w "samples" (some i) none = .ok (.samples (samples i)) ∧
        asked w "costs" (some i) none = .ok (.costs ((samples i).map f)) ∧
        asked w "weights" (some i) none = .ok (.vec (weights i)) ∧
        asked w "distribution_new" (some i) none = .ok (.dist (d (i + 1))) ∧
        asked w "eval_sample" (some i) none = .ok (.params (d i).mean) ∧
        asked w "eval_cost" (some i) none = .ok (.vec (f (d i).mean))) ∧
      asked w "n_samples_per_update" none none = .ok (.int nSamples) ∧
      asked w "cost_function" none none = .ok (.costFunction f) ∧
      asked w "updater" none none = .ok (.updater u) := by
  obtain ⟨d, samples, weights, hh, hN, rfl⟩ := runOptimization_ok h
  have hc : ∀ t ∈ initTells nSamples f u ++ (List.range N).flatMap
      (fun i => stepTells f i (d i) (samples i) (weights i) (d (i + 1))), asked _ t.2.1 t.2.2.1 t.2.2.2 = .ok t.1 :=
    fun t ht => asked_cached (cached_finished (blank_ok w0 nSamples hasDir false)
      (initTells_good nSamples f u).1 (initTells_good nSamples f u).2
      (fun i => stepTells_good f i (d i) (samples i) (weights i) (d (i + 1))) ht)
  have hstep : ∀ i < N, ∀ t ∈ stepTells f i (d i) (samples i) (weights i) (d (i + 1)),
      t ∈ initTells (D := D) nSamples f u ++ (List.range N).flatMap
        (fun i => stepTells f i (d i) (samples i) (weights i) (d (i + 1))) := fun i hi t ht =>
    List.mem_append_right _ (List.mem_flatMap.mpr ⟨i, List.mem_range.mpr hi, ht⟩)
  refine ⟨d, samples, weights, hh.start, hN, fun i hi => ?_, ?_, ?_, ?_⟩
  · have hs := fun t ht => hc t (hstep i hi t ht)
    refine ⟨(hh.step i hi).1, (hh.step i hi).2, ?_⟩
    exact ⟨hs (.dist (d i), ukey "distribution" i) (by simp [stepTells, updateTells]),
      hs (.samples (samples i), ukey "samples" i) (by simp [stepTells, updateTells]),
      hs (.costs ((samples i).map f), ukey "costs" i) (by simp [stepTells, updateTells]),
      hs (.vec (weights i), ukey "weights" i) (by simp [stepTells, updateTells]),
      hs (.dist (d (i + 1)), ukey "distribution_new" i) (by simp [stepTells, updateTells]),
      hs (.params (d i).mean, ukey "eval_sample" i) (by simp [stepTells]),
      hs (.vec (f (d i).mean), ukey "eval_cost" i) (by simp [stepTells])⟩
  · exact hc (.int nSamples, nKey) (by simp [initTells])
  · exact hc (.costFunction f, ("cost_function", none, none)) (by simp [initTells])
  · exact hc (.updater u, ("updater", none, none)) (by simp [initTells])

/-- C55 for run_optimization_task: also the cost-relevant variables of each rollout are recorded, and
costs are those of the task for the cost-relevant variables that the solver computed. -/
theorem C55_history_task {nSamples : Nat} (task : Task n) (solver : Solver n)
    (argsort : List ℝ → List Nat) (u : Updater) (d0 dN : Dist n) (N : Nat) (hasDir : Bool)
    (draws : Nat → Fin nSamples → Fin n → ℝ) (w0 w : World (Obj n D))
    (h : runOptimizationTask task solver argsort u d0 N hasDir draws w0 = (.ok dN, w)) :
    ∃ (d : Nat → Dist n) (samples : Nat → List (Fin n → ℝ)) (weights : Nat → List ℝ),
      d 0 = d0 ∧ d N = dN ∧
      (∀ i : Nat, i < N →
        (d i).generateSamples (List.ofFn (draws i)) = .ok (samples i) ∧
        u.update argsort (samples i) ((samples i).map fun x => task (solver x) x) (d i) =
          (.ok (d (i + 1), weights i), d i) ∧
        asked w "distribution" (some i) none = .ok (.dist (d i)) ∧
        asked w "samples" (some i) none = .ok (.samples (samples i)) ∧
        asked w "costs" (some i) none =
          .ok (.costs ((samples i).map fun x => task (solver x) x)) ∧
        asked w "weights" (some i) none = .ok (.vec (weights i)) ∧
        asked w "distribution_new" (some i) none = .ok (.dist (d (i + 1))) ∧
        asked w "eval_sample" (some i) none = .ok (.params (d i).mean) ∧
        asked w "eval_cost_vars" (some i) none = .ok (.array (solver (d i).mean)) ∧
        asked w "eval_cost" (some i) none = .ok (.vec (task (solver (d i).mean) (d i).mean)) ∧
        ∀ (k : Nat) x, (samples i)[k]? = some x →
          asked w "sample" (some i) (some (.int k)) = .ok (.params x) ∧
          asked w "cost_vars" (some i) (some (.int k)) = .ok (.array (solver x)) ∧
          asked w "cost" (some i) (some (.int k)) = .ok (.vec (task (solver x) x))) ∧
      asked w "n_samples_per_update" none none = .ok (.int nSamples) ∧
      asked w "task" none none = .ok (.task task) ∧
      asked w "task_solver" none none = .ok (.solver solver) ∧
      asked w "updater" none none = .ok (.updater u) := by
  obtain ⟨d, samples, weights, hh, hN, rfl⟩ := runOptimizationTask_ok h
  have hc : ∀ t ∈ initTaskTells nSamples task solver u ++ (List.range N).flatMap
      (fun i => taskTells task solver i (d i) (samples i) (weights i) (d (i + 1))),
      asked _ t.2.1 t.2.2.1 t.2.2.2 = .ok t.1 :=
    fun t ht => asked_cached (cached_finished (blank_ok w0 nSamples hasDir true)
      (initTaskTells_good nSamples task solver u).1 (initTaskTells_good nSamples task solver u).2
      (fun i => taskTells_good task solver i (d i) (samples i) (weights i) (d (i + 1))) ht)
  have hstep : ∀ i < N, ∀ t ∈ taskTells task solver i (d i) (samples i) (weights i) (d (i + 1)),
      t ∈ initTaskTells (D := D) nSamples task solver u ++ (List.range N).flatMap
        (fun i => taskTells task solver i (d i) (samples i) (weights i) (d (i + 1))) := fun i hi t ht =>
    List.mem_append_right _ (List.mem_flatMap.mpr ⟨i, List.mem_range.mpr hi, ht⟩)
  refine ⟨d, samples, weights, hh.start, hN, fun i hi => ?_, ?_, ?_, ?_, ?_⟩
  · have hs := fun t ht => hc t (hstep i hi t ht)
    refine ⟨(hh.step i hi).1, (hh.step i hi).2, ?_⟩
    refine ⟨hs (.dist (d i), ukey "distribution" i) (by simp [taskTells, updateTells]),
      hs (.samples (samples i), ukey "samples" i) (by simp [taskTells, updateTells]),
      hs (.costs ((samples i).map fun x => task (solver x) x), ukey "costs" i)
        (by simp [taskTells, updateTells]),
      hs (.vec (weights i), ukey "weights" i) (by simp [taskTells, updateTells]),
      hs (.dist (d (i + 1)), ukey "distribution_new" i) (by simp [taskTells, updateTells]),
      hs (.params (d i).mean, ukey "eval_sample" i) (by simp [taskTells]),
      hs (.array (solver (d i).mean), ukey "eval_cost_vars" i) (by simp [taskTells]),
      hs (.vec (task (solver (d i).mean) (d i).mean), ukey "eval_cost" i) (by simp [taskTells]), ?_⟩
    intro k x hk
    have hz : (k, x) ∈ (List.range (samples i).length).zip (samples i) := by
      obtain ⟨hk1, hk2⟩ := List.getElem?_eq_some_iff.mp hk
      rw [List.mem_iff_getElem]
      refine ⟨k, by simp [hk1], ?_⟩
      simp [hk2]
    have hr : ∀ t ∈ rolloutTells task solver i ((List.range (samples i).length).zip (samples i)),
        t ∈ taskTells (D := D) task solver i (d i) (samples i) (weights i) (d (i + 1)) := fun t ht =>
      List.mem_append_right _ (List.mem_append_left _ ht)
    have hr' := fun (t : Obj n D × SKey) ht => hs t (hr t (List.mem_flatMap.mpr ⟨_, hz, ht⟩))
    exact ⟨hr' (.params x, skey "sample" i k) (by simp),
      hr' (.array (solver x), skey "cost_vars" i k) (by simp),
      hr' (.vec (task (solver x) x), skey "cost" i k) (by simp)⟩
  · exact hc (.int nSamples, nKey) (by simp [initTaskTells])
  · exact hc (.task task, ("task", none, none)) (by simp [initTaskTells])
  · exact hc (.solver solver, ("task_solver", none, none)) (by simp [initTaskTells])
  · exact hc (.updater u, ("updater", none, none)) (by simp [initTaskTells])

theorem optStep_run {f : (Fin n → ℝ) → List ℝ} {argsort : List ℝ → List Nat} {u : Updater}
    {draw samples : List (Fin n → ℝ)} {i : Nat} {d dNew : Dist n} {wt : List ℝ}
    {w : World (Obj n D)} (ht : w.task = false) (hs : d.generateSamples draw = .ok samples)
    (hu : u.update argsort samples (samples.map f) d = (.ok (dNew, wt), d)) :
    ∃ w', optStep f argsort u draw i d w = (.ok dNew, w') ∧ w'.task = false := by
  have tells : ∀ (ts : List (Obj n D × SKey)) (w : World (Obj n D)), w.task = false →
      ∃ w', tellAll ts w = (.ok (), w') ∧ w'.task = false := fun ts w ht =>
    ⟨_, tellAll_apply ts w (fun _ _ => by rw [ht]; rfl), (afterAll_fields _ _).2.1.trans ht⟩
  unfold optStep
  simp only [hs, PyM.lift_ok_bind, hu, addEval_eq, addUpdate_eq, bind_assoc]
  obtain ⟨w1, h1, ht1⟩ := tells [(Obj.vec (f d.mean), ukey "eval_cost" i),
    (Obj.params d.mean, ukey "eval_sample" i)] w ht
  obtain ⟨w2, h2, ht2⟩ := tells [(.dist d, ukey "distribution" i), (.samples samples, ukey "samples" i),
   (.costs (samples.map f), ukey "costs" i), (.vec wt, ukey "weights" i),
   (.dist dNew, ukey "distribution_new" i)] w1 ht1
  rw [PyM.bind_ok h1, PyM.bind_ok h2, PyM.modify_bind, PyM.pure_apply]
  exact ⟨_, rfl, ht2⟩

/-- With PI-BB weights (or an unknown weighting method, which the code treats as PI-BB) the
optimisation succeeds, if there are samples, the cost function returns costs, at least one bound is
given if the distribution is a bounded one, and the limits of the updater fit the dimension. -/
theorem C55_succeeds {nSamples : Nat} (f : (Fin n → ℝ) → List ℝ) (argsort : List ℝ → List Nat)
    (u : Updater) (d0 : Dist n) (N : Nat) (hasDir : Bool)
    (draws : Nat → Fin nSamples → Fin n → ℝ) (w0 : World (Obj n D)) (hn : 0 < nSamples)
    (hf : ∀ x, f x ≠ []) (hb : d0.bounds ≠ some (none, none)) (h1 : u.method ≠ "CEM")
    (h2 : u.method ≠ "CMA-ES") (hc : ∀ samples w (d : Dist n), ∃ c, u.covarNew samples w d = .ok c) :
    ∃ dN w, runOptimization f argsort u d0 N hasDir draws w0 = (.ok dN, w) := by
  have gen : ∀ (draw : List (Fin n → ℝ)) (d : Dist n), d.bounds ≠ some (none, none) →
      ∃ samples, d.generateSamples draw = .ok samples ∧ samples.length = draw.length := by
    intro draw d hd
    unfold Dist.generateSamples
    match hbd : d.bounds with
    | none => exact ⟨_, rfl, rfl⟩
    | some (none, none) => exact absurd hbd hd
    | some (some _, none) => exact ⟨_, rfl, by simp⟩
    | some (none, some _) => exact ⟨_, rfl, by simp⟩
    | some (some _, some _) => exact ⟨_, rfl, by simp⟩
  have step : ∀ (i : Nat) (d : Dist n) (w : World (Obj n D)), w.task = false →
      d.bounds ≠ some (none, none) → ∃ d' w', optStep f argsort u (List.ofFn (draws i)) i d w =
        (.ok d', w') ∧ w'.task = false ∧ d'.bounds ≠ some (none, none) := by
    intro i d w ht hd
    obtain ⟨samples, hs, hl⟩ := gen (List.ofFn (draws i)) d hd
    have hne : samples ≠ [] := by
      intro h; rw [h] at hl; simp at hl; omega
    obtain ⟨d', wt, hu⟩ := C50_succeeds argsort u samples (samples.map f) d (by simpa using hne)
      (by simpa using fun x _ => hf x) (by simp) h1 h2 (fun w => hc samples w d)
    have hbd := (C50_convex argsort u samples _ d d d' wt hu).2.2.2.2.2.2
    obtain ⟨w', hw', ht'⟩ := optStep_run (i := i) ht hs hu
    exact ⟨d', w', hw', ht', by rw [hbd]; exact hd⟩
  have loop : ∀ (l : List Nat) (d : Dist n) (w : World (Obj n D)), w.task = false →
      d.bounds ≠ some (none, none) → ∃ d' w', l.foldlM (fun d i =>
        optStep f argsort u (List.ofFn (draws i)) i d) d w = (.ok d', w') := by
    intro l
    induction l with
    | nil => exact fun d w _ _ => ⟨d, w, rfl⟩
    | cons i l ih =>
      intro d w ht hd
      obtain ⟨d', w', hs, ht', hd'⟩ := step i d w ht hd
      rw [List.foldlM_cons, PyM.bind_ok hs]
      exact ih d' w' ht' hd'
  unfold runOptimization
  rw [PyM.bind_ok ((init_apply _ _ _ _ _).trans (tellAll_apply _ _ (fun _ _ => rfl)))]
  exact loop _ _ _ (afterAll_fields _ _).2.1 hb

/-- Hypotheses of `C55_history` and `C55_succeeds`: three samples, two dimensions, bounded
distribution, covariance decay. -/
example (w0 : World (Obj 2 Unit)) (draws : Nat → Fin 3 → Fin 2 → ℝ) : ∃ dN w,
    runOptimization (fun x => [x 0 ^ 2 + x 1 ^ 2]) (fun _ => []) ⟨.float 10, "PI-BB", .decay (9 / 10)⟩
      ⟨fun _ => 5, 1, some (some (.scalar 0), some (.vector fun _ => 6))⟩ 4 true draws w0 =
        (.ok dN, w) :=
  C55_succeeds _ _ _ _ 4 true draws w0 (by norm_num) (by simp) (by simp) (by simp) (by simp)
    (fun samples w d => ⟨_, rfl⟩)

/-! ### C54 -/

/-- The number that a bound prescribes in a dimension. -/
def Spec.limitAt : Option (Bound n) → Fin n → Option ℝ
  | none, _ => none
  | some (.scalar x), _ => some x
  | some (.vector v), j => some (v j)

/-- A point satisfies the bounds (all points do for distributions that are not bounded). -/
def Spec.Inside (bounds : Option (Option (Bound n) × Option (Bound n))) (x : Fin n → ℝ) : Prop :=
  ∀ lower upper, bounds = some (lower, upper) → ∀ j,
    (∀ l, limitAt lower j = some l → l ≤ x j) ∧ (∀ u, limitAt upper j = some u → x j ≤ u)

/-- No lower bound exceeds the upper bound. -/
def Spec.Consistent (bounds : Option (Option (Bound n) × Option (Bound n))) : Prop :=
  ∀ lower upper, bounds = some (lower, upper) → ∀ j l u, limitAt lower j = some l →
    limitAt upper j = some u → l ≤ u

theorem limitAt_get (b : Option (Bound n)) (j : Fin n) :
    limitAt b j = b.map fun b => b.get j := by
  rcases b with _ | (_ | _) <;> rfl

theorem generateSamples_some {d : Dist n} {draw samples : List (Fin n → ℝ)}
    {lower upper : Option (Bound n)} (hd : d.bounds = some (lower, upper))
    (h : d.generateSamples draw = .ok samples) :
    samples = draw.map fun s j => clip (limitAt lower j) (limitAt upper j) (s j) := by
  unfold Dist.generateSamples at h
  rw [hd] at h
  simp only [limitAt_get]
  rcases lower with _ | lo <;> rcases upper with _ | up
  · cases h
  · exact (Except.ok.inj h).symm
  · exact (Except.ok.inj h).symm
  · exact (Except.ok.inj h).symm

/-- C54: all samples of a bounded distribution lie within the bounds, whatever is drawn; there are
as many as were drawn, and samples drawn within the bounds are not changed. -/
theorem C54_samples (d : Dist n) (draw samples : List (Fin n → ℝ)) (hc : Consistent d.bounds)
    (h : d.generateSamples draw = .ok samples) :
    (∀ x ∈ samples, Inside d.bounds x) ∧ samples.length = draw.length ∧
      (∀ (k : Nat) x y, draw[k]? = some x → samples[k]? = some y → ∀ j, y j = x j ∨
        (∃ lower upper, d.bounds = some (lower, upper) ∧
          ((limitAt lower j = some (y j) ∧ x j < y j) ∨
            (limitAt upper j = some (y j) ∧ y j < x j)))) ∧
      ((∀ x ∈ draw, Inside d.bounds x) → samples = draw) := by
  cases hb : d.bounds with
  | none =>
    have : samples = draw := by
      unfold Dist.generateSamples at h
      rw [hb] at h
      exact (Except.ok.inj h).symm
    subst this
    refine ⟨fun x _ lo up hh => (by cases hh), rfl, fun k x y h1 h2 j => ?_, fun _ => rfl⟩
    rw [h1] at h2
    exact Or.inl (congrFun (Option.some.inj h2) j).symm
  | some p =>
    obtain ⟨lo, up⟩ := p
    have hs := generateSamples_some hb h
    have hcl : ∀ (x : Fin n → ℝ) j, (∀ l, limitAt lo j = some l → l ≤ clip (limitAt lo j) (limitAt up j) (x j)) ∧
        (∀ u, limitAt up j = some u → clip (limitAt lo j) (limitAt up j) (x j) ≤ u) := by
      intro x j
      constructor
      · intro l hl
        cases hu : limitAt up j with
        | none => simp [clip, hl]
        | some u =>
          have := hc lo up hb j l u hl hu
          simp [clip, hl, this]
      · intro u hu
        simp [clip, hu]
    refine ⟨?_, by rw [hs]; simp, ?_, ?_⟩
    · intro x hx lo' up' hh j
      obtain ⟨rfl, rfl⟩ : lo = lo' ∧ up = up' := by simpa using hh
      rw [hs] at hx
      obtain ⟨y, -, rfl⟩ := List.mem_map.mp hx
      exact hcl y j
    · intro k x y h1 h2 j
      rw [hs, List.getElem?_map, h1] at h2
      have hy : (fun j => clip (limitAt lo j) (limitAt up j) (x j)) = y := Option.some.inj h2
      subst hy
      rcases lt_trichotomy (x j) (clip (limitAt lo j) (limitAt up j) (x j)) with hlt | heq | hgt
      · right
        refine ⟨lo, up, rfl, Or.inl ⟨?_, hlt⟩⟩
        cases hl : limitAt lo j with
        | none =>
          cases hu : limitAt up j with
          | none => simp [clip, hl, hu] at hlt
          | some u => simp [clip, hl, hu] at hlt
        | some l =>
          cases hu : limitAt up j with
          | none =>
            simp only [clip, hl, hu] at hlt ⊢
            rw [max_eq_right]
            rcases le_total l (x j) with h | h
            · rw [max_eq_left h] at hlt; exact absurd hlt (lt_irrefl _)
            · exact h
          | some u =>
            have hlu := hc lo up hb j l u hl hu
            simp only [clip, hl, hu] at hlt ⊢
            rcases le_total l (x j) with h | h
            · rw [max_eq_left h] at hlt; exact absurd hlt (not_lt.mpr (min_le_left _ _))
            · rw [max_eq_right h, min_eq_left hlu]
      · exact Or.inl heq.symm
      · right
        refine ⟨lo, up, rfl, Or.inr ⟨?_, hgt⟩⟩
        cases hu : limitAt up j with
        | none =>
          cases hl : limitAt lo j with
          | none => simp [clip, hl, hu] at hgt
          | some l => simp [clip, hl, hu] at hgt
        | some u =>
          cases hl : limitAt lo j with
          | none =>
            simp only [clip, hl, hu] at hgt ⊢
            rw [min_eq_right]
            rcases le_total (x j) u with h | h
            · rw [min_eq_left h] at hgt; exact absurd hgt (lt_irrefl _)
            · exact h
          | some l =>
            simp only [clip, hl, hu] at hgt ⊢
            rw [min_eq_right]
            rcases le_total (max (x j) l) u with h | h
            · rw [min_eq_left h] at hgt; exact absurd hgt (not_lt.mpr (le_max_left _ _))
            · exact h
    · intro hin
      rw [hs]
      conv_rhs => rw [← List.map_id draw]
      refine List.map_congr_left fun x hx => funext fun j => ?_
      obtain ⟨h1, h2⟩ := hin x hx lo up rfl j
      cases hl : limitAt lo j with
      | none =>
        cases hu : limitAt up j with
        | none => simp [clip]
        | some u => simp [clip, h2 u hu]
      | some l =>
        cases hu : limitAt up j with
        | none => simp [clip, h1 l hl]
        | some u => simp [clip, h1 l hl, h2 u hu]

/-- C54: the mean after an update lies within the bounds, and the bounds stay the same. -/
theorem C54_update (argsort : List ℝ → List Nat) (u : Updater) (draw samples : List (Fin n → ℝ))
    (costs : List (List ℝ)) (d d0 d' : Dist n) (w : List ℝ) (hc : Consistent d.bounds)
    (hs : d.generateSamples draw = .ok samples)
    (h : u.update argsort samples costs d = (.ok (d', w), d0)) :
    Inside d.bounds d'.mean ∧ d'.bounds = d.bounds := by
  obtain ⟨-, hlen, hp, hm, -, -, hbd⟩ := C50_convex argsort u samples costs d d0 d' w h
  have hin := (C54_samples d draw samples hc hs).1
  refine ⟨fun lo up hb j => ⟨fun l hl => ?_, fun u hu => ?_⟩, hbd⟩
  · have := weighted_le w (fun s => -s j) samples (-l) hlen hp.nonneg
      (fun s hs => neg_le_neg ((hin s hs lo up hb j).1 l hl))
    rw [weighted_neg w (fun s => s j), hp.sum, one_mul] at this
    rw [hm j]
    exact neg_le_neg_iff.mp this
  · have := weighted_le w (fun s => s j) samples u hlen hp.nonneg
      (fun s hs => (hin s hs lo up hb j).2 u hu)
    rw [hp.sum, one_mul] at this
    rw [hm j]
    exact this

/-- C54: in an optimisation that starts with a bounded distribution, all recorded samples and the
means of all recorded later distributions lie within the bounds (also the mean of the first
distribution, if it does so in the beginning), as does the mean of the result; and all distributions
have the same bounds. Bounds may be scalars or vectors, and one of them may be missing. -/
theorem C54_optimisation {nSamples : Nat} (f : (Fin n → ℝ) → List ℝ) (argsort : List ℝ → List Nat)
    (u : Updater) (d0 dN : Dist n) (N : Nat) (hasDir : Bool)
    (draws : Nat → Fin nSamples → Fin n → ℝ) (w0 w : World (Obj n D)) (hc : Consistent d0.bounds)
    (h : runOptimization f argsort u d0 N hasDir draws w0 = (.ok dN, w)) :
    (∀ i : Nat, i < N →
      (∃ samples, asked w "samples" (some i) none = .ok (.samples samples) ∧
        samples.length = nSamples ∧ ∀ x ∈ samples, Inside d0.bounds x) ∧
      (∃ d, asked w "distribution_new" (some i) none = .ok (.dist d) ∧ d.bounds = d0.bounds ∧
        Inside d0.bounds d.mean) ∧
      (∃ d, asked w "distribution" (some i) none = .ok (.dist d) ∧ d.bounds = d0.bounds ∧
        (i = 0 → d = d0) ∧ (i ≠ 0 ∨ Inside d0.bounds d0.mean → Inside d0.bounds d.mean))) ∧
    dN.bounds = d0.bounds ∧ (N ≠ 0 ∨ Inside d0.bounds d0.mean → Inside d0.bounds dN.mean) := by
  obtain ⟨d, samples, weights, hd0, hdN, hstep, -⟩ := C55_history f argsort u d0 dN N hasDir draws w0 w h
  have inv : ∀ i ≤ N, (d i).bounds = d0.bounds ∧
      (i ≠ 0 ∨ Inside d0.bounds d0.mean → Inside d0.bounds (d i).mean) := by
    intro i
    induction i with
    | zero =>
      intro _
      rw [hd0]
      exact ⟨rfl, fun h => h.resolve_left (fun h => h rfl)⟩
    | succ i ih =>
      intro hi
      obtain ⟨h1, -⟩ := ih (by omega)
      obtain ⟨hs, hu, -⟩ := hstep i (by omega)
      obtain ⟨h2, h3⟩ := C54_update argsort u _ _ _ _ _ _ _ (by rw [h1]; exact hc) hs hu
      rw [h1] at h2 h3
      exact ⟨h3, fun _ => h2⟩
  refine ⟨fun i hi => ?_, ?_, ?_⟩
  · obtain ⟨hs, hu, a1, a2, -, -, a5, -⟩ := hstep i hi
    have hb := (inv i (by omega)).1
    have hsm := C54_samples (d i) _ _ (by rw [hb]; exact hc) hs
    rw [hb] at hsm
    refine ⟨⟨_, a2, by rw [hsm.2.1]; simp, hsm.1⟩, ⟨_, a5, (inv (i + 1) (by omega)).1,
      (inv (i + 1) (by omega)).2 (Or.inl (by omega))⟩, ⟨_, a1, hb, ?_, (inv i (by omega)).2⟩⟩
    rintro rfl
    exact hd0
  · rw [← hdN]; exact (inv N le_rfl).1
  · rw [← hdN]; exact (inv N le_rfl).2

/-- C54 for run_optimization_task. -/
theorem C54_optimisation_task {nSamples : Nat} (task : Task n) (solver : Solver n)
    (argsort : List ℝ → List Nat)
    (u : Updater) (d0 dN : Dist n) (N : Nat) (hasDir : Bool)
    (draws : Nat → Fin nSamples → Fin n → ℝ) (w0 w : World (Obj n D)) (hc : Consistent d0.bounds)
    (h : runOptimizationTask task solver argsort u d0 N hasDir draws w0 = (.ok dN, w)) :
    (∀ i : Nat, i < N →
      (∃ samples, asked w "samples" (some i) none = .ok (.samples samples) ∧
        samples.length = nSamples ∧ ∀ x ∈ samples, Inside d0.bounds x) ∧
      (∃ d, asked w "distribution_new" (some i) none = .ok (.dist d) ∧ d.bounds = d0.bounds ∧
        Inside d0.bounds d.mean)) ∧
    dN.bounds = d0.bounds ∧ (N ≠ 0 ∨ Inside d0.bounds d0.mean → Inside d0.bounds dN.mean) := by
  obtain ⟨d, samples, weights, hd0, hdN, hstep, -⟩ :=
    C55_history_task task solver argsort u d0 dN N hasDir draws w0 w h
  have inv : ∀ i ≤ N, (d i).bounds = d0.bounds ∧
      (i ≠ 0 ∨ Inside d0.bounds d0.mean → Inside d0.bounds (d i).mean) := by
    intro i
    induction i with
    | zero =>
      intro _
      rw [hd0]
      exact ⟨rfl, fun h => h.resolve_left (fun h => h rfl)⟩
    | succ i ih =>
      intro hi
      obtain ⟨h1, -⟩ := ih (by omega)
      obtain ⟨hs, hu, -⟩ := hstep i (by omega)
      obtain ⟨h2, h3⟩ := C54_update argsort u _ _ _ _ _ _ _ (by rw [h1]; exact hc) hs hu
      rw [h1] at h2 h3
      exact ⟨h3, fun _ => h2⟩
  refine ⟨fun i hi => ?_, ?_, ?_⟩
  · obtain ⟨hs, hu, a1, a2, -, -, a5, -⟩ := hstep i hi
    have hb := (inv i (by omega)).1
    have hsm := C54_samples (d i) _ _ (by rw [hb]; exact hc) hs
    rw [hb] at hsm
    exact ⟨⟨_, a2, by rw [hsm.2.1]; simp, hsm.1⟩, ⟨_, a5, (inv (i + 1) (by omega)).1,
      (inv (i + 1) (by omega)).2 (Or.inl (by omega))⟩⟩
  · rw [← hdN]; exact (inv N le_rfl).1
  · rw [← hdN]; exact (inv N le_rfl).2

/-- C54: a bounded distribution without bounds cannot be sampled. -/
theorem C54_no_bounds (d : Dist n) (draw : List (Fin n → ℝ)) (h : d.bounds = some (none, none)) :
    d.generateSamples draw = .error .valueError := by
  unfold Dist.generateSamples
  rw [h]

/-- C54: the constructor accepts exactly means that have the size of the covariance matrix, and keeps mean,
covariance matrix and bounds. -/
theorem C54_init {m : Nat} (mean : Fin m → ℝ) (covar : Matrix (Fin n) (Fin n) ℝ)
    (bounds : Option (Option (Bound n) × Option (Bound n))) :
    (m ≠ n → Dist.init mean covar bounds = .error .valueError) ∧
    (m = n → ∃ d, Dist.init mean covar bounds = .ok d ∧ d.covar = covar ∧ d.bounds = bounds ∧
      ∀ (i : Fin m) (j : Fin n), i.val = j.val → d.mean j = mean i) := by
  unfold Dist.init
  constructor
  · intro h
    rw [dif_neg h]
  · rintro rfl
    rw [dif_pos rfl]
    refine ⟨_, rfl, rfl, rfl, fun i j h => ?_⟩
    obtain rfl := Fin.ext h
    rfl

example : ∃ d : Dist 2, Dist.init ![3, 4] 1 none = .ok d ∧ d.mean 1 = 4 := by
  obtain ⟨d, h, -, -, hm⟩ := (C54_init (n := 2) ![3, 4] 1 none).2 rfl
  exact ⟨d, h, hm 1 1 rfl⟩

/-- Hypotheses of the theorems above: mixed scalar and vector bounds. -/
example : Consistent (n := 2) (some (some (.scalar 0), some (.vector ![1, 2]))) ∧
    Consistent (n := 2) (some (some (.scalar 0), none)) ∧ Consistent (n := 2) none := by
  refine ⟨?_, ?_, ?_⟩
  · intro lo up h j l u hl hu
    simp only [Option.some.injEq, Prod.mk.injEq] at h
    obtain ⟨rfl, rfl⟩ := h
    simp only [limitAt, Option.some.injEq] at hl hu
    subst hl hu
    fin_cases j <;> norm_num
  · intro lo up h j l u hl hu
    simp only [Option.some.injEq, Prod.mk.injEq] at h
    obtain ⟨rfl, rfl⟩ := h
    cases hu
  · intro lo up h
    cases h

end Verif
