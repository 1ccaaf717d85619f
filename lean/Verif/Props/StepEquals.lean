import Verif.Props.StepCrash

/- C62: step-by-step optimisation does the same as run_optimization_task. -/

set_option autoImplicit false

namespace Verif

open Spec

section
variable {V : Type} [Storable V]

/-- The value of the latest tell for a key (the latest at the end). -/
def val (ts : List (V × SKey)) (k : SKey) : Option V := latest id ts.reverse k

theorem latest_append (a b : List (V × SKey)) (k : SKey) :
    latest id (a ++ b) k = (latest id a k).or (latest id b k) := by
  induction a with
  | nil => rfl
  | cons t a ih =>
    simp only [List.cons_append, latest]
    split_ifs
    · rfl
    · exact ih

theorem val_append (a b : List (V × SKey)) (k : SKey) : val (a ++ b) k = (val b k).or (val a k) := by
  simp [val, latest_append]

theorem val_none {ts : List (V × SKey)} {k : SKey} (h : ∀ t ∈ ts, t.2 ≠ k) : val ts k = none := by
  unfold val
  have h' : ∀ t ∈ ts.reverse, t.2 ≠ k := fun t ht => h t (List.mem_reverse.mp ht)
  generalize ts.reverse = l at h'
  induction l with
  | nil => rfl
  | cons t l ih =>
    simp only [latest, id]
    rw [if_neg (Ne.symm (h' t (by simp)))]
    exact ih fun t ht => h' t (by simp [ht])

theorem val_mem {ts : List (V × SKey)} {t : V × SKey} (ht : t ∈ ts)
    (hu : ∀ t' ∈ ts, t'.2 = t.2 → t'.1 = t.1) : val ts t.2 = some t.1 := by
  unfold val
  have h1 : t ∈ ts.reverse := List.mem_reverse.mpr ht
  have h2 : ∀ t' ∈ ts.reverse, t'.2 = t.2 → t'.1 = t.1 := fun t' h => hu t' (List.mem_reverse.mp h)
  generalize ts.reverse = l at h1 h2
  induction l with
  | nil => cases h1
  | cons s l ih =>
    simp only [latest, id]
    by_cases hs : t.2 = s.2
    · rw [if_pos hs, h2 s (by simp) hs.symm]
    · rw [if_neg hs]
      rcases List.mem_cons.mp h1 with rfl | h1
      · exact absurd rfl hs
      · exact ih h1 fun t' h => h2 t' (by simp [h])

theorem val_left {a b : List (V × SKey)} {k : SKey} (h : ∀ t ∈ b, t.2 ≠ k) :
    val (a ++ b) k = val a k := by rw [val_append, val_none h]; rfl

theorem val_right {a b : List (V × SKey)} {k : SKey} {v : V} (h : val b k = some v) :
    val (a ++ b) k = some v := by rw [val_append, h]; rfl

theorem toldAnswer_val {a : Key → Except PyErr V} {ts : List (V × SKey)} {k : SKey}
    (hk : GoodKey (· = "eval") k) (hg : ∀ t ∈ ts, GoodKey (· = "eval") t.2) :
    toldAnswer a ts k.base = (val ts k).elim (a k.base) .ok := by
  induction ts using List.reverseRecOn with
  | nil => rfl
  | append_singleton ts s ih =>
    rw [toldAnswer_append]
    change Function.update (toldAnswer a ts) s.2.base (.ok s.1) k.base = _
    rw [val_append]
    by_cases hs : k = s.2
    · subst hs
      have : val [s] s.2 = some s.1 := by simp [val, latest]
      rw [this]
      simp
    · have : val [s] k = none := val_none (by simpa using fun h => hs h.symm)
      rw [this, Option.none_or,
        Function.update_of_ne fun e => hs (hk.base_inj goodLabels_eval (hg s (by simp)) e)]
      exact ih fun t ht => hg t (by simp [ht])

theorem Runs.tellAll {w : World V} (h : TaskDir w) (ts : List (V × SKey))
    (hg : ∀ t ∈ ts, GoodKey (· = "eval") t.2) (hf : w.files ≠ [])
    (hd : ∀ t ∈ ts, dmpIn t.2.1 = true → t.2.2.1 = none) :
    Runs (Verif.tellAll ts) w (.ok ()) ts := by
  induction ts generalizing w with
  | nil => exact Runs.pure h ()
  | cons t ts ih =>
    rw [tellAll_cons]
    obtain ⟨v, name, u, s⟩ := t
    have hk := hg (v, (name, u, s)) (by simp)
    refine Runs.tellThen h hk (fun hdmp => ?_) fun _ w' h1 _ h3 => ?_
    · have hu : u = none := hd (v, (name, u, s)) (by simp) hdmp
      subst hu
      have hs := good_simple goodLabels_eval hk.name hk.sample
      have : (SKey.base (name, none, s)).parts.dropLast = [] := by
        change (splitPath (sampleName name s)).dropLast = []
        rw [hs.split]; rfl
      rw [this]
      unfold World.dirExists
      cases hw : w.files with
      | nil => exact absurd hw hf
      | cons e l => simp
    · refine ih h1 (fun t ht => hg t (by simp [ht])) ?_ fun t ht => hd t (by simp [ht])
      rw [h3]
      simp [hf]

/-- The type of file for a name. -/
def nameKind (name : String) : Ext :=
  if name ∈ ["n_samples_per_update", "cost_vars", "costs", "samples", "weights", "traj"] then .txt
  else .json

/-- A session on a directory in which nothing but `ts` was told. -/
structure DB (ts : List (V × SKey)) (w : World V) : Prop where
  ok : TaskDir w
  good : ∀ t ∈ ts, GoodKey (· = "eval") t.2
  kinds : ∀ t ∈ ts, Storable.kind t.1 = nameKind t.2.1
  dmps : ∀ t ∈ ts, dmpIn t.2.1 = true → Storable.kind t.1 = .json
  files : w.files = (ts.flatMap writesOf).reverse
  answer : ∀ k, GoodKey (· = "eval") k → ∀ v, val ts k = some v → w.answer k.base = .ok v

theorem DB.run {α : Type} {all ts : List (V × SKey)} {w : World V} (h : DB all w)
    {m : PyM (World V) α} {r : Except PyErr α} (hr : Runs m w r ts)
    (hg : ∀ t ∈ ts, GoodKey (· = "eval") t.2) (hk : ∀ t ∈ ts, Storable.kind t.1 = nameKind t.2.1)
    (hd : ∀ t ∈ ts, dmpIn t.2.1 = true → Storable.kind t.1 = .json) :
    ∃ w', m w = (r, w') ∧ DB (all ++ ts) w' := by
  obtain ⟨w', e1, e2, e3, e4⟩ := hr
  refine ⟨w', e1, e2, ?_, ?_, ?_, ?_, ?_⟩
  · intro t ht
    rcases List.mem_append.mp ht with ht | ht
    · exact h.good t ht
    · exact hg t ht
  · intro t ht
    rcases List.mem_append.mp ht with ht | ht
    · exact h.kinds t ht
    · exact hk t ht
  · intro t ht
    rcases List.mem_append.mp ht with ht | ht
    · exact h.dmps t ht
    · exact hd t ht
  · rw [e4, h.files, List.flatMap_append, List.reverse_append]
  · intro k hgk v hv
    rw [e3 k hgk, toldAnswer_val hgk hg]
    rw [val_append] at hv
    cases hb : val ts k with
    | some x => rw [hb] at hv; rw [← Option.some.inj hv]; rfl
    | none =>
      rw [hb] at hv
      exact h.answer k hgk v hv

theorem DB.sameKind {all : List (V × SKey)} {w : World V} (h : DB all w) : SameKind all := by
  intro t ht t' ht' he
  rw [h.kinds t ht, h.kinds t' ht', he]

end

noncomputable section

variable {n : Nat} {D : Type} [DmpLike n D]

/-- Re-opening the session. -/
theorem DB.reopen {all : List (Obj n D × SKey)} {w : World (Obj n D)} (h : DB all w) {nSamples : Nat}
    (hn : val all nKey = some (.int nSamples))
    (hs : ∀ t ∈ all, t.2 ≠ nKey → Storable.reload t.1 = t.1) :
    ∃ w', World.fromDir true w = (.ok (), w') ∧ DB (all ++ [(.int nSamples, nKey)]) w' := by
  have hdisk := onDisk_of_files h.good h.sameKind h.dmps h.files
  have hr : w.read ⟨["n_samples_per_update"], .txt⟩ = some (Storable.ofNat nSamples) := by
    rw [show (["n_samples_per_update"] : List String) = nKey.base.parts from by decide,
      hdisk nKey goodKey_n .txt]
    change (val all nKey).filter _ = _
    rw [hn]
    rfl
  obtain ⟨w', e1, e2, e3, e4, e5⟩ := reopen_answer h.good h.sameKind h.dmps h.files hr
    (toNat_reload_int nSamples)
  refine ⟨w', e1, e2, ?_, ?_, ?_, e3, ?_⟩
  · intro t ht
    rcases List.mem_append.mp ht with ht | ht
    · exact h.good t ht
    · rw [List.mem_singleton.mp ht]; exact goodKey_n
  · intro t ht
    rcases List.mem_append.mp ht with ht | ht
    · exact h.kinds t ht
    · rw [List.mem_singleton.mp ht]
      change Ext.txt = _
      simp [nameKind, nKey]
  · intro t ht
    rcases List.mem_append.mp ht with ht | ht
    · exact h.dmps t ht
    · rw [List.mem_singleton.mp ht]
      intro hb; exact absurd hb (show ¬ dmpIn nKey.1 = true by decide)
  · intro k hgk v hv
    by_cases hkn : k = nKey
    · subst hkn
      rw [val_right (v := Obj.int nSamples) (by simp [val, latest])] at hv
      rw [e4, ← Option.some.inj hv]
      rfl
    · rw [val_left (by simpa using Ne.symm hkn)] at hv
      rw [e5 k hgk hkn]
      change (val all k).elim _ _ = _
      rw [hv]
      have := hs (v, k) (List.mem_reverse.mp (latest_mem hv)) hkn
      simp only [Option.elim_some]
      rw [this]

/-! ### Rollouts -/

/-- What performing the rollouts tells. -/
def performTells (rollout : D → List (List ℝ)) (dm : Label → D) (i : Int) (labels : List Label) :
    List (Obj n D × SKey) :=
  labels.map fun l => (.array (rollout (dm l)), ("cost_vars", some i, some l))

theorem perform_runs (rollout : D → List (List ℝ)) (dm : Label → D) (i : Int) (labels : List Label)
    (hl : ∀ l ∈ labels, StepLabel l) (w : World (Obj n D)) (h : TaskDir w)
    (hdm : ∀ l ∈ labels, w.answer (baseName "dmp" (some i) (some l)) = .ok (.dmp (dm l))) :
    Runs (labels.forM fun label => do
      let dmp ← askAs Obj.asDmp "dmp" (some i) (some label)
      let _ ← World.tell (.array (rollout dmp) : Obj n D) "cost_vars" (some i) (some label)) w (.ok ())
      (performTells rollout dm i labels) := by
  induction labels generalizing w with
  | nil => exact Runs.pure h ()
  | cons l labels ih =>
    have gl : ∀ l' ∈ l :: labels, ∀ name ∈ ["dmp", "cost_vars"],
        GoodKey (· = "eval") (name, some i, some l') := by
      intro l' hl' name hname
      refine goodKey_step ?_ (by rintro _ ⟨⟩; exact hl l' hl')
      simp only [List.mem_cons, List.not_mem_nil, or_false] at hname
      rcases hname with rfl | rfl <;> simp
    simp only [List.forM_eq_forM, List.forM_cons, bind_assoc]
    refine Runs.then (Runs.askAs h (hdm l (by simp)) rfl) fun w1 h1 a1 f1 => ?_
    refine Runs.tellThen h1 (gl l (by simp) _ (by simp))
      (fun hc => absurd hc (show ¬ dmpIn "cost_vars" = true by decide)) fun _ w2 h2 a2 f2 => ?_
    refine ih (fun l' hl' => hl l' (by simp [hl'])) w2 h2 fun l' hl' => ?_
    have g := gl l' (by simp [hl']) "dmp" (by simp)
    refine (a2 ("dmp", some i, some l') g).trans ?_
    rw [toldAnswer_other g (by simpa using gl l (by simp) "cost_vars" (by simp)) (by simp), a1 _ g]
    exact hdm l' (by simp [hl'])

/-! ### The loop -/

theorem generateSamples_length {d : Dist n} {draw samples : List (Fin n → ℝ)}
    (h : d.generateSamples draw = .ok samples) : samples.length = draw.length := by
  unfold Dist.generateSamples at h
  split at h
  · rw [← Except.ok.inj h]
  · cases h
  · rw [← Except.ok.inj h]; simp

theorem update_total_only (argsort : List ℝ → List Nat) (u : Updater) (samples : List (Fin n → ℝ))
    (costs costs' : List (List ℝ)) (d : Dist n) (h : costs.map List.head? = costs'.map List.head?) :
    u.update argsort samples costs d = u.update argsort samples costs' d := by
  unfold Updater.update
  rw [C48_total_only argsort costs costs' u.method u.elite h]

theorem totalCosts_empty {costs : List (List ℝ)} (hc : [] ∈ costs) :
    ∃ e, totalCosts costs = .error e := by
  unfold totalCosts
  induction costs with
  | nil => cases hc
  | cons c costs ih =>
    rw [List.mapM_cons]
    cases hc1 : firstCost c with
    | error e => exact ⟨e, rfl⟩
    | ok x =>
      rcases List.mem_cons.mp hc with rfl | hm
      · cases hc1
      · obtain ⟨e, he'⟩ := ih hm
        rw [he']
        exact ⟨e, rfl⟩

/-- An updater fails if one of the costs is an empty array. -/
theorem update_costs_ne {argsort : List ℝ → List Nat} {u : Updater} {samples : List (Fin n → ℝ)}
    {costs : List (List ℝ)} {d : Dist n} {r : Dist n × List ℝ}
    (h : (u.update argsort samples costs d).1 = .ok r) : ∀ c ∈ costs, c ≠ [] := by
  intro c hc he
  subst he
  obtain ⟨e, hk⟩ := totalCosts_empty hc
  unfold Updater.update costsToWeights at h
  rw [hk] at h
  cases h

/-- What holds after `k` updates. `d`, `samples` and `weights` are the history of
run_optimization_task. -/
structure Progress (nSamples : Nat) (task : Task n) (rollout : D → List (List ℝ)) (save : Bool)
    (u : Updater) (dmp0 : D) (d : Nat → Dist n)
    (samples : Nat → List (Fin n → ℝ)) (weights : Nat → List ℝ) (k : Nat)
    (all : List (Obj n D × SKey)) : Prop where
  number : val all nKey = some (.int nSamples)
  isTask : val all ("task", none, none) = some (.task task)
  updater : val all ("updater", none, none) = some (.updater u)
  initial : val all ("dmp_initial", none, none) = some (.dmp dmp0)
  dists : ∀ j : Nat, j ≤ k → val all ("distribution", some (j : Int), none) = some (.dist (d j))
  drawn : ∀ j : Nat, j ≤ k → val all ("samples", some (j : Int), none) = some (.samples (samples j))
  used : ∀ j : Nat, j < k → val all ("weights", some (j : Int), none) = some (.vec (weights j))
  new : ∀ j : Nat, j < k →
    val all ("distribution_new", some (j : Int), none) = some (.dist (d (j + 1)))
  dmps : ∀ j : Nat, j ≤ k → ∀ l ∈ sampleLabels nSamples, val all ("dmp", some (j : Int), some l) =
    some (.dmp (DmpLike.setParams dmp0 (paramsAt (d j) (samples j) l)))
  trajs : save = true → ∀ j : Nat, j ≤ k → ∀ l ∈ sampleLabels nSamples,
    val all ("traj", some (j : Int), some l) =
      some (.array (DmpLike.trajMatrix n (DmpLike.setParams dmp0 (paramsAt (d j) (samples j) l))))
  rolled : ∀ j : Nat, j < k → ∀ l ∈ sampleLabels nSamples, val all ("cost_vars", some (j : Int), some l) =
    some (.array (rollout (DmpLike.setParams dmp0 (paramsAt (d j) (samples j) l))))
  judged : ∀ j : Nat, j < k → ∀ l ∈ sampleLabels nSamples, val all ("costs", some (j : Int), some l) =
    some (.vec (task (rollout (DmpLike.setParams dmp0 (paramsAt (d j) (samples j) l)))
      (paramsAt (d j) (samples j) l)))
  stable : nSamples ≠ 1 → n ≠ 1 → ∀ t ∈ all, t.2 ≠ nKey → Storable.reload t.1 = t.1

/-- What is told in a step-by-step optimisation after `N` updates. There are no rollouts for update `N` yet. -/
def StepKey (N : Nat) (k : SKey) : Prop :=
  (k.2.1 = none ∧ k.2.2 = none ∧ k.1 ∈ ["n_samples_per_update", "task", "task_solver", "distribution_initial", "updater",
    "dmp_initial"]) ∨
  ∃ j : Nat, k.2.1 = some (j : Int) ∧ j ≤ N ∧ k.1 ∈ ["cost_vars", "dmp", "costs", "distribution", "samples", "weights",
    "distribution_new", "traj"] ∧ (k.1 = "cost_vars" → j < N) ∧ (k.1 = "costs" → k.2.2 ≠ none)

theorem StepKey.next {N : Nat} {k : SKey} (h : StepKey N k) : StepKey (N + 1) k := by
  rcases h with h | ⟨j, h1, h2, h3, h4, h5⟩
  · exact Or.inl h
  · exact Or.inr ⟨j, h1, by omega, h3, fun e => by have := h4 e; omega, h5⟩

theorem stepKey_n (N : Nat) : StepKey N nKey := Or.inl ⟨rfl, rfl, by simp [nKey]⟩

theorem stepKey_generate {N : Nat} {k : SKey} {i : Int} (hi : i = N) (h1 : k.2.1 = some i)
    (h2 : k.1 = "distribution" ∨ k.1 = "samples" ∨ k.1 = "dmp" ∨ k.1 = "traj") : StepKey N k := by
  subst hi
  refine Or.inr ⟨N, h1, le_rfl, ?_, fun e => ?_, fun e => ?_⟩
  · rcases h2 with h | h | h | h <;> simp [h]
  · rcases h2 with h | h | h | h <;> rw [h] at e <;> simp at e
  · rcases h2 with h | h | h | h <;> rw [h] at e <;> simp at e

/-- Tells that do not concern the history. -/
theorem Progress.extend {nSamples : Nat} {task : Task n} {rollout : D → List (List ℝ)} {save : Bool} {u : Updater} {dmp0 : D} {d : Nat → Dist n}
    {samples : Nat → List (Fin n → ℝ)} {weights : Nat → List ℝ} {k : Nat}
    {all ts : List (Obj n D × SKey)} (h : Progress nSamples task rollout save u dmp0 d samples weights k all)
    (hts : ∀ t ∈ ts, (t.2.1 = "cost_vars" ∧ t.2.2.1 = some (k : Int) ∧ Storable.reload t.1 = t.1) ∨
      t = (.int nSamples, nKey)) :
    Progress nSamples task rollout save u dmp0 d samples weights k (all ++ ts) := by
  have key : ∀ k' : SKey, k'.1 ≠ "cost_vars" → k' ≠ nKey → val (all ++ ts) k' = val all k' := by
    intro k' h1 h2
    refine val_left fun t ht he => ?_
    rcases hts t ht with h' | h'
    · exact h1 (he ▸ h'.1)
    · exact h2 (by rw [← he, h'])
  have key' : ∀ (j : Nat) (l : Label), j < k →
      val (all ++ ts) ("cost_vars", some (j : Int), some l) = val all ("cost_vars", some (j : Int), some l) := by
    intro j l hj
    refine val_left fun t ht he => ?_
    rcases hts t ht with h' | h'
    · have h2 := h'.2.1
      rw [he] at h2
      simp only [Option.some.injEq] at h2
      omega
    · rw [h'] at he
      simp [nKey] at he
  refine ⟨?_, ?_, ?_, ?_, ?_, ?_, ?_, ?_, ?_, ?_, ?_, ?_, ?_⟩
  · rw [val_append]
    cases hv : val ts nKey with
    | none => exact h.number
    | some v =>
      have hm := List.mem_reverse.mp (latest_mem hv)
      rcases hts _ hm with h' | h'
      · exact absurd h'.1 (by simp [nKey])
      · rw [(Prod.mk.inj h').1]; rfl
  · rw [key _ (by simp) (by simp [nKey])]; exact h.isTask
  · rw [key _ (by simp) (by simp [nKey])]; exact h.updater
  · rw [key _ (by simp) (by simp [nKey])]; exact h.initial
  · intro j hj; rw [key _ (by simp) (by simp [nKey])]; exact h.dists j hj
  · intro j hj; rw [key _ (by simp) (by simp [nKey])]; exact h.drawn j hj
  · intro j hj; rw [key _ (by simp) (by simp [nKey])]; exact h.used j hj
  · intro j hj; rw [key _ (by simp) (by simp [nKey])]; exact h.new j hj
  · intro j hj l hl; rw [key _ (by simp) (by simp [nKey])]; exact h.dmps j hj l hl
  · intro hsv j hj l hl; rw [key _ (by simp) (by simp [nKey])]; exact h.trajs hsv j hj l hl
  · intro j hj l hl; rw [key' j l hj]; exact h.rolled j hj l hl
  · intro j hj l hl; rw [key _ (by simp) (by simp [nKey])]; exact h.judged j hj l hl
  · intro h1 h2 t ht hne
    rcases List.mem_append.mp ht with ht | ht
    · exact h.stable h1 h2 t ht hne
    · rcases hts t ht with h' | h'
      · exact h'.2.2
      · exact absurd (by rw [h']) hne

theorem reopenIf_progress {nSamples : Nat} {task : Task n} {rollout : D → List (List ℝ)} {save : Bool} {u : Updater} {dmp0 : D} {d : Nat → Dist n}
    {samples : Nat → List (Fin n → ℝ)} {weights : Nat → List ℝ} {k : Nat}
    {all : List (Obj n D × SKey)} (h : Progress nSamples task rollout save u dmp0 d samples weights k all)
    {w : World (Obj n D)} (hdb : DB all w) (b : Bool) (hb : b = true → nSamples ≠ 1 ∧ n ≠ 1) :
    ∃ w' ts, reopenIf b w = (.ok (), w') ∧ DB (all ++ ts) w' ∧
      ∀ t ∈ ts, t = ((.int nSamples, nKey) : Obj n D × SKey) := by
  cases b with
  | false => exact ⟨w, [], rfl, by simpa using hdb, by simp⟩
  | true =>
    obtain ⟨w', h1, h2⟩ := hdb.reopen h.number (h.stable (hb rfl).1 (hb rfl).2)
    exact ⟨w', [(.int nSamples, nKey)], h1, h2, by simp⟩

/-- The dmps that are stored. -/
theorem storeTells_mem (law : ∀ (dmp : D) (x y : Fin n → ℝ),
      DmpLike.setParams (DmpLike.setParams dmp x) y = DmpLike.setParams dmp y)
    (d : Dist n) (samples : List (Fin n → ℝ)) (i : Int) (save : Bool) (dmp0 dmp : D)
    (hd : ∀ x : Fin n → ℝ, DmpLike.setParams dmp x = DmpLike.setParams dmp0 x)
    (labels : List Label) :
    (∀ l ∈ labels, (Obj.dmp (DmpLike.setParams dmp0 (paramsAt d samples l)), ("dmp", some i, some l)) ∈
      storeTells d samples i save dmp labels) ∧
    (save = true → ∀ l ∈ labels,
      (Obj.array (DmpLike.trajMatrix n (DmpLike.setParams dmp0 (paramsAt d samples l))),
        ("traj", some i, some l)) ∈ storeTells d samples i save dmp labels) ∧
    ∀ t ∈ storeTells d samples i save dmp labels,
      (∃ l, t = (Obj.dmp (DmpLike.setParams dmp0 (paramsAt d samples l)), ("dmp", some i, some l))) ∨
      ∃ l, t = (Obj.array (DmpLike.trajMatrix n (DmpLike.setParams dmp0 (paramsAt d samples l))),
        ("traj", some i, some l)) := by
  induction labels generalizing dmp with
  | nil => simp [storeTells]
  | cons l labels ih =>
    have ih' := ih (DmpLike.setParams dmp (paramsAt d samples l)) (fun x => by rw [law, hd])
    refine ⟨?_, ?_, ?_⟩
    · intro l' hl'
      rcases List.mem_cons.mp hl' with rfl | hl'
      · simp [storeTells, hd]
      · exact List.mem_append_right _ (ih'.1 l' hl')
    · intro hsv l' hl'
      rcases List.mem_cons.mp hl' with rfl | hl'
      · simp [storeTells, hd, hsv]
      · exact List.mem_append_right _ (ih'.2.1 hsv l' hl')
    · intro t ht
      rcases List.mem_append.mp ht with ht | ht
      · rcases List.mem_cons.mp ht with rfl | ht
        · exact Or.inl ⟨l, by rw [hd]⟩
        · cases save with
          | false => simp at ht
          | true =>
            simp only [if_true, List.mem_singleton] at ht
            exact Or.inr ⟨l, by rw [ht, hd]⟩
      · exact ih'.2.2 t ht

/-- The values told by _generate_samples. -/
theorem generateTells_val (law : ∀ (dmp : D) (x y : Fin n → ℝ),
      DmpLike.setParams (DmpLike.setParams dmp x) y = DmpLike.setParams dmp y)
    (d : Dist n) (samples : List (Fin n → ℝ)) (i : Int) (save : Bool) (dmp0 : D) :
    val (generateTells d samples i save dmp0) ("distribution", some i, none) = some (.dist d) ∧
    val (generateTells d samples i save dmp0) ("samples", some i, none) = some (.samples samples) ∧
    (∀ l ∈ sampleLabels samples.length,
      val (generateTells d samples i save dmp0) ("dmp", some i, some l) =
        some (.dmp (DmpLike.setParams dmp0 (paramsAt d samples l)))) ∧
    (save = true → ∀ l ∈ sampleLabels samples.length,
      val (generateTells d samples i save dmp0) ("traj", some i, some l) =
        some (.array (DmpLike.trajMatrix n (DmpLike.setParams dmp0 (paramsAt d samples l))))) ∧
    (∀ t ∈ generateTells d samples i save dmp0, Storable.kind t.1 = nameKind t.2.1 ∧
      (dmpIn t.2.1 = true → Storable.kind t.1 = .json) ∧ t.2 ≠ nKey ∧
      (samples.length ≠ 1 → n ≠ 1 → Storable.reload t.1 = t.1)) := by
  obtain ⟨h1, h3, h2⟩ := storeTells_mem law d samples i save dmp0 dmp0 (fun _ => rfl)
    (sampleLabels samples.length)
  have hmem : ∀ t ∈ generateTells d samples i save dmp0,
      t = (.dist d, ("distribution", some i, none)) ∨ t = (.samples samples, ("samples", some i, none)) ∨
      (∃ l, t = (Obj.dmp (DmpLike.setParams dmp0 (paramsAt d samples l)), ("dmp", some i, some l))) ∨
      ∃ l, t = (Obj.array (DmpLike.trajMatrix n (DmpLike.setParams dmp0 (paramsAt d samples l))),
        ("traj", some i, some l)) := by
    intro t ht
    rcases List.mem_append.mp ht with ht | ht
    · simp only [List.mem_cons, List.not_mem_nil, or_false] at ht
      rcases ht with ht | ht
      · exact Or.inl ht
      · exact Or.inr (Or.inl ht)
    · exact Or.inr (Or.inr (h2 t ht))
  refine ⟨?_, ?_, ?_, ?_, ?_⟩
  · refine val_mem (t := ((Obj.dist d : Obj n D), ("distribution", some i, none))) (by simp [generateTells]) ?_
    intro t ht he
    rcases hmem t ht with rfl | rfl | ⟨l, rfl⟩ | ⟨l, rfl⟩ <;> first | rfl | simp at he
  · refine val_mem (t := ((Obj.samples samples : Obj n D), ("samples", some i, none))) (by simp [generateTells]) ?_
    intro t ht he
    rcases hmem t ht with rfl | rfl | ⟨l, rfl⟩ | ⟨l, rfl⟩ <;> first | rfl | simp at he
  · intro l hl
    refine val_mem (t := (Obj.dmp (DmpLike.setParams dmp0 (paramsAt d samples l)),
      ("dmp", some i, some l))) (List.mem_append_right _ (h1 l hl)) ?_
    intro t ht he
    rcases hmem t ht with rfl | rfl | ⟨l', rfl⟩ | ⟨l', rfl⟩
    · simp at he
    · simp at he
    · simp only [Prod.mk.injEq, Option.some.injEq, true_and] at he
      rw [he]
    · simp at he
  · intro hsv l hl
    refine val_mem (t := (Obj.array (DmpLike.trajMatrix n (DmpLike.setParams dmp0 (paramsAt d samples l))),
      ("traj", some i, some l))) (List.mem_append_right _ (h3 hsv l hl)) ?_
    intro t ht he
    rcases hmem t ht with rfl | rfl | ⟨l', rfl⟩ | ⟨l', rfl⟩
    · simp at he
    · simp at he
    · simp at he
    · simp only [Prod.mk.injEq, Option.some.injEq, true_and] at he
      rw [he]
  · intro t ht
    rcases hmem t ht with rfl | rfl | ⟨l', rfl⟩ | ⟨l', rfl⟩
    · refine ⟨by simp [nameKind]; rfl, fun _ => rfl, by simp [nKey], fun _ _ => rfl⟩
    · refine ⟨by simp [nameKind]; rfl, fun hb => absurd hb (show ¬ dmpIn "samples" = true by decide),
        by simp [nKey], fun h1 h2 => ?_⟩
      change (if samples.length = 1 ∨ n = 1 then _ else _) = _
      rw [if_neg (by simp [h1, h2])]
    · refine ⟨by simp [nameKind]; rfl, fun _ => rfl, by simp [nKey], fun _ _ => rfl⟩
    · refine ⟨by simp [nameKind]; rfl, fun hb => absurd hb (show ¬ dmpIn "traj" = true by decide),
        by simp [nKey], fun _ _ => rfl⟩

/-- prepare_optimization. -/
theorem prepare_progress {nSamples : Nat} (law : ∀ (dmp : D) (x y : Fin n → ℝ),
      DmpLike.setParams (DmpLike.setParams dmp x) y = DmpLike.setParams dmp y)
    (task : Task n) (solver : Solver n) (rollout : D → List (List ℝ)) (u : Updater) (dmp0 : D) (save : Bool)
    (draw : Fin nSamples → Fin n → ℝ) (d : Nat → Dist n) (samples : Nat → List (Fin n → ℝ))
    (weights : Nat → List ℝ) (hs : (d 0).generateSamples (List.ofFn draw) = .ok (samples 0))
    (w0 : World (Obj n D)) (hf : w0.files = []) :
    ∃ w all, prepareOptimization task solver (d 0) u (some dmp0) save draw w0 = (.ok (), w) ∧
      DB all w ∧ Progress nSamples task rollout save u dmp0 d samples weights 0 all ∧ ∀ t ∈ all, StepKey 0 t.2 := by
  let kw : List (String × Obj n D) := [("task", .task task), ("task_solver", .solver solver),
    ("distribution_initial", .dist (d 0)), ("updater", .updater u), ("dmp_initial", .dmp dmp0)]
  let ts : List (Obj n D × SKey) := [(.task task, ("task", none, none)),
    (.solver solver, ("task_solver", none, none)),
    (.dist (d 0), ("distribution_initial", none, none)), (.updater u, ("updater", none, none)),
    (.dmp dmp0, ("dmp_initial", none, none))]
  have hts : ∀ t ∈ ts, t = (.task task, ("task", none, none)) ∨
      t = (.solver solver, ("task_solver", none, none)) ∨
      t = (.dist (d 0), ("distribution_initial", none, none)) ∨
      t = (.updater u, ("updater", none, none)) ∨ t = (.dmp dmp0, ("dmp_initial", none, none)) := by
    intro t ht
    simpa [ts] using ht
  have hgood : ∀ t ∈ ts, GoodKey (· = "eval") t.2 := by
    intro t ht
    rcases hts t ht with rfl | rfl | rfl | rfl | rfl <;>
      exact goodKey_step (by simp) (by rintro _ ⟨⟩)
  let wb := blank w0 nSamples true true
  have hwb : TaskDir wb := ⟨blank_ok w0 nSamples true true, rfl, rfl⟩
  have hdb : DB [] wb := ⟨hwb, by simp, by simp, by simp, hf, by
    intro k _ v hv; cases hv⟩
  have hrun : Runs (tellAll ((.int nSamples, nKey) :: ts)) wb (.ok ()) ((.int nSamples, nKey) :: ts) := by
    rw [tellAll_cons]
    refine Runs.tellThen hwb goodKey_n (fun hc => absurd hc
      (show ¬ dmpIn "n_samples_per_update" = true by decide)) fun _ w1 h1 _ h3 => ?_
    refine Runs.tellAll h1 ts hgood ?_ ?_
    · rw [h3]
      simp [writesOf]
    · intro t ht _
      rcases hts t ht with rfl | rfl | rfl | rfl | rfl <;> rfl
  have hmem : ∀ t ∈ (Obj.int nSamples, nKey) :: ts, GoodKey (· = "eval") t.2 ∧
      Storable.kind t.1 = nameKind t.2.1 ∧
      (dmpIn t.2.1 = true → Storable.kind t.1 = .json) ∧
      (t.2 ≠ nKey → Storable.reload t.1 = t.1) ∧ t.2.2.1 = none := by
    intro t ht
    rcases List.mem_cons.mp ht with rfl | ht
    · exact ⟨goodKey_n, by simp [nameKind, nKey]; rfl,
        fun hb => absurd hb (show ¬ dmpIn nKey.1 = true by decide), fun h => absurd rfl h, rfl⟩
    · refine ⟨hgood t ht, ?_⟩
      rcases hts t ht with rfl | rfl | rfl | rfl | rfl <;>
        exact ⟨by simp [nameKind]; rfl, fun _ => rfl, fun _ => rfl, rfl⟩
  obtain ⟨w1, e1, hdb1⟩ := hdb.run hrun (fun t ht => (hmem t ht).1) (fun t ht => (hmem t ht).2.1)
    (fun t ht => (hmem t ht).2.2.1)
  rw [List.nil_append] at hdb1
  have hv : ∀ t ∈ (Obj.int nSamples, nKey) :: ts, val ((.int nSamples, nKey) :: ts) t.2 = some t.1 := by
    intro t ht
    refine val_mem ht fun t' ht' he => ?_
    simp only [List.mem_cons] at ht ht'
    rcases ht with rfl | ht <;> rcases ht' with rfl | ht'
    · rfl
    · rcases hts t' ht' with rfl | rfl | rfl | rfl | rfl <;> simp [nKey] at he
    · rcases hts t ht with rfl | rfl | rfl | rfl | rfl <;> simp [nKey] at he
    · rcases hts t ht with rfl | rfl | rfl | rfl | rfl <;>
        rcases hts t' ht' with rfl | rfl | rfl | rfl | rfl <;> first | rfl | simp at he
  have hini := hdb1.answer ("dmp_initial", none, none) (goodKey_step (by simp) (by rintro _ ⟨⟩))
    (.dmp dmp0) (hv (.dmp dmp0, ("dmp_initial", none, none)) (by simp [ts]))
  have hgen := generate_runs (d 0) (List.ofFn draw) (samples 0) 0 save dmp0 hs w1 hdb1.ok hini
  obtain ⟨v1, v2, v3, v5, v4⟩ := generateTells_val law (d 0) (samples 0) 0 save dmp0
  have hlen : (samples 0).length = nSamples := by
    rw [generateSamples_length hs, List.length_ofFn]
  obtain ⟨w2, e2, hdb2⟩ := hdb1.run hgen (fun t ht => (generateTells_good t ht).1)
    (fun t ht => (v4 t ht).1) (fun t ht => (v4 t ht).2.1)
  refine ⟨w2, _, ?_, hdb2, ?_, fun t ht => ?_⟩
  · unfold prepareOptimization
    have : World.init nSamples true true kw w0 = (.ok (), w1) := by
      rw [init_apply]
      exact e1
    exact (PyM.bind_ok this).trans e2
  · have old : ∀ k' : SKey, k'.2.1 = none →
        val ((Obj.int nSamples, nKey) :: ts ++ generateTells (d 0) (samples 0) 0 save dmp0) k' =
        val ((Obj.int nSamples, nKey) :: ts) k' := by
      intro k' hk'
      refine val_left fun t ht he => ?_
      have := (generateTells_good t ht).2.1
      rw [he, hk'] at this
      cases this
    refine ⟨?_, ?_, ?_, ?_, ?_, ?_, ?_, ?_, ?_, ?_, ?_, ?_, ?_⟩
    · rw [old _ rfl]; exact hv (.int nSamples, nKey) (by simp)
    · rw [old _ rfl]; exact hv (.task task, ("task", none, none)) (by simp [ts])
    · rw [old _ rfl]; exact hv (.updater u, ("updater", none, none)) (by simp [ts])
    · rw [old _ rfl]; exact hv (.dmp dmp0, ("dmp_initial", none, none)) (by simp [ts])
    · intro j hj
      rw [Nat.le_zero.mp hj]
      exact val_right v1
    · intro j hj
      rw [Nat.le_zero.mp hj]
      exact val_right v2
    · intro j hj; omega
    · intro j hj; omega
    · intro j hj l hl
      rw [Nat.le_zero.mp hj]
      exact val_right (v3 l (by rw [hlen]; exact hl))
    · intro hsv j hj l hl
      rw [Nat.le_zero.mp hj]
      exact val_right (v5 hsv l (by rw [hlen]; exact hl))
    · intro j hj; omega
    · intro j hj; omega
    · intro h1 h2 t ht hne
      rcases List.mem_append.mp ht with ht | ht
      · exact (hmem t ht).2.2.2.1 hne
      · exact (v4 t ht).2.2.2 (by rw [hlen]; exact h1) h2
  · rcases List.mem_append.mp ht with ht | ht
    · rcases List.mem_cons.mp ht with rfl | ht
      · exact stepKey_n 0
      · rcases hts t ht with rfl | rfl | rfl | rfl | rfl <;> exact Or.inl ⟨rfl, rfl, by simp⟩
    · exact stepKey_generate rfl (generateTells_good t ht).2.1 (generateTells_good t ht).2.2

/-- One update: the collected costs have the same totals as those of run_optimization_task. -/
theorem collected_costs {nSamples : Nat} (task : Task n) (solver : Solver n)
    (cv : Label → List (List ℝ)) (dm : Label → D) (samples : List (Fin n → ℝ))
    (hlen : samples.length = nSamples)
    (hc : ∀ (k : Nat) x, samples[k]? = some x →
      rolloutCost task cv dm (.int k) = task (solver x) x)
    (hne : ∀ c ∈ samples.map fun x => task (solver x) x, c ≠ []) :
    ((sampleLabels nSamples).flatMap (rolloutTotal task cv dm)).map List.head? =
      (samples.map fun x => task (solver x) x).map List.head? := by
  have e : (sampleLabels nSamples).flatMap (rolloutTotal task cv dm) =
      (List.range nSamples).map fun (i : Nat) => [(rolloutCost task cv dm (.int i)).headD 0] := by
    simp only [sampleLabels, List.flatMap_append, List.flatMap_cons, List.flatMap_nil, rolloutTotal,
      List.append_nil, List.flatMap_map]
    rw [List.map_eq_flatMap]
  rw [e]
  apply List.ext_getElem
  · simp [hlen]
  · intro k h1 h2
    have hk : k < samples.length := by simpa using h2
    have := hc k samples[k] (List.getElem?_eq_getElem hk)
    simp only [List.getElem_map, List.getElem_range, List.head?_cons]
    rw [this]
    have hn := hne (task (solver samples[k]) samples[k]) (by
      rw [List.mem_map]; exact ⟨samples[k], List.getElem_mem hk, rfl⟩)
    cases hcst : task (solver samples[k]) samples[k] with
    | nil => exact absurd hcst hn
    | cons c cs => rfl

/-- One iteration of the loop. -/
def stepIteration {nSamples : Nat} (rollout : D → List (List ℝ)) (argsort : List ℝ → List Nat)
    (save : Bool) (draws : Nat → Fin nSamples → Fin n → ℝ) (reopen : Nat → Bool × Bool) (i : Nat) :
    PyM (World (Obj n D)) Unit := do
  reopenIf (reopen i).1
  performRollouts rollout nSamples i
  reopenIf (reopen i).2
  updateStep argsort i save (List.ofFn (draws (i + 1)))

theorem step_progress {nSamples : Nat} (law : ∀ (dmp : D) (x y : Fin n → ℝ),
      DmpLike.setParams (DmpLike.setParams dmp x) y = DmpLike.setParams dmp y)
    (law2 : ∀ (dmp : D) (x : Fin n → ℝ), DmpLike.getParams (DmpLike.setParams dmp x) = x)
    (task : Task n) (solver : Solver n) (rollout : D → List (List ℝ)) (u : Updater) (dmp0 : D)
    (hroll : ∀ x, solver x = rollout (DmpLike.setParams dmp0 x))
    (argsort : List ℝ → List Nat) (save : Bool) (draws : Nat → Fin nSamples → Fin n → ℝ)
    (reopen : Nat → Bool × Bool) (d : Nat → Dist n) (samples : Nat → List (Fin n → ℝ))
    (weights : Nat → List ℝ) (k : Nat)
    (hstep : IsStep (fun x => task (solver x) x) argsort u (List.ofFn (draws k)) (d k) (samples k)
      (weights k) (d (k + 1)))
    (hnext : (d (k + 1)).generateSamples (List.ofFn (draws (k + 1))) = .ok (samples (k + 1)))
    (hre : (reopen k).1 = true ∨ (reopen k).2 = true → nSamples ≠ 1 ∧ n ≠ 1)
    (w : World (Obj n D)) (all : List (Obj n D × SKey)) (hdb : DB all w)
    (hp : Progress nSamples task rollout save u dmp0 d samples weights k all) (hkeys : ∀ t ∈ all, StepKey k t.2) :
    ∃ w' all', stepIteration rollout argsort save draws reopen k w = (.ok (), w') ∧ DB all' w' ∧
      Progress nSamples task rollout save u dmp0 d samples weights (k + 1) all' ∧ ∀ t ∈ all', StepKey (k + 1) t.2 := by
  let dm : Label → D := fun l => DmpLike.setParams dmp0 (paramsAt (d k) (samples k) l)
  let cv : Label → List (List ℝ) := fun l => rollout (dm l)
  have hlen : (samples k).length = nSamples := by
    rw [generateSamples_length hstep.1, List.length_ofFn]
  have hlen' : (samples (k + 1)).length = nSamples := by
    rw [generateSamples_length hnext, List.length_ofFn]
  -- before the rollouts
  obtain ⟨w1, ts1, e1, hdb1, g1⟩ := reopenIf_progress hp hdb (reopen k).1 (fun h => hre (Or.inl h))
  have hp1 := hp.extend (ts := ts1) (fun t ht => Or.inr (g1 t ht))
  -- rollouts
  let labels : List Label := [.str "eval"] ++ (List.range nSamples).map fun (i : Nat) => Label.int i
  have hlab : ∀ l ∈ labels, l ∈ sampleLabels nSamples := by
    intro l hl
    simp only [labels, sampleLabels, List.mem_append] at hl ⊢
    exact hl.symm
  have hlab' : ∀ l ∈ sampleLabels nSamples, l ∈ labels := by
    intro l hl
    simp only [labels, sampleLabels, List.mem_append] at hl ⊢
    exact hl.symm
  have glab : ∀ l ∈ sampleLabels nSamples, ∀ name ∈ ["dmp", "cost_vars"],
      GoodKey (· = "eval") (name, some (k : Int), some l) := by
    intro l hl name hname
    refine goodKey_step ?_ (by rintro _ ⟨⟩; exact stepLabel_mem hl)
    simp only [List.mem_cons, List.not_mem_nil, or_false] at hname
    rcases hname with rfl | rfl <;> simp
  have hr2 := perform_runs rollout dm (k : Int) labels (fun l hl => stepLabel_mem (hlab l hl)) w1 hdb1.ok
    (fun l hl => hdb1.answer ("dmp", some (k : Int), some l) (glab l (hlab l hl) _ (by simp)) _
      (hp1.dmps k le_rfl l (hlab l hl)))
  have hperf : ∀ t ∈ performTells (n := n) rollout dm (k : Int) labels,
      ∃ l ∈ sampleLabels nSamples, t = (.array (cv l), ("cost_vars", some (k : Int), some l)) := by
    intro t ht
    obtain ⟨l, hl, rfl⟩ := List.mem_map.mp ht
    exact ⟨l, hlab l hl, rfl⟩
  obtain ⟨w2, e2, hdb2⟩ := hdb1.run hr2
    (fun t ht => by
      obtain ⟨l, hl, rfl⟩ := hperf t ht
      exact glab l hl _ (by simp))
    (fun t ht => by
      obtain ⟨l, hl, rfl⟩ := hperf t ht
      simp only [nameKind]
      rfl)
    (fun t ht => by
      obtain ⟨l, hl, rfl⟩ := hperf t ht
      exact fun hb => absurd hb (show ¬ dmpIn "cost_vars" = true by decide))
  have hp2 := hp1.extend (ts := performTells (n := n) rollout dm (k : Int) labels) (fun t ht => by
    obtain ⟨l, hl, rfl⟩ := hperf t ht
    exact Or.inl ⟨rfl, rfl, rfl⟩)
  have hcv : ∀ l ∈ sampleLabels nSamples,
      val (all ++ ts1 ++ performTells (n := n) rollout dm (k : Int) labels)
        ("cost_vars", some (k : Int), some l) = some (.array (cv l)) := by
    intro l hl
    refine val_right ?_
    refine val_mem (t := ((Obj.array (cv l) : Obj n D), ("cost_vars", some (k : Int), some l)))
      (List.mem_map.mpr ⟨l, hlab' l hl, rfl⟩) ?_
    intro t ht he
    obtain ⟨l', hl', rfl⟩ := hperf t ht
    simp only [Prod.mk.injEq, Option.some.injEq, true_and] at he
    rw [he]
  -- before the update
  obtain ⟨w3, ts3, e3, hdb3, g3⟩ := reopenIf_progress hp2 hdb2 (reopen k).2 (fun h => hre (Or.inr h))
  have hp3 := hp2.extend (ts := ts3) (fun t ht => Or.inr (g3 t ht))
  have hcv3 : ∀ l ∈ sampleLabels nSamples,
      val (all ++ ts1 ++ performTells (n := n) rollout dm (k : Int) labels ++ ts3)
        ("cost_vars", some (k : Int), some l) = some (.array (cv l)) := by
    intro l hl
    rw [val_left (fun t ht he => by rw [g3 t ht] at he; simp [nKey] at he)]
    exact hcv l hl
  have hk3 : ∀ t ∈ all ++ ts1 ++ performTells (n := n) rollout dm (k : Int) labels ++ ts3, StepKey (k + 1) t.2 := by
    intro t ht
    simp only [List.mem_append] at ht
    rcases ht with ((ht | ht) | ht) | ht
    · exact (hkeys t ht).next
    · rw [g1 t ht]; exact stepKey_n _
    · obtain ⟨l, hl, rfl⟩ := hperf t ht
      exact Or.inr ⟨k, rfl, by omega, by simp, fun _ => by omega, fun e => by simp at e⟩
    · rw [g3 t ht]; exact stepKey_n _
  revert hdb3 hp3 hcv3 hk3
  generalize all ++ ts1 ++ performTells (n := n) rollout dm (k : Int) labels ++ ts3 = all3
  intro hdb3 hp3 hcv3 hk3
  -- the update
  have gk : ∀ name ∈ ["n_samples_per_update", "task", "task_solver", "distribution_initial",
      "updater", "dmp_initial", "cost_vars", "dmp", "costs", "distribution", "samples", "weights",
      "distribution_new", "traj"], ∀ u : Option Int, GoodKey (· = "eval") (name, u, none) :=
    fun name hn u => goodKey_step hn (by rintro _ ⟨⟩)
  have hreads : StepReads w3 (k : Int) nSamples task u (d k) (samples k) cv dm dmp0 :=
    { number := hdb3.answer nKey goodKey_n _ hp3.number
      task := hdb3.answer ("task", none, none) (gk _ (by simp) _) _ hp3.isTask
      updater := hdb3.answer ("updater", none, none) (gk _ (by simp) _) _ hp3.updater
      initial := hdb3.answer ("dmp_initial", none, none) (gk _ (by simp) _) _ hp3.initial
      dist := hdb3.answer ("distribution", some (k : Int), none) (gk _ (by simp) _) _
        (hp3.dists k le_rfl)
      samples := hdb3.answer ("samples", some (k : Int), none) (gk _ (by simp) _) _
        (hp3.drawn k le_rfl)
      costVars := fun l hl => hdb3.answer ("cost_vars", some (k : Int), some l)
        (glab l hl _ (by simp)) _ (hcv3 l hl)
      dmps := fun l hl => hdb3.answer ("dmp", some (k : Int), some l)
        (glab l hl _ (by simp)) _ (hp3.dmps k le_rfl l hl) }
  have hcost : ∀ (j : Nat) x, (samples k)[j]? = some x →
      rolloutCost task cv dm (.int j) = task (solver x) x := by
    intro j x hx
    have : paramsAt (d k) (samples k) (.int j) = x := by
      simp [paramsAt, hx]
    simp only [rolloutCost, cv, dm, this, law2, hroll]
  have hupd : (u.update argsort (samples k) ((samples k).map fun x => task (solver x) x) (d k)).1 =
      .ok (d (k + 1), weights k) := by rw [hstep.2]
  have hne := update_costs_ne hupd
  have hupd' : (u.update argsort (samples k)
      ((sampleLabels nSamples).flatMap (rolloutTotal task cv dm)) (d k)).1 =
      .ok (d (k + 1), weights k) := by
    rw [update_total_only argsort u (samples k) _ _ (d k)
      (collected_costs task solver cv dm (samples k) hlen hcost hne)]
    exact hupd
  have hnecost : ∀ j, Label.int j ∈ sampleLabels nSamples → rolloutCost task cv dm (.int j) ≠ [] := by
    intro j hj
    have : ∃ i < nSamples, (i : Int) = j := by simpa [sampleLabels] using hj
    obtain ⟨i, hi, rfl⟩ := this
    rw [← hlen] at hi
    rw [hcost i _ (List.getElem?_eq_getElem hi)]
    exact hne _ (List.mem_map.mpr ⟨_, List.getElem_mem hi, rfl⟩)
  have hr4 := updateStep_runs argsort (k : Int) save (List.ofFn (draws (k + 1))) hdb3.ok hreads hnecost
    hupd' hnext
  obtain ⟨v1, v2, v3, v5, v4⟩ := generateTells_val law (d (k + 1)) (samples (k + 1)) ((k : Int) + 1) save dmp0
  have hmem : ∀ t ∈ updateStepTells (k : Int) nSamples task cv dm dmp0 save (d (k + 1)) (weights k)
      (samples (k + 1)), Storable.kind t.1 = nameKind t.2.1 ∧
      (dmpIn t.2.1 = true → Storable.kind t.1 = .json) ∧ t.2 ≠ nKey ∧
      (nSamples ≠ 1 → n ≠ 1 → Storable.reload t.1 = t.1) := by
    intro t ht
    rcases List.mem_append.mp ht with ht | ht
    · obtain ⟨l, hl, rfl⟩ := List.mem_map.mp ht
      exact ⟨by simp [nameKind]; rfl, fun hb => absurd hb (show ¬ dmpIn "costs" = true by decide),
        by simp [nKey], fun _ _ => rfl⟩
    · rcases List.mem_append.mp ht with ht | ht
      · simp only [List.mem_cons, List.not_mem_nil, or_false] at ht
        rcases ht with rfl | rfl
        · exact ⟨by simp [nameKind]; rfl,
            fun hb => absurd hb (show ¬ dmpIn "weights" = true by decide), by simp [nKey], fun _ _ => rfl⟩
        · exact ⟨by simp [nameKind]; rfl, fun _ => rfl, by simp [nKey], fun _ _ => rfl⟩
      · have := v4 t ht
        rw [hlen'] at this
        exact this
  obtain ⟨w4, e4, hdb4⟩ := hdb3.run hr4 (fun t ht => (updateStepTells_good t ht).1)
    (fun t ht => (hmem t ht).1) (fun t ht => (hmem t ht).2.1)
  refine ⟨w4, _, ?_, hdb4, ?_, fun t ht => ?_⟩
  · unfold stepIteration
    rw [PyM.bind_ok e1]
    have e2' : performRollouts rollout nSamples (k : Int) w1 = (.ok (), w2) := e2
    rw [PyM.bind_ok e2', PyM.bind_ok e3, e4]
  · have old : ∀ k' : SKey, ¬ StepWrites k k' →
        val (all3 ++ updateStepTells (k : Int) nSamples task cv dm dmp0 save (d (k + 1)) (weights k)
          (samples (k + 1))) k' = val all3 k' := by
      intro k' hk'
      refine val_left fun t ht he => ?_
      have := (updateStepTells_good t ht).2
      rw [he] at this
      exact hk' this
    have gen : ∀ k' v, val (generateTells (d (k + 1)) (samples (k + 1)) ((k : Int) + 1) save dmp0) k' =
        some v → val (all3 ++ updateStepTells (k : Int) nSamples task cv dm dmp0 save (d (k + 1))
          (weights k) (samples (k + 1))) k' = some v := by
      intro k' v hv
      exact val_right (val_right (val_right hv))
    have mid : ∀ name v, ((v, (name, some (k : Int), none)) : Obj n D × SKey) ∈
        [((.vec (weights k), ("weights", some (k : Int), none)) : Obj n D × SKey),
          (.dist (d (k + 1)), ("distribution_new", some (k : Int), none))] →
        val (all3 ++ updateStepTells (k : Int) nSamples task cv dm dmp0 save (d (k + 1)) (weights k)
          (samples (k + 1))) (name, some (k : Int), none) = some v := by
      intro name v hv
      refine val_right (val_right ?_)
      rw [val_left]
      · refine val_mem (t := (v, (name, some (k : Int), none))) hv ?_
        intro t ht he
        simp only [List.mem_cons, List.not_mem_nil, or_false] at ht hv
        have hw : ("weights" : String) ≠ "distribution_new" := by decide
        rcases hv with hv | hv <;> rcases ht with ht | ht
        · rw [ht, hv]
        · rw [hv, ht] at he
          exact absurd (Prod.mk.inj he).1.symm hw
        · rw [hv, ht] at he
          exact absurd (Prod.mk.inj he).1 hw
        · rw [ht, hv]
      · intro t ht he
        have := (generateTells_good t ht).2.1
        rw [he] at this
        simp at this
    have cast : ((k + 1 : Nat) : Int) = (k : Int) + 1 := by push_cast; rfl
    refine ⟨?_, ?_, ?_, ?_, ?_, ?_, ?_, ?_, ?_, ?_, ?_, ?_, ?_⟩
    · rw [old _ (by simp [StepWrites, nKey])]; exact hp3.number
    · rw [old _ (by simp [StepWrites])]; exact hp3.isTask
    · rw [old _ (by simp [StepWrites])]; exact hp3.updater
    · rw [old _ (by simp [StepWrites])]; exact hp3.initial
    · intro j hj
      by_cases hj' : j = k + 1
      · subst hj'
        rw [cast]
        exact gen _ _ v1
      · rw [old _ (by simp [StepWrites]; omega)]
        exact hp3.dists j (by omega)
    · intro j hj
      by_cases hj' : j = k + 1
      · subst hj'
        rw [cast]
        exact gen _ _ v2
      · rw [old _ (by simp [StepWrites]; omega)]
        exact hp3.drawn j (by omega)
    · intro j hj
      by_cases hj' : j = k
      · subst hj'
        exact mid _ _ (by simp)
      · rw [old _ (by simp [StepWrites]; omega)]
        exact hp3.used j (by omega)
    · intro j hj
      by_cases hj' : j = k
      · subst hj'
        exact mid _ _ (by simp)
      · rw [old _ (by simp [StepWrites]; omega)]
        exact hp3.new j (by omega)
    · intro j hj l hl
      by_cases hj' : j = k + 1
      · subst hj'
        rw [cast]
        exact gen _ _ (v3 l (by rw [hlen']; exact hl))
      · rw [old _ (by simp [StepWrites]; omega)]
        exact hp3.dmps j (by omega) l hl
    · intro hsv j hj l hl
      by_cases hj' : j = k + 1
      · subst hj'
        rw [cast]
        exact gen _ _ (v5 hsv l (by rw [hlen']; exact hl))
      · rw [old _ (by simp [StepWrites]; omega)]
        exact hp3.trajs hsv j (by omega) l hl
    · intro j hj l hl
      rw [old _ (by simp [StepWrites])]
      by_cases hj' : j = k
      · subst hj'
        exact hcv3 l hl
      · exact hp3.rolled j (by omega) l hl
    · intro j hj l hl
      by_cases hj' : j = k
      · subst hj'
        refine val_right ?_
        rw [updateStepTells, val_left]
        · have he : ((Obj.vec (rolloutCost task cv dm l) : Obj n D), ("costs", some (j : Int), some l)) ∈
              evalTells task cv dm (j : Int) (sampleLabels nSamples) := List.mem_map.mpr ⟨l, hl, rfl⟩
          have e0 : rolloutCost task cv dm l = task (rollout (DmpLike.setParams dmp0
              (paramsAt (d j) (samples j) l))) (paramsAt (d j) (samples j) l) := by
            simp only [rolloutCost, cv, dm, law2]
          rw [← e0]
          refine val_mem he fun t ht he' => ?_
          obtain ⟨l', hl', rfl⟩ := List.mem_map.mp ht
          simp only [Prod.mk.injEq, Option.some.injEq, true_and] at he'
          rw [he']
        · intro t ht he
          rcases List.mem_append.mp ht with ht | ht
          · simp only [List.mem_cons, List.not_mem_nil, or_false] at ht
            rcases ht with rfl | rfl <;> simp at he
          · have := (generateTells_good t ht).2.2
            rw [he] at this
            simp at this
      · rw [old _ (by simp [StepWrites]; omega)]
        exact hp3.judged j (by omega) l hl
    · intro h1 h2 t ht hne
      rcases List.mem_append.mp ht with ht | ht
      · exact hp3.stable h1 h2 t ht hne
      · exact (hmem t ht).2.2.2 h1 h2
  · rcases List.mem_append.mp ht with ht | ht
    · exact hk3 t ht
    · rcases List.mem_append.mp ht with ht | ht
      · obtain ⟨l, hl, rfl⟩ := List.mem_map.mp ht
        exact Or.inr ⟨k, rfl, by omega, by simp, fun e => by simp at e, fun _ => by simp⟩
      · rcases List.mem_append.mp ht with ht | ht
        · simp only [List.mem_cons, List.not_mem_nil, or_false] at ht
          rcases ht with rfl | rfl <;>
            exact Or.inr ⟨k, rfl, by omega, by simp, fun e => by simp at e, fun e => by simp at e⟩
        · exact stepKey_generate (by push_cast; rfl) (generateTells_good t ht).2.1 (generateTells_good t ht).2.2

/-- Asking in a session in which `all` was told. -/
theorem DB.asked {all : List (Obj n D × SKey)} {w : World (Obj n D)} (h : DB all w) {name : String}
    {u : Option Int} {s : Option Label} (hk : GoodKey (· = "eval") (name, u, s)) {v : Obj n D}
    (hv : val all (name, u, s) = some v) : Verif.asked w name u s = .ok v := by
  unfold Verif.asked
  obtain ⟨w', e, _⟩ := Runs.askValue (v := v) h.ok (h.answer _ hk v hv)
  rw [e]

theorem generateSamples_ok {d : Dist n} (h : d.bounds ≠ some (none, none))
    (draw : List (Fin n → ℝ)) : ∃ s, d.generateSamples draw = .ok s := by
  unfold Dist.generateSamples
  match hbd : d.bounds with
  | none => exact ⟨_, rfl⟩
  | some (none, none) => exact absurd hbd h
  | some (some _, none) => exact ⟨_, rfl⟩
  | some (none, some _) => exact ⟨_, rfl⟩
  | some (some _, some _) => exact ⟨_, rfl⟩

/-- An update keeps the bounds. -/
theorem update_bounds {argsort : List ℝ → List Nat} {u : Updater} {samples : List (Fin n → ℝ)}
    {costs : List (List ℝ)} {d dNew : Dist n} {wt : List ℝ}
    (h : (u.update argsort samples costs d).1 = .ok (dNew, wt)) : dNew.bounds = d.bounds :=
  (update_ok (Prod.ext h rfl : u.update argsort samples costs d = (.ok (dNew, wt), _))).2.2.2.2

/-- All that the session contains at the end, in the internal form. -/
theorem history_progress {nSamples : Nat} (law : ∀ (dmp : D) (x y : Fin n → ℝ),
      DmpLike.setParams (DmpLike.setParams dmp x) y = DmpLike.setParams dmp y)
    (law2 : ∀ (dmp : D) (x : Fin n → ℝ), DmpLike.getParams (DmpLike.setParams dmp x) = x)
    (task : Task n) (solver : Solver n) (rollout : D → List (List ℝ)) (u : Updater) (dmp0 : D)
    (hroll : ∀ x, solver x = rollout (DmpLike.setParams dmp0 x))
    (argsort : List ℝ → List Nat) (save : Bool) (N : Nat) (draws : Nat → Fin nSamples → Fin n → ℝ)
    (reopen : Nat → Bool × Bool) (d0 : Dist n) (d : Nat → Dist n) (samples : Nat → List (Fin n → ℝ))
    (weights : Nat → List ℝ)
    (h : IsHistory (fun x => task (solver x) x) argsort u d0 N draws d samples weights)
    (hb : d0.bounds ≠ some (none, none))
    (hre : (∃ i < N, (reopen i).1 = true ∨ (reopen i).2 = true) → nSamples ≠ 1 ∧ n ≠ 1)
    (w0 : World (Obj n D)) (hf : w0.files = []) :
    ∃ w all samples', stepByStep task solver rollout argsort u d0 dmp0 save N draws reopen w0 = (.ok (), w) ∧
      (∀ i < N, samples' i = samples i) ∧
      (∀ i ≤ N, (d i).generateSamples (List.ofFn (draws i)) = .ok (samples' i)) ∧
      DB all w ∧ Progress nSamples task rollout save u dmp0 d samples' weights N all ∧ ∀ t ∈ all, StepKey N t.2 := by
  have hbounds : ∀ k ≤ N, (d k).bounds = d0.bounds := by
    intro k
    induction k with
    | zero => intro _; rw [h.start]
    | succ k ih =>
      intro hk
      rw [← ih (by omega)]
      exact update_bounds (by rw [(h.step k (by omega)).2])
  obtain ⟨sN, hsN⟩ := generateSamples_ok (d := d N) (by rw [hbounds N le_rfl]; exact hb)
    (List.ofFn (draws N))
  -- the samples, including those of the last distribution
  let samples' : Nat → List (Fin n → ℝ) := fun i => if i = N then sN else samples i
  have hs' : ∀ i ≤ N, (d i).generateSamples (List.ofFn (draws i)) = .ok (samples' i) := by
    intro i hi
    by_cases hiN : i = N
    · subst hiN; simp only [samples', if_true]; exact hsN
    · simp only [samples', hiN, if_false]
      exact (h.step i (by omega)).1
  have hstep : ∀ i < N, IsStep (fun x => task (solver x) x) argsort u (List.ofFn (draws i)) (d i)
      (samples' i) (weights i) (d (i + 1)) := by
    intro i hi
    have : samples' i = samples i := by simp only [samples', show i ≠ N by omega, if_false]
    rw [this]
    exact h.step i hi
  obtain ⟨w1, all1, e1, hdb1, hp1, hk1⟩ := prepare_progress law task solver rollout u dmp0 save (draws 0) d samples'
    weights (hs' 0 (Nat.zero_le _)) w0 hf
  have loop : ∀ k ≤ N, ∃ w all,
      ((List.range k).forM (stepIteration rollout argsort save draws reopen)) w1 = (.ok (), w) ∧
      DB all w ∧ Progress nSamples task rollout save u dmp0 d samples' weights k all ∧ ∀ t ∈ all, StepKey k t.2 := by
    intro k
    induction k with
    | zero => intro _; exact ⟨w1, all1, rfl, hdb1, hp1, hk1⟩
    | succ k ih =>
      intro hk
      obtain ⟨w, all, e, hdb, hp, hk'⟩ := ih (by omega)
      obtain ⟨w', all', e', hdb', hp', hk''⟩ := step_progress law law2 task solver rollout u dmp0 hroll argsort
        save draws reopen d samples' weights k (hstep k (by omega)) (hs' (k + 1) hk)
        (fun hr => hre ⟨k, by omega, hr⟩) w all hdb hp hk'
      refine ⟨w', all', ?_, hdb', hp', hk''⟩
      rw [List.range_succ]
      simp only [List.forM_eq_forM, List.forM_append, List.forM_cons, List.forM_nil] at e ⊢
      rw [PyM.bind_ok e, PyM.bind_ok e']
      rfl
  obtain ⟨w, all, e, hdb, hp, hkN⟩ := loop N le_rfl
  refine ⟨w, all, samples', ?_, fun i hi => ?_, hs', hdb, hp, hkN⟩
  · unfold stepByStep
    rw [← h.start, PyM.bind_ok e1]
    exact e
  · simp only [samples', show i ≠ N by omega, if_false]

/-- C62, in terms of the history of an optimisation: the session of the step-by-step optimisation
contains the same distributions, samples and weights. `rollout` is `perform_rollout_dmp`. -/
theorem C62_history {nSamples : Nat} (law : ∀ (dmp : D) (x y : Fin n → ℝ),
      DmpLike.setParams (DmpLike.setParams dmp x) y = DmpLike.setParams dmp y)
    (law2 : ∀ (dmp : D) (x : Fin n → ℝ), DmpLike.getParams (DmpLike.setParams dmp x) = x)
    (task : Task n) (solver : Solver n) (rollout : D → List (List ℝ)) (u : Updater) (dmp0 : D)
    (hroll : ∀ x, solver x = rollout (DmpLike.setParams dmp0 x))
    (argsort : List ℝ → List Nat) (save : Bool) (N : Nat) (draws : Nat → Fin nSamples → Fin n → ℝ)
    (reopen : Nat → Bool × Bool) (d0 : Dist n) (d : Nat → Dist n) (samples : Nat → List (Fin n → ℝ))
    (weights : Nat → List ℝ)
    (h : IsHistory (fun x => task (solver x) x) argsort u d0 N draws d samples weights)
    (hb : d0.bounds ≠ some (none, none))
    (hre : (∃ i < N, (reopen i).1 = true ∨ (reopen i).2 = true) → nSamples ≠ 1 ∧ n ≠ 1)
    (w0 : World (Obj n D)) (hf : w0.files = []) :
    ∃ w, stepByStep task solver rollout argsort u d0 dmp0 save N draws reopen w0 = (.ok (), w) ∧
      (∀ i : Nat, i ≤ N → asked w "distribution" (some i) none = .ok (.dist (d i))) ∧
      ∀ i : Nat, i < N → asked w "samples" (some i) none = .ok (.samples (samples i)) ∧
        asked w "weights" (some i) none = .ok (.vec (weights i)) ∧
        asked w "distribution_new" (some i) none = .ok (.dist (d (i + 1))) := by
  obtain ⟨w, all, samples', e, hsame, -, hdb, hp, -⟩ := history_progress law law2 task solver rollout u dmp0
    hroll argsort save N draws reopen d0 d samples weights h hb hre w0 hf
  refine ⟨w, e, ?_, ?_⟩
  · intro i hi
    exact hdb.asked (goodKey_step (by simp) (by rintro _ ⟨⟩)) (hp.dists i hi)
  · intro i hi
    refine ⟨?_, ?_, ?_⟩
    · rw [← hsame i hi]
      exact hdb.asked (goodKey_step (by simp) (by rintro _ ⟨⟩)) (hp.drawn i (by omega))
    · exact hdb.asked (goodKey_step (by simp) (by rintro _ ⟨⟩)) (hp.used i hi)
    · exact hdb.asked (goodKey_step (by simp) (by rintro _ ⟨⟩)) (hp.new i hi)

/-- What the session answers for each rollout of update `i`: the evaluation rollout has the mean as
parameters, the other ones the samples. -/
def ForRollouts (w : World (Obj n D)) (name : String) (i : Nat) (d : Dist n) (samples : List (Fin n → ℝ))
    (value : (Fin n → ℝ) → Obj n D) : Prop :=
  Verif.asked w name (some (i : Int)) (some (.str "eval")) = .ok (value d.mean) ∧
  ∀ (k : Nat) (x : Fin n → ℝ), samples[k]? = some x →
    Verif.asked w name (some (i : Int)) (some (.int k)) = .ok (value x)

theorem DB.forRollouts {all : List (Obj n D × SKey)} {w : World (Obj n D)} (h : DB all w) {name : String}
    (hn : name ∈ ["cost_vars", "dmp", "costs", "traj"])
    {i : Nat} {d : Dist n} {samples : List (Fin n → ℝ)} {nSamples : Nat} (hl : samples.length = nSamples)
    {value : (Fin n → ℝ) → Obj n D}
    (hv : ∀ l ∈ sampleLabels nSamples, val all (name, some (i : Int), some l) =
      some (value (paramsAt d samples l))) : ForRollouts w name i d samples value := by
  have hg : ∀ l ∈ sampleLabels nSamples, GoodKey (· = "eval") (name, some (i : Int), some l) := by
    intro l hl
    refine goodKey_step ?_ (by rintro _ ⟨⟩; exact stepLabel_mem hl)
    simp only [List.mem_cons, List.not_mem_nil, or_false] at hn
    rcases hn with rfl | rfl | rfl | rfl <;> simp
  constructor
  · have he : (Label.str "eval") ∈ sampleLabels nSamples := by simp [sampleLabels]
    exact h.asked (hg _ he) (hv _ he)
  · intro k x hx
    have hk : k < samples.length := (List.getElem?_eq_some_iff.mp hx).1
    have he : (Label.int k) ∈ sampleLabels nSamples := by
      simp only [sampleLabels, List.mem_append, List.mem_map, List.mem_range]
      exact Or.inl ⟨k, hl ▸ hk, rfl⟩
    have := h.asked (hg _ he) (hv _ he)
    rw [this]
    simp [paramsAt, hx]

/-- C62: the dmps, trajectories, cost-relevant variables and costs of all updates that are stored. The
dmps (and trajectories) of the last update, of which no rollouts are performed any more, are stored
too. The costs are those of the task for the rollouts with the parameters of the stored dmps; those of
the evaluation rollout are stored, although they are not used for the update. -/
theorem C62_files {nSamples : Nat} (law : ∀ (dmp : D) (x y : Fin n → ℝ),
      DmpLike.setParams (DmpLike.setParams dmp x) y = DmpLike.setParams dmp y)
    (law2 : ∀ (dmp : D) (x : Fin n → ℝ), DmpLike.getParams (DmpLike.setParams dmp x) = x)
    (task : Task n) (solver : Solver n) (rollout : D → List (List ℝ)) (u : Updater) (dmp0 : D)
    (hroll : ∀ x, solver x = rollout (DmpLike.setParams dmp0 x))
    (argsort : List ℝ → List Nat) (save : Bool) (N : Nat) (draws : Nat → Fin nSamples → Fin n → ℝ)
    (reopen : Nat → Bool × Bool) (d0 : Dist n) (d : Nat → Dist n) (samples : Nat → List (Fin n → ℝ))
    (weights : Nat → List ℝ)
    (h : IsHistory (fun x => task (solver x) x) argsort u d0 N draws d samples weights)
    (hb : d0.bounds ≠ some (none, none))
    (hre : (∃ i < N, (reopen i).1 = true ∨ (reopen i).2 = true) → nSamples ≠ 1 ∧ n ≠ 1)
    (w0 : World (Obj n D)) (hf : w0.files = []) :
    ∃ w, stepByStep task solver rollout argsort u d0 dmp0 save N draws reopen w0 = (.ok (), w) ∧
      (∀ i : Nat, i ≤ N → ∃ s, (d i).generateSamples (List.ofFn (draws i)) = .ok s ∧
        asked w "samples" (some i) none = .ok (.samples s) ∧
        ForRollouts w "dmp" i (d i) s (fun x => .dmp (DmpLike.setParams dmp0 x)) ∧
        (save = true →
          ForRollouts w "traj" i (d i) s (fun x => .array (DmpLike.trajMatrix n (DmpLike.setParams dmp0 x))))) ∧
      ∀ i : Nat, i < N →
        ForRollouts w "cost_vars" i (d i) (samples i) (fun x => .array (solver x)) ∧
        ForRollouts w "costs" i (d i) (samples i) (fun x => .vec (task (solver x) x)) := by
  obtain ⟨w, all, samples', e, hsame, hs, hdb, hp, -⟩ := history_progress law law2 task solver rollout u dmp0
    hroll argsort save N draws reopen d0 d samples weights h hb hre w0 hf
  have hlen : ∀ i ≤ N, (samples' i).length = nSamples := fun i hi => by
    rw [generateSamples_length (hs i hi), List.length_ofFn]
  refine ⟨w, e, fun i hi => ⟨samples' i, hs i hi,
    hdb.asked (goodKey_step (by simp) (by rintro _ ⟨⟩)) (hp.drawn i hi),
    hdb.forRollouts (by simp) (hlen i hi) (hp.dmps i hi),
    fun hsv => hdb.forRollouts (by simp) (hlen i hi) (hp.trajs hsv i hi)⟩, fun i hi => ?_⟩
  rw [← hsame i hi]
  simp only [hroll]
  exact ⟨hdb.forRollouts (by simp) (hlen i hi.le) (hp.rolled i hi),
    hdb.forRollouts (by simp) (hlen i hi.le) (hp.judged i hi)⟩

/-- C62: step-by-step optimisation (rollouts being performed with the dmps stored in the session)
leads to the same distributions, samples and weights as run_optimization_task with the same random
draws. The session may be re-opened (by another process) at any time, unless there is only one
sample or one parameter. -/
theorem C62_same {nSamples : Nat} (law : ∀ (dmp : D) (x y : Fin n → ℝ),
      DmpLike.setParams (DmpLike.setParams dmp x) y = DmpLike.setParams dmp y)
    (law2 : ∀ (dmp : D) (x : Fin n → ℝ), DmpLike.getParams (DmpLike.setParams dmp x) = x)
    (task : Task n) (solver : Solver n) (rollout : D → List (List ℝ)) (u : Updater) (dmp0 : D)
    (hroll : ∀ x, solver x = rollout (DmpLike.setParams dmp0 x))
    (argsort : List ℝ → List Nat) (save hasDir : Bool) (N : Nat)
    (draws : Nat → Fin nSamples → Fin n → ℝ) (reopen : Nat → Bool × Bool) (d0 dN : Dist n)
    (wm0 wm : World (Obj n D))
    (h : runOptimizationTask task solver argsort u d0 N hasDir draws wm0 = (.ok dN, wm))
    (hb : d0.bounds ≠ some (none, none))
    (hre : (∃ i < N, (reopen i).1 = true ∨ (reopen i).2 = true) → nSamples ≠ 1 ∧ n ≠ 1)
    (w0 : World (Obj n D)) (hf : w0.files = []) :
    ∃ w, stepByStep task solver rollout argsort u d0 dmp0 save N draws reopen w0 = (.ok (), w) ∧
      asked w "distribution" (some N) none = .ok (.dist dN) ∧
      ∀ i : Nat, i < N → ∀ name ∈ ["distribution", "samples", "weights", "distribution_new"],
        asked w name (some i) none = asked wm name (some i) none ∧
        ∃ v, asked wm name (some i) none = .ok v := by
  obtain ⟨d, samples, weights, h0, hN, hi, _⟩ :=
    C55_history_task task solver argsort u d0 dN N hasDir draws wm0 wm h
  have hh : IsHistory (fun x => task (solver x) x) argsort u d0 N draws d samples weights :=
    ⟨h0, fun i hlt => ⟨(hi i hlt).1, (hi i hlt).2.1⟩⟩
  obtain ⟨w, e1, e2, e3⟩ := C62_history law law2 task solver rollout u dmp0 hroll argsort save N draws
    reopen d0 d samples weights hh hb hre w0 hf
  refine ⟨w, e1, by rw [e2 N le_rfl, hN], fun i hlt name hname => ?_⟩
  obtain ⟨_, _, a1, a2, _, a4, a5, _⟩ := hi i hlt
  obtain ⟨b1, b2, b3⟩ := e3 i hlt
  simp only [List.mem_cons, List.not_mem_nil, or_false] at hname
  rcases hname with rfl | rfl | rfl | rfl
  · exact ⟨(e2 i (by omega)).trans a1.symm, _, a1⟩
  · exact ⟨b1.trans a2.symm, _, a2⟩
  · exact ⟨b2.trans a4.symm, _, a4⟩
  · exact ⟨b3.trans a5.symm, _, a5⟩

theorem bind_ok_inv {σ A B : Type} {m : PyM σ A} {f : A → PyM σ B} {s s' : σ} {b : B}
    (h : (m >>= f) s = (.ok b, s')) : ∃ a s1, m s = (.ok a, s1) ∧ f a s1 = (.ok b, s') := by
  rw [PyM.bind_apply] at h
  rcases hm : m s with ⟨r, s1⟩
  rw [hm] at h
  cases r with
  | ok a => exact ⟨a, s1, rfl, h⟩
  | error e => cases h

/-- The last update of a step-by-step optimisation, with re-opened session. -/
theorem stepByStep_last {nSamples : Nat} {task : Task n} {solver : Solver n}
    {rollout : D → List (List ℝ)} {u : Updater} {dmp0 : D} {argsort : List ℝ → List Nat}
    {save : Bool} {draws : Nat → Fin nSamples → Fin n → ℝ} {reopen : Nat → Bool × Bool} {d0 : Dist n}
    {w0 w : World (Obj n D)} (hr : (reopen 0).2 = true)
    (h : stepByStep task solver rollout argsort u d0 dmp0 save 1 draws reopen w0 = (.ok (), w)) :
    ∃ w', stepProcess argsort ((0 : Nat) : Int) save (List.ofFn (draws 1)) w' = (.ok (), w) := by
  unfold stepByStep at h
  obtain ⟨_, s1, -, h⟩ := bind_ok_inv h
  change (stepIteration rollout argsort save draws reopen 0 >>= fun _ => pure PUnit.unit) s1 = _ at h
  obtain ⟨_, s2, h1, h2⟩ := bind_ok_inv h
  obtain ⟨_, rfl⟩ := Prod.mk.inj h2
  unfold stepIteration at h1
  obtain ⟨_, s3, -, h⟩ := bind_ok_inv h1
  obtain ⟨_, s4, -, h⟩ := bind_ok_inv h
  refine ⟨s4, ?_⟩
  rw [hr] at h
  exact h

/-- The first write operation of a process that runs update_step. -/
theorem stepProcess_first {argsort : List ℝ → List Nat} {i : Int} {save : Bool}
    {draw : List (Fin n → ℝ)} {w w1 : World (Obj n D)}
    (h : stepProcess argsort i save draw w = (.ok (), w1)) :
    ∃ e, e :: w.files <:+ w1.files := by
  unfold stepProcess at h
  rcases fromDir_apply w with ⟨e, h1, h2⟩ | ⟨v, m, h1, h2⟩
  · rw [PyM.bind_error h1] at h
    cases h
  · rw [PyM.bind_ok (fromDir_opened h1 h2)] at h
    obtain ⟨r', wa, _, log, e1, _, _, _, e5, _, e7⟩ :=
      sim_updateStep argsort i save draw (opened m w) (opened m w)
        ⟨opened_taskDir m w, opened_taskDir m w, fun _ _ _ => rfl⟩ trivial trivial
    rw [h] at e1
    obtain ⟨rfl, rfl⟩ := Prod.mk.inj e1
    exact ⟨_, log, by rw [e5, opened_files]⟩

end

/-- A dmp that consists of its parameters. -/
noncomputable def paramDmp : DmpLike 2 (Fin 2 → ℝ) where
  setParams _ x := x
  getParams x := x
  trajMatrix x := [[x 0, x 1], [x 1, x 0]]

/-- The step-by-step optimisation of the following examples. -/
theorem stepByStep_example (N : Nat) (w0 : World (Obj 2 (Fin 2 → ℝ))) (hf : w0.files = []) (draws : Nat → Fin 3 → Fin 2 → ℝ) :
    letI := paramDmp
    ∃ w, stepByStep (nSamples := 3) (D := Fin 2 → ℝ) (fun cv x => [(cv.map List.sum).sum, x 0])
      (fun x => [[x 0, x 1], [1, x 1]]) (fun dmp => [[dmp 0, dmp 1], [1, dmp 1]]) (fun _ => [])
      ⟨.float 10, "PI-BB", .decay (9 / 10)⟩ ⟨fun _ => 5, 1, none⟩ (fun _ => 5) true N draws
      (fun _ => (true, true)) w0 = (.ok (), w) := by
  letI := paramDmp
  obtain ⟨dN, w, h⟩ := C55_succeeds (D := Fin 2 → ℝ)
    (fun x => [((([[x 0, x 1], [1, x 1]] : List (List ℝ)).map List.sum).sum), x 0]) (fun _ => [])
    ⟨.float 10, "PI-BB", .decay (9 / 10)⟩
    ⟨fun _ => 5, 1, none⟩ N true draws w0 (by norm_num) (by simp) (by simp) (by simp) (by simp)
    (fun samples w d => ⟨_, rfl⟩)
  obtain ⟨d, samples, weights, hh, _⟩ := runOptimization_ok h
  obtain ⟨w', e, _⟩ := C62_history (D := Fin 2 → ℝ) (fun _ _ _ => rfl) (fun _ _ => rfl)
    (fun cv x => [(cv.map List.sum).sum, x 0]) (fun x => [[x 0, x 1], [1, x 1]]) (fun dmp => [[dmp 0, dmp 1], [1, dmp 1]]) _ (fun _ => 5)
    (fun _ => rfl) _ true N draws (fun _ => (true, true)) _ d samples weights hh (by simp)
    (fun _ => by norm_num) w0 hf
  exact ⟨w', e⟩

/-- Hypotheses of the theorems above, with the session re-opened each time. -/
example (w0 : World (Obj 2 (Fin 2 → ℝ))) (hf : w0.files = []) (draws : Nat → Fin 3 → Fin 2 → ℝ) :=
  stepByStep_example 4 w0 hf draws

/-- Hypotheses of C61_repeat: a process that successfully runs update_step, interrupted after its
first write operation; and one that fails since there is no session. -/
example (draws : Nat → Fin 3 → Fin 2 → ℝ) :
    letI := paramDmp
    (∃ w w1 crashed : World (Obj 2 (Fin 2 → ℝ)),
      stepProcess (fun _ => []) 0 true (List.ofFn (draws 1)) w = (.ok (), w1) ∧
      w.files <:+ crashed.files ∧ crashed.files <:+ w1.files ∧ crashed.files ≠ w.files) ∧
    (∃ w w1 : World (Obj 2 (Fin 2 → ℝ)), ∃ e,
      stepProcess (fun _ => []) 0 true (List.ofFn (draws 1)) w = (.error e, w1)) := by
  letI := paramDmp
  constructor
  · obtain ⟨w, h⟩ := stepByStep_example 1 ⟨0, true, true, [], none, [], []⟩ rfl draws
    obtain ⟨w', h⟩ := stepByStep_last rfl h
    obtain ⟨e, he⟩ := stepProcess_first h
    refine ⟨w', w, { w' with files := e :: w'.files }, h, List.suffix_cons _ _, he, ?_⟩
    simp
  · refine ⟨⟨0, true, true, [], none, [], []⟩, ⟨0, true, true, [], none, [], []⟩, .ioError, ?_⟩
    rfl

end Verif
