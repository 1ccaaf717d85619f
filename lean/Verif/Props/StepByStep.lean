import Verif.Proofs.StepByStep

/- C61, C62: step-by-step optimisation. -/

set_option autoImplicit false

namespace Verif

open Spec

noncomputable section

variable {n : Nat} {D : Type} [DmpLike n D]

/-! ### What the steps do -/

theorem step_names : ∀ name ∈ ["n_samples_per_update", "task", "task_solver", "distribution_initial",
    "updater", "dmp_initial", "cost_vars", "dmp", "costs", "distribution", "samples", "weights",
    "distribution_new", "traj"],
    GoodName (· = "eval") name ∧ ¬ "cpp".toList <:+ name.toList := by
  intro name h
  simp only [List.mem_cons, List.not_mem_nil, or_false] at h
  rcases h with rfl | rfl | rfl | rfl | rfl | rfl | rfl | rfl | rfl | rfl | rfl | rfl | rfl | rfl <;>
    exact ⟨goodName_of (by rfl) (by decide) (by decide) (by decide) (by decide) (by decide), by decide⟩

/-- The labels in use. -/
def StepLabel (l : Label) : Prop := ∀ s, l = .str s → s = "eval"

theorem stepLabel_mem {k : Nat} {l : Label} (h : l ∈ sampleLabels k) : StepLabel l := by
  intro s hs
  subst hs
  simpa [sampleLabels] using h

theorem goodKey_step {name : String} {u : Option Int} {s : Option Label}
    (h : name ∈ ["n_samples_per_update", "task", "task_solver", "distribution_initial",
    "updater", "dmp_initial", "cost_vars", "dmp", "costs", "distribution", "samples", "weights",
    "distribution_new", "traj"]) (hs : ∀ l, s = some l → StepLabel l) :
    GoodKey (· = "eval") (name, u, s) where
  name := (step_names name h).1
  sample := by
    match s with
    | none => trivial
    | some (.int i) => trivial
    | some (.str l) => exact hs _ rfl l rfl
  cpp := (step_names name h).2

/-- A key that is not told keeps its answer. -/
theorem toldAnswer_other {V : Type} [Storable V] {a : Key → Except PyErr V} {ts : List (V × SKey)} {k : SKey}
    (hk : GoodKey (· = "eval") k) (hg : ∀ t ∈ ts, GoodKey (· = "eval") t.2)
    (hne : ∀ t ∈ ts, t.2 ≠ k) : toldAnswer a ts k.base = a k.base :=
  toldAnswer_notMem fun t ht e => hne t ht ((hg t ht).base_inj goodLabels_eval hk e)

theorem Runs.askAs {α : Type} {get : Obj n D → Option α} {w : World (Obj n D)} (h : TaskDir w)
    {name : String} {u : Option Int} {s : Option Label} {v : Obj n D} {a : α}
    (hv : w.answer (baseName name u s) = .ok v) (hg : get v = some a) :
    Runs (Verif.askAs get name u s) w (.ok a) [] := by
  unfold Verif.askAs
  have := Runs.bind (f := fun x => match get x with
    | some a => Pure.pure a
    | none => PyM.raise .typeError) (Runs.askValue h hv) (r := .ok a) (ts' := []) (by
      intro w' hw' _ _
      simp only [hg]
      exact Runs.pure hw' a)
  exact this

/-- Sequencing, where the result of the first program does not matter. -/
theorem Runs.then {α β : Type} {m : PyM (World (Obj n D)) α} {f : α → PyM (World (Obj n D)) β}
    {w : World (Obj n D)} {a : α} {r : Except PyErr β} {ts' : List (Obj n D × SKey)}
    (h : Runs m w (.ok a) [])
    (hf : ∀ w', TaskDir w' → (∀ k, GoodKey (· = "eval") k → w'.answer k.base = w.answer k.base) →
      w'.files = w.files → Runs (f a) w' r ts') : Runs (m >>= f) w r ts' := by
  have := Runs.bind h (ts' := ts') (r := r) (f := f) fun w' h1 h2 h3 =>
    hf w' h1 h2 (by simpa using h3)
  simpa using this

/-- The costs of the rollout with a label. -/
def rolloutCost (task : Task n) (cv : Label → List (List ℝ)) (dm : Label → D) (l : Label) : List ℝ :=
  task (cv l) (DmpLike.getParams (dm l))

/-- What update_step collects for a label: nothing for "eval". -/
def rolloutTotal (task : Task n) (cv : Label → List (List ℝ)) (dm : Label → D) :
    Label → List (List ℝ)
  | .str _ => []
  | .int i => [[(rolloutCost task cv dm (.int i)).headD 0]]

/-- What update_step tells while evaluating. -/
def evalTells (task : Task n) (cv : Label → List (List ℝ)) (dm : Label → D) (i : Int)
    (labels : List Label) : List (Obj n D × SKey) :=
  labels.map fun l => (.vec (rolloutCost task cv dm l), ("costs", some i, some l))

theorem evalTells_good {task : Task n} {cv : Label → List (List ℝ)} {dm : Label → D} {i : Int}
    {labels : List Label} (hl : ∀ l ∈ labels, StepLabel l) :
    ∀ t ∈ evalTells task cv dm i labels, GoodKey (· = "eval") t.2 ∧ ∃ l ∈ labels,
      t.2 = ("costs", some i, some l) := by
  intro t ht
  obtain ⟨l, h1, rfl⟩ := List.mem_map.mp ht
  exact ⟨goodKey_step (by simp) (by rintro _ ⟨⟩; exact hl l h1), l, h1, rfl⟩

theorem evaluate_runs (task : Task n) (cv : Label → List (List ℝ)) (dm : Label → D) (i : Int)
    (labels : List Label) (hl : ∀ l ∈ labels, StepLabel l) (w : World (Obj n D)) (h : TaskDir w)
    (hcv : ∀ l ∈ labels, w.answer (baseName "cost_vars" (some i) (some l)) = .ok (.array (cv l)))
    (hdm : ∀ l ∈ labels, w.answer (baseName "dmp" (some i) (some l)) = .ok (.dmp (dm l)))
    (hne : ∀ j, Label.int j ∈ labels → rolloutCost task cv dm (.int j) ≠ [])
    (acc : List (List ℝ)) :
    Runs (labels.foldlM (evaluateRollout task i) acc) w
      (.ok (acc ++ labels.flatMap (rolloutTotal task cv dm))) (evalTells task cv dm i labels) := by
  induction labels generalizing w acc with
  | nil => simpa [evalTells] using Runs.pure h acc
  | cons l labels ih =>
    rw [List.foldlM_cons]
    have hlab := hl l (by simp)
    have key : ∀ name ∈ ["cost_vars", "dmp", "costs"],
        GoodKey (· = "eval") (name, some i, some l) := by
      intro name hname
      refine goodKey_step ?_ (by rintro _ ⟨⟩; exact hlab)
      simp only [List.mem_cons, List.not_mem_nil, or_false] at hname
      rcases hname with rfl | rfl | rfl <;> simp
    have h1 : Runs (evaluateRollout task i acc l) w (.ok (acc ++ rolloutTotal task cv dm l))
        [(.vec (rolloutCost task cv dm l), ("costs", some i, some l))] := by
      unfold evaluateRollout
      refine Runs.then (Runs.askAs h (hcv l (by simp)) rfl) fun w1 h1 a1 f1 => ?_
      refine Runs.then (Runs.askAs (v := .dmp (dm l)) h1 ?_ rfl) fun w2 h2 a2 f2 => ?_
      · exact (a1 ("dmp", some i, some l) (key _ (by simp))).trans (hdm l (by simp))
      · have ht := Runs.tell (v := (Obj.vec (rolloutCost task cv dm l) : Obj n D))
          (k := ("costs", some i, some l)) h2 (key _ (by simp))
          (fun hc => absurd hc (show ¬ dmpIn "costs" = true by decide))
        have := Runs.bind (r := .ok (acc ++ rolloutTotal task cv dm l)) (ts' := []) (f := fun _ =>
          match l with
          | .str _ => (pure acc : PyM (World (Obj n D)) (List (List ℝ)))
          | .int _ => match rolloutCost task cv dm l with
            | [] => PyM.raise .indexError
            | total :: _ => pure (acc ++ [[total]])) ht ?_
        · exact this
        · intro w3 h3 _ _
          match l, hne with
          | .str s, _ => simpa [rolloutTotal] using Runs.pure h3 acc
          | .int j, hne =>
            have := hne j (by simp)
            simp only [rolloutTotal]
            cases hc : rolloutCost task cv dm (.int j) with
            | nil => exact absurd hc this
            | cons total rest =>
              simp only [List.headD_cons]
              exact Runs.pure h3 _
    have := Runs.bind h1 (f := fun acc => labels.foldlM (evaluateRollout task i) acc)
      (r := .ok (acc ++ (l :: labels).flatMap (rolloutTotal task cv dm)))
      (ts' := evalTells task cv dm i labels) fun w' hw' ha hf => ?_
    · simpa [evalTells] using this
    · rw [List.flatMap_cons, ← List.append_assoc]
      have same : ∀ name ∈ ["cost_vars", "dmp"], ∀ l' ∈ labels,
          w'.answer (baseName name (some i) (some l')) = w.answer (baseName name (some i) (some l')) := by
        intro name hname l' hl'
        have hgk : GoodKey (· = "eval") (name, some i, some l') := by
          refine goodKey_step ?_ (by rintro _ ⟨⟩; exact hl l' (by simp [hl']))
          simp only [List.mem_cons, List.not_mem_nil, or_false] at hname
          rcases hname with rfl | rfl <;> simp
        refine (ha (name, some i, some l') hgk).trans ?_
        refine toldAnswer_other hgk (by
          intro t ht
          rw [List.mem_singleton.mp ht]
          exact key _ (by simp)) ?_
        intro t ht
        rw [List.mem_singleton.mp ht]
        simp only [List.mem_cons, List.not_mem_nil, or_false] at hname
        rcases hname with rfl | rfl <;> simp
      refine ih (fun l' hl' => hl l' (by simp [hl'])) w' hw' ?_ ?_ ?_ _
      · intro l' hl'
        rw [same _ (by simp) l' hl']
        exact hcv l' (by simp [hl'])
      · intro l' hl'
        rw [same _ (by simp) l' hl']
        exact hdm l' (by simp [hl'])
      · intro j hj
        exact hne j (by simp [hj])

/-- The parameters for a label. -/
def paramsAt (d : Dist n) (samples : List (Fin n → ℝ)) : Label → Fin n → ℝ
  | .str _ => d.mean
  | .int i => samples.getD i.toNat d.mean

theorem labelParams_ok {d : Dist n} {samples : List (Fin n → ℝ)} {l : Label}
    (h : l ∈ sampleLabels samples.length) :
    labelParams d samples l = .ok (paramsAt d samples l) := by
  match l, h with
  | .str s, _ => rfl
  | .int i, h =>
    have : ∃ j < samples.length, (j : Int) = i := by simpa [sampleLabels] using h
    obtain ⟨j, hj, rfl⟩ := this
    simp [labelParams, paramsAt, List.getElem?_eq_getElem hj]

/-- What _generate_samples tells about the dmps. -/
def storeTells (d : Dist n) (samples : List (Fin n → ℝ)) (i : Int) (save : Bool) :
    D → List Label → List (Obj n D × SKey)
  | _, [] => []
  | dmp, l :: ls =>
    let dmp' := DmpLike.setParams dmp (paramsAt d samples l)
    ((.dmp dmp', ("dmp", some i, some l)) ::
      (if save then [(.array (DmpLike.trajMatrix n dmp'), ("traj", some i, some l))] else [])) ++
      storeTells d samples i save dmp' ls

theorem storeTells_good {d : Dist n} {samples : List (Fin n → ℝ)} {i : Int} {save : Bool} {dmp : D}
    {labels : List Label} (hl : ∀ l ∈ labels, StepLabel l) :
    ∀ t ∈ storeTells d samples i save dmp labels, GoodKey (· = "eval") t.2 ∧ ∃ l ∈ labels,
      t.2 = ("dmp", some i, some l) ∨ t.2 = ("traj", some i, some l) := by
  induction labels generalizing dmp with
  | nil => intro t ht; cases ht
  | cons l ls ih =>
    intro t ht
    have hlab := hl l (by simp)
    have key : ∀ name ∈ ["dmp", "traj"], GoodKey (· = "eval") (name, some i, some l) := by
      intro name hname
      refine goodKey_step ?_ (by rintro _ ⟨⟩; exact hlab)
      simp only [List.mem_cons, List.not_mem_nil, or_false] at hname
      rcases hname with rfl | rfl <;> simp
    simp only [storeTells, List.cons_append, List.mem_cons, List.mem_append] at ht
    rcases ht with rfl | ht | ht
    · exact ⟨key _ (by simp), l, by simp, Or.inl rfl⟩
    · cases save with
      | false => simp at ht
      | true =>
        simp only [if_true, List.mem_singleton] at ht
        subst ht
        exact ⟨key _ (by simp), l, by simp, Or.inr rfl⟩
    · obtain ⟨h1, l', h2, h3⟩ := ih (fun l hl' => hl l (by simp [hl'])) t ht
      exact ⟨h1, l', by simp [h2], h3⟩

theorem dir_update {name : String} {i : Int} {s : Option Label}
    (h : GoodKey (· = "eval") (name, some i, s)) :
    (SKey.base (name, some i, s)).parts.dropLast = ["update" ++ padInt 5 i] := by
  have hs := good_simple goodLabels_eval h.name h.sample
  change (baseName name (some i) s).parts.dropLast = _
  rw [baseName_update _ _ _ hs]
  rfl

theorem store_runs (d : Dist n) (samples : List (Fin n → ℝ)) (i : Int) (save : Bool) (dmp : D)
    (labels : List Label) (hl : ∀ l ∈ labels, l ∈ sampleLabels samples.length)
    (w : World (Obj n D)) (h : TaskDir w)
    (hdir : ∃ f v, (f, v) ∈ w.files ∧ f.parts.dropLast = ["update" ++ padInt 5 i]) :
    Runs (labels.foldlM (storeDmp d samples i save) dmp) w
      (.ok (labels.foldl (fun dmp l => DmpLike.setParams dmp (paramsAt d samples l)) dmp))
      (storeTells d samples i save dmp labels) := by
  induction labels generalizing w dmp with
  | nil => exact Runs.pure h dmp
  | cons l labels ih =>
    have hlab := stepLabel_mem (hl l (by simp))
    have key : ∀ name ∈ ["dmp", "traj"], GoodKey (· = "eval") (name, some i, some l) := by
      intro name hname
      refine goodKey_step ?_ (by rintro _ ⟨⟩; exact hlab)
      simp only [List.mem_cons, List.not_mem_nil, or_false] at hname
      rcases hname with rfl | rfl <;> simp
    let dmp1 := DmpLike.setParams dmp (paramsAt d samples l)
    have h1 : Runs (storeDmp d samples i save dmp l) w (.ok dmp1)
        ((.dmp dmp1, ("dmp", some i, some l)) ::
          (if save then [(.array (DmpLike.trajMatrix n dmp1), ("traj", some i, some l))] else [])) := by
      unfold storeDmp
      refine Runs.then (Runs.lift h (labelParams_ok (hl l (by simp)))) fun w1 h1 a1 f1 => ?_
      have hde : w1.dirExists (SKey.base ("dmp", some i, some l)).parts.dropLast = true := by
        obtain ⟨f, v, hf, hp⟩ := hdir
        rw [dir_update (key _ (by simp)), ← hp]
        exact dirExists_of_mem (v := v) (by rw [f1]; exact hf)
      have ht := Runs.tell (v := (Obj.dmp dmp1 : Obj n D))
        (k := ("dmp", some i, some l)) h1 (key _ (by simp)) (fun _ => hde)
      refine Runs.bind ht (ts' := if save then
        [(.array (DmpLike.trajMatrix n dmp1), ("traj", some i, some l))] else []) fun w2 h2 a2 f2 => ?_
      cases save with
      | false => exact Runs.pure h2 dmp1
      | true =>
        have ht2 := Runs.tell (v := (Obj.array (DmpLike.trajMatrix n dmp1) : Obj n D))
          (k := ("traj", some i, some l)) h2 (key _ (by simp))
          (fun hc => absurd hc (show ¬ dmpIn "traj" = true by decide))
        have := Runs.bind ht2 (f := fun _ => (pure dmp1 : PyM (World (Obj n D)) D)) (r := .ok dmp1)
          (ts' := []) fun w3 h3 _ _ => Runs.pure h3 dmp1
        simpa [-bind_pure_comp] using this
    rw [List.foldlM_cons]
    refine Runs.bind h1 fun w' g1 g2 g3 => ?_
    obtain ⟨f, v, hf, hp⟩ := hdir
    exact ih dmp1 (fun l' hl' => hl l' (by simp [hl'])) w' g1
      ⟨f, v, by rw [g3]; exact List.mem_append_right _ hf, hp⟩

/-- What _generate_samples tells. -/
def generateTells (d : Dist n) (samples : List (Fin n → ℝ)) (i : Int) (save : Bool) (dmp : D) :
    List (Obj n D × SKey) :=
  [(.dist d, ("distribution", some i, none)), (.samples samples, ("samples", some i, none))] ++
    storeTells d samples i save dmp (sampleLabels samples.length)

theorem generateTells_good {d : Dist n} {samples : List (Fin n → ℝ)} {i : Int} {save : Bool} {dmp : D} :
    ∀ t ∈ generateTells d samples i save dmp, GoodKey (· = "eval") t.2 ∧ t.2.2.1 = some i ∧
      (t.2.1 = "distribution" ∨ t.2.1 = "samples" ∨ t.2.1 = "dmp" ∨ t.2.1 = "traj") := by
  intro t ht
  rcases List.mem_append.mp ht with ht | ht
  · simp only [List.mem_cons, List.not_mem_nil, or_false] at ht
    rcases ht with rfl | rfl
    · exact ⟨goodKey_step (by simp) (by rintro _ ⟨⟩), rfl, by simp⟩
    · exact ⟨goodKey_step (by simp) (by rintro _ ⟨⟩), rfl, by simp⟩
  · obtain ⟨h1, l, h2, h3⟩ := storeTells_good (fun l hl => stepLabel_mem hl) t ht
    rcases h3 with h3 | h3 <;> exact ⟨h1, by rw [h3], by rw [h3]; simp⟩

theorem generate_runs (d : Dist n) (draw samples : List (Fin n → ℝ)) (i : Int) (save : Bool) (dmp : D)
    (hs : d.generateSamples draw = .ok samples) (w : World (Obj n D)) (h : TaskDir w)
    (hdmp : w.answer (baseName "dmp_initial" none none) = .ok (.dmp dmp)) :
    Runs (generateSamplesStep d draw i save) w (.ok ()) (generateTells d samples i save dmp) := by
  unfold generateSamplesStep
  have g1 : GoodKey (· = "eval") ("distribution", some i, none) :=
    goodKey_step (by simp) (by rintro _ ⟨⟩)
  have g2 : GoodKey (· = "eval") ("samples", some i, none) :=
    goodKey_step (by simp) (by rintro _ ⟨⟩)
  have g3 : GoodKey (· = "eval") ("dmp_initial", none, none) :=
    goodKey_step (by simp) (by rintro _ ⟨⟩)
  refine Runs.then (Runs.lift h hs) fun w1 h1 a1 f1 => ?_
  refine Runs.tellThen h1 g1 (fun hc => absurd hc (show ¬ dmpIn "distribution" = true by decide))
    fun _ w2 h2 a2 f2 => ?_
  refine Runs.tellThen h2 g2 (fun hc => absurd hc (show ¬ dmpIn "samples" = true by decide))
    fun _ w3 h3 a3 f3 => ?_
  have hdmp3 : w3.answer (SKey.base ("dmp_initial", none, none)) = .ok (.dmp dmp) := by
    rw [a3 _ g3, toldAnswer_other g3 (by simpa using g2) (by simp), a2 _ g3,
      toldAnswer_other g3 (by simpa using g1) (by simp), a1 _ g3]
    exact hdmp
  refine Runs.then (Runs.askAs h3 hdmp3 rfl) fun w4 h4 a4 f4 => ?_
  have hst := store_runs d samples i save dmp (sampleLabels samples.length) (fun _ h => h) w4 h4
    ⟨⟨(SKey.base ("samples", some i, none)).parts, .txt⟩, .samples samples, by
      rw [f4]
      exact mem_files (t := (Obj.samples samples, ("samples", some i, none))) f3 (by simp),
      dir_update g2⟩
  have := Runs.bind hst (f := fun _ => (pure () : PyM (World (Obj n D)) Unit)) (r := .ok ())
    (ts' := []) fun w5 h5 _ _ => Runs.pure h5 ()
  simpa [-bind_pure_comp] using this

/-- What is read by update_step. -/
structure StepReads (w : World (Obj n D)) (i : Int) (nSamples : Nat) (task : Task n) (u : Updater)
    (d : Dist n) (samples : List (Fin n → ℝ)) (cv : Label → List (List ℝ)) (dm : Label → D)
    (dmp0 : D) : Prop where
  number : w.answer (baseName "n_samples_per_update" none none) = .ok (.int nSamples)
  task : w.answer (baseName "task" none none) = .ok (.task task)
  updater : w.answer (baseName "updater" none none) = .ok (.updater u)
  initial : w.answer (baseName "dmp_initial" none none) = .ok (.dmp dmp0)
  dist : w.answer (baseName "distribution" (some i) none) = .ok (.dist d)
  samples : w.answer (baseName "samples" (some i) none) = .ok (.samples samples)
  costVars : ∀ l ∈ sampleLabels nSamples,
    w.answer (baseName "cost_vars" (some i) (some l)) = .ok (.array (cv l))
  dmps : ∀ l ∈ sampleLabels nSamples,
    w.answer (baseName "dmp" (some i) (some l)) = .ok (.dmp (dm l))

/-- What update_step tells. -/
def updateStepTells (i : Int) (nSamples : Nat) (task : Task n) (cv : Label → List (List ℝ))
    (dm : Label → D) (dmp0 : D) (save : Bool) (dNew : Dist n) (weights : List ℝ)
    (samplesNew : List (Fin n → ℝ)) : List (Obj n D × SKey) :=
  evalTells task cv dm i (sampleLabels nSamples) ++
    ([(.vec weights, ("weights", some i, none)), (.dist dNew, ("distribution_new", some i, none))] ++
    generateTells dNew samplesNew (i + 1) save dmp0)

theorem updateStepTells_good {i : Int} {nSamples : Nat} {task : Task n} {cv : Label → List (List ℝ)}
    {dm : Label → D} {dmp0 : D} {save : Bool} {dNew : Dist n} {weights : List ℝ}
    {samplesNew : List (Fin n → ℝ)} :
    ∀ t ∈ updateStepTells i nSamples task cv dm dmp0 save dNew weights samplesNew,
      GoodKey (· = "eval") t.2 ∧
      ((t.2.2.1 = some i ∧ (t.2.1 = "costs" ∨ t.2.1 = "weights" ∨ t.2.1 = "distribution_new")) ∨
      (t.2.2.1 = some (i + 1) ∧
        (t.2.1 = "distribution" ∨ t.2.1 = "samples" ∨ t.2.1 = "dmp" ∨ t.2.1 = "traj"))) := by
  intro t ht
  rcases List.mem_append.mp ht with ht | ht
  · obtain ⟨h1, l, h2, h3⟩ := evalTells_good (fun l hl => stepLabel_mem hl) t ht
    exact ⟨h1, Or.inl ⟨by rw [h3], by rw [h3]; simp⟩⟩
  · rcases List.mem_append.mp ht with ht | ht
    · simp only [List.mem_cons, List.not_mem_nil, or_false] at ht
      rcases ht with rfl | rfl
      · exact ⟨goodKey_step (by simp) (by rintro _ ⟨⟩), Or.inl ⟨rfl, by simp⟩⟩
      · exact ⟨goodKey_step (by simp) (by rintro _ ⟨⟩), Or.inl ⟨rfl, by simp⟩⟩
    · obtain ⟨h1, h2, h3⟩ := generateTells_good t ht
      exact ⟨h1, Or.inr ⟨h2, h3⟩⟩

/-- update_step as a function of what it reads. -/
theorem updateStep_runs (argsort : List ℝ → List Nat) (i : Int) (save : Bool)
    (draw : List (Fin n → ℝ)) {w : World (Obj n D)} (h : TaskDir w) {nSamples : Nat} {task : Task n}
    {u : Updater} {d : Dist n} {samples : List (Fin n → ℝ)} {cv : Label → List (List ℝ)}
    {dm : Label → D} {dmp0 : D} (hr : StepReads w i nSamples task u d samples cv dm dmp0)
    (hne : ∀ j, Label.int j ∈ sampleLabels nSamples → rolloutCost task cv dm (.int j) ≠ [])
    {dNew : Dist n} {weights : List ℝ} {samplesNew : List (Fin n → ℝ)}
    (hu : (u.update argsort samples ((sampleLabels nSamples).flatMap (rolloutTotal task cv dm)) d).1 =
      .ok (dNew, weights)) (hs : dNew.generateSamples draw = .ok samplesNew) :
    Runs (updateStep argsort i save draw) w (.ok ())
      (updateStepTells i nSamples task cv dm dmp0 save dNew weights samplesNew) := by
  unfold updateStep
  refine Runs.then (Runs.askAs h hr.number rfl) fun w1 h1 a1 f1 => ?_
  have gk : ∀ name ∈ ["n_samples_per_update", "task", "task_solver", "distribution_initial",
      "updater", "dmp_initial", "cost_vars", "dmp", "costs", "distribution", "samples", "weights",
      "distribution_new", "traj"], ∀ u : Option Int, GoodKey (· = "eval") (name, u, none) :=
    fun name hn u => goodKey_step hn (by rintro _ ⟨⟩)
  have gl : ∀ name ∈ ["n_samples_per_update", "task", "task_solver", "distribution_initial",
      "updater", "dmp_initial", "cost_vars", "dmp", "costs", "distribution", "samples", "weights",
      "distribution_new", "traj"], ∀ l ∈ sampleLabels nSamples,
      GoodKey (· = "eval") (name, some i, some l) :=
    fun name hn l hl => goodKey_step hn (by rintro _ ⟨⟩; exact stepLabel_mem hl)
  refine Runs.then (Runs.askAs h1 ((a1 ("task", none, none) (gk _ (by simp) _)).trans hr.task) rfl)
    fun w2 h2 a2 f2 => ?_
  have a12 : ∀ k, GoodKey (· = "eval") k → w2.answer k.base = w.answer k.base :=
    fun k hk => (a2 k hk).trans (a1 k hk)
  have hev := evaluate_runs task cv dm i (sampleLabels nSamples) (fun l hl => stepLabel_mem hl) w2 h2
    (fun l hl => (a12 ("cost_vars", some i, some l) (gl _ (by simp) l hl)).trans (hr.costVars l hl))
    (fun l hl => (a12 ("dmp", some i, some l) (gl _ (by simp) l hl)).trans (hr.dmps l hl)) hne []
  refine Runs.bind hev fun w3 h3 a3 f3 => ?_
  have hevg := evalTells_good (task := task) (cv := cv) (dm := dm) (i := i)
    (labels := sampleLabels nSamples) (fun l hl => stepLabel_mem hl)
  have a13 : ∀ k, GoodKey (· = "eval") k → k.1 ≠ "costs" → w3.answer k.base = w.answer k.base := by
    intro k hk hc
    rw [a3 k hk, toldAnswer_other hk (fun t ht => (hevg t ht).1) ?_, a12 k hk]
    intro t ht he
    obtain ⟨_, l, _, h3⟩ := hevg t ht
    exact hc (by rw [← he, h3])
  refine Runs.then (Runs.askAs h3 ((a13 ("distribution", some i, none) (gk _ (by simp) _)
    (by simp)).trans hr.dist) rfl) fun w4 h4 a4 f4 => ?_
  refine Runs.then (Runs.askAs h4 (((a4 ("samples", some i, none) (gk _ (by simp) _)).trans
    (a13 _ (gk _ (by simp) _) (by simp))).trans hr.samples) rfl) fun w5 h5 a5 f5 => ?_
  refine Runs.then (Runs.askAs h5 ((((a5 ("updater", none, none) (gk _ (by simp) _)).trans
    (a4 _ (gk _ (by simp) _))).trans (a13 _ (gk _ (by simp) _) (by simp))).trans hr.updater) rfl)
    fun w6 h6 a6 f6 => ?_
  refine Runs.then (Runs.lift h6 (a := (dNew, weights)) (by simpa using hu)) fun w7 h7 a7 f7 => ?_
  have g1 := gk "weights" (by simp) (some i)
  have g2 := gk "distribution_new" (by simp) (some i)
  have g3 := gk "dmp_initial" (by simp) none
  refine Runs.tellThen h7 g1 (fun hc => absurd hc (show ¬ dmpIn "weights" = true by decide))
    fun _ w8 h8 a8 f8 => ?_
  refine Runs.tellThen h8 g2 (fun hc => absurd hc (show ¬ dmpIn "distribution_new" = true by decide))
    fun _ w9 h9 a9 f9 => ?_
  refine generate_runs dNew draw samplesNew (i + 1) save dmp0 hs w9 h9 ?_
  change w9.answer (SKey.base ("dmp_initial", none, none)) = _
  rw [a9 _ g3, toldAnswer_other g3 (by simpa using g2) (by simp), a8 _ g3,
    toldAnswer_other g3 (by simpa using g1) (by simp), a7 _ g3, a6 _ g3, a5 _ g3, a4 _ g3,
    a13 _ g3 (by simp)]
  exact hr.initial

end

end Verif
