import Verif.Props.SessionUpdates

/- C60: the learning curve. -/

set_option autoImplicit false

namespace Verif

open Spec

section
variable {V : Type} [Storable V]

/-- What ask returns for a key. -/
def World.answer (w : World V) (key : Key) : Except PyErr V :=
  match w.cache.lookup key with
  | some r => w.deref r
  | none => if w.hasDir then w.load key else .error .keyError

/-- Two states of a session that cannot be distinguished by asking. -/
structure SameAnswers (w w' : World V) : Prop where
  cacheOk : w'.CacheOk
  answer : ∀ key, w'.answer key = w.answer key
  nSamples : w'.nSamples = w.nSamples
  hasDir : w'.hasDir = w.hasDir
  files : w'.files = w.files
  lastUpdate : w'.lastUpdate = w.lastUpdate

theorem SameAnswers.refl {w : World V} (h : w.CacheOk) : SameAnswers w w :=
  ⟨h, fun _ => rfl, rfl, rfl, rfl, rfl⟩

theorem SameAnswers.trans {w w' w'' : World V} (h : SameAnswers w w') (h' : SameAnswers w' w'') :
    SameAnswers w w'' :=
  ⟨h'.cacheOk, fun k => (h'.answer k).trans (h.answer k), h'.nSamples.trans h.nSamples,
    h'.hasDir.trans h.hasDir, h'.files.trans h.files, h'.lastUpdate.trans h.lastUpdate⟩

/-- Asking returns the answer, and does not change answers. -/
theorem askValue_answer {w : World V} (hw : w.CacheOk) (name : String) (u : Option Int)
    (s : Option Label) : ∃ w', World.askValue name u s w = (w.answer (baseName name u s), w') ∧
      SameAnswers w w' := by
  have grow : ∀ (v : V) (k : Key) (r : Nat), r < w.heap.length →
      World.deref { w with heap := w.heap ++ [v] } r = w.deref r := by
    intro v k r hr
    simp [World.deref, List.getElem?_append_left hr]
  cases hc : w.cache.lookup (baseName name u s) with
  | some r =>
    have hr := hw _ r hc
    have hcv : w.cached (baseName name u s) = some w.heap[r] := by
      simp [World.cached, hc, List.getElem?_eq_getElem hr]
    refine ⟨{ w with heap := w.heap ++ [w.heap[r]] }, ?_, ?_⟩
    · have := World.askValue_cached hcv
      have ha : w.answer (baseName name u s) = .ok w.heap[r] := by
        simp [World.answer, hc, World.deref, List.getElem?_eq_getElem hr]
      rw [ha]
      exact this
    · refine ⟨fun k r' h => ?_, fun k => ?_, rfl, rfl, rfl, rfl⟩
      · have := hw k r' h
        simp only [List.length_append]; omega
      · unfold World.answer
        change (match w.cache.lookup k with
          | some q => World.deref { w with heap := w.heap ++ [w.heap[r]] } q
          | none => if w.hasDir then w.load k else .error .keyError) = _
        cases hk : w.cache.lookup k with
        | none => rfl
        | some r' => exact grow _ k r' (hw k r' hk)
  | none =>
    have ha : w.answer (baseName name u s) =
        if w.hasDir then w.load (baseName name u s) else .error .keyError := by
      simp [World.answer, hc]
    by_cases hd : w.hasDir = true
    · rw [if_pos hd] at ha
      cases hl : w.load (baseName name u s) with
      | error e =>
        rw [ha, hl]
        refine ⟨w, ?_, SameAnswers.refl hw⟩
        unfold World.askValue
        rw [PyM.bind_error (World.ask_dir_missing hc hd hl)]
      | ok v =>
        rw [ha, hl]
        refine ⟨_, World.askValue_dir hc hd hl, ⟨fun k r' h => ?_, fun k => ?_, rfl, rfl, rfl, rfl⟩⟩
        · simp only [List.lookup_cons] at h
          simp only [List.length_append, List.length_singleton]
          by_cases hk : (k == baseName name u s) = true
          · rw [hk] at h
            have : w.heap.length = r' := Option.some.inj h
            omega
          · rw [Bool.eq_false_iff.mpr hk] at h
            have := hw k r' h
            omega
        · unfold World.answer
          simp only [List.lookup_cons]
          by_cases hk : k = baseName name u s
          · subst hk
            simp only [beq_self_eq_true, hc, hd, if_true, hl]
            simp [World.deref]
          · have : (k == baseName name u s) = false := by simpa using hk
            rw [this]
            cases hk' : w.cache.lookup k with
            | none => rfl
            | some r' =>
              simp only
              exact (grow v k r' (hw k r' hk')).trans rfl
    · rw [ha, if_neg hd]
      refine ⟨w, ?_, SameAnswers.refl hw⟩
      unfold World.askValue
      rw [PyM.bind_error (World.ask_no_dir hc (by simpa using hd))]

/-- C56: an object that was not told nor asked before is read from file: from the json file if there is
one, otherwise from the csv file, otherwise from the txt file; if there is none, or no directory, an
error is raised. -/
theorem C56_files {w : World V} (hw : w.CacheOk) (name : String) (u : Option Int) (s : Option Label)
    (hc : w.cache.lookup (baseName name u s) = none) :
    (World.askValue name u s w).1 = if w.hasDir then
      match [Ext.json, Ext.csv, Ext.txt].findSome? fun x => w.read ⟨(baseName name u s).parts, x⟩ with
      | some v => .ok (Storable.reload v)
      | none => .error .ioError
      else .error .keyError := by
  obtain ⟨w', h, -⟩ := askValue_answer hw name u s
  rw [h]
  simp only [World.answer, hc]
  cases w.hasDir with
  | false => rfl
  | true =>
    simp only [if_true, World.load, List.findSome?]
    cases w.read ⟨(baseName name u s).parts, .json⟩ with
    | some v => rfl
    | none =>
      cases w.read ⟨(baseName name u s).parts, .csv⟩ with
      | some v => rfl
      | none => cases w.read ⟨(baseName name u s).parts, .txt⟩ <;> rfl

/-- A session opened in a directory with a csv and a txt file of the same name. -/
example : (World.askValue "a" none none
    ({ nSamples := 1, hasDir := true, task := false, cache := [], lastUpdate := none, heap := [],
       files := [(⟨["a"], .txt⟩, 7), (⟨["a"], .csv⟩, 8)] } : World Nat)).1 = .ok 8 := by
  rw [C56_files (by intro k r h; cases h) _ _ _ rfl]
  decide

/-- exists tells whether ask succeeds. -/
theorem exists_iff {w : World V} (hw : w.CacheOk) (name : String) (u : Option Int)
    (s : Option Label) :
    w.exists name u s = true ↔ ∃ v, w.answer (baseName name u s) = .ok v := by
  unfold World.exists World.answer
  cases hc : w.cache.lookup (baseName name u s) with
  | some r =>
    have hr := hw _ r hc
    simp only [hc, Option.isSome_some, if_true, World.deref, List.getElem?_eq_getElem hr, true_iff]
    exact ⟨_, rfl⟩
  | none =>
    by_cases hd : w.hasDir = true
    · simp only [hc, Option.isSome_none, hd, if_true]
      unfold World.load
      cases h1 : w.read ⟨(baseName name u s).parts, .json⟩ <;>
        cases h2 : w.read ⟨(baseName name u s).parts, .csv⟩ <;>
          cases h3 : w.read ⟨(baseName name u s).parts, .txt⟩ <;> simp
    · simp only [hc, hd]
      simp

theorem SameAnswers.exists {w w' : World V} (hw : w.CacheOk) (h : SameAnswers w w') (name : String)
    (u : Option Int) (s : Option Label) : w'.exists name u s = w.exists name u s := by
  rw [Bool.eq_iff_iff, exists_iff h.cacheOk, exists_iff hw, h.answer]

theorem SameAnswers.getNUpdates {w w' : World V} (h : SameAnswers w w') :
    w'.getNUpdates = w.getNUpdates := by
  unfold World.getNUpdates
  rw [h.hasDir, h.lastUpdate, h.files]

/-- A computation that cannot be noticed by asking, with its result. -/
def PureRun {α : Type} (m : PyM (World V) α) (w : World V) (r : Except PyErr α) : Prop :=
  ∃ w', m w = (r, w') ∧ SameAnswers w w'

theorem PureRun.bind {α β : Type} {m : PyM (World V) α} {f : α → PyM (World V) β} {w : World V} {a : α}
    {r : Except PyErr β} (h : PureRun m w (.ok a)) (hf : ∀ w', SameAnswers w w' → PureRun (f a) w' r) :
    PureRun (m >>= f) w r := by
  obtain ⟨w1, h1, h2⟩ := h
  obtain ⟨w2, h3, h4⟩ := hf w1 h2
  exact ⟨w2, by rw [PyM.bind_ok h1, h3], h2.trans h4⟩

theorem PureRun.pure {α : Type} {w : World V} (hw : w.CacheOk) (a : α) :
    PureRun (V := V) (Pure.pure a) w (.ok a) := ⟨w, rfl, SameAnswers.refl hw⟩

theorem PureRun.mapM {α β : Type} {f : α → PyM (World V) β} {g : α → β} (l : List α) {w : World V}
    (hw : w.CacheOk) (h : ∀ a ∈ l, ∀ w', SameAnswers w w' → PureRun (f a) w' (.ok (g a))) :
    PureRun (l.mapM f) w (.ok (l.map g)) := by
  induction l generalizing w with
  | nil => exact ⟨w, rfl, SameAnswers.refl hw⟩
  | cons a l ih =>
    rw [List.mapM_cons]
    refine PureRun.bind (h a (by simp) w (SameAnswers.refl hw)) fun w1 h1 => ?_
    refine PureRun.bind (ih h1.cacheOk fun b hb w2 h2 => h b (by simp [hb]) w2 (h1.trans h2))
      fun w2 h2 => ?_
    exact ⟨w2, rfl, SameAnswers.refl h2.cacheOk⟩

theorem PureRun.askValue {w : World V} (hw : w.CacheOk) (name : String) (u : Option Int)
    (s : Option Label) : PureRun (World.askValue name u s) w (w.answer (baseName name u s)) :=
  askValue_answer hw name u s

theorem PureRun.self {α : Type} {f : World V → PyM (World V) α} {w : World V} {r : Except PyErr α}
    (h : PureRun (f w) w r) : PureRun (PyM.self >>= f) w r := by
  obtain ⟨w', h1, h2⟩ := h
  exact ⟨w', by rw [PyM.self_bind, h1], h2⟩

/-- The result of asking a session for a value. -/
def World.asks (w : World V) (name : String) (i : Option Int) (s : Option Label) : Except PyErr V :=
  (World.askValue name i s w).1

theorem asks_eq {w : World V} (hw : w.CacheOk) (name : String) (u : Option Int) (s : Option Label) :
    w.asks name u s = w.answer (baseName name u s) := by
  obtain ⟨w', h, -⟩ := askValue_answer hw name u s
  unfold World.asks
  rw [h]

/-- The evaluation costs are looked up with a label, and stored without. -/
theorem evalCost_key (u : Option Int) :
    baseName "cost" u (some (.str "eval")) = baseName "eval_cost" u none := by
  have : sampleName "cost" (some (.str "eval")) = sampleName "eval_cost" none := by
    simp [sampleName]
  unfold baseName
  rw [this]

/-- get_eval_costs with separate evaluations. -/
theorem getEvalCosts_eval {w : World V} (hw : w.CacheOk) {i : Int} {v0 v : V} {r : List ℝ}
    (h0 : w.asks "eval_cost" (some 0) none = .ok v0) (h : w.asks "eval_cost" (some i) none = .ok v)
    (hr : Storable.row v = some r) :
    PureRun (World.getEvalCosts i) w (.ok (r, (i : ℝ) * w.nSamples)) := by
  rw [asks_eq hw] at h0 h
  unfold World.getEvalCosts
  refine PureRun.self ?_
  have hex : w.exists "cost" (some 0) (some (.str "eval")) = true :=
    (exists_iff hw _ _ _).mpr ⟨v0, by rw [evalCost_key]; exact h0⟩
  rw [if_pos hex]
  have ha := PureRun.askValue hw "cost" (some i) (some (.str "eval"))
  rw [evalCost_key, h] at ha
  refine PureRun.bind ha fun w1 h1 => ?_
  simp only [hr]
  refine PureRun.self ?_
  rw [← h1.nSamples]
  exact PureRun.pure h1.cacheOk _

/-- get_sample_costs with all costs in one entry. -/
theorem getSampleCosts_all {w : World V} (hw : w.CacheOk) {i : Int} {v : V} {rows : List (List ℝ)}
    (h : w.asks "costs" (some i) none = .ok v) (hr : Storable.rows v = some rows) :
    PureRun (World.getSampleCosts i) w (.ok rows) := by
  rw [asks_eq hw] at h
  unfold World.getSampleCosts
  refine PureRun.self ?_
  rw [if_pos ((exists_iff hw _ _ _).mpr ⟨v, h⟩)]
  have ha := PureRun.askValue hw "costs" (some i) none
  rw [h] at ha
  refine PureRun.bind ha fun w1 h1 => ?_
  simp only [hr]
  exact PureRun.pure h1.cacheOk _

/-- get_sample_costs with one entry for each sample. -/
theorem getSampleCosts_single {w : World V} (hw : w.CacheOk) {i : Int} {v : Nat → V}
    {rows : Nat → List ℝ} {e : PyErr} (h : w.asks "costs" (some i) none = .error e)
    (hs : ∀ s < w.nSamples, w.asks "costs" (some i) (some (.int s)) = .ok (v s) ∧
      Storable.row (v s) = some (rows s)) :
    PureRun (World.getSampleCosts i) w (.ok ((List.range w.nSamples).map rows)) := by
  rw [asks_eq hw] at h
  unfold World.getSampleCosts
  refine PureRun.self ?_
  have hex : ¬ w.exists "costs" (some i) none = true := by
    rw [exists_iff hw, h]
    simp
  rw [if_neg hex]
  refine PureRun.self ?_
  refine PureRun.mapM _ hw fun s hsm w1 h1 => ?_
  obtain ⟨a, b⟩ := hs s (List.mem_range.mp hsm)
  rw [asks_eq hw, ← h1.answer] at a
  have ha := PureRun.askValue h1.cacheOk "costs" (some i) (some (.int s))
  rw [a] at ha
  refine PureRun.bind ha fun w2 h2 => ?_
  simp only [b]
  exact PureRun.pure h2.cacheOk _

/-- get_eval_costs without separate evaluations. -/
theorem getEvalCosts_mean {w : World V} (hw : w.CacheOk) {i : Int} {rows : List (List ℝ)} {e : PyErr}
    (h0 : w.asks "eval_cost" (some 0) none = .error e)
    (h : PureRun (World.getSampleCosts i) w (.ok rows)) (hne : rows ≠ []) :
    PureRun (World.getEvalCosts i) w (.ok (meanRows rows, ((i : ℝ) + 1 / 2) * w.nSamples)) := by
  rw [asks_eq hw] at h0
  unfold World.getEvalCosts
  refine PureRun.self ?_
  have hex : ¬ w.exists "cost" (some 0) (some (.str "eval")) = true := by
    rw [exists_iff hw, evalCost_key, h0]
    simp
  rw [if_neg hex]
  refine PureRun.bind h fun w1 h1 => ?_
  simp only [if_neg hne]
  refine PureRun.self ?_
  rw [← h1.nSamples]
  exact PureRun.pure h1.cacheOk _

/-- get_learning_curve from the costs of each update. -/
theorem getLearningCurve_of {w : World V} (hw : w.CacheOk) {N : Nat} {c : Nat → List ℝ} {x : Nat → ℝ}
    (hN : w.getNUpdates = .ok (some (N : Int)))
    (h : ∀ i < N, ∀ w', SameAnswers w w' → PureRun (World.getEvalCosts (i : Int)) w' (.ok (c i, x i))) :
    PureRun World.getLearningCurve w (.ok ((List.range N).map fun i => x i :: c i)) := by
  unfold World.getLearningCurve
  refine PureRun.self ?_
  rw [hN]
  obtain ⟨w', h1, h2⟩ := PureRun.mapM (f := fun (i : Nat) => (do
      let (costs, iSample) ← World.getEvalCosts (V := V) (i : Int)
      return iSample :: costs : PyM (World V) (List ℝ))) (g := fun i => x i :: c i) (List.range N) hw
    (fun i hi w' h' => PureRun.bind (h i (List.mem_range.mp hi) w' h') fun w1 h1 =>
      PureRun.pure h1.cacheOk _)
  refine ⟨w', ?_, h2⟩
  rw [PyM.lift_ok_bind]
  exact h1

/-! ### C60 -/

/-- C60: if there are separate evaluations, row `i` of the learning curve contains the number of
samples before update `i`, i.e. `i * n_samples_per_update`, and the costs of evaluation `i`. The
number of rows is the one returned by get_n_updates. Holds for any session, also if it was
re-opened and the values are read from file. -/
theorem C60_evaluations (w : World V) (hw : w.CacheOk) (N : Nat)
    (hN : w.getNUpdates = .ok (some (N : Int))) (v : Nat → V) (c : Nat → List ℝ)
    (h : ∀ i : Nat, i < N → w.asks "eval_cost" (some i) none = .ok (v i) ∧
      Storable.row (v i) = some (c i)) :
    ∃ w', World.getLearningCurve w =
      (.ok ((List.range N).map fun i => ((i * w.nSamples : Nat) : ℝ) :: c i), w') ∧
      SameAnswers w w' := by
  have := getLearningCurve_of hw (c := c) (x := fun i => ((i * w.nSamples : Nat) : ℝ)) hN
    fun i hi w' h' => by
      have tr : ∀ j : Nat, j < N → w'.asks "eval_cost" (some j) none = .ok (v j) := fun j hj => by
        rw [asks_eq h'.cacheOk, h'.answer, ← asks_eq hw]; exact (h j hj).1
      have h0 := tr 0 (by omega)
      have := getEvalCosts_eval h'.cacheOk (i := (i : Int)) h0 (tr i hi) (h i hi).2
      rw [h'.nSamples] at this
      simpa using this
  exact this

/-- C60: get_eval_cost_before_after returns the first evaluation and the one numbered
`get_n_updates() - 1`; get_cost_ratio is the ratio of the total costs. -/
theorem C60_before_after (w : World V) (hw : w.CacheOk) (N : Int) (v v' : V) (c c' : List ℝ)
    (hN : w.getNUpdates = .ok (some N)) (h : w.asks "eval_cost" (some 0) none = .ok v)
    (hc : Storable.row v = some c) (h' : w.asks "eval_cost" (some (N - 1)) none = .ok v')
    (hc' : Storable.row v' = some c') :
    (World.getEvalCostBeforeAfter w).1 = .ok (c, c') ∧
    (∀ (b a : ℝ) cs cs', c = b :: cs → c' = a :: cs' → b ≠ 0 →
      (World.getCostRatio w).1 = .ok (a / b)) := by
  have key : PureRun World.getEvalCostBeforeAfter w (.ok (c, c')) := by
    unfold World.getEvalCostBeforeAfter
    refine PureRun.bind (getEvalCosts_eval hw h h hc) fun w1 h1 => ?_
    refine PureRun.self ?_
    rw [h1.getNUpdates, hN]
    have tr : ∀ name u s, w1.asks name u s = w.asks name u s := fun name u s => by
      rw [asks_eq h1.cacheOk, h1.answer, ← asks_eq hw]
    have := getEvalCosts_eval h1.cacheOk (i := N - 1) ((tr _ _ _).trans h) ((tr _ _ _).trans h') hc'
    obtain ⟨w2, e2, s2⟩ := this
    refine ⟨w2, ?_, s2⟩
    rw [PyM.lift_ok_bind]
    simp only
    rw [PyM.bind_ok e2]
    rfl
  obtain ⟨w1, e1, -⟩ := key
  refine ⟨by rw [e1], ?_⟩
  rintro b a cs cs' rfl rfl hb
  unfold World.getCostRatio
  rw [PyM.bind_ok e1]
  simp only [if_neg hb]
  rfl

/-- The mean over samples, for each component of the costs. -/
structure Spec.IsMean (rows : List (List ℝ)) (m : List ℝ) : Prop where
  length : ∀ r ∈ rows, r.length = m.length
  mean : ∀ j (hj : j < m.length), m[j] * rows.length = (rows.map fun r => r.getD j 0).sum

theorem isMean_meanRows {rows : List (List ℝ)} {k : Nat} (hne : rows ≠ [])
    (h : ∀ r ∈ rows, r.length = k) : IsMean rows (meanRows rows) := by
  have hl : (meanRows rows).length = k := by
    cases rows with
    | nil => exact absurd rfl hne
    | cons r rows => simp [meanRows, h r (by simp)]
  refine ⟨fun r hr => by rw [hl]; exact h r hr, fun j hj => ?_⟩
  have : (rows.length : ℝ) ≠ 0 := by
    rw [Nat.cast_ne_zero]
    exact fun h => hne (List.eq_nil_of_length_eq_zero h)
  simp only [meanRows, List.getElem_map, List.getElem_range]
  field_simp

/-- C60: if there are no separate evaluations, row `i` contains the number of samples up to the
middle of update `i`, i.e. `(i + 1/2) * n_samples_per_update`, and the means of the costs over
the samples, which are all stored together, or one by one. -/
theorem C60_means (w : World V) (hw : w.CacheOk) (N : Nat) (e : PyErr)
    (hN : w.getNUpdates = .ok (some (N : Int))) (rows : Nat → List (List ℝ)) (k : Nat)
    (h0 : w.asks "eval_cost" (some 0) none = .error e)
    (hr : ∀ i < N, rows i ≠ [] ∧ ∀ r ∈ rows i, r.length = k)
    (h : ∀ i : Nat, i < N →
      (∃ v, w.asks "costs" (some i) none = .ok v ∧ Storable.rows v = some (rows i)) ∨
      ((∃ e, w.asks "costs" (some i) none = .error e) ∧ (rows i).length = w.nSamples ∧
        ∀ s : Nat, s < w.nSamples → ∃ v, w.asks "costs" (some i) (some (.int s)) = .ok v ∧
          Storable.row v = (rows i)[s]?)) :
    ∃ (w' : World V) (m : Nat → List ℝ), World.getLearningCurve w =
      (.ok ((List.range N).map fun (i : Nat) => ((i : ℝ) + 1 / 2) * w.nSamples :: m i), w') ∧
      (∀ i < N, IsMean (rows i) (m i)) ∧ SameAnswers w w' := by
  have := getLearningCurve_of hw (c := fun i => meanRows (rows i))
    (x := fun i => ((i : ℝ) + 1 / 2) * w.nSamples) hN
    fun i hi w' h' => by
      have tr : ∀ name u s, w'.asks name u s = w.asks name u s := fun name u s => by
        rw [asks_eq h'.cacheOk, h'.answer, ← asks_eq hw]
      have hs : PureRun (World.getSampleCosts (i : Int)) w' (.ok (rows i)) := by
        rcases h i hi with ⟨v, hv, hvr⟩ | ⟨⟨e, he⟩, hl, hv⟩
        · exact getSampleCosts_all h'.cacheOk ((tr _ _ _).trans hv) hvr
        · have hv' : ∀ s : Nat, ∃ v, s < w.nSamples → w.asks "costs" (some i) (some (.int s)) = .ok v ∧
              Storable.row v = some ((rows i).getD s []) := by
            intro s
            by_cases hs : s < w.nSamples
            · obtain ⟨v, a, b⟩ := hv s hs
              refine ⟨v, fun _ => ⟨a, ?_⟩⟩
              rw [b, List.getD_eq_getElem?_getD, List.getElem?_eq_getElem (by omega)]
              rfl
            · exact ⟨Storable.ofNat 0, fun h => absurd h hs⟩
          choose v hv using hv'
          have := getSampleCosts_single h'.cacheOk (v := v) (rows := fun s => (rows i).getD s [])
            ((tr _ _ _).trans he) (fun s hs => by
              rw [h'.nSamples] at hs
              exact ⟨(tr _ _ _).trans (hv s hs).1, (hv s hs).2⟩)
          rw [h'.nSamples, ← hl] at this
          have e2 : (List.range (rows i).length).map (fun s => (rows i).getD s []) = rows i := by
            apply List.ext_getElem
            · simp
            · intro j h1 h2
              simp [List.getElem?_eq_getElem h2]
          rw [e2] at this
          exact this
      have := getEvalCosts_mean h'.cacheOk ((tr _ _ _).trans h0) hs (hr i hi).1
      rw [h'.nSamples] at this
      simpa using this
  obtain ⟨w', h1, h2⟩ := this
  exact ⟨w', _, h1, fun i hi => isMean_meanRows (hr i hi).1 (hr i hi).2, h2⟩

end

/-- C60: the abscissas are strictly increasing, if there are samples. -/
theorem C60_increasing (N nSamples : Nat) (c : Nat → List ℝ) (hn : 0 < nSamples) :
    (((List.range N).map fun (i : Nat) => ((i * nSamples : Nat) : ℝ) :: c i).map fun row =>
      row.headD 0).Pairwise (· < ·) ∧
    (((List.range N).map fun (i : Nat) => ((i : ℝ) + 1 / 2) * nSamples :: c i).map fun row =>
      row.headD 0).Pairwise (· < ·) := by
  have hn' : (0 : ℝ) < nSamples := by exact_mod_cast hn
  constructor
  · rw [List.map_map, List.pairwise_map]
    refine List.pairwise_lt_range.imp fun {a b} hab => ?_
    simp only [Function.comp_apply, List.headD_cons]
    have : a * nSamples < b * nSamples := Nat.mul_lt_mul_of_pos_right hab hn
    exact_mod_cast this
  · rw [List.map_map, List.pairwise_map]
    refine List.pairwise_lt_range.imp fun {a b} hab => ?_
    simp only [Function.comp_apply, List.headD_cons]
    have : (a : ℝ) < b := by exact_mod_cast hab
    nlinarith

/-- C60 for run_optimization: the learning curve has one row less than there are updates (see C59),
row `i` contains `i * n_samples_per_update` and the costs of the mean of distribution `i`. -/
theorem C60_run {n : Nat} {D : Type} {nSamples : Nat} (f : (Fin n → ℝ) → List ℝ)
    (argsort : List ℝ → List Nat) (u : Updater) (d0 dN : Dist n) (N : Nat) (hasDir : Bool)
    (draws : Nat → Fin nSamples → Fin n → ℝ) (w0 w : World (Obj n D)) (hf : w0.files = [])
    (h0 : 0 < N) (hN : hasDir = true → N ≤ 100000)
    (h : runOptimization f argsort u d0 N hasDir draws w0 = (.ok dN, w)) :
    ∃ (d : Nat → Dist n) (w' : World (Obj n D)), World.getLearningCurve w =
      (.ok ((List.range (N - 1)).map fun i => ((i * nSamples : Nat) : ℝ) :: f (d i).mean), w') ∧
      ∀ i : Nat, i < N → w.asks "distribution" (some i) none = .ok (.dist (d i)) := by
  have hnu := (C59_run_partial f argsort u d0 dN N hasDir draws w0 w hf h).1 h0 hN
  obtain ⟨d, samples, weights, -, -, hstep, -⟩ := C55_history f argsort u d0 dN N hasDir draws w0 w h
  obtain ⟨d', s', w'', -, -, hw⟩ := runOptimization_ok h
  have hok : w.CacheOk := by
    rw [hw]; exact afterAll_cacheOk (blank_ok _ _ _ _) _
  have hns : w.nSamples = nSamples := by
    rw [hw]; exact (afterAll_fields _ _).2.2.1
  obtain ⟨w', h1, -⟩ := C60_evaluations w hok (N - 1) hnu (fun i => .vec (f (d i).mean))
    (fun i => f (d i).mean) (fun i hi => ⟨(hstep i (by omega)).2.2.2.2.2.2.2.2, rfl⟩)
  rw [hns] at h1
  exact ⟨d, w', h1, fun i hi => (hstep i hi).2.2.1⟩

/-- get_eval_cost_before_after after run_optimization: because of C59 the second value is the cost
of the mean before the last update but one, not of the last one. -/
theorem C60_before_after_run {n : Nat} {D : Type} {nSamples : Nat} (f : (Fin n → ℝ) → List ℝ)
    (argsort : List ℝ → List Nat) (u : Updater) (d0 dN : Dist n) (N : Nat) (hasDir : Bool)
    (draws : Nat → Fin nSamples → Fin n → ℝ) (w0 w : World (Obj n D)) (hf : w0.files = [])
    (h0 : 2 ≤ N) (hN : hasDir = true → N ≤ 100000)
    (h : runOptimization f argsort u d0 N hasDir draws w0 = (.ok dN, w)) :
    ∃ d, w.asks "distribution" (some ((N - 2 : Nat) : Int)) none = .ok (.dist d) ∧
      (World.getEvalCostBeforeAfter w).1 = .ok (f d0.mean, f d.mean) := by
  have hnu := (C59_run_partial f argsort u d0 dN N hasDir draws w0 w hf h).1 (by omega) hN
  obtain ⟨d, samples, weights, hd0, -, hstep, -⟩ :=
    C55_history f argsort u d0 dN N hasDir draws w0 w h
  obtain ⟨d', s', w'', -, -, hw⟩ := runOptimization_ok h
  have hok : w.CacheOk := by
    rw [hw]; exact afterAll_cacheOk (blank_ok _ _ _ _) _
  have e0 := (hstep 0 (by omega)).2.2.2.2.2.2.2.2
  have e1 := (hstep (N - 2) (by omega)).2.2.2.2.2.2.2.2
  have e2 : ((N - 1 : Nat) : Int) - 1 = ((N - 2 : Nat) : Int) := by omega
  have := C60_before_after w hok _ _ _ _ _ hnu e0 rfl (by rw [e2]; exact e1) rfl
  rw [hd0] at this
  exact ⟨d (N - 2), (hstep (N - 2) (by omega)).2.2.1, this.1⟩

/-- A session with two samples per update, of which only the costs are stored. -/
def costsOnly : World (Obj 1 Unit) :=
  ⟨2, false, false, [(baseName "costs" (some 0) none, 0)], some 1, [.costs [[1], [2]]], []⟩

/-- Hypotheses of `C60_means`. -/
example : costsOnly.CacheOk ∧ costsOnly.getNUpdates = .ok (some ((1 : Nat) : Int)) ∧
    costsOnly.asks "eval_cost" (some 0) none = .error .keyError ∧
    costsOnly.asks "costs" (some 0) none = .ok (.costs [[1], [2]]) := by
  have hok : costsOnly.CacheOk := by
    intro k r h
    simp only [costsOnly, List.lookup_cons, List.lookup_nil] at h
    by_cases hk : (k == baseName "costs" (some 0) none) = true
    · rw [hk] at h
      have : 0 = r := Option.some.inj h
      subst this
      simp [costsOnly]
    · rw [Bool.eq_false_iff.mpr hk] at h
      cases h
  refine ⟨hok, rfl, ?_, ?_⟩
  · rw [asks_eq hok]
    have : (baseName "eval_cost" (some 0) none == baseName "costs" (some 0) none) = false := by decide
    simp only [World.answer, costsOnly, List.lookup_cons, this, List.lookup_nil]
    rfl
  · rw [asks_eq hok]
    simp [World.answer, costsOnly, World.deref]

end Verif
