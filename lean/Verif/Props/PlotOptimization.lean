import Verif.Model.PlotOptimization
import Verif.Props.StepEquals
import Verif.Props.SessionPlots
import Verif.Props.Exploration

/- C113: what plot_optimization.py shows after a step-by-step optimisation. -/

set_option autoImplicit false

namespace Verif

open Spec

noncomputable section

variable {n : Nat} {D : Type} [DmpLike n D]

/-! ### The session that is opened again -/

theorem fromDir_nSamples {V : Type} [Storable V] {w w' : World V} {v : V} {k : Nat}
    (hr : w.read ⟨["n_samples_per_update"], .txt⟩ = some v) (hk : Storable.toNat (Storable.reload v) = some k)
    (h : World.fromDir true w = (.ok (), w')) : w'.nSamples = k := by
  unfold World.fromDir at h
  rw [PyM.self_bind, hr] at h
  simp only [hk] at h
  rw [init_nil] at h
  rw [← (Prod.mk.inj h).2]
  rfl

theorem initEntry : ∀ name ∈ ["n_samples_per_update", "task", "task_solver", "distribution_initial", "updater",
    "dmp_initial"], ∀ e : Ext, isUpdateEntry (name ++ e.str) = false ∧
      isUpdateEntry ((name ++ "_for_cpp") ++ e.str) = false := by
  intro name h e
  simp only [List.mem_cons, List.not_mem_nil, or_false] at h
  rcases h with rfl | rfl | rfl | rfl | rfl | rfl <;> cases e <;> decide

theorem isUpdateEntry_pad (i : Nat) : isUpdateEntry ("update" ++ pad 5 i) = true := by
  unfold isUpdateEntry
  have hne := pad_ne 5 i
  rw [String.toList_append]
  cases hp : (pad 5 i).toList with
  | nil => exact absurd hp hne
  | cons c cs =>
    have : c.isDigit = true := pad_digits 5 i c (by rw [hp]; simp)
    have e : "update".toList = ['u', 'p', 'd', 'a', 't', 'e'] := by decide
    rw [e]
    exact this

/-- The entries of the directory for a key. -/
theorem writesOf_entry {V : Type} [Storable V] {t : V × SKey} (hg : GoodKey (· = "eval") t.2) {N : Nat}
    (hk : StepKey N t.2) {e : File × V} (he : e ∈ writesOf t) :
    (isUpdateEntry e.1.entry = false ∧ t.2.2.1 = none) ∨
      ∃ j : Nat, j ≤ N ∧ t.2.2.1 = some (j : Int) ∧ e.1.entry = "update" ++ pad 5 j := by
  obtain ⟨v, name, u, s⟩ := t
  have hs := good_simple goodLabels_eval hg.name hg.sample
  have hparts : e.1.parts = (SKey.base (name, u, s)).parts ∨ e.1.parts = forCppParts (SKey.base (name, u, s)).parts := by
    unfold writesOf at he
    split_ifs at he
    · simp only [List.cons_append, List.nil_append, List.mem_cons, List.not_mem_nil, or_false] at he
      rcases he with rfl | rfl | rfl <;> simp
    · simp only [List.nil_append, List.mem_cons, List.not_mem_nil, or_false] at he
      subst he
      simp
  rcases hk with ⟨h1, h2, h3⟩ | ⟨j, h1, h2, -⟩
  · left
    simp only at h1 h2 h3
    subst h1 h2
    have hp : (SKey.base (name, none, none)).parts = [name] := by
      change splitPath (sampleName name none) = _
      rw [hs.split]
      rfl
    refine ⟨?_, rfl⟩
    rw [hp] at hparts
    obtain ⟨⟨parts, ext⟩, v'⟩ := e
    simp only [forCppParts] at hparts
    rcases hparts with rfl | rfl
    · exact (initEntry name h3 ext).1
    · exact (initEntry name h3 ext).2
  · right
    simp only at h1
    subst h1
    have hp : (SKey.base (name, some (j : Int), s)).parts = ["update" ++ pad 5 j, sampleName name s] := by
      change (baseName name (some (j : Int)) s).parts = _
      rw [baseName_update _ _ _ hs]
      rfl
    refine ⟨j, h2, rfl, ?_⟩
    rw [hp] at hparts
    obtain ⟨⟨parts, ext⟩, v'⟩ := e
    simp only [forCppParts] at hparts
    rcases hparts with rfl | rfl <;> rfl

/-- What the session answers when it is opened again after `N` updates. -/
structure Opened (all : List (Obj n D × SKey)) (nSamples N : Nat) (w : World (Obj n D)) : Prop where
  cacheOk : w.CacheOk
  number : w.nSamples = nSamples
  updates : N < 100000 → w.getNUpdates = .ok (some (N : Int))
  told : ∀ name u s v, GoodKey (· = "eval") (name, u, s) → val all (name, u, s) = some v → w.asks name u s = .ok v
  missing : ∀ name u s, GoodKey (· = "eval") (name, u, s) → (∀ t ∈ all, t.2 ≠ (name, u, s)) →
    (name, u, s) ≠ nKey → w.asks name u s = .error .ioError

theorem reopen_opened {nSamples : Nat} {task : Task n} {rollout : D → List (List ℝ)} {save : Bool} {u : Updater} {dmp0 : D}
    {d : Nat → Dist n} {samples : Nat → List (Fin n → ℝ)} {weights : Nat → List ℝ} {N : Nat}
    {all : List (Obj n D × SKey)} {w : World (Obj n D)} (hdb : DB all w)
    (hp : Progress nSamples task rollout save u dmp0 d samples weights N all) (hk : ∀ t ∈ all, StepKey N t.2)
    (h1 : nSamples ≠ 1) (h2 : n ≠ 1) :
    ∃ w', World.fromDir true w = (.ok (), w') ∧ Opened all nSamples N w' := by
  have hdisk := onDisk_of_files hdb.good hdb.sameKind hdb.dmps hdb.files
  have hr : w.read ⟨["n_samples_per_update"], .txt⟩ = some (Storable.ofNat nSamples) := by
    rw [show (["n_samples_per_update"] : List String) = nKey.base.parts from by decide,
      hdisk nKey goodKey_n .txt]
    change (val all nKey).filter _ = _
    rw [hp.number]
    rfl
  obtain ⟨w', e1, e2, e3, e4, e5⟩ := reopen_answer hdb.good hdb.sameKind hdb.dmps hdb.files hr
    (toNat_reload_int nSamples)
  refine ⟨w', e1, e2.cacheOk, fromDir_nSamples hr (toNat_reload_int nSamples) e1, fun hN => ?_, ?_, ?_⟩
  · refine getNUpdates_dir e2.hasDir (N := N + 1) (fun x => ?_) (by omega) fun i hi => ?_
    · have good : ∀ t ∈ all ++ [((Storable.ofNat nSamples : Obj n D), nKey)],
          GoodKey (· = "eval") t.2 ∧ StepKey N t.2 := by
        intro t ht
        rcases List.mem_append.mp ht with ht | ht
        · exact ⟨hdb.good t ht, hk t ht⟩
        · rw [List.mem_singleton.mp ht]
          exact ⟨goodKey_n, stepKey_n N⟩
      rw [e3, List.mem_filter]
      simp only [List.mem_map, List.mem_reverse, List.mem_flatMap]
      constructor
      · rintro ⟨⟨e, ⟨t, ht, he⟩, rfl⟩, hx⟩
        rcases writesOf_entry (good t ht).1 (good t ht).2 he with ⟨h, -⟩ | ⟨j, hj, -, h⟩
        · rw [h] at hx
          cases hx
        · exact ⟨j, by omega, h⟩
      · rintro ⟨i, hi, rfl⟩
        refine ⟨?_, isUpdateEntry_pad i⟩
        have hv := hp.dists i (by omega)
        have ht := List.mem_append_left [((Storable.ofNat nSamples : Obj n D), nKey)]
          (List.mem_reverse.mp (latest_mem hv))
        obtain ⟨e, he⟩ : ∃ e, e ∈ writesOf ((Obj.dist (d i) : Obj n D), (("distribution", some (i : Int), none) : SKey)) :=
          ⟨_, by unfold writesOf; exact List.mem_append_right _ (List.mem_singleton_self _)⟩
        refine ⟨e, ⟨_, ht, he⟩, ?_⟩
        rcases writesOf_entry (good _ ht).1 (good _ ht).2 he with ⟨-, h⟩ | ⟨j, hj, h, h'⟩
        · cases h
        · have : i = j := by
            have := Option.some.inj h
            exact_mod_cast this
          rw [h', this]
    · rcases Nat.lt_or_ge i N with h | h
      · exact (pad_lt (by norm_num) (by omega) (by omega) h).le
      · have : i = N := by omega
        rw [this]
  · intro name u s v hg hv
    rw [asks_eq e2.cacheOk]
    by_cases hkn : (name, u, s) = nKey
    · rw [hkn, hp.number] at hv
      have := e4
      rw [← hkn] at this
      rw [← Option.some.inj hv]
      exact this
    · have := e5 _ hg hkn
      change w'.answer (SKey.base (name, u, s)) = _
      rw [this]
      change (val all (name, u, s)).elim _ _ = _
      rw [hv]
      have := hp.stable h1 h2 (v, (name, u, s)) (List.mem_reverse.mp (latest_mem hv)) hkn
      simp only [Option.elim_some]
      rw [this]
  · intro name u s hg hv hkn
    rw [asks_eq e2.cacheOk]
    change w'.answer (SKey.base (name, u, s)) = _
    rw [e5 _ hg hkn]
    change (val all (name, u, s)).elim _ _ = _
    rw [val_none hv]
    rfl

/-! ### The parts of the plot -/

omit [DmpLike n D] in
theorem distributionUpdates_pure (svd : Matrix (Fin 2) (Fin 2) ℝ → SvdResult) {w : World (Obj n D)} (hw : w.CacheOk) {N : Nat}
    (hN : w.getNUpdates = .ok (some (N : Int))) (hn : 2 ≤ n) {d : Nat → Dist n} {samples : Nat → List (Fin n → ℝ)}
    {weights : Nat → List ℝ} (h : ∀ i : Nat, i < N → w.asks "distribution" (some i) none = .ok (.dist (d i)) ∧
      w.asks "samples" (some i) none = .ok (.samples (samples i)) ∧
      w.asks "weights" (some i) none = .ok (.vec (weights i)) ∧
      w.asks "distribution_new" (some i) none = .ok (.dist (d (i + 1)))) :
    ∃ p : Nat → UpdatePlot, PureRun (World.plotDistributionUpdates svd) w (.ok ((List.range N).map fun i => some (p i))) ∧
      ∀ i < N, (p i).highlight = decide (i = 0) ∧
        (p i).old = ((d i).mean ⟨0, by omega⟩, (d i).mean ⟨1, by omega⟩) ∧
        (p i).new = ((d (i + 1)).mean ⟨0, by omega⟩, (d (i + 1)).mean ⟨1, by omega⟩) ∧
        (d i).plot svd = .ok (p i).ellipse ∧ (d (i + 1)).plot svd = .ok (p i).ellipseNew ∧ (p i).samples = [] := by
  have hp := fun i => (C97_update svd (d i) (d (i + 1)) (samples i) (weights i) (i == 0) false).2.1 hn (fun h => by cases h)
  choose p hp1 hp2 using hp
  refine ⟨p, ?_, fun i hi => ?_⟩
  · unfold World.plotDistributionUpdates
    refine PureRun.self ?_
    rw [hN]
    refine PureRun.lift_ok ?_
    refine PureRun.mapM (g := fun i => some (p i)) _ hw fun i hi w1 h1 => ?_
    have hi' := List.mem_range.mp hi
    rw [Int.toNat_natCast] at hi'
    obtain ⟨a1, a2, a3, a4⟩ := h i hi'
    unfold World.plotDistributionUpdate
    refine PureRun.bind (PureRun.asks h1.cacheOk ((SameAnswers.asks hw h1 _ _ _).trans a1)) fun w2 h2 => ?_
    have h2 := h1.trans h2
    refine PureRun.bind (PureRun.asks h2.cacheOk ((SameAnswers.asks hw h2 _ _ _).trans a2)) fun w3 h3 => ?_
    have h3 := h2.trans h3
    refine PureRun.bind (PureRun.asks h3.cacheOk ((SameAnswers.asks hw h3 _ _ _).trans a3)) fun w4 h4 => ?_
    have h4 := h3.trans h4
    refine PureRun.bind (PureRun.asks h4.cacheOk ((SameAnswers.asks hw h4 _ _ _).trans a4)) fun w5 h5 => ?_
    simp only
    rw [hp1 i]
    exact ⟨w5, rfl, SameAnswers.refl h5.cacheOk⟩
  · obtain ⟨b1, b2, b3, b4, b5, -, -, b6, -⟩ := hp2 i
    exact ⟨by rw [b1]; rfl, b2, b3, b4, b5, b6 rfl⟩

omit [DmpLike n D] in
theorem rollouts_pure {w : World (Obj n D)} (hw : w.CacheOk) {N m : Nat} {l : List Int} {t : Obj n D}
    (hN : w.getNUpdates = .ok (some (N : Int))) (hl : updatesList N m = .ok l) (ht : w.asks "task" none none = .ok t)
    {v : Nat → Obj n D} (hv : ∀ i : Nat, i < N → w.asks "cost_vars" (some i) (some (.str "eval")) = .ok (v i)) {e : PyErr}
    (he : w.asks "cost_vars" (some N) (some (.str "eval")) = .error e) :
    PureRun (World.plotRollouts (n := n) (D := D) m) w (.ok (l.map fun i =>
      (i, if i < N then some (v i.toNat) else none,
        if i = 0 then (0.8, 0, 0) else (0.3 * (1 - i / N), i / N, 0)))) := by
  unfold World.plotRollouts
  refine PureRun.self ?_
  rw [hN]
  refine PureRun.lift_ok ?_
  simp only [hl]
  refine PureRun.lift_ok ?_
  refine PureRun.mapM _ hw fun i hi w1 h1 => ?_
  obtain ⟨hi0, hiN⟩ := updatesList_range _ _ _ hl i hi
  obtain ⟨i, rfl⟩ := Int.eq_ofNat_of_zero_le hi0
  have hiN' : i ≤ N := by exact_mod_cast hiN
  have tr := fun name u s => SameAnswers.asks hw h1 name u s
  have key : w1.asks "eval_cost_vars" (some (i : Int)) none = w.asks "cost_vars" (some (i : Int)) (some (.str "eval")) := by
    rw [tr, asks_eq hw, asks_eq hw, evalCostVars_key]
  have hrun : PureRun (World.plotRolloutsUpdate (i : Int) true false) w1
      (.ok (if (i : Int) < N then some (v i) else none, [])) := by
    rcases Nat.lt_or_ge i N with h | h
    · rw [if_pos (by exact_mod_cast h)]
      exact (C97_rollouts_update w1 h1.cacheOk i t (v i) 0 (fun _ => .int 0) ((tr _ _ _).trans ht)).1
        (key.trans (hv i h))
    · have : i = N := by omega
      subst this
      rw [if_neg (by simp)]
      exact (C97_rollouts_update w1 h1.cacheOk i t (v i) 0 (fun _ => .int 0) ((tr _ _ _).trans ht)).2.1 _ (key.trans he)
  refine PureRun.bind hrun fun w2 h2 => ?_
  have hcol : rolloutColor (i : Int) (N : Int) = .ok (if (i : Int) = 0 then (0.8, 0, 0)
      else (0.3 * (1 - ((i : Int) : ℝ) / N), ((i : Int) : ℝ) / N, 0)) := by
    by_cases hi' : (i : Int) = 0
    · rw [if_pos hi', hi']
      exact (C97_color N).1
    · rw [if_neg hi']
      obtain ⟨r, g, e, -, -, -, -, eg, er⟩ := (C97_color N).2.2 i (by omega) hiN'
      rw [e, er, eg]
      rfl
  rw [hcol]
  refine PureRun.lift_ok ?_
  exact PureRun.pure h2.cacheOk _

/-! ### C113 -/

/-- C113: plot_optimization.py after a step-by-step optimisation with at least two samples per update and two parameters.
It does not fail, and shows all `N` updates: the distributions before and after each of them, the rollouts of the means
(there is none yet for the last distribution), and the exploration before each update. The learning curve shows the means
of the costs of the samples, although the costs of the evaluations are stored. -/
theorem C113_plot {nSamples : Nat} (law : ∀ (dmp : D) (x y : Fin n → ℝ),
      DmpLike.setParams (DmpLike.setParams dmp x) y = DmpLike.setParams dmp y)
    (law2 : ∀ (dmp : D) (x : Fin n → ℝ), DmpLike.getParams (DmpLike.setParams dmp x) = x)
    (task : Task n) (solver : Solver n) (rollout : D → List (List ℝ)) (u : Updater) (dmp0 : D)
    (hroll : ∀ x, solver x = rollout (DmpLike.setParams dmp0 x))
    (argsort : List ℝ → List Nat) (save : Bool) (N : Nat) (draws : Nat → Fin nSamples → Fin n → ℝ)
    (reopen : Nat → Bool × Bool) (d0 : Dist n) (d : Nat → Dist n) (samples : Nat → List (Fin n → ℝ))
    (weights : Nat → List ℝ)
    (h : IsHistory (fun x => task (solver x) x) argsort u d0 N draws d samples weights)
    (hb : d0.bounds ≠ some (none, none)) (hs : 2 ≤ nSamples) (hn : 2 ≤ n) (h0 : 0 < N) (hN : N < 100000)
    (k : Nat) (hk : 1 ≤ k) (hcost : ∀ x, (task (solver x) x).length = k) (x : Nat → ℝ)
    (hx : ∀ i < N, (d i).covar.IsSymm ∧ Exploration (d i).covar (x i))
    (svd : Matrix (Fin 2) (Fin 2) ℝ → SvdResult) (getLabels : Obj n D → Except PyErr (Option (List String)))
    (ls : Option (List String)) (hl : getLabels (.task task) = .ok ls)
    (w0 : World (Obj n D)) (hf : w0.files = []) :
    ∃ (w w' : World (Obj n D)) (P : TaskSessionPlot n D) (l : List Int) (m : Nat → List ℝ),
      stepByStep task solver rollout argsort u d0 dmp0 save N draws reopen w0 = (.ok (), w) ∧
      plotOptimization svd getLabels w = (.ok P, w') ∧
      P.updates.length = N ∧
      (∀ i < N, ∃ p, P.updates[i]? = some (some p) ∧ p.highlight = decide (i = 0) ∧
        p.old = ((d i).mean ⟨0, by omega⟩, (d i).mean ⟨1, by omega⟩) ∧
        p.new = ((d (i + 1)).mean ⟨0, by omega⟩, (d (i + 1)).mean ⟨1, by omega⟩) ∧
        (d i).plot svd = .ok p.ellipse ∧ (d (i + 1)).plot svd = .ok p.ellipseNew ∧ p.samples = []) ∧
      updatesList N 20 = .ok l ∧
      P.rollouts = (l.map fun (i : Int) =>
        ((i, if i < N then some (.array (solver (d i.toNat).mean)) else none,
          if i = 0 then (0.8, 0, 0) else (0.3 * (1 - i / N), i / N, 0)) : Int × Option (Obj n D) × (ℝ × ℝ × ℝ))) ∧
      P.exploration = ((List.range N).map fun (i : Nat) => ((i : ℝ) * nSamples, x i)) ∧
      P.explorationLines = plotUpdateLines ((List.range N).map fun (i : Nat) => (i : ℝ) * nSamples) ∧
      P.dots = ((List.range N).flatMap fun i => (samples i).map fun x => (task (solver x) x).headD 0) ∧
      (∀ i < N, IsMean ((samples i).map fun x => task (solver x) x) (m i)) ∧
      P.curve.lines = ((List.range k).map fun j => (List.range N).map fun (i : Nat) =>
        (((i : ℝ) + 1 / 2) * nSamples, (m i).getD j 0)) ∧
      (∀ l, ls = some l → P.curve.legend = some (("total cost" :: l).zip P.curve.lines)) ∧
      (ls = none → P.curve.legend = none) := by
  obtain ⟨w, all, samples', e, hsame, hs', hdb, hp, hkeys⟩ := history_progress law law2 task solver rollout u dmp0
    hroll argsort save N draws reopen d0 d samples weights h hb (fun _ => ⟨by omega, by omega⟩) w0 hf
  obtain ⟨w1, e1, ho⟩ := reopen_opened hdb hp hkeys (by omega) (by omega)
  have hnu := ho.updates hN
  have hlen : ∀ i ≤ N, (samples' i).length = nSamples := fun i hi => by
    rw [generateSamples_length (hs' i hi), List.length_ofFn]
  obtain ⟨l, hul⟩ : ∃ l, updatesList (N : Int) (20 : Nat) = .ok l := by
    unfold updatesList
    split_ifs with h1 h2
    · omega
    · exact ⟨_, rfl⟩
    · exact ⟨_, rfl⟩
  -- what is told
  have gk : ∀ name ∈ ["n_samples_per_update", "task", "task_solver", "distribution_initial",
      "updater", "dmp_initial", "cost_vars", "dmp", "costs", "distribution", "samples", "weights",
      "distribution_new", "traj"], ∀ u : Option Int, GoodKey (· = "eval") (name, u, none) :=
    fun name hn u => goodKey_step hn (by rintro _ ⟨⟩)
  have glab : ∀ l ∈ sampleLabels nSamples, ∀ name ∈ ["costs", "cost_vars"], ∀ i : Nat,
      GoodKey (· = "eval") (name, some (i : Int), some l) := by
    intro l hl name hname i
    refine goodKey_step ?_ (by rintro _ ⟨⟩; exact stepLabel_mem hl)
    simp only [List.mem_cons, List.not_mem_nil, or_false] at hname
    rcases hname with rfl | rfl <;> simp
  have he : (Label.str "eval") ∈ sampleLabels nSamples := by simp [sampleLabels]
  have hsl : ∀ s < nSamples, (Label.int (s : Int)) ∈ sampleLabels nSamples := by
    intro s hs
    simp only [sampleLabels, List.mem_append, List.mem_map, List.mem_range]
    exact Or.inl ⟨s, hs, rfl⟩
  have htask := ho.told "task" none none _ (gk _ (by simp) _) hp.isTask
  have hev : ∀ i : Nat, i < N → w1.asks "cost_vars" (some i) (some (.str "eval")) = .ok (.array (solver (d i).mean)) := by
    intro i hi
    refine ho.told _ _ _ _ (glab _ he _ (by simp) i) ?_
    rw [hp.rolled i hi _ he, ← hroll]
    rfl
  have hevN : w1.asks "cost_vars" (some (N : Int)) (some (.str "eval")) = .error .ioError := by
    refine ho.missing _ _ _ (glab _ he _ (by simp) N) (fun t ht hc => ?_) (by simp [nKey])
    have := hkeys t ht
    rw [hc] at this
    rcases this with ⟨h, -⟩ | ⟨j, h1, -, -, h2, -⟩
    · cases h
    · have h3 : N = j := by exact_mod_cast Option.some.inj h1
      have := h2 rfl
      omega
  have hnocosts : ∀ i : Nat, w1.asks "costs" (some (i : Int)) none = .error .ioError := by
    intro i
    refine ho.missing _ _ _ (gk _ (by simp) _) (fun t ht hc => ?_) (by simp [nKey])
    have := hkeys t ht
    rw [hc] at this
    rcases this with ⟨h, -⟩ | ⟨j, -, -, -, -, h⟩
    · cases h
    · exact h rfl rfl
  have hnoeval : w1.asks "eval_cost" (some 0) none = .error .ioError := by
    rw [asks_eq ho.cacheOk, ← evalCost_key, ← asks_eq ho.cacheOk]
    refine ho.missing _ _ _ ⟨goodName_of (by rfl) (by decide) (by decide) (by decide) (by decide) (by decide), rfl, by decide⟩
      (fun t ht hc => ?_) (by simp [nKey])
    have := hkeys t ht
    rw [hc] at this
    rcases this with ⟨h, -⟩ | ⟨j, -, -, h, -⟩
    · cases h
    · simp at h
  have hnocf : w1.asks "cost_function" none none = .error .ioError := by
    refine ho.missing _ _ _ ⟨goodName_of (by rfl) (by decide) (by decide) (by decide) (by decide) (by decide), trivial,
      by decide⟩ (fun t ht hc => ?_) (by simp [nKey])
    have := hkeys t ht
    rw [hc] at this
    rcases this with ⟨-, -, h⟩ | ⟨j, h, -⟩
    · simp at h
    · cases h
  -- the plots
  obtain ⟨p, hr1, hp1⟩ := distributionUpdates_pure svd ho.cacheOk hnu hn (d := d) (samples := samples') (weights := weights)
    fun i hi => ⟨ho.told _ _ _ _ (gk _ (by simp) _) (hp.dists i hi.le), ho.told _ _ _ _ (gk _ (by simp) _) (hp.drawn i hi.le),
      ho.told _ _ _ _ (gk _ (by simp) _) (hp.used i hi), ho.told _ _ _ _ (gk _ (by simp) _) (hp.new i hi)⟩
  obtain ⟨w2, f1, s1⟩ := hr1
  have tr2 := fun name u s => SameAnswers.asks ho.cacheOk s1 name u s
  obtain ⟨w3, f2, s2⟩ := rollouts_pure (m := 20) s1.cacheOk (s1.getNUpdates.trans hnu) hul ((tr2 _ _ _).trans htask)
    (v := fun i => .array (solver (d i).mean)) (fun i hi => (tr2 _ _ _).trans (hev i hi)) ((tr2 _ _ _).trans hevN)
  have s12 := s1.trans s2
  have tr3 := fun name u s => SameAnswers.asks ho.cacheOk s12 name u s
  obtain ⟨w4, f3, s3⟩ := C91_rows w3 s12.cacheOk N (s12.getNUpdates.trans hnu) d x fun i hi =>
    ⟨(tr3 _ _ _).trans (ho.told _ _ _ _ (gk _ (by simp) _) (hp.dists i hi.le)), hx i hi⟩
  have s13 := s12.trans s3
  have tr4 := fun name u s => SameAnswers.asks ho.cacheOk s13 name u s
  have hns4 : w4.nSamples = nSamples := s13.nSamples.trans ho.number
  obtain ⟨P4, f4, m, hm, hlines, hleg1, hleg2⟩ := C97_plot_means w4 s13.cacheOk N k h0 hk (by omega)
    (s13.getNUpdates.trans hnu) (fun i s => task (solver ((samples i).getD s 0)) ((samples i).getD s 0)) .ioError getLabels ls
    ((C97_labels w4 s13.cacheOk getLabels ls).2.1 _ _ ((tr4 _ _ _).trans hnocf) ((tr4 _ _ _).trans htask) hl)
    ((tr4 _ _ _).trans hnoeval) fun i hi => ⟨⟨_, (tr4 _ _ _).trans (hnocosts i)⟩, fun s hs1 => by
      rw [hns4] at hs1
      refine ⟨(tr4 _ _ _).trans (ho.told _ _ _ _ (glab _ (hsl s hs1) _ (by simp) i) ?_), hcost _⟩
      rw [hp.judged i hi _ (hsl s hs1), ← hroll, ← hsame i hi]
      have hi' := hlen i hi.le
      simp [paramsAt, List.getD_eq_getElem?_getD, List.getElem?_eq_getElem (show s < (samples' i).length by omega)]⟩
  obtain ⟨w5, f5⟩ : ∃ w5, World.plotLearningCurve getLabels w4 = (.ok _, w5) := ⟨_, Prod.ext f4 rfl⟩
  have rows : ∀ i < N, ∀ {β : Type} (f : (Fin n → ℝ) → β), ((List.range nSamples).map fun s => f ((samples i).getD s 0)) =
      (samples i).map f := by
    intro i hi β f
    have hi' := hlen i hi.le
    rw [hsame i hi] at hi'
    refine List.ext_getElem? fun s => ?_
    by_cases hs1 : s < nSamples
    · simp [hs1, hi', List.getD_eq_getElem?_getD]
    · simp [hs1, hi']
  have f3' : ∀ c, World.explorationCurve w3 = (.ok c, w4) →
      World.plotExplorationCurve w3 = (.ok (c, plotUpdateLines (c.map Prod.fst)), w4) := by
    intro c hc
    unfold World.plotExplorationCurve
    rw [PyM.bind_ok hc]
    rfl
  have f3 := f3' _ f3
  have fin : ∀ U R E L, World.plotDistributionUpdates svd w1 = (.ok U, w2) → World.plotRollouts 20 w2 = (.ok R, w3) →
      World.plotExplorationCurve w3 = (.ok E, w4) → World.plotLearningCurve getLabels w4 = (.ok L, w5) →
      plotOptimization svd getLabels w = (.ok ⟨U, R, E.1, E.2, L.1, L.2⟩, w5) := by
    intro U R E L g1 g2 g3 g4
    unfold plotOptimization World.plotTaskSession
    rw [PyM.bind_ok e1, PyM.bind_ok g1, PyM.bind_ok g2, PyM.bind_ok g3, PyM.bind_ok g4]
    rfl
  refine ⟨w, w5, _, l, m, e, fin _ _ _ _ f1 f2 f3 f5, ?_, ?_, hul, rfl, ?_, ?_, ?_, ?_, ?_, hleg1, hleg2⟩
  · simp
  · intro i hi
    exact ⟨p i, by simp [hi], hp1 i hi⟩
  · simp only [s12.nSamples, ho.number]
  · simp only [s12.nSamples, ho.number, List.map_map, Function.comp_def]
  · simp only [hns4]
    refine List.flatMap_congr fun i hi => ?_
    exact rows i (List.mem_range.mp hi) fun x => (task (solver x) x).headD 0
  · intro i hi
    have := hm i hi
    rw [hns4] at this
    rw [← rows i hi]
    exact this
  · rw [hlines, hns4]

end

end Verif
