import Verif.Model.Optimization
import Verif.Props.SessionMap

/- Lemmas on sequences of tells. -/

set_option autoImplicit false

namespace Verif

variable {V : Type} [Storable V]

/-- The session after a sequence of tells. -/
def World.afterAll (w : World V) (ts : List (V × SKey)) : World V :=
  ts.foldl (fun w t => w.afterTell t.1 t.2.base) w

theorem tellAll_apply (ts : List (V × SKey)) (w : World V)
    (h : ∀ t ∈ ts, (w.task && dmpIn t.2.1 && w.hasDir) = false) :
    tellAll ts w = (.ok (), w.afterAll ts) := by
  induction ts generalizing w with
  | nil => rfl
  | cons t ts ih =>
    rw [tellAll_cons, PyM.bind_ok (World.tell_apply (h t (by simp)) t.1 t.2.2.1 t.2.2.2)]
    exact ih _ fun t ht => h t (List.mem_cons_of_mem _ ht)

theorem afterAll_cacheOk {w : World V} (hw : w.CacheOk) (ts : List (V × SKey)) :
    (w.afterAll ts).CacheOk := by
  induction ts generalizing w with
  | nil => exact hw
  | cons t ts ih => exact ih (World.cacheOk_afterTell hw t.1 t.2.base)

theorem afterAll_fields (w : World V) (ts : List (V × SKey)) :
    (w.afterAll ts).hasDir = w.hasDir ∧ (w.afterAll ts).task = w.task ∧
      (w.afterAll ts).nSamples = w.nSamples ∧ (w.afterAll ts).lastUpdate = w.lastUpdate := by
  induction ts generalizing w with
  | nil => exact ⟨rfl, rfl, rfl, rfl⟩
  | cons t ts ih =>
    obtain ⟨h1, h2, h3, h4⟩ := ih (w.afterTell t.1 t.2.base)
    exact ⟨h1, h2, h3, h4⟩

theorem cached_afterAll_notMem {w : World V} (hw : w.CacheOk) (ts : List (V × SKey)) (key : Key)
    (h : ∀ t ∈ ts, t.2.base ≠ key) : (w.afterAll ts).cached key = w.cached key := by
  induction ts generalizing w with
  | nil => rfl
  | cons t ts ih =>
    have := ih (World.cacheOk_afterTell hw t.1 t.2.base) fun t ht => h t (List.mem_cons_of_mem _ ht)
    change (World.afterAll (w.afterTell t.1 t.2.base) ts).cached key = _
    rw [this, World.cached_afterTell hw, if_neg (Ne.symm (h t (by simp)))]

theorem afterAll_append (w : World V) (ts ts' : List (V × SKey)) :
    w.afterAll (ts ++ ts') = (w.afterAll ts).afterAll ts' := by
  simp [World.afterAll]

/-- The value of the only tell for a key. -/
theorem cached_afterAll_mem {w : World V} (hw : w.CacheOk) (ts : List (V × SKey)) (v : V) (k : SKey)
    (hm : (v, k) ∈ ts) (hu : ∀ t ∈ ts, t.2.base = k.base → t.1 = v) :
    (w.afterAll ts).cached k.base = some v := by
  induction ts generalizing w with
  | nil => cases hm
  | cons t ts ih =>
    have hw' := World.cacheOk_afterTell hw t.1 t.2.base
    change (World.afterAll (w.afterTell t.1 t.2.base) ts).cached k.base = _
    by_cases hin : ∃ t' ∈ ts, t'.2.base = k.base
    · obtain ⟨t', ht', he⟩ := hin
      -- some later tell for the same entry
      clear ih
      have key : ∀ (ts : List (V × SKey)) (w : World V), w.CacheOk →
          (∀ t ∈ ts, t.2.base = k.base → t.1 = v) → (∃ t ∈ ts, t.2.base = k.base) →
          (w.afterAll ts).cached k.base = some v := by
        intro ts
        induction ts with
        | nil => rintro w - - ⟨t, ht, -⟩; cases ht
        | cons t ts ih =>
          intro w hw hu hex
          have hw' := World.cacheOk_afterTell hw t.1 t.2.base
          change (World.afterAll (w.afterTell t.1 t.2.base) ts).cached k.base = _
          by_cases hin : ∃ t' ∈ ts, t'.2.base = k.base
          · exact ih _ hw' (fun t ht => hu t (List.mem_cons_of_mem _ ht)) hin
          · have hne : ∀ t ∈ ts, t.2.base ≠ k.base := fun t ht he => hin ⟨t, ht, he⟩
            rw [cached_afterAll_notMem hw' ts _ hne, World.cached_afterTell hw]
            obtain ⟨t', ht', he⟩ := hex
            rcases List.mem_cons.mp ht' with rfl | ht'
            · rw [if_pos he.symm, hu t' (by simp) he]
            · exact absurd he (hne t' ht')
      exact key ts _ hw' (fun t ht => hu t (List.mem_cons_of_mem _ ht)) ⟨t', ht', he⟩
    · have hne : ∀ t ∈ ts, t.2.base ≠ k.base := fun t ht he => hin ⟨t, ht, he⟩
      rw [cached_afterAll_notMem hw' ts _ hne, World.cached_afterTell hw]
      rcases List.mem_cons.mp hm with rfl | hm
      · rw [if_pos rfl]
      · exact absurd rfl (hne _ hm)

/-- Names without sample. -/
theorem base_update {name : String} (h : Simple name) (i : Int) :
    SKey.base (name, some i, none) = .path ["update" ++ padInt 5 i, name] :=
  baseName_update name i none h

theorem updatePath_inj {i j : Int} {a b : String}
    (h : Key.path ["update" ++ padInt 5 i, a] = Key.path ["update" ++ padInt 5 j, b]) :
    i = j ∧ a = b := by
  simp only [Key.path.injEq, List.cons.injEq, and_true] at h
  exact ⟨updateDir_inj h.1, h.2⟩

/-- Names used in the optimisation. -/
theorem simple_names : ∀ name ∈ ["eval_cost", "eval_sample", "distribution", "samples", "costs",
    "weights", "distribution_new", "eval_cost_vars", "sample", "cost_vars", "cost", "dmp", "traj",
    "n_samples_per_update", "cost_function", "updater", "task", "task_solver", "dmp_initial",
    "distribution_initial"], Simple name := by
  intro name h
  simp only [List.mem_cons, List.not_mem_nil, or_false] at h
  rcases h with rfl | rfl | rfl | rfl | rfl | rfl | rfl | rfl | rfl | rfl | rfl | rfl | rfl | rfl | rfl
    | rfl | rfl | rfl | rfl | rfl <;> exact ⟨by decide, by decide, by decide⟩

end Verif
