import Verif.Proofs.Optimization
import Verif.Props.Updates

/- Loops that tell, for C54, C55, C59, C60. -/

set_option autoImplicit false

namespace Verif

open Spec

section

variable {V : Type} [Storable V]

theorem afterAll_lastUpdate (w : World V) (l : Option Int) (ts : List (V × SKey)) :
    World.afterAll { w with lastUpdate := l } ts = { w.afterAll ts with lastUpdate := l } := by
  induction ts generalizing w with
  | nil => rfl
  | cons t ts ih => exact ih (w.afterTell t.1 t.2.base)

/-- A loop in which each iteration tells a list of values and sets the number of the last update. -/
theorem loop_ok {S : Type} {step : Nat → S → PyM (World V) S}
    {R : Nat → S → List (V × SKey) → S → Prop} {tk : Bool}
    (hstep : ∀ (i : Nat) (d d' : S) (w w' : World V), w.task = tk → step i d w = (.ok d', w') →
      ∃ ts, R i d ts d' ∧ w' = { w.afterAll ts with lastUpdate := some (i : Int) })
    {N : Nat} {d0 dN : S} {w w' : World V} (ht : w.task = tk)
    (h : (List.range N).foldlM (fun d i => step i d) d0 w = (.ok dN, w')) :
    ∃ (d : Nat → S) (ts : Nat → List (V × SKey)), d 0 = d0 ∧ d N = dN ∧
      (∀ i < N, R i (d i) (ts i) (d (i + 1))) ∧
      w' = { w.afterAll ((List.range N).flatMap ts) with
        lastUpdate := if N = 0 then w.lastUpdate else some ((N - 1 : Nat) : Int) } := by
  induction N generalizing dN w' with
  | zero =>
    simp only [List.range_zero, List.foldlM_nil, PyM.pure_apply, Prod.mk.injEq, Except.ok.injEq] at h
    obtain ⟨rfl, rfl⟩ := h
    exact ⟨fun _ => d0, fun _ => [], rfl, rfl, fun i hi => by omega, rfl⟩
  | succ N ih =>
    rw [List.range_succ, List.foldlM_append] at h
    rcases hN : (List.range N).foldlM (fun d i => step i d) d0 w with ⟨r, w1⟩
    cases r with
    | error e => rw [PyM.bind_error hN] at h; cases (Prod.mk.inj h).1
    | ok d1 =>
      obtain ⟨d, ts, h1, h2, h3, h4⟩ := ih hN
      rw [PyM.bind_ok hN] at h
      simp only [List.foldlM_cons, List.foldlM_nil, bind_pure] at h
      obtain ⟨t, hR, hw'⟩ := hstep N d1 dN w1 w' (by rw [h4]; exact (afterAll_fields _ _).2.1.trans ht) h
      refine ⟨fun i => if i = N + 1 then dN else d i, fun i => if i = N then t else ts i, ?_, ?_, ?_, ?_⟩
      · simpa using h1
      · simp
      · intro i hi
        by_cases hiN : i = N
        · subst hiN
          simp only [if_true, if_neg (show ¬ i = i + 1 by omega)]
          rw [h2]; exact hR
        · simp only [if_neg hiN, if_neg (show ¬ i = N + 1 by omega),
            if_neg (show ¬ i + 1 = N + 1 by omega)]
          exact h3 i (by omega)
      · have e : (List.range (N + 1)).flatMap (fun i => if i = N then t else ts i) =
            (List.range N).flatMap ts ++ t := by
          rw [List.range_succ, List.flatMap_append]
          congr 1
          · exact List.flatMap_congr fun i hi => if_neg (by have := List.mem_range.mp hi; omega)
          · simp
        rw [e, afterAll_append, hw', h4, afterAll_lastUpdate]
        simp

/-- Values told once under keys that do not collide. -/
theorem cached_good {L : String → Prop} (hL : GoodLabels L) {w : World V} (hw : w.CacheOk)
    {ts : List (V × SKey)} (hg : ∀ t ∈ ts, GoodKey L t.2) (hn : (ts.map Prod.snd).Nodup)
    {v : V} {k : SKey} (hm : (v, k) ∈ ts) : (w.afterAll ts).cached k.base = some v := by
  refine cached_afterAll_mem hw ts v k hm fun t ht he => ?_
  have hk := (hg t ht).base_inj hL (hg _ hm) he
  exact congrArg Prod.fst (List.inj_on_of_nodup_map hn ht hm hk)

theorem afterAll_files (ts : List (V × SKey)) (w : World V) : (w.afterAll ts).files =
    if w.hasDir then (ts.map fun t => ((⟨t.2.base.parts, Storable.kind t.1⟩ : File), t.1)).reverse
      ++ w.files else w.files := by
  induction ts generalizing w with
  | nil => simp [World.afterAll]
  | cons t ts ih =>
    change (World.afterAll (w.afterTell t.1 t.2.base) ts).files = _
    rw [ih]
    by_cases hd : w.hasDir = true
    · simp [World.afterTell, hd]
    · simp [World.afterTell, hd]

/-- No string labels. -/
def NoLabel (_ : String) : Prop := False

theorem goodLabels_none : GoodLabels NoLabel := ⟨fun _ h => h.elim, fun _ h => h.elim,
  fun _ h => h.elim, fun _ h => h.elim⟩

/-- Keys of one iteration are different and belong to that iteration. -/
theorem nodup_flatMap {ts : Nat → List (V × SKey)} {N : Nat}
    (hk : ∀ i < N, ∀ t ∈ ts i, t.2.2.1 = some (i : Int))
    (hn : ∀ i < N, ((ts i).map Prod.snd).Nodup) :
    (((List.range N).flatMap ts).map Prod.snd).Nodup := by
  rw [List.map_flatMap, List.nodup_flatMap]
  refine ⟨fun i hi => hn i (List.mem_range.mp hi), ?_⟩
  refine List.Nodup.pairwise_of_forall_ne List.nodup_range fun i hi j hj hij => ?_
  intro k h1 h2
  obtain ⟨t, ht, rfl⟩ := List.mem_map.mp h1
  obtain ⟨t', ht', he⟩ := List.mem_map.mp h2
  have e1 := hk i (List.mem_range.mp hi) t ht
  have e2 := hk j (List.mem_range.mp hj) t' ht'
  rw [he, e1] at e2
  exact hij (by exact_mod_cast Option.some.inj e2)

end

/-- Names starting with a letter. -/
theorem goodName_none {name : String} {c : Char} {cs : List Char} (h0 : name.toList = c :: cs)
    (h1 : c.isDigit = false) (h2 : c ≠ '-') (h3 : c ≠ '.') (hslash : '/' ∉ name.toList) :
    GoodName NoLabel name where
  ne := by rintro rfl; cases h0
  dot := by
    rintro rfl
    have : ".".toList = ['.'] := by decide
    rw [this] at h0
    simp only [List.cons.injEq] at h0
    exact h3 h0.1.symm
  slash := hslash
  number := by
    rintro i rest rfl
    have hne := padInt_ne 3 i
    cases hp : (padInt 3 i).toList with
    | nil => exact hne (String.toList_inj.mp (by rw [hp]; rfl))
    | cons a as =>
      rw [String.toList_append, String.toList_append, hp] at h0
      simp only [List.cons_append, List.cons.injEq] at h0
      rcases padInt_char (w := 3) (i := i) (c := a) (by rw [hp]; simp) with h | h
      · rw [h0.1, h1] at h; cases h
      · exact h2 (h0.1.symm.trans h)
  label := fun _ _ h => h.elim

theorem good_names : ∀ name ∈ ["eval_cost", "eval_sample", "distribution", "samples", "costs",
    "weights", "distribution_new", "eval_cost_vars", "sample", "cost_vars", "cost",
    "n_samples_per_update", "cost_function", "updater", "task", "task_solver", "dmp_initial",
    "distribution_initial"], GoodName NoLabel name ∧ ¬ "cpp".toList <:+ name.toList := by
  intro name h
  simp only [List.mem_cons, List.not_mem_nil, or_false] at h
  rcases h with rfl | rfl | rfl | rfl | rfl | rfl | rfl | rfl | rfl | rfl | rfl | rfl | rfl | rfl | rfl
    | rfl | rfl | rfl <;>
    exact ⟨goodName_none (by rfl) (by decide) (by decide) (by decide) (by decide), by decide⟩

end Verif
