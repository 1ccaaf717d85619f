import Verif.Spec.Raises
import Verif.Props.RaisesFa
import Verif.Props.Weights
import Verif.Model.Updaters
import Verif.Props.SessionCurve

/-
C88 for the updaters of the distribution and for the database of the learning session.
-/

noncomputable section

set_option autoImplicit false

namespace Verif

open Spec

/-! ### Weights -/

theorem totalCosts_heads {costs : List (List ℝ)} (h : ∀ c ∈ costs, c ≠ []) :
    totalCosts costs = .ok (costs.map fun c => c.headD 0) := by
  unfold totalCosts
  induction costs with
  | nil => rfl
  | cons c l ih =>
    rw [List.mapM_cons, ih fun c hc => h c (List.mem_cons_of_mem _ hc)]
    cases c with
    | nil => exact absurd rfl (h [] (List.mem_cons_self ..))
    | cons x l => rfl

/-- C88: costs without components raise IndexError, whatever the method. -/
theorem C88_no_component (argsort : List ℝ → List Nat) (method : String) (elite : Elite)
    (before after : List (List ℝ)) (h : ∀ c ∈ before, c ≠ []) :
    costsToWeights argsort (before ++ [] :: after) method elite = .error .indexError := by
  unfold costsToWeights
  have : totalCosts (before ++ [] :: after) = .error .indexError := by
    unfold totalCosts
    refine mapM_first (fun c hc => ?_) rfl
    cases c with
    | nil => exact absurd rfl (h [] hc)
    | cons x l => exact ⟨x, rfl⟩
  rw [this]
  rfl

/-- C88: no costs at all: ValueError for PI-BB (and methods that are not known, which are replaced by it). -/
theorem C88_no_costs (argsort : List ℝ → List Nat) (method : String) (elite : Elite)
    (h : method ≠ "CEM") (h2 : method ≠ "CMA-ES") :
    costsToWeights argsort [] method elite = .error .valueError := by
  unfold costsToWeights
  rw [show totalCosts [] = .ok [] from rfl, ok_then]
  by_cases hp : method = "PI-BB"
  · rw [if_pos hp]
    rfl
  · rw [if_neg hp, if_neg (not_or.mpr ⟨h, h2⟩)]
    rfl

/-- C88: CEM and CMA-ES need an integer as eliteness: TypeError for floats (also for those that are whole
numbers). -/
theorem C88_eliteness_type (argsort : List ℝ → List Nat) (costs : List (List ℝ)) (x : ℝ) (method : String)
    (hm : method = "CEM" ∨ method = "CMA-ES") (h : ∀ c ∈ costs, c ≠ []) :
    costsToWeights argsort costs method (.float x) = .error .typeError := by
  unfold costsToWeights
  rw [totalCosts_heads h, ok_then]
  have hp : method ≠ "PI-BB" := by rcases hm with rfl | rfl <;> decide
  rw [if_neg hp, if_pos hm]

/-- C88: eliteness 0. CEM raises ZeroDivisionError, CMA-ES gives weights that are not numbers. -/
theorem C88_eliteness_zero (argsort : List ℝ → List Nat) (costs : List (List ℝ)) (h : ∀ c ∈ costs, c ≠ []) :
    costsToWeights argsort costs "CEM" (.int 0) = .error .zeroDivision ∧
    (costs ≠ [] → costsToWeights argsort costs "CMA-ES" (.int 0) = .error .nanResult) := by
  refine ⟨?_, fun hne => ?_⟩
  · unfold costsToWeights
    rw [totalCosts_heads h, ok_then, if_neg (by decide), if_pos (by simp)]
    simp only [if_true]
    rfl
  · unfold costsToWeights
    rw [totalCosts_heads h, ok_then, if_neg (by decide), if_pos (by simp)]
    simp only
    rw [if_neg (by decide)]
    have : cmaWeights (argsort (costs.map fun c => c.headD 0)) 0
        (List.replicate (costs.map fun c => c.headD 0).length 0) =
        .ok (List.replicate (costs.map fun c => c.headD 0).length 0) := rfl
    rw [this, ok_then]
    unfold normalise
    rw [if_neg (by simpa using hne), if_pos (by simp)]

/-- C88: negative eliteness gives weights that are not numbers: for CMA-ES always, for CEM if there are not
more samples than its absolute value. -/
theorem C88_eliteness_negative (argsort : List ℝ → List Nat) (hs : ∀ l, (argsort l).length = l.length)
    (costs : List (List ℝ)) (h : ∀ c ∈ costs, c ≠ []) (hne : costs ≠ []) (mu : Int) (hmu : mu < 0) :
    costsToWeights argsort costs "CMA-ES" (.int mu) = .error .nanResult ∧
    ((costs.length : Int) ≤ -mu → costsToWeights argsort costs "CEM" (.int mu) = .error .nanResult) := by
  have hz : ∀ n, n ≠ 0 → normalise (List.replicate n 0) = .error .nanResult := fun n hn => by
    unfold normalise
    rw [if_neg (by simpa using hn), if_pos (by simp)]
  have hl : (costs.map fun c => c.headD 0).length ≠ 0 := by simpa using hne
  refine ⟨?_, fun hle => ?_⟩
  · unfold costsToWeights
    rw [totalCosts_heads h, ok_then, if_neg (by decide), if_pos (by simp)]
    simp only
    rw [if_neg (by decide)]
    have : cmaWeights (argsort (costs.map fun c => c.headD 0)) mu
        (List.replicate (costs.map fun c => c.headD 0).length 0) =
        .ok (List.replicate (costs.map fun c => c.headD 0).length 0) := by
      unfold cmaWeights
      rw [show mu.toNat = 0 by omega]
      rfl
    rw [this, ok_then, hz _ hl]
  · unfold costsToWeights
    rw [totalCosts_heads h, ok_then, if_neg (by decide), if_pos (by simp)]
    simp only [if_true]
    have : cemWeights (argsort (costs.map fun c => c.headD 0)) mu
        (List.replicate (costs.map fun c => c.headD 0).length 0) =
        .ok (List.replicate (costs.map fun c => c.headD 0).length 0) := by
      unfold cemWeights
      rw [if_neg (by omega), if_pos hmu, hs, List.length_map, show costs.length - (-mu).toNat = 0 by omega]
      rfl
    rw [this, ok_then, hz _ hl]

/-- C88: CMA-ES with more elite samples than samples raises IndexError. -/
theorem C88_eliteness_large (argsort : List ℝ → List Nat) (hs : ∀ l, (argsort l).length = l.length)
    (costs : List (List ℝ)) (h : ∀ c ∈ costs, c ≠ []) (mu : Int) (hmu : (costs.length : Int) < mu) :
    costsToWeights argsort costs "CMA-ES" (.int mu) = .error .indexError := by
  unfold costsToWeights
  rw [totalCosts_heads h, ok_then, if_neg (by decide), if_pos (by simp)]
  simp only
  rw [if_neg (by decide)]
  have hn : ∀ (idx : List Nat) (m : Nat) (w : List ℝ), idx.length < m →
      (List.range m).foldlM (cmaStep idx mu) w = .error .indexError := by
    intro idx m w hm
    have hsplit : List.range m = List.range idx.length ++ idx.length ::
        (List.range (m - idx.length - 1)).map (idx.length + 1 + ·) := by
      have e : m = idx.length + 1 + (m - idx.length - 1) := by omega
      rw [e, List.range_add, List.range_succ, List.append_assoc, List.singleton_append]
      rw [show idx.length + 1 + (m - idx.length - 1) - idx.length - 1 = m - idx.length - 1 by omega]
    rw [hsplit, List.foldlM_append]
    have hfirst : ∀ (l : List Nat) (w : List ℝ), (∀ i ∈ l, i < idx.length) →
        ∃ w', l.foldlM (cmaStep idx mu) w = .ok w' := by
      intro l
      induction l with
      | nil => exact fun w _ => ⟨w, rfl⟩
      | cons a l ih =>
        intro w hl
        rw [List.foldlM_cons]
        unfold cmaStep
        rw [List.getElem?_eq_getElem (hl a (List.mem_cons_self ..))]
        exact ih _ fun i hi => hl i (List.mem_cons_of_mem _ hi)
    obtain ⟨w', hw⟩ := hfirst (List.range idx.length) w fun i hi => List.mem_range.mp hi
    rw [hw, ok_then, List.foldlM_cons]
    unfold cmaStep
    rw [List.getElem?_eq_none (le_refl _)]
    rfl
  unfold cmaWeights
  rw [hn _ _ _ (by rw [hs, List.length_map]; omega)]
  rfl

/-! ### Updates -/

/-- C88: the update raises the exception of the weights, and ValueError if there are not as many costs as
samples. The distribution that is passed in does not change. -/
theorem C88_update {n : Nat} (argsort : List ℝ → List Nat) (u : Updater) (samples : List (Fin n → ℝ))
    (costs : List (List ℝ)) (d : Dist n) :
    (∀ e, costsToWeights argsort costs u.method u.elite = .error e →
      Raises (u.update argsort samples costs) e d) ∧
    (∀ w, costsToWeights argsort costs u.method u.elite = .ok w → w.length ≠ samples.length →
      Raises (u.update argsort samples costs) .valueError d) ∧
    (∀ w, costsToWeights argsort costs u.method u.elite = .ok w → w.length = samples.length → w.sum = 0 →
      Raises (u.update argsort samples costs) .zeroDivision d) := by
  refine ⟨fun e h => ?_, fun w h hl => ?_, fun w h hl h0 => ?_⟩
  · unfold Raises Updater.update
    rw [PyM.self_bind, h]
    rfl
  · unfold Raises Updater.update
    rw [PyM.self_bind, h, PyM.lift_ok_bind]
    have : average samples w = .error .valueError := if_pos hl
    rw [this]
    rfl
  · unfold Raises Updater.update
    rw [PyM.self_bind, h, PyM.lift_ok_bind]
    have : average samples w = .error .zeroDivision := by
      unfold average
      rw [if_neg (not_not.mpr hl), if_pos h0]
    rw [this]
    rfl

theorem foldlM_first {α β : Type} {f : β → α → Except PyErr β} {before after : List α} {bad : α} {e : PyErr}
    (hb : ∀ a ∈ before, ∀ b, ∃ b', f b a = .ok b') (h : ∀ b, f b bad = .error e) (b : β) :
    (before ++ bad :: after).foldlM f b = .error e := by
  induction before generalizing b with
  | nil =>
    rw [List.nil_append, List.foldlM_cons, h]
    rfl
  | cons a l ih =>
    obtain ⟨b', hb1⟩ := hb a (List.mem_cons_self ..) b
    rw [List.cons_append, List.foldlM_cons, hb1]
    exact ih (fun c hc => hb c (List.mem_cons_of_mem _ hc)) b'

/-- C88: an update with CEM or CMA-ES from no samples at all raises ZeroDivisionError (CMA-ES: IndexError). -/
theorem C88_update_nothing {n : Nat} (argsort : List ℝ → List Nat) (hs : ∀ l, (argsort l).length = l.length)
    (u : Updater) (mu : Int) (hmu : 0 < mu) (hu : u.elite = .int mu) (d : Dist n) :
    (u.method = "CEM" → Raises (u.update argsort [] []) .zeroDivision d) ∧
    (u.method = "CMA-ES" → Raises (u.update argsort [] []) .indexError d) := by
  refine ⟨fun hm => ?_, fun hm => ?_⟩
  · refine (C88_update argsort u [] [] d).2.2 [] ?_ rfl rfl
    rw [hm, hu]
    unfold costsToWeights
    rw [show totalCosts [] = .ok [] from rfl, ok_then, if_neg (by decide), if_pos (by simp)]
    simp only [if_true]
    have : cemWeights (argsort []) mu (List.replicate ([] : List ℝ).length 0) = .ok [] := by
      unfold cemWeights
      rw [if_neg (by omega), if_neg (by omega), List.eq_nil_of_length_eq_zero (hs [])]
      simp
    rw [this]
    rfl
  · refine (C88_update argsort u [] [] d).1 _ ?_
    rw [hm, hu]
    exact C88_eliteness_large argsort hs [] (by simp) mu (by simpa using hmu)

/-- C88: limits for fewer dimensions than the distribution has raise IndexError. -/
theorem C88_limits {n : Nat} (v : List ℝ) (hv : v.length < n) (c : Matrix (Fin n) (Fin n) ℝ) :
    capDiag (some (.vector v)) c = .error .indexError ∧ raiseDiag (some (.vector v)) c = .error .indexError := by
  have hsplit : ∃ before after, List.finRange n = before ++ (⟨v.length, hv⟩ : Fin n) :: after ∧
      ∀ i ∈ before, (i : Nat) < v.length := by
    refine ⟨(List.finRange n).take v.length, (List.finRange n).drop (v.length + 1), ?_, fun i hi => ?_⟩
    · conv_lhs => rw [← List.take_append_drop v.length (List.finRange n)]
      congr 1
      rw [List.drop_eq_getElem_cons (by simpa using hv)]
      simp
    · obtain ⟨k, hk, rfl⟩ := List.mem_iff_getElem.mp hi
      simp at hk ⊢
      exact hk.1
  obtain ⟨before, after, e, hb⟩ := hsplit
  have hlev : ∀ i : Fin n, (i : Nat) < v.length → (Limit.vector v).level i = .ok ((v.getD i 0) ^ 2) := fun i hi => by
    unfold Limit.level
    simp [hi]
  have hbad : (Limit.vector v).level (⟨v.length, hv⟩ : Fin n) = .error .indexError := by
    unfold Limit.level
    simp
  constructor
  · unfold capDiag
    simp only [e]
    refine foldlM_first (fun i hi b => ?_) (fun b => ?_) c
    · rw [hlev i (hb i hi)]
      exact ⟨_, rfl⟩
    · rw [hbad]
      rfl
  · unfold raiseDiag
    simp only [e]
    refine foldlM_first (fun i hi b => ?_) (fun b => ?_) c
    · rw [hlev i (hb i hi)]
      exact ⟨_, rfl⟩
    · rw [hbad]
      rfl

/-- Example: three samples. -/
example : ∃ costs : List (List ℝ), costs ≠ [] ∧ (∀ c ∈ costs, c ≠ []) ∧ (costs.length : Int) < 4 ∧
    (costs.length : Int) ≤ -(-3) := ⟨[[1, 2], [3, 4], [0, 1]], by simp, by simp, by simp, by simp⟩

/-! ### Sessions -/

variable {V : Type} [Storable V]

/-- C88: a session is opened only in a directory with a number of samples. -/
theorem C88_from_dir (w : World V) (task : Bool) :
    (w.read ⟨["n_samples_per_update"], .txt⟩ = none → Raises (World.fromDir task) .ioError w) ∧
    (∀ v, w.read ⟨["n_samples_per_update"], .txt⟩ = some v → Storable.toNat (Storable.reload v) = none →
      Raises (World.fromDir task) .valueError w) := by
  refine ⟨fun h => ?_, fun v h h2 => ?_⟩
  · unfold Raises World.fromDir
    rw [PyM.self_bind, h]
    rfl
  · unfold Raises World.fromDir
    rw [PyM.self_bind, h]
    simp only [h2]
    rfl

/-- C88: before the first update, a session without directory has no learning curve and no cost after
learning: TypeError (the number of updates is None). -/
theorem C88_no_updates (w : World V) (hd : w.hasDir = false) (hl : w.lastUpdate = none) :
    Raises World.getLearningCurve .typeError w ∧
    (∀ before t, World.getEvalCosts 0 w = (.ok before, t) → t.hasDir = false → t.lastUpdate = none →
      World.getEvalCostBeforeAfter w = (.error .typeError, t)) := by
  have hn : ∀ w : World V, w.hasDir = false → w.lastUpdate = none → w.getNUpdates = .ok none := fun w h1 h2 => by
    unfold World.getNUpdates
    simp [h1, h2]
  refine ⟨?_, fun before t h h1 h2 => ?_⟩
  · unfold Raises World.getLearningCurve
    rw [PyM.self_bind, hn w hd hl, PyM.lift_ok_bind]
    rfl
  · unfold World.getEvalCostBeforeAfter
    rw [PyM.bind_ok h, PyM.self_bind, hn t h1 h2, PyM.lift_ok_bind]
    rfl

/-- C88: the ratio of the costs: not a number if the cost before learning is 0, IndexError if there are no
components. -/
theorem C88_ratio (w t : World V) (before after : List ℝ)
    (h : World.getEvalCostBeforeAfter w = (.ok (before, after), t)) :
    (∀ a b l m, after = a :: l → before = b :: m → b = 0 → World.getCostRatio w = (.error .nanResult, t)) ∧
    (∀ a b l m, after = a :: l → before = b :: m → b ≠ 0 → World.getCostRatio w = (.ok (a / b), t)) ∧
    ((after = [] ∨ before = []) → World.getCostRatio w = (.error .indexError, t)) := by
  refine ⟨?_, ?_, ?_⟩
  · rintro a b l m rfl rfl h0
    unfold World.getCostRatio
    rw [PyM.bind_ok h]
    simp only [if_pos h0]
    rfl
  · rintro a b l m rfl rfl h0
    unfold World.getCostRatio
    rw [PyM.bind_ok h]
    simp only [if_neg h0]
    rfl
  · rintro (rfl | rfl)
    · unfold World.getCostRatio
      rw [PyM.bind_ok h]
      rfl
    · unfold World.getCostRatio
      rw [PyM.bind_ok h]
      cases after <;> rfl

/-- C88: an evaluation cost that is not an array of numbers raises TypeError; without evaluation the cost is
the mean over the samples, which is not a number if there are no samples. -/
theorem C88_eval_costs (w t : World V) (i : Int) :
    (∀ v, w.exists "cost" (some 0) (some (.str "eval")) = true →
      World.askValue "cost" (some i) (some (.str "eval")) w = (.ok v, t) → Storable.row v = none →
      World.getEvalCosts i w = (.error .typeError, t)) ∧
    (w.exists "cost" (some 0) (some (.str "eval")) = false → World.getSampleCosts i w = (.ok [], t) →
      World.getEvalCosts i w = (.error .nanResult, t)) := by
  refine ⟨fun v h1 h2 h3 => ?_, fun h1 h2 => ?_⟩
  · unfold World.getEvalCosts
    rw [PyM.self_bind, if_pos h1, PyM.bind_ok h2]
    simp only [h3]
    rfl
  · unfold World.getEvalCosts
    rw [PyM.self_bind, if_neg (by simp [h1]), PyM.bind_ok h2]
    rfl

/-- C88: costs of the samples that are not arrays raise TypeError. -/
theorem C88_sample_costs (w t : World V) (i : Int) :
    (∀ v, w.exists "costs" (some i) = true → World.askValue "costs" (some i) none w = (.ok v, t) →
      Storable.rows v = none → World.getSampleCosts i w = (.error .typeError, t)) ∧
    (∀ v n, w.exists "costs" (some i) = false → w.nSamples = n + 1 →
      World.askValue "costs" (some i) (some (.int 0)) w = (.ok v, t) → Storable.row v = none →
      World.getSampleCosts i w = (.error .typeError, t)) ∧
    (∀ e n, w.exists "costs" (some i) = false → w.nSamples = n + 1 →
      World.askValue (V := V) "costs" (some i) (some (.int 0)) w = (.error e, t) →
      World.getSampleCosts i w = (.error e, t)) := by
  refine ⟨fun v h1 h2 h3 => ?_, fun v n h1 hn h2 h3 => ?_, fun e n h1 hn h2 => ?_⟩
  · unfold World.getSampleCosts
    rw [PyM.self_bind, if_pos h1, PyM.bind_ok h2]
    simp only [h3]
    rfl
  · unfold World.getSampleCosts
    rw [PyM.self_bind, if_neg (by simp [h1]), PyM.self_bind, hn, List.range_succ_eq_map, List.mapM_cons]
    refine PyM.bind_error ?_
    have h2' : World.askValue "costs" (some i) (some (.int ((0 : Nat) : Int))) w = (.ok v, t) := h2
    rw [PyM.bind_ok h2']
    simp only [h3]
    rfl
  · unfold World.getSampleCosts
    rw [PyM.self_bind, if_neg (by simp [h1]), PyM.self_bind, hn, List.range_succ_eq_map, List.mapM_cons]
    refine PyM.bind_error ?_
    have h2' : World.askValue (V := V) "costs" (some i) (some (.int ((0 : Nat) : Int))) w = (.error e, t) := h2
    exact PyM.bind_error h2'

/-- Example: a session without directory and updates, and a directory without files. -/
example : Raises World.getLearningCurve .typeError (⟨3, false, false, [], none, [], []⟩ : World (Obj 1 Unit)) ∧
    Raises (World.fromDir false) .ioError (⟨3, true, false, [], none, [], []⟩ : World (Obj 1 Unit)) :=
  ⟨(C88_no_updates _ rfl rfl).1, (C88_from_dir _ false).1 rfl⟩

/-- Example: the cost before learning is 0. -/
example : ∃ (w t : World (Obj 1 Unit)) (before after : List ℝ),
    World.getEvalCostBeforeAfter w = (.ok (before, after), t) ∧ before = [0] ∧ after = [0] := by
  have hx : ∀ w : World (Obj 1 Unit), w.hasDir = false → w.getNUpdates = .ok w.lastUpdate := fun w h => by
    unfold World.getNUpdates
    simp [h]
  obtain ⟨key, hkey⟩ : ∃ key, key = baseName "eval_cost" (some 0) none := ⟨_, rfl⟩
  obtain ⟨w, hw0⟩ : ∃ w : World (Obj 1 Unit), w = ⟨3, false, false, [(key, 0)], some 1, [.vec [0]], []⟩ := ⟨_, rfl⟩
  have hl : ∀ k, w.cache.lookup k = if k = key then some 0 else none := fun k => by
    rw [hw0]
    simp only [List.lookup]
    by_cases h : k = key
    · simp [h]
    · rw [if_neg h, beq_eq_false_iff_ne.mpr h]
  have hw : w.CacheOk := by
    intro k r h
    rw [hl] at h
    split_ifs at h
    obtain rfl := Option.some.inj h
    rw [hw0]
    simp
  have ha : w.asks "eval_cost" (some 0) none = .ok (.vec [0]) := by
    rw [asks_eq hw, ← hkey]
    unfold World.answer
    rw [hl, if_pos rfl]
    simp only [World.deref, hw0]
    rfl
  have hn := hx w (by rw [hw0])
  have hlast : w.lastUpdate = some 1 := by rw [hw0]
  rw [hlast] at hn
  have := (C60_before_after w hw 1 (.vec [0]) (.vec [0]) [0] [0] hn ha rfl
    (by rw [sub_self]; exact ha) rfl).1
  exact ⟨w, (World.getEvalCostBeforeAfter w).2, [0], [0], Prod.ext this rfl, rfl, rfl⟩

end Verif
