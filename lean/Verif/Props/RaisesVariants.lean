import Verif.Spec.Raises
import Verif.Props.RaisesDmp
import Verif.Props.DmpContextual
import Verif.Props.DmpWithSchedules
import Verif.Props.SchedulesParams

/-
C88 for DmpWithSchedules and DmpContextualTwoStep: which exception is raised for each invalid call.
-/

noncomputable section

set_option autoImplicit false

namespace Verif

open Spec

namespace DmpWithSchedules

/-- The schedules that train_sched follows, from its argument and the misc variables of the trajectory: an
argument with a single entry other than 0 (other arguments with one entry, or without entries, count as not
given; see `C88_ambiguous` for more entries). -/
def Followed (schedules misc : Option (Arr2 ℝ)) (r : Option (Arr2 ℝ)) : Prop :=
  match schedules with
  | none => r = misc
  | some a => (a.rows.flatten = [] ∧ r = misc) ∨
      ∃ x, a.rows.flatten = [x] ∧ ((x = 0 ∧ r = misc) ∨ (x ≠ 0 ∧ r = some a))

theorem orMisc_followed {schedules misc r : Option (Arr2 ℝ)} (h : Followed schedules misc r) :
    orMisc schedules misc = .ok r := by
  unfold Followed at h
  unfold orMisc
  cases schedules with
  | none => simp only at h ⊢; rw [h]
  | some a =>
    simp only at h ⊢
    rcases h with ⟨e, rfl⟩ | ⟨x, e, ⟨rfl, rfl⟩ | ⟨h0, rfl⟩⟩
    · rw [e]
    · rw [e]; simp
    · rw [e]; simp [h0]

theorem trainSched_after {s : DmpWithSchedules} {traj : Trajectory ℝ} {d1 d2 : Dmp} {sol : Dmp.Solution}
    (h1 : Dmp.train traj none s.dmp = (.ok (), d1)) (h2 : Dmp.analytical none false d1 = (.ok sol, d2))
    (schedules : Option (Arr2 ℝ)) :
    trainSched traj schedules s = (do
      match ← PyM.lift (orMisc schedules traj.misc) with
      | none => PyM.raise .valueError
      | some targets =>
        if targets.cols ≠ s.sched.length then PyM.raise .valueError
        else if targets.rows.length ≠ sol.xs.length then PyM.raise .valueError
        else onSched (Dmp.trainFas (sol.xs.map fun x => (pickAt x (Dmp.PHASE d2.dimY)).getD 0 0) targets.rows
          (List.range s.sched.length)) : PyM DmpWithSchedules Unit) { s with dmp := d2 } := by
  unfold trainSched
  have e1 : onDmp (Dmp.train traj) s = (.ok (), { s with dmp := d1 }) := by
    unfold onDmp
    simp only [h1]
  have e2 : onDmp (Dmp.analytical none) { s with dmp := d1 } = (.ok sol, { s with dmp := d2 }) := by
    unfold onDmp
    simp only [h2]
  rw [PyM.bind_ok e1, PyM.bind_ok e2, PyM.self_bind]
  simp only [List.length_map]
  rfl

/-- C88: train_sched raises ValueError if there are no schedules, or another number of schedules than function
approximators, or another number of samples than in the trajectory. The Dmp has been trained by then; the
function approximators for the schedules have not changed. -/
theorem C88_schedules {s : DmpWithSchedules} {traj : Trajectory ℝ} {d1 d2 : Dmp} {sol : Dmp.Solution}
    (h1 : Dmp.train traj none s.dmp = (.ok (), d1)) (h2 : Dmp.analytical none false d1 = (.ok sol, d2))
    {schedules r : Option (Arr2 ℝ)} (hr : Followed schedules traj.misc r) :
    (r = none → trainSched traj schedules s = (.error .valueError, { s with dmp := d2 })) ∧
    (∀ a, r = some a → (a.cols ≠ s.sched.length ∨ a.rows.length ≠ sol.xs.length) →
      trainSched traj schedules s = (.error .valueError, { s with dmp := d2 })) ∧
    (∀ a, r = some a → a.cols = s.sched.length → a.rows.length = sol.xs.length →
      trainSched traj schedules s = onSched (Dmp.trainFas (sol.xs.map fun x => (pickAt x (Dmp.PHASE d2.dimY)).getD 0 0)
        a.rows (List.range s.sched.length)) { s with dmp := d2 }) := by
  rw [trainSched_after h1 h2, orMisc_followed hr, PyM.lift_ok_bind]
  refine ⟨?_, ?_, ?_⟩
  · rintro rfl
    rfl
  · rintro a rfl h
    simp only
    by_cases hc : a.cols ≠ s.sched.length
    · rw [if_pos hc]; rfl
    · rw [if_neg hc, if_pos (h.resolve_left hc)]; rfl
  · rintro a rfl hc hl
    simp only
    rw [if_neg (not_not.mpr hc), if_neg (not_not.mpr hl)]

/-- C88: schedules with several numbers cannot be passed to train_sched: the truth value of the array is
ambiguous (DmpWithSchedules.py:95), ValueError. The Dmp has been trained by then. -/
theorem C88_ambiguous {s : DmpWithSchedules} {traj : Trajectory ℝ} {d1 d2 : Dmp} {sol : Dmp.Solution}
    (h1 : Dmp.train traj none s.dmp = (.ok (), d1)) (h2 : Dmp.analytical none false d1 = (.ok sol, d2))
    (a : Arr2 ℝ) (ha : 2 ≤ a.rows.flatten.length) :
    trainSched traj (some a) s = (.error .valueError, { s with dmp := d2 }) := by
  rw [trainSched_after h1 h2]
  have : orMisc (some a) traj.misc = .error .valueError := by
    unfold orMisc
    simp only
    cases e : a.rows.flatten with
    | nil => rw [e] at ha; simp at ha
    | cons x l =>
      cases l with
      | nil => rw [e] at ha; simp at ha
      | cons y l => rfl
  rw [this, PyM.lift_error_bind]
  rfl

/-- C88: if the Dmp cannot be trained or moved, train_sched raises the same exception; the function
approximators for the schedules do not change. -/
theorem C88_train_passes (s : DmpWithSchedules) (traj : Trajectory ℝ) (schedules : Option (Arr2 ℝ)) :
    (∀ e d1, Dmp.train traj none s.dmp = (.error e, d1) →
      trainSched traj schedules s = (.error e, { s with dmp := d1 })) ∧
    (∀ e d1 d2, Dmp.train traj none s.dmp = (.ok (), d1) → Dmp.analytical none false d1 = (.error e, d2) →
      trainSched traj schedules s = (.error e, { s with dmp := d2 })) := by
  refine ⟨fun e d1 h => ?_, fun e d1 d2 h1 h2 => ?_⟩
  · unfold trainSched
    refine PyM.bind_error ?_
    unfold onDmp
    simp only [h]
  · unfold trainSched
    have e1 : onDmp (Dmp.train traj) s = (.ok (), { s with dmp := d1 }) := by
      unfold onDmp
      simp only [h1]
    rw [PyM.bind_ok e1]
    refine PyM.bind_error ?_
    unfold onDmp
    simp only [h2]

/-- C88: from_traj_sched of an empty demonstration raises IndexError. -/
theorem C88_from_empty (traj : Trajectory ℝ) (fas : Option (List Fa)) (sched : List Fa) (lo hi : Option BoundArg)
    (schedules : Option (Arr2 ℝ)) (o : Dmp.Options) (h : traj.ts = []) :
    fromTrajSched traj fas sched lo hi schedules o = .error .indexError := by
  unfold fromTrajSched
  rw [h]
  rfl

/-- C88: analytical_solution_sched without times before training: ValueError, nothing changes. -/
theorem C88_no_times (s : DmpWithSchedules) (h : s.dmp.tsTrain = none) : Raises (analyticalSched none) .valueError s := by
  unfold Raises analyticalSched
  rw [PyM.self_bind]
  simp only [h]
  rfl

/-- C88: set_param_vector: another number of values raises ValueError; selected numpy scalars of the function
approximators of the Dmp raise TypeError. Nothing changes. -/
theorem C88_set_params (s : DmpWithSchedules) (values : List ℝ) (n : Nat) (hn : s.paramVectorSize = .ok n) :
    (values.length ≠ n → Raises (setParamVector values) .valueError s) ∧
    (values.length = n → ∀ fas fa label, s.dmp.fas = some fas → fa ∈ fas → fa.model.isSome = true →
      label ∈ fa.selected.getD [] → Dmp.isScalar (fa.param label) = true →
      Raises (setParamVector values) .typeError s) := by
  refine ⟨fun h => ?_, fun h fas fa label hf hm hmo hl hsc => ?_⟩
  · unfold Raises setParamVector
    rw [PyM.self_bind, hn, PyM.lift_ok_bind, if_pos h]
    rfl
  · unfold Raises setParamVector
    rw [PyM.self_bind, hn, PyM.lift_ok_bind, if_neg (not_not.mpr h)]
    obtain ⟨k, hk, -⟩ := except_bind_ok hn
    rw [hk, PyM.lift_ok_bind]
    have : floatSize s.dmp = true := by
      unfold floatSize
      rw [hf]
      exact List.any_eq_true.mpr ⟨fa, hm, by rw [hmo]; simpa using ⟨label, hl, hsc⟩⟩
    rw [if_pos this]
    rfl

/-- C88: bounds for fewer schedules than there are, as a list, raise IndexError. -/
theorem C88_few_bounds (s : DmpWithSchedules) (v : List ℝ) (h : s.lo = some (.list v)) (h0 : v ≠ [])
    (hn : v.length < s.sched.length) (hh : s.hi = none) (rows : List (List ℝ)) :
    s.enforce (.two ⟨s.sched.length, rows⟩) = .error .indexError := by
  have key : ∀ (k : Nat) (a : Arr2 ℝ), a.cols = s.sched.length → k ≤ v.length →
      s.clipColumns ((List.range (s.sched.length - k)).map (· + k)) a = .error .indexError := by
    intro k
    induction hk : v.length - k generalizing k with
    | zero =>
      intro a ha hle
      obtain ⟨m, hm⟩ : ∃ m, s.sched.length - k = m + 1 := ⟨s.sched.length - k - 1, by omega⟩
      rw [hm, List.range_succ_eq_map, List.map_cons]
      unfold clipColumns
      have : Bounds.pick s.lo (0 + k) = .error .indexError := by
        rw [h]
        unfold Bounds.pick Bounds.truthy Bounds.get
        simp only [List.isEmpty_eq_false_iff.mpr h0]
        rw [List.getElem?_eq_none (by omega)]
        rfl
      rw [this]
      rfl
    | succ j ih =>
      intro a ha hle
      obtain ⟨m, hm⟩ : ∃ m, s.sched.length - k = m + 1 := ⟨s.sched.length - k - 1, by omega⟩
      have hm2 : s.sched.length - (k + 1) = m := by omega
      rw [hm, List.range_succ_eq_map, List.map_cons]
      unfold clipColumns
      have hlt : k < v.length := by omega
      have h3 : Bounds.pick s.lo (0 + k) = .ok (some v[k]) := by
        rw [h]
        unfold Bounds.pick Bounds.truthy Bounds.get
        simp only [List.isEmpty_eq_false_iff.mpr h0, Nat.zero_add]
        rw [List.getElem?_eq_getElem hlt]
        rfl
      have h4 : Bounds.pick s.hi (0 + k) = .ok none := by rw [hh]; rfl
      rw [h3, h4]
      simp only [ok_then]
      have h5 : ∃ b : Arr2 ℝ, clipColumn (some v[k]) none (0 + k) a = .ok b ∧ b.cols = a.cols := by
        unfold clipColumn
        rw [if_neg (by rw [ha]; omega), if_neg (by simp)]
        exact ⟨_, rfl, rfl⟩
      obtain ⟨b, h5, h6⟩ := h5
      rw [h5, ok_then]
      have := ih (k + 1) (by omega) b (h6.trans ha) (by omega)
      rw [hm2] at this
      rw [List.map_map]
      have e : ((fun x => x + k) ∘ Nat.succ) = fun x => x + (k + 1) := by funext x; simp; omega
      rw [e]
      exact this
  unfold enforce
  rw [if_neg (by rw [h]; simp)]
  simp only
  have := key 0 ⟨s.sched.length, rows⟩ rfl (by omega)
  simp only [Nat.sub_zero, Nat.add_zero, List.map_id'] at this
  rw [this]
  rfl

/-- Example: a Dmp with one schedule that can be trained. Its trained Dmp and motion are those of the
hypotheses above; it is rejected without schedules, with two schedules, and if the two numbers of its one
schedule are passed as argument. -/
example : ∃ (s : DmpWithSchedules) (traj : Trajectory ℝ) (d1 d2 : Dmp) (sol : Dmp.Solution), Dmp.train traj none s.dmp = (.ok (), d1) ∧
    Dmp.analytical none false d1 = (.ok sol, d2) ∧ traj.misc = some ⟨1, [[1], [2]]⟩ ∧ s.sched.length = 1 ∧
    Followed none traj.misc (some ⟨1, [[1], [2]]⟩) ∧ Followed (some ⟨1, [[5]]⟩) traj.misc (some ⟨1, [[5]]⟩) ∧
    Followed (some ⟨2, []⟩) none none ∧ 2 ≤ ([[1], [2]] : List (List ℝ)).flatten.length := by
  obtain ⟨s, s', hs, h⟩ := demo_trains 0 1
  obtain ⟨d1, sol, targets, h1, h2, -, -, h3, -⟩ := C69_train s s' _ none h
  refine ⟨s, { Dmp.demo with misc := some ⟨1, [[1], [2]]⟩ }, d1, s'.dmp, sol, h1, h2, rfl, ?_, rfl, .inr ⟨5, rfl, .inr ⟨by norm_num, rfl⟩⟩, .inl ⟨rfl, rfl⟩,
    by simp⟩
  obtain ⟨dmp, -, e⟩ := except_bind_ok hs
  cases e
  rfl

/-- Example: a lower bound for one of two schedules. -/
example (dmp : Dmp) : ∃ s : DmpWithSchedules, s.lo = some (.list [0]) ∧ s.hi = none ∧ ([0] : List ℝ).length < s.sched.length :=
  ⟨⟨dmp, [constFa 1, constFa 2], some (.list [0]), none⟩, rfl, rfl, by simp⟩

end DmpWithSchedules

namespace DmpContextual

/-- C88: from_trajs raises IndexError without demonstrations and if the first one is empty. -/
theorem C88_from_nothing (fas : Option (List Fa)) (names : List String) (ppf : Fa ⊕ List Fa) (o : Dmp.Options) :
    fromTrajs [] fas names ppf o = .error .indexError ∧
    ∀ q traj demos, traj.ts = [] → fromTrajs ((q, traj) :: demos) fas names ppf o = .error .indexError := by
  refine ⟨rfl, fun q traj demos h => ?_⟩
  unfold fromTrajs
  simp only [h]
  rfl

/-- C88: task parameters before training: TypeError in set_task_params, and nothing changes. -/
theorem C88_untrained {N k : Nat} (q : Fin N → Fin k → ℝ) (s : DmpContextual) (v : List ℝ) (h : s.ppf = none)
    (hv : s.dmp.getParamVector = .ok v) :
    Raises (setTaskParams q) .typeError s ∧
    (∀ ts b, Raises (analytical q ts b) .typeError s) ∧
    (∀ n y, s.dmp.paramVectorSize = .ok (n + 1) → Raises (integrateStart q y) .typeError s) := by
  have h1 : Raises (setTaskParams q) .typeError s := by
    unfold Raises setTaskParams
    rw [PyM.self_bind, hv, PyM.lift_ok_bind, h]
    rfl
  refine ⟨h1, fun ts b => PyM.bind_error h1, fun n y hn => ?_⟩
  unfold Raises integrateStart
  rw [PyM.self_bind, hn, PyM.lift_ok_bind, h, List.range_succ_eq_map]
  rfl

/-- C88: several rows of task parameters for one motion: ValueError, and nothing changes. -/
theorem C88_several_tasks {N k : Nat} (q : Fin N → Fin k → ℝ) (s : DmpContextual) (v : List ℝ) (fa : Fa)
    (fas : List Fa) (hp : s.ppf = some (fa :: fas)) (hv : s.dmp.getParamVector = .ok v) {out : Fin N → ℝ}
    (ho : fa.predict q = .ok out) (hN : N ≠ 1) :
    Raises (setTaskParams q) .valueError s ∧
    (∀ n y, s.dmp.paramVectorSize = .ok (n + 1) → Raises (integrateStart q y) .valueError s) := by
  have hpr : predicted q fa = .error .valueError := by
    unfold predicted
    rw [ho, ok_then]
    exact dif_neg hN
  refine ⟨?_, fun n y hn => ?_⟩
  · unfold Raises setTaskParams
    rw [PyM.self_bind, hv, PyM.lift_ok_bind, hp]
    simp only
    unfold fill
    rw [hpr]
    rfl
  · unfold Raises integrateStart
    rw [PyM.self_bind, hn, PyM.lift_ok_bind, hp, List.range_succ_eq_map]
    unfold fillStart
    simp only [ok_then, List.getElem?_cons_zero, hpr]
    rfl

/-- C88: if the parameter vector has another size than at the training, set_task_params and integrate_start
raise IndexError: set_task_params if there are fewer parameters, integrate_start if there are more. -/
theorem C88_other_selection {N k : Nat} (q : Fin N → Fin k → ℝ) (s : DmpContextual) (v : List ℝ) (fas : List Fa)
    (hp : s.ppf = some fas) (hv : s.dmp.getParamVector = .ok v) (hq : ∀ fa ∈ fas, ∃ x, predicted q fa = .ok x) :
    (v.length < fas.length → Raises (setTaskParams q) .indexError s) ∧
    (∀ n y, s.dmp.paramVectorSize = .ok n → fas.length < n → Raises (integrateStart q y) .indexError s) := by
  have hfill : ∀ (l : List Fa) (i : Nat) (p : List ℝ), (∀ fa ∈ l, ∃ x, predicted q fa = .ok x) → i ≤ p.length →
      p.length < i + l.length → fill q i l p = .error .indexError := by
    intro l
    induction l with
    | nil => intro i p _ h1 h2; simp at h2; omega
    | cons fa l ih =>
      intro i p hl h1 h2
      obtain ⟨x, hx⟩ := hl fa (List.mem_cons_self ..)
      unfold fill
      rw [hx, ok_then]
      by_cases hi : i < p.length
      · rw [if_pos hi]
        refine ih (i + 1) (p.set i x) (fun fa h => hl fa (List.mem_cons_of_mem _ h)) (by simpa using hi) ?_
        simp only [List.length_set, List.length_cons] at h2 ⊢
        omega
      · exact if_neg hi
  have hstart : ∀ (m i : Nat), i + m = fas.length → ∀ rest,
      fillStart q (some fas) ((List.range m).map (· + i) ++ fas.length :: rest) = .error .indexError := by
    intro m
    induction m with
    | zero =>
      intro i _ rest
      simp only [List.range_zero, List.map_nil, List.nil_append]
      unfold fillStart
      simp only [ok_then]
      rw [List.getElem?_eq_none (le_refl _)]
      rfl
    | succ m ih =>
      intro i hi rest
      rw [List.range_succ_eq_map, List.map_cons, List.cons_append]
      unfold fillStart
      have hlt : 0 + i < fas.length := by omega
      simp only [ok_then]
      rw [List.getElem?_eq_getElem hlt]
      obtain ⟨x, hx⟩ := hq _ (List.getElem_mem hlt)
      simp only [hx, ok_then]
      have e : ((List.range m).map Nat.succ).map (· + i) = (List.range m).map (· + (i + 1)) := by
        rw [List.map_map]
        exact List.map_congr_left fun a _ => by simp; omega
      rw [e, ih (i + 1) (by omega) rest]
      rfl
  refine ⟨fun h => ?_, fun n y hn h => ?_⟩
  · unfold Raises setTaskParams
    rw [PyM.self_bind, hv, PyM.lift_ok_bind, hp]
    simp only
    rw [hfill fas 0 v hq (by omega) (by omega)]
    rfl
  · unfold Raises integrateStart
    have hsplit : List.range n = (List.range fas.length).map (· + 0) ++
        fas.length :: (List.range (n - fas.length - 1)).map (· + (fas.length + 1)) := by
      have e : n = fas.length + 1 + (n - fas.length - 1) := by omega
      rw [e, List.range_add, List.range_succ, List.append_assoc]
      simp only [Nat.add_zero, List.map_id']
      congr 1
      rw [List.singleton_append]
      congr 1
      rw [show fas.length + 1 + (n - fas.length - 1) - fas.length - 1 = n - fas.length - 1 by omega]
      exact List.map_congr_left fun a _ => by omega
    rw [PyM.self_bind, hn, PyM.lift_ok_bind, hp, hsplit, hstart fas.length 0 (by omega)]
    rfl

/-- C88: training with demonstrations whose parameter vectors or task parameters have different sizes raises
ValueError; with a list of function approximators of another length than the parameter vector an Exception.
The Dmp has been trained by then; the policy parameter function has not changed. -/
theorem C88_train {demos : List (List ℝ × Trajectory ℝ)} {names : List String} {ppf : Fa ⊕ List Fa}
    {s : DmpContextual} {copies : List (Dmp × List ℝ)} {cur d2 d3 d4 : Dmp} {params : List ℝ}
    (h1 : demos.mapM (fun demo => trainedCopy (Dmp.setSelected names s.dmp).2 demo.2) = .ok copies)
    (hl : copies.getLast? = some (cur, params))
    (h2 : Dmp.setTau (mean (copies.map fun c => c.1.tau)) cur = (.ok (), d2))
    (h3 : Dmp.setYInit (meanRows (copies.map fun c => c.1.toBase.yInit)) d2 = (.ok (), d3))
    (h4 : Dmp.setYAttr (meanRows (copies.map fun c => c.1.yAttr)) d3 = (.ok (), d4)) :
    ((∃ c ∈ copies, c.2.length ≠ ((copies.map Prod.snd).headD []).length) →
      train demos names ppf s = (.error .valueError, { s with dmp := d4 })) ∧
    ((∀ c ∈ copies, c.2.length = ((copies.map Prod.snd).headD []).length) →
      ((∃ demo ∈ demos, demo.1.length ≠ ((demos.map Prod.fst).headD []).length) →
        train demos names ppf s = (.error .valueError, { s with dmp := d4 })) ∧
      ((∀ demo ∈ demos, demo.1.length = ((demos.map Prod.fst).headD []).length) →
        ∀ fas, ppf = .inr fas → fas.length ≠ params.length →
          train demos names ppf s = (.error .runtimeError, { s with dmp := d4 }))) := by
  have hrun : train demos names ppf s = (do
      PyM.lift (rectangular (copies.map Prod.snd))
      PyM.lift (rectangular (demos.map Prod.fst))
      let fas ← PyM.lift (approximators params.length ppf)
      PyM.modify fun s => { s with ppf := some fas }
      trainPpfs (demos.map Prod.fst) (copies.map Prod.snd) (List.range params.length) : PyM DmpContextual Unit)
        { s with dmp := d4 } := by
    unfold train
    rw [PyM.bind_ok (onDmp_ok (Dmp.setSelected_run names s.dmp)), PyM.self_bind]
    have e : (Dmp.setSelected names s.dmp).2 = _ := congrArg Prod.snd (Dmp.setSelected_run names s.dmp)
    simp only at e
    rw [e] at h1
    simp only
    rw [h1, PyM.lift_ok_bind, hl]
    simp only
    rw [PyM.modify_bind]
    rw [PyM.bind_ok (onDmp_ok (s := { s with dmp := cur }) h2)]
    rw [PyM.bind_ok (onDmp_ok (s := { s with dmp := d2 }) h3)]
    rw [PyM.bind_ok (onDmp_ok (s := { s with dmp := d3 }) h4)]
  have bad : ∀ rows : List (List ℝ), (∃ r ∈ rows, r.length ≠ (rows.headD []).length) →
      rectangular rows = .error .valueError := by
    rintro rows ⟨r, hr, hne⟩
    unfold rectangular
    refine if_neg fun h => ?_
    have := List.all_eq_true.mp h r hr
    exact hne (by simpa using this)
  have good : ∀ rows : List (List ℝ), (∀ r ∈ rows, r.length = (rows.headD []).length) →
      rectangular rows = .ok () := by
    intro rows hr
    unfold rectangular
    exact if_pos (List.all_eq_true.mpr fun r h => by simpa using hr r h)
  rw [hrun]
  refine ⟨fun ⟨c, hc, hne⟩ => ?_, fun hc => ?_⟩
  · rw [bad _ ⟨c.2, List.mem_map_of_mem hc, hne⟩]
    rfl
  · rw [good (copies.map Prod.snd) (fun r hr => by
      obtain ⟨c, hc1, rfl⟩ := List.mem_map.mp hr
      exact hc c hc1), PyM.lift_ok_bind]
    refine ⟨fun ⟨c, hc, hne⟩ => ?_, fun hd fas hp hn => ?_⟩
    · rw [bad _ ⟨c.1, List.mem_map_of_mem hc, hne⟩]
      rfl
    · rw [good (demos.map Prod.fst) (fun r hr => by
        obtain ⟨c, hc1, rfl⟩ := List.mem_map.mp hr
        exact hd c hc1), PyM.lift_ok_bind, hp]
      unfold approximators
      simp only [if_neg hn]
      rfl

/-- Example: a policy parameter function of two function approximators for a Dmp without parameters, and for
one with three. -/
example : ∃ dmp : Dmp, ∃ s : DmpContextual, s.dmp = dmp ∧ s.ppf = some [DmpWithSchedules.constFa 1, DmpWithSchedules.constFa 2] ∧
    s.dmp.getParamVector = .ok [] ∧ s.dmp.paramVectorSize = .ok 0 ∧
    (∃ x, predicted (fun (_ : Fin 1) (_ : Fin 1) => (1 : ℝ)) (DmpWithSchedules.constFa 1) = .ok x) ∧
    (∃ out, (DmpWithSchedules.constFa 1).predict (fun (_ : Fin 2) (_ : Fin 1) => (1 : ℝ)) = .ok out) ∧
    ({ dmp with selected := ["goal"], dimY := 3 } : Dmp).paramVectorSize = .ok (2 + 1) := by
  obtain ⟨dmp, hs⟩ := (Dmp.C16_types 1 [0] [1] none {}).1 (by simp [Dmp.known])
  obtain ⟨dflt, hd, e⟩ := Dmp.init_eq hs
  have hf : dmp.fas = none := by rw [e]
  have hse : dmp.selected = [] := by rw [e]
  have hp : ∀ n, n ≠ 0 → ∃ out, (DmpWithSchedules.constFa 1).predict (fun (_ : Fin n) (_ : Fin 1) => (1 : ℝ)) = .ok out :=
    fun n hn => by
      rw [predict_model (m := .wls ⟨fun _ => 0, some 1⟩) rfl hn]
      exact ⟨_, rfl⟩
  refine ⟨dmp, ⟨dmp, _⟩, rfl, rfl, ?_, ?_, ?_, hp 2 (by simp), ?_⟩
  · unfold Dmp.getParamVector
    rw [hf, hse]
    rfl
  · unfold Dmp.paramVectorSize
    rw [hf, hse]
    rfl
  · obtain ⟨out, ho⟩ := hp 1 (by simp)
    unfold predicted
    rw [ho, ok_then]
    exact ⟨_, dif_pos rfl⟩
  · unfold Dmp.paramVectorSize
    simp only [hf]
    rw [if_pos (by simp)]
    rfl

end DmpContextual

end Verif
