import Verif.Props.DmpWithSchedules
import Verif.Props.DmpParams

/- DmpWithSchedules: parameter vectors (C68), schedules do not influence the motion (C69). -/

set_option autoImplicit false

namespace Verif

namespace DmpWithSchedules

variable {d : Nat}

/-! ### Parameter vectors -/

/-- In every trained function approximator different array-valued parameters are selected. -/
def Selects (s : DmpWithSchedules) : Prop := s.dmp.Selects ∧ ∀ fa ∈ s.sched, fa.Selects

theorem floatSize_eq {s : Dmp} (h : s.Selects) : floatSize s = false := by
  unfold floatSize
  rw [List.any_eq_false]
  intro fa hfa
  by_cases ht : fa.model.isSome = true
  · obtain ⟨names, hs, hn, ha⟩ := h fa hfa ht
    rw [ht, hs]
    simp only [Option.getD_some, Bool.true_and, List.any_eq_true, not_exists, not_and]
    intro n hn'
    obtain ⟨sh, x, hx⟩ := ha n hn'
    rw [hx]
    simp [Dmp.isScalar]
  · simp [ht]

theorem paramVectorSize_eq {s : DmpWithSchedules} {n : Nat} (hn : s.dmp.paramVectorSize = .ok n)
    (h : ∀ fa ∈ s.sched, fa.Selects) :
    s.paramVectorSize = .ok (n + (s.sched.map Fa.values).flatten.length) := by
  unfold paramVectorSize
  rw [hn, Dmp.except_ok_bind, Fa.mapM_ok_of (g := fun fa => fa.values.length) fun fa hfa =>
    Dmp.faSize_eq (h fa hfa), Dmp.except_ok_bind, List.length_flatten, List.map_map]
  rfl

theorem getParamVector_eq {s : DmpWithSchedules} {v : List ℝ} (hv : s.dmp.getParamVector = .ok v)
    (h : ∀ fa ∈ s.sched, fa.Selects) :
    s.getParamVector = .ok (v ++ (s.sched.map Fa.values).flatten) := by
  unfold getParamVector
  rw [hv, Dmp.except_ok_bind, Fa.mapM_ok_of (g := Fa.values) fun fa hfa => Dmp.faValues_eq (h fa hfa)]
  rfl

theorem setParamVector_run {s : DmpWithSchedules} {n : Nat} (hn : s.dmp.paramVectorSize = .ok n)
    (h : s.Selects) {v w : List ℝ} (hv : v.length = n)
    (hw : w.length = (s.sched.map Fa.values).flatten.length) {t : Dmp} {fas : List Fa}
    (ht : Dmp.setParamVector v s.dmp = (.ok (), t)) (h0 : n = 0 → t = s.dmp)
    (hf : Dmp.setFas w s.sched = (.ok [], fas)) :
    setParamVector (v ++ w) s = (.ok (), { s with dmp := t, sched := fas }) := by
  unfold setParamVector
  rw [PyM.self_bind, paramVectorSize_eq hn h.2, PyM.lift_ok_bind, if_neg (by simp [hv, hw]), hn,
    PyM.lift_ok_bind, floatSize_eq h.1, if_neg (by simp)]
  have e1 : (v ++ w).take n = v := List.take_left' hv
  have e2 : (v ++ w).drop n = w := List.drop_left' hv
  have e3 : (onSched ⟨Dmp.setFas w⟩ >>= fun _ => pure () : PyM DmpWithSchedules Unit)
      { s with dmp := t } = (.ok (), { s with dmp := t, sched := fas }) := by
    refine (PyM.bind_ok (a := []) (s' := { s with dmp := t, sched := fas }) ?_).trans rfl
    change ((Dmp.setFas w s.sched).1, ({ s with dmp := t, sched := (Dmp.setFas w s.sched).2 } : DmpWithSchedules)) = _
    rw [hf]
  simp only
  by_cases hp : n > 0
  · rw [if_pos hp, e1, e2]
    refine (PyM.bind_ok (a := ()) (s' := { s with dmp := t }) ?_).trans e3
    change ((Dmp.setParamVector v s.dmp).1,
      ({ s with dmp := (Dmp.setParamVector v s.dmp).2 } : DmpWithSchedules)) = _
    rw [ht]
  · rw [if_neg hp, e2]
    rw [h0 (by omega)] at e3 ⊢
    exact e3

/-- C68: round trip; the values of the Dmp come first. -/
theorem C68_roundtrip (s : DmpWithSchedules) (h : Dmp.Reachable Dmp.DefaultLike Dmp.Change.Valid d s.dmp)
    (hs : s.Selects) :
    ∃ v0 w0, s.dmp.getParamVector = .ok v0 ∧ s.getParamVector = .ok (v0 ++ w0) ∧
      s.paramVectorSize = .ok (v0 ++ w0).length ∧
      setParamVector (v0 ++ w0) s = (.ok (), s) ∧
      (∀ v w, v.length = v0.length → w.length = w0.length → ∃ s', setParamVector (v ++ w) s = (.ok (), s') ∧
        s'.getParamVector = .ok (v ++ w) ∧ s'.paramVectorSize = .ok (v ++ w).length ∧
        s'.dmp.getParamVector = .ok v ∧ s'.lo = s.lo ∧ s'.hi = s.hi ∧
        s'.dmp = (Dmp.setParamVector v s.dmp).2 ∧ List.Forall₂ Fa.Only s.sched s'.sched) ∧
      ∀ u, u.length ≠ (v0 ++ w0).length → setParamVector u s = (.error .valueError, s) := by
  obtain ⟨v0, h1, h2, h3, h4, h5⟩ := Dmp.C27_roundtrip d s.dmp h hs.1
  refine ⟨v0, (s.sched.map Fa.values).flatten, h1, getParamVector_eq h1 hs.2, ?_, ?_, fun v w hv hw => ?_,
    fun u hu => ?_⟩
  · rw [paramVectorSize_eq h2 hs.2, List.length_append]
  · refine setParamVector_run h2 hs rfl rfl h3 (fun _ => rfl) ?_
    have := Dmp.setFas_self hs.2 (rest := [])
    rwa [List.append_nil] at this
  · obtain ⟨t, k1, k2, k3⟩ := h4 v hv
    obtain ⟨fas, g1, g2, g3, g4⟩ := Dmp.setFas_eq hs.2 (rest := []) hw
    rw [List.append_nil] at g1
    have h0 : v0.length = 0 → t = s.dmp := by
      intro h0
      rw [h0] at hv
      rw [List.length_eq_zero_iff.mp h0] at h3
      rw [List.length_eq_zero_iff.mp hv, h3] at k1
      exact (Prod.mk.inj k1).2.symm
    refine ⟨_, setParamVector_run h2 hs hv hw k1 h0 g1, ?_, ?_, k2, rfl, rfl, ?_, g2⟩
    · rw [← g4]
      exact getParamVector_eq k2 g3
    · rw [List.length_append, ← g4]
      exact paramVectorSize_eq k3 g3
    · rw [k1]
  · unfold setParamVector
    rw [List.length_append] at hu
    rw [PyM.self_bind, paramVectorSize_eq h2 hs.2, PyM.lift_ok_bind, if_pos hu]
    rfl

/-- C68: parameters that are not selected, the bounds and everything else of the schedules are never
changed by set_param_vector, also if an exception is raised. -/
theorem C68_unselected (s : DmpWithSchedules) (h : Dmp.Reachable Dmp.DefaultLike Dmp.Change.Valid d s.dmp)
    (v : List ℝ) :
    (setParamVector v s).2.lo = s.lo ∧ (setParamVector v s).2.hi = s.hi ∧
      List.Forall₂ Fa.Only s.sched (setParamVector v s).2.sched ∧
      Dmp.OnlySelected s.dmp (setParamVector v s).2.dmp := by
  have same : Dmp.OnlySelected s.dmp s.dmp := by
    have := Dmp.onlySelected_fas h.inv.plain (f := s.dmp.fas.getD []) (List.forall₂_same.mpr fun x _ => .refl x)
    have e : (s.dmp.fas.map fun _ => s.dmp.fas.getD []) = s.dmp.fas := by cases s.dmp.fas <;> rfl
    rw [e] at this
    exact this
  have refls : List.Forall₂ Fa.Only s.sched s.sched := List.forall₂_same.mpr fun x _ => .refl x
  unfold setParamVector
  rw [PyM.self_bind]
  cases e1 : s.paramVectorSize with
  | error e => exact ⟨rfl, rfl, refls, same⟩
  | ok n =>
    rw [PyM.lift_ok_bind]
    by_cases hn : v.length ≠ n
    · rw [if_pos hn]
      exact ⟨rfl, rfl, refls, same⟩
    rw [if_neg hn]
    cases e2 : s.dmp.paramVectorSize with
    | error e => exact ⟨rfl, rfl, refls, same⟩
    | ok k =>
      rw [PyM.lift_ok_bind]
      split
      · exact ⟨rfl, rfl, refls, same⟩
      have rest (t : Dmp) (ht : Dmp.OnlySelected s.dmp t) :
          let u := ((onSched ⟨Dmp.setFas (v.drop k)⟩ >>= fun _ => pure () : PyM DmpWithSchedules Unit)
            { s with dmp := t }).2
          u.lo = s.lo ∧ u.hi = s.hi ∧ List.Forall₂ Fa.Only s.sched u.sched ∧ Dmp.OnlySelected s.dmp u.dmp := by
        have e : (onSched ⟨Dmp.setFas (v.drop k)⟩ : PyM DmpWithSchedules _) { s with dmp := t } =
            ((Dmp.setFas (v.drop k) s.sched).1,
              { s with dmp := t, sched := (Dmp.setFas (v.drop k) s.sched).2 }) := rfl
        have ho := Dmp.setFas_only s.sched (v.drop k)
        rcases hr : Dmp.setFas (v.drop k) s.sched with ⟨r, fas⟩
        rw [hr] at e ho
        cases r with
        | error er => rw [PyM.bind_error e]; exact ⟨rfl, rfl, ho, ht⟩
        | ok a => rw [PyM.bind_ok e]; exact ⟨rfl, rfl, ho, ht⟩
      simp only
      split
      · have e : (onDmp (Dmp.setParamVector (v.take k))) s =
            ((Dmp.setParamVector (v.take k) s.dmp).1,
              { s with dmp := (Dmp.setParamVector (v.take k) s.dmp).2 }) := rfl
        have ho := Dmp.C27_unselected d s.dmp h (v.take k)
        rcases hr : Dmp.setParamVector (v.take k) s.dmp with ⟨r, t⟩
        rw [hr] at e ho
        cases r with
        | error er => rw [PyM.bind_error e]; exact ⟨rfl, rfl, refls, ho⟩
        | ok a => rw [PyM.bind_ok e]; exact rest t ho
      · exact rest s.dmp same

theorem setSelected_eq (names : List String) (s : DmpWithSchedules) :
    setSelected names s = ((Dmp.setSelected (names.filter fun n => !Dmp.isIn "sched_" n) s.dmp).1,
      { s with
        sched := s.sched.map fun fa => { fa with selected := some ((names.filter fun n =>
          Dmp.isIn "sched_" n).map fun n => String.ofList (n.toList.drop 6)) }
        dmp := (Dmp.setSelected (names.filter fun n => !Dmp.isIn "sched_" n) s.dmp).2 }) := by
  unfold setSelected
  refine (PyM.bind_ok (a := ()) (s' := { s with sched := _ }) rfl).trans ?_
  rfl

theorem isIn_append (a b : String) : Dmp.isIn a (a ++ b) = true := by
  unfold Dmp.isIn
  rw [decide_eq_true_iff, String.toList_append]
  exact ⟨[], b.toList, by simp⟩

/-- C68: selecting names for the Dmp and names with the prefix "sched_" for the schedules: both are
passed to the right function approximators. -/
theorem C68_select (s : DmpWithSchedules) (names sched : List String)
    (hn : ∀ n ∈ names, Dmp.isIn "sched_" n = false) :
    setSelected (names ++ sched.map fun n => "sched_" ++ n) s = (.ok (),
      { s with
        sched := s.sched.map fun fa => { fa with selected := some sched }
        dmp := (Dmp.setSelected names s.dmp).2 }) := by
  have e1 : (names ++ sched.map fun n => "sched_" ++ n).filter (fun n => !Dmp.isIn "sched_" n) = names := by
    rw [List.filter_append, List.filter_eq_self.mpr (fun n h => by rw [hn n h]; rfl),
      List.filter_eq_nil_iff.mpr, List.append_nil]
    intro n h
    obtain ⟨m, _, rfl⟩ := List.mem_map.mp h
    simp [isIn_append]
  have e2 : ((names ++ sched.map fun n => "sched_" ++ n).filter (fun n => Dmp.isIn "sched_" n)) =
      sched.map fun n => "sched_" ++ n := by
    rw [List.filter_append, List.filter_eq_nil_iff.mpr (fun n h => by rw [hn n h]; simp),
      List.filter_eq_self.mpr, List.nil_append]
    intro n h
    obtain ⟨m, _, rfl⟩ := List.mem_map.mp h
    exact isIn_append _ _
  have e3 : ((sched.map fun n => "sched_" ++ n).map fun n => String.ofList (n.toList.drop 6)) = sched := by
    rw [List.map_map]
    conv_rhs => rw [← List.map_id sched]
    refine List.map_congr_left fun n _ => ?_
    have : ("sched_" : String).toList = ['s', 'c', 'h', 'e', 'd', '_'] := rfl
    simp [String.toList_append, this]
  rw [setSelected_eq, e1, e2, e3, Dmp.setSelected_run]

/-- A schedule and a Dmp as in `C68_roundtrip`. -/
example : ∃ s : DmpWithSchedules, Dmp.Reachable Dmp.DefaultLike Dmp.Change.Valid 1 s.dmp ∧ s.Selects ∧
    s.getParamVector = .ok [1, 5] := by
  obtain ⟨d, hr, hf, hs⟩ := Dmp.slopes_reachable
  have hs' : Dmp.setSelected ["slope"] d = _ := Dmp.setSelected_run _ d
  have e : ["slope"].filter (· ≠ "goal") = ["slope"] := by decide
  rw [hf, hs, e, if_neg (by decide)] at hs'
  have hr' : Dmp.Reachable Dmp.DefaultLike Dmp.Change.Valid 1 (Dmp.setSelected ["slope"] d).2 :=
    .change hr (.select ["slope"]) trivial
  rw [hs'] at hr'
  have hsel (x y : ℝ) : ({ Dmp.slopes x y with selected := some ["slope"] } : Fa).Selects := fun _ =>
    ⟨["slope"], rfl, by decide, fun n hn => by
      obtain rfl := List.mem_singleton.mp hn
      exact ⟨_, _, rfl⟩⟩
  refine ⟨⟨_, [{ Dmp.slopes 5 7 with selected := some ["slope"] }], none, none⟩, hr', ⟨?_, ?_⟩, rfl⟩
  · intro fa hfa
    obtain rfl := List.mem_singleton.mp hfa
    exact hsel _ _
  · intro fa hfa
    obtain rfl := List.mem_singleton.mp hfa
    exact hsel _ _

/-! ### Schedules and motion -/

/-- C69: the states are those of the Dmp, whatever the schedules and their bounds are; exceptions of the
Dmp are passed on. -/
theorem C69_motion (s : DmpWithSchedules) :
    (∀ ts, (analyticalSched (some ts) s).2 = { s with dmp := (Dmp.analytical (some ts) false s.dmp).2 } ∧
      (∀ sol r, (analyticalSched (some ts) s).1 = .ok (sol, r) →
        (Dmp.analytical (some ts) false s.dmp).1 = .ok sol) ∧
      ∀ e, (Dmp.analytical (some ts) false s.dmp).1 = .error e →
        (analyticalSched (some ts) s).1 = .error e) ∧
    (∀ y, (integrateStartSched y s).2 = { s with dmp := (Dmp.integrateStart y s.dmp).2 } ∧
      (∀ x xd r, (integrateStartSched y s).1 = .ok (x, xd, r) →
        (Dmp.integrateStart y s.dmp).1 = .ok (x, xd)) ∧
      ∀ e, (Dmp.integrateStart y s.dmp).1 = .error e → (integrateStartSched y s).1 = .error e) ∧
    (∀ m dt x₀, (integrateStepSched m dt x₀ s).2 = { s with dmp := (DynSys.step m dt x₀ s.dmp).2 } ∧
      (∀ x xd r, (integrateStepSched m dt x₀ s).1 = .ok (x, xd, r) →
        (DynSys.step m dt x₀ s.dmp).1 = .ok (x, xd)) ∧
      ∀ e, (DynSys.step m dt x₀ s.dmp).1 = .error e → (integrateStepSched m dt x₀ s).1 = .error e) := by
  refine ⟨fun ts => ?_, fun y => ?_, fun m dt x₀ => ?_⟩
  · rw [analyticalSched_run]
    refine ⟨rfl, fun sol r h => ?_, fun e h => ?_⟩
    · obtain ⟨a, ha, h⟩ := except_bind_ok h
      revert h
      cases schedulesAt _ _ with
      | error e => exact fun h => nomatch h
      | ok b =>
        intro h
        cases h
        exact ha
    · change (Dmp.analytical (some ts) false s.dmp).1.bind _ = _
      rw [h]
      rfl
  · rw [integrateStartSched_run]
    refine ⟨rfl, fun x xd r h => ?_, fun e h => ?_⟩
    · obtain ⟨a, ha, h⟩ := except_bind_ok h
      revert h
      cases schedulesNow _ _ with
      | error e => exact fun h => nomatch h
      | ok b =>
        intro h
        cases h
        exact ha
    · change (Dmp.integrateStart y s.dmp).1.bind _ = _
      rw [h]
      rfl
  · rw [integrateStepSched_run]
    refine ⟨rfl, fun x xd r h => ?_, fun e h => ?_⟩
    · obtain ⟨a, ha, h⟩ := except_bind_ok h
      revert h
      cases schedulesNow _ _ with
      | error e => exact fun h => nomatch h
      | ok b =>
        intro h
        cases h
        exact ha
    · change ((DynSys.step m dt x₀ : PyM Dmp _) s.dmp).1.bind _ = _
      rw [h]
      rfl

/-- C69: successful training trains the Dmp as without schedules, and each function approximator with
the phases of the analytical solution and its column of the schedules. -/
theorem C69_train (s s' : DmpWithSchedules) (traj : Trajectory ℝ) (schedules : Option (Arr2 ℝ))
    (h : trainSched traj schedules s = (.ok (), s')) :
    ∃ dmp sol targets, Dmp.train traj none s.dmp = (.ok (), dmp) ∧
      Dmp.analytical none false dmp = (.ok sol, s'.dmp) ∧ s'.lo = s.lo ∧ s'.hi = s.hi ∧
      (schedules = none → traj.misc = some targets) ∧
      (∀ a, schedules = some a → targets = a ∨ traj.misc = some targets) ∧
      targets.cols = s.sched.length ∧ targets.rows.length = sol.xs.length ∧
      s'.sched.length = s.sched.length ∧
      ∀ i, i < s.sched.length → ∃ fa fa', s.sched[i]? = some fa ∧ s'.sched[i]? = some fa' ∧
        Fa.train (fun (t : Fin sol.xs.length) (_ : Fin 1) => (sol.xs.getD t []).getD (3 * s'.dmp.dimY) 0)
          (fun t => (targets.rows.getD t []).getD i 0) none fa = (.ok (), fa') := by
  unfold trainSched at h
  have e1 : onDmp (Dmp.train traj) s = ((Dmp.train traj none s.dmp).1,
      { s with dmp := (Dmp.train traj none s.dmp).2 }) := rfl
  rcases h1 : Dmp.train traj none s.dmp with ⟨r1, dmp⟩
  rw [h1] at e1
  cases r1 with
  | error e => rw [PyM.bind_error e1] at h; cases h
  | ok u =>
    rw [PyM.bind_ok e1] at h
    have e2 : onDmp (Dmp.analytical none) { s with dmp := dmp } = ((Dmp.analytical none false dmp).1,
        { s with dmp := (Dmp.analytical none false dmp).2 }) := rfl
    rcases h2 : Dmp.analytical none false dmp with ⟨r2, dmp2⟩
    rw [h2] at e2
    cases r2 with
    | error e => rw [PyM.bind_error e2] at h; cases h
    | ok sol =>
      rw [PyM.bind_ok e2, PyM.self_bind] at h
      cases h3 : orMisc schedules traj.misc with
      | error e => rw [h3, PyM.lift_error_bind] at h; cases h
      | ok t =>
        rw [h3, PyM.lift_ok_bind] at h
        cases t with
        | none => cases h
        | some targets =>
          simp only at h
          by_cases hc : targets.cols ≠ s.sched.length
          · rw [if_pos hc] at h; cases h
          rw [if_neg hc] at h
          by_cases hl : targets.rows.length ≠ (sol.xs.map fun x =>
              (pickAt x (Dmp.PHASE dmp2.dimY)).getD 0 0).length
          · rw [if_pos hl] at h; cases h
          rw [if_neg hl] at h
          obtain ⟨g1, g2⟩ := Prod.mk.inj h
          subst g2
          obtain ⟨k1, _, k3⟩ := Dmp.trainFas_ok (List.range s.sched.length) (fas := s.sched)
            List.nodup_range (Prod.ext g1 rfl)
          rw [List.length_map] at hl
          refine ⟨dmp, sol, targets, rfl, h2, rfl, rfl, fun hn => ?_, fun a ha => ?_, not_not.mp hc,
            not_not.mp hl, k1, fun i hi => ?_⟩
          · subst hn
            exact Except.ok.inj h3
          · subst ha
            unfold orMisc at h3
            simp only at h3
            split at h3
            · exact .inr (Except.ok.inj h3)
            · have := Except.ok.inj h3
              split at this
              · exact .inl (Option.some.inj this).symm
              · exact .inr this
            · cases h3
          · obtain ⟨fa, fa', q1, q2, q3⟩ := k3 i (List.mem_range.mpr hi)
            refine ⟨fa, fa', q1, q2, ?_⟩
            have key : ∀ phases : List ℝ, phases = (sol.xs.map fun x => x.getD (3 * dmp2.dimY) 0) →
                Fa.train (fun (t : Fin phases.length) (_ : Fin 1) => phases[t])
                  (fun t => (targets.rows.getD t []).getD i 0) none fa = (.ok (), fa') →
                Fa.train (fun (t : Fin sol.xs.length) (_ : Fin 1) => (sol.xs.getD t []).getD (3 * dmp2.dimY) 0)
                  (fun t => (targets.rows.getD t []).getD i 0) none fa = (.ok (), fa') := by
              intro phases hp hq
              have hlen : phases.length = sol.xs.length := by rw [hp]; simp
              have : ∀ (N : Nat) (hN : phases.length = N) (f : Fin N → Fin 1 → ℝ),
                  (∀ t : Fin N, f t 0 = phases.getD t 0) →
                  Fa.train f (fun t => (targets.rows.getD t []).getD i 0) none fa = (.ok (), fa') := by
                intro N hN f hf
                subst hN
                rw [← hq]
                have : f = fun t _ => phases[t] := by
                  funext t j
                  obtain rfl : j = 0 := Subsingleton.elim _ _
                  rw [hf]
                  simp
                rw [this]
              refine this _ hlen _ fun t => ?_
              rw [hp, getD_map' t.2 0 []]
            refine key _ ?_ q3
            simp [pickPhase]

/-- With regularization, training of a linear function always succeeds. -/
theorem ridge_trains {N : Nat} (hN : N ≠ 0) (x : Fin N → Fin 1 → ℝ) (y : Fin N → ℝ) :
    ∃ fa', Fa.train x y none (Fa.new (.wls false 1)) = (.ok (), fa') := by
  obtain ⟨b, hb⟩ := (C34_succeeds (Matrix.of x) (fun _ => 1) y 1 (fun _ => zero_le_one) zero_le_one).mpr (by
    intro beta h
    have h1 : beta 0 ^ 2 = 0 := by
      simp only [Spec.squaredError, Matrix.of_apply] at h
      have : 0 ≤ ∑ s, (1 : ℝ) * (0 - ∑ i, x s i * beta i) ^ 2 := Finset.sum_nonneg fun _ _ => by positivity
      simp at h this
      nlinarith [sq_nonneg (beta 0)]
    funext i
    obtain rfl : i = 0 := Subsingleton.elim _ _
    simpa using h1)
  refine ⟨_, train_of hN (m := .wls ⟨b, none⟩) ?_⟩
  change (wlsTrain false 1 x y none >>= _) = _
  unfold wlsTrain
  simp only [Bool.false_eq_true, if_false]
  rw [hb]
  rfl

/-- A case of `C69_train`: one schedule, given as misc variable of the demonstration. -/
theorem demo_trains (y0 yg : ℝ) : ∃ s s', init 1 [y0] [yg] none [Fa.new (.wls false 1)] none none = .ok s ∧
    trainSched { Dmp.demo with misc := some ⟨1, [[1], [2]]⟩ } none s = (.ok (), s') := by
  obtain ⟨traj, htraj⟩ : ∃ t : Trajectory ℝ, t = { Dmp.demo with misc := some ⟨1, [[1], [2]]⟩ } := ⟨_, rfl⟩
  obtain ⟨s, hs⟩ := (Dmp.C16_types 1 [y0] [yg] none {}).1 (by simp [Dmp.known])
  have hr : Dmp.Reachable Dmp.Consistent Dmp.Change.Forward 1 s := .init hs rfl rfl
    ⟨(fun _ h => nomatch h), trivial, (fun _ h => nomatch h), (fun _ h => nomatch h),
      (fun _ h => nomatch h), (fun _ h => nomatch h), (fun _ h => nomatch h)⟩
    ⟨(fun _ h => nomatch h), one_pos, (fun _ h => nomatch h)⟩
  have hi : Dmp.Inv 1 s := (Dmp.kept_timed.reachable Dmp.init_timed hr).inv
  obtain ⟨D, hD, hseq⟩ := Dmp.init_eq hs
  unfold Dmp.defaults at hD
  rw [if_neg (by simp only; decide), if_pos (by simp only; decide)] at hD
  have hD := Except.ok.inj hD
  have hfas : s.fas = none := by rw [hseq]
  have hreq : s.requiresScaling = false := by rw [hseq, ← hD]
  have hsca : s.scaling = .noScaling := by rw [hseq]
  have hdim : s.dimY = 1 := hi.dim
  have htr : Dmp.train traj none s = (.ok (),
      { s.prepared 1 [3] [3] [0] none with tsTrain := some [0, 1] }) := by
    have r4 : traj.rangePerDim = .ok [0] := by rw [htraj]; simp [Trajectory.rangePerDim, Dmp.demo]
    have i1 := Dmp.inv_retimed hi 1
    rw [Dmp.train_eq, show traj.ts.getLast? = some 1 by rw [htraj]; rfl]
    simp only
    rw [PyM.bind_ok (Dmp.setTau_run s 1)]
    unfold Dmp.trainRest
    rw [show traj.yInit = .ok [3] by rw [htraj]; rfl, PyM.lift_ok_bind,
      PyM.bind_ok (Dmp.setYInit_run i1.wf (y := [3]) hdim.symm), show traj.yFinal = .ok [3] by rw [htraj]; rfl,
      PyM.lift_ok_bind, PyM.bind_ok (Dmp.setYAttr_run (Dmp.inv_placed i1 (y := [3]) hdim.symm).wf (y := [3]) hdim.symm),
      r4, PyM.lift_ok_bind, PyM.modify_bind, PyM.modify_bind]
    unfold Dmp.trainLast
    rw [PyM.self_bind]
    have : (Option.getD none (((s.retimed 1).placed [3]).aimed [3]).fas) = none := hfas
    simp only [Option.getD_none] at this ⊢
    rw [this, htraj]
    rfl
  obtain ⟨t, ht⟩ : ∃ t : Dmp, t = { s.prepared 1 [3] [3] [0] none with tsTrain := some [0, 1] } := ⟨_, rfl⟩
  rw [← ht] at htr
  have hshape : traj.Shape := by
    rw [htraj]
    exact ⟨Dmp.demo_shape.ys, Dmp.demo_shape.yds, Dmp.demo_shape.ydds, Dmp.demo_shape.ysCols,
      Dmp.demo_shape.ydsCols, Dmp.demo_shape.yddsCols, rfl, rfl, rfl, fun m hm => by cases hm; simp [Dmp.demo]⟩
  have hrt : Dmp.Reachable Dmp.Consistent Dmp.Change.Forward 1 (Dmp.train traj none s).2 :=
    .change hr (.train traj none) ⟨hshape, fun x hx => by
      rw [htraj] at hx
      cases hx
      exact one_pos⟩
  rw [htr] at hrt
  have hT := Dmp.kept_timed.reachable Dmp.init_timed hrt
  have hfa : t.faUsed [0, 1] false = .ok (List.replicate 2 (vzeros 1)) := by
    unfold Dmp.faUsed Dmp.predictions
    rw [show t.fas = none by rw [ht]; rfl, hT.inv.dim]
    rfl
  have hcf : t.CanForce := by
    unfold Dmp.CanForce
    rw [show t.scaling = .noScaling by rw [ht]; exact hsca]
    trivial
  have hcs : t.CanScale := by
    intro h
    rw [show t.requiresScaling = false by rw [ht]; exact hreq] at h
    cases h
  have han := (Dmp.analytical_iff hT.inv.wf (Dmp.sameStart_of_tau hT.springTau) (ts := [0, 1])).mpr
    ⟨hcs, hcf, by simp, _, hfa, rfl⟩
  have han' : Dmp.analytical none false t = Dmp.analytical (some [0, 1]) false t := by
    have e : t.tsTrain = some [0, 1] := by rw [ht]
    unfold Dmp.analytical
    rw [PyM.self_bind, PyM.self_bind]
    simp only [e]
  obtain ⟨sol, hsol, hlen⟩ : ∃ sol : Dmp.Solution, (Dmp.analytical none false t).1 = .ok sol ∧ sol.xs.length = 2 :=
    ⟨_, by rw [han']; exact han, by simp⟩
  obtain ⟨t2, ht2⟩ : ∃ t2, t2 = (Dmp.analytical none false t).2 := ⟨_, rfl⟩
  have hana : Dmp.analytical none false t = (.ok sol, t2) := by rw [ht2, ← hsol]
  refine ⟨⟨s, [Fa.new (.wls false 1)], none, none⟩, ?_⟩
  obtain ⟨phases, hph⟩ : ∃ phases, phases = sol.xs.map fun x => (pickAt x (Dmp.PHASE t2.dimY)).getD 0 0 := ⟨_, rfl⟩
  obtain ⟨fa', hfa'⟩ := ridge_trains (N := phases.length) (by rw [hph, List.length_map, hlen]; decide)
    (fun t _ => phases[t]) (fun t => (([[1], [2]] : List (List ℝ)).getD t []).getD 0 0)
  refine ⟨⟨t2, [fa'], none, none⟩, ?_, ?_⟩
  · unfold init
    rw [hs]
    rfl
  rw [← htraj]
  unfold trainSched
  have e1 : onDmp (Dmp.train traj) ⟨s, [Fa.new (.wls false 1)], none, none⟩ =
      (.ok (), ⟨t, [Fa.new (.wls false 1)], none, none⟩) := by
    change ((Dmp.train traj none s).1, DmpWithSchedules.mk (Dmp.train traj none s).2 _ _ _) = _
    rw [htr]
  have e2 : onDmp (Dmp.analytical none) ⟨t, [Fa.new (.wls false 1)], none, none⟩ =
      (.ok sol, ⟨t2, [Fa.new (.wls false 1)], none, none⟩) := by
    change ((Dmp.analytical none false t).1, DmpWithSchedules.mk (Dmp.analytical none false t).2 _ _ _) = _
    rw [hana]
  rw [PyM.bind_ok e1, PyM.bind_ok e2, PyM.self_bind]
  have e3 : orMisc none traj.misc = .ok (some ⟨1, [[1], [2]]⟩) := by rw [htraj]; rfl
  rw [e3, PyM.lift_ok_bind]
  simp only
  rw [if_neg (by simp), if_neg (by rw [List.length_map, hlen]; simp), ← hph]
  change ((Dmp.trainFas phases [[1], [2]] [0] [Fa.new (.wls false 1)]).1,
    DmpWithSchedules.mk t2 (Dmp.trainFas phases [[1], [2]] [0] [Fa.new (.wls false 1)]).2 none none) = _
  have e4 : Dmp.trainFas phases [[1], [2]] [0] [Fa.new (.wls false 1)] = (.ok (), [fa']) := by
    change (Dmp.trainFa phases [[1], [2]] 0 >>= fun _ => pure ()) [Fa.new (.wls false 1)] = _
    have : Dmp.trainFa phases [[1], [2]] 0 [Fa.new (.wls false 1)] = (.ok (), [fa']) := by
      unfold Dmp.trainFa
      simp only [List.getElem?_cons_zero]
      rw [hfa']
      rfl
    rw [PyM.bind_ok this]
    rfl
  rw [e4]

end DmpWithSchedules

end Verif
