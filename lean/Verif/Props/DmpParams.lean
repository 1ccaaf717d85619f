import Verif.Proofs.ParamVector
import Verif.Props.DmpTraining

/- Dmp: parameter vectors (C27, C28). -/

set_option autoImplicit false

namespace Verif

noncomputable section

namespace Fa

/-- `fa'` is `fa`, except for values of selected parameters. -/
structure Only (fa fa' : Fa) : Prop where
  params : fa'.params = fa.params
  selected : fa'.selected = fa.selected
  trained : fa'.model.isSome = fa.model.isSome
  kept : ∀ t, t ∉ fa.selected.getD [] → fa'.param t = fa.param t

theorem Only.refl (fa : Fa) : fa.Only fa := ⟨rfl, rfl, rfl, fun _ _ => rfl⟩

theorem setLoop_only : ∀ {names : List String} (fa : Fa) (v : List ℝ),
    (setLoop v names fa).2.params = fa.params ∧ (setLoop v names fa).2.selected = fa.selected ∧
      (setLoop v names fa).2.model.isSome = fa.model.isSome
  | [], _, _ => ⟨rfl, rfl, rfl⟩
  | n :: names, fa, v => by
    unfold setLoop
    rw [PyM.self_bind]
    cases e : fa.param n with
    | none => exact ⟨rfl, rfl, rfl⟩
    | some p =>
      cases p with
      | array sh x =>
        simp only
        rw [PyM.modify_bind]
        obtain ⟨h1, h2, h3⟩ := setLoop_only (names := names) (fa.setParam (v.take sh.prod) n) (v.drop sh.prod)
        exact ⟨h1, h2, h3.trans (by unfold setParam; simp)⟩
      | scalar x => exact ⟨rfl, rfl, rfl⟩
      | float x => exact ⟨rfl, rfl, rfl⟩
      | none => exact ⟨rfl, rfl, rfl⟩

theorem setParamVector_only (fa : Fa) (v : List ℝ) : fa.Only (setParamVector v fa).2 := by
  have h : (setParamVector v fa).2.params = fa.params ∧ (setParamVector v fa).2.selected = fa.selected ∧
      (setParamVector v fa).2.model.isSome = fa.model.isSome := by
    unfold setParamVector
    rw [PyM.self_bind]
    split
    · exact ⟨rfl, rfl, rfl⟩
    · cases e : fa.paramVectorSize with
      | error x => exact ⟨rfl, rfl, rfl⟩
      | ok n =>
        rw [PyM.lift_ok_bind]
        split
        · exact ⟨rfl, rfl, rfl⟩
        · cases e2 : fa.selected with
          | none => exact ⟨rfl, e2, rfl⟩
          | some names =>
            obtain ⟨h1, h2, h3⟩ := setLoop_only (names := names) fa v
            exact ⟨h1, h2.trans e2, h3⟩
  exact ⟨h.1, h.2.1, h.2.2, fun t ht => setParamVector_frame fa v ht⟩

/-- Values of the selected parameters, one after the other. -/
def values (fa : Fa) : List ℝ :=
  if fa.model.isSome then ((fa.selected.getD []).map fa.entries).flatten else []

end Fa

namespace Dmp

variable {d : Nat}

/-- In every trained function approximator different array-valued parameters are selected. -/
def Selects (s : Dmp) : Prop := ∀ fa ∈ s.fas.getD [], fa.Selects

section

variable {fas : List Fa}

theorem faValues_eq {fa : Fa} (h : fa.Selects) : faValues fa = .ok fa.values := by
  unfold faValues Fa.values
  by_cases ht : fa.model.isSome = true
  · obtain ⟨names, hs, hn, ha⟩ := h ht
    rw [if_pos ht, if_pos ht, Fa.getParamVector_eq ht hs ha, hs]
    rfl
  · rw [if_neg ht, if_neg ht]

theorem faSize_eq {fa : Fa} (h : fa.Selects) :
    (if fa.model.isSome then fa.paramVectorSize else .ok 0) = .ok fa.values.length := by
  unfold Fa.values
  by_cases ht : fa.model.isSome = true
  · obtain ⟨names, hs, hn, ha⟩ := h ht
    rw [if_pos ht, if_pos ht, Fa.paramVectorSize_eq hs ha, hs]
    rfl
  · rw [if_neg ht, if_neg ht]
    rfl

theorem sliceSize_eq {fa : Fa} (ht : fa.model.isSome = true) (h : fa.Selects) :
    sliceSize fa = .ok fa.values.length := by
  obtain ⟨names, hs, hn, ha⟩ := h ht
  unfold sliceSize Fa.values
  rw [Fa.paramVectorSize_eq hs ha, except_ok_bind, hs, if_pos ht, if_neg]
  · rfl
  · simp only [Option.getD_some, List.any_eq_true, not_exists, not_and]
    intro n hn'
    obtain ⟨sh, x, hx⟩ := ha n hn'
    rw [hx]
    simp [isScalar]

theorem setFas_eq : ∀ {fas : List Fa}, (∀ fa ∈ fas, fa.Selects) → ∀ {v rest : List ℝ},
    v.length = (fas.map Fa.values).flatten.length →
    ∃ fas', setFas (v ++ rest) fas = (.ok rest, fas') ∧ List.Forall₂ Fa.Only fas fas' ∧
      (∀ fa ∈ fas', fa.Selects) ∧ (fas'.map Fa.values).flatten = v
  | [], _, v, rest, hv => by
    have : v = [] := by simpa using hv
    subst this
    exact ⟨[], rfl, .nil, (fun _ h => nomatch h), rfl⟩
  | fa :: fas, h, v, rest, hv => by
    have hfa := h fa (by simp)
    by_cases ht : fa.model.isSome = true
    · obtain ⟨names, hs, hn, ha⟩ := hfa ht
      have ev : fa.values = (names.map fa.entries).flatten := by
        unfold Fa.values; rw [if_pos ht, hs]; rfl
      simp only [List.map_cons, List.flatten_cons, List.length_append] at hv
      have hl : (v.take fa.values.length).length = (names.map fa.entries).flatten.length := by
        rw [List.length_take, ← ev]; omega
      obtain ⟨fa', h1, h2, h3, h4, h5, h6, h7⟩ := Fa.setParamVector_eq ht hs hn ha hl
      obtain ⟨fas', k1, k2, k3, k4⟩ := setFas_eq (fas := fas) (fun x hx => h x (by simp [hx]))
        (v := v.drop fa.values.length) (rest := rest) (by rw [List.length_drop]; omega)
      have e1 : (v ++ rest).take fa.values.length = v.take fa.values.length :=
        List.take_append_of_le_length (by omega)
      have e2 : (v ++ rest).drop fa.values.length = v.drop fa.values.length ++ rest :=
        List.drop_append_of_le_length (by omega)
      refine ⟨fa' :: fas', ?_, .cons ⟨h2, h3.trans hs.symm, h4.trans ht.symm, by rw [hs]; exact h5⟩ k2, ?_, ?_⟩
      · rw [setFas, if_pos ht, sliceSize_eq ht hfa]
        simp only
        rw [e1, h1]
        simp only
        rw [e2, k1]
      · intro x hx
        rcases List.mem_cons.mp hx with rfl | hx
        · exact fun _ => ⟨names, h3, hn, h6⟩
        · exact k3 x hx
      · rw [List.map_cons, List.flatten_cons, k4]
        have : fa'.values = v.take fa.values.length := by
          unfold Fa.values; rw [if_pos h4, h3]; exact h7
        rw [this, List.take_append_drop]
    · have ev : fa.values = [] := by unfold Fa.values; rw [if_neg ht]
      simp only [List.map_cons, List.flatten_cons, ev, List.nil_append] at hv
      obtain ⟨fas', k1, k2, k3, k4⟩ := setFas_eq (fas := fas) (fun x hx => h x (by simp [hx]))
        (v := v) (rest := rest) hv
      refine ⟨fa :: fas', ?_, .cons (.refl fa) k2, ?_, ?_⟩
      · rw [setFas, if_neg ht, k1]
      · intro x hx
        rcases List.mem_cons.mp hx with rfl | hx
        · exact hfa
        · exact k3 x hx
      · rw [List.map_cons, List.flatten_cons, k4, ev]
        rfl

theorem setFas_self : ∀ {fas : List Fa}, (∀ fa ∈ fas, fa.Selects) → ∀ {rest : List ℝ},
    setFas ((fas.map Fa.values).flatten ++ rest) fas = (.ok rest, fas)
  | [], _, rest => rfl
  | fa :: fas, h, rest => by
    have hfa := h fa (by simp)
    have ih := setFas_self (fas := fas) (fun x hx => h x (by simp [hx])) (rest := rest)
    by_cases ht : fa.model.isSome = true
    · obtain ⟨names, hs, hn, ha⟩ := hfa ht
      have ev : fa.values = (names.map fa.entries).flatten := by
        unfold Fa.values; rw [if_pos ht, hs]; rfl
      rw [setFas, if_pos ht, sliceSize_eq ht hfa]
      simp only [List.map_cons, List.flatten_cons, List.append_assoc]
      rw [List.take_left' rfl, List.drop_left' rfl, ih, ev, Fa.setParamVector_self ht hs ha]
    · have ev : fa.values = [] := by unfold Fa.values; rw [if_neg ht]
      rw [setFas, if_neg ht]
      simp only [List.map_cons, List.flatten_cons, ev, List.nil_append]
      rw [ih]

theorem setFas_only : ∀ (fas : List Fa) (v : List ℝ), List.Forall₂ Fa.Only fas (setFas v fas).2
  | [], _ => .nil
  | fa :: fas, v => by
    have refls : ∀ l : List Fa, List.Forall₂ Fa.Only l l := fun l =>
      List.forall₂_same.mpr fun x _ => .refl x
    rw [setFas]
    split
    · cases e : sliceSize fa with
      | error x => exact refls _
      | ok n =>
        simp only
        have h1 := Fa.setParamVector_only fa (v.take n)
        cases e2 : Fa.setParamVector (v.take n) fa with
        | mk r fa' =>
          rw [e2] at h1
          cases r with
          | error x => exact .cons h1 (refls _)
          | ok u => exact .cons h1 (setFas_only fas _)
    · exact .cons (.refl fa) (setFas_only fas v)

end

/-- Part of the vector for the goal. -/
def goalValues (s : Dmp) : List ℝ := if "goal" ∈ s.selected then s.yAttr else []

theorem getParamVector_eq {s : Dmp} (h : s.Selects) :
    s.getParamVector = .ok (((s.fas.getD []).map Fa.values).flatten ++ s.goalValues) := by
  unfold getParamVector
  rw [Fa.mapM_ok_of (g := Fa.values) fun fa hfa => faValues_eq (h fa hfa)]
  rfl

theorem paramVectorSize_eq {s : Dmp} (w : s.Wf) (h : s.Selects) :
    s.paramVectorSize = .ok (((s.fas.getD []).map Fa.values).flatten ++ s.goalValues).length := by
  unfold paramVectorSize
  rw [Fa.mapM_ok_of (g := fun fa => fa.values.length) fun fa hfa => faSize_eq (h fa hfa), except_ok_bind]
  change Except.ok _ = _
  rw [List.length_append, List.length_flatten, List.map_map]
  unfold goalValues
  congr 2
  split
  · exact w.yAttr.symm
  · rfl

theorem aimed_self {s : Dmp} (h : s.Plain) : s.aimed s.yAttr = s := by
  unfold aimed
  have : (if s.requiresScaling = true then s.goal else s.goal.map (Sub.withAttr s.yAttr)) = s.goal := by
    split
    · rfl
    · cases e : s.goal with
      | none => rfl
      | some g => rw [Option.map_some, h.sync g e]
  rw [this]

theorem setFas_run {s : Dmp} {v rest : List ℝ} {fas : List Fa}
    (h : setFas v (s.fas.getD []) = (.ok rest, fas)) :
    (match s.fas with
      | none => pure v
      | some _ => onFas ⟨setFas v⟩ : PyM Dmp (List ℝ)) s = (.ok rest, { s with fas := s.fas.map fun _ => fas }) := by
  cases e : s.fas with
  | none =>
    rw [e] at h
    cases h
    have : s = { s with fas := none } := by cases s; cases e; rfl
    exact congrArg (Prod.mk _) this
  | some l =>
    rw [e] at h
    unfold onFas
    simp only [e]
    change ((setFas v l).1, _) = _
    have h' : setFas v l = (.ok rest, fas) := h
    rw [h']
    rfl

theorem wf_fas {s : Dmp} (w : s.Wf) (f : Option (List Fa)) : Wf { s with fas := f } :=
  ⟨w.dimX, w.yAttr, w.yInit, w.spring, w.springDim, w.phase, w.phaseDim, w.gating, w.gatingDim, w.goal,
    w.goalDim, w.damping, w.dampingDim, w.amplitudes⟩

theorem size_of_vector {s : Dmp} (w : s.Wf) (h : s.Selects) {v : List ℝ} (hv : s.getParamVector = .ok v) :
    s.paramVectorSize = .ok v.length := by
  rw [getParamVector_eq h] at hv
  rw [paramVectorSize_eq w h, Except.ok.inj hv]

/-- set_param_vector with a vector of the right length. -/
theorem setParamVector_run {s : Dmp} (w : s.Wf) (h : s.Selects) {v g : List ℝ}
    (hv : v.length = ((s.fas.getD []).map Fa.values).flatten.length) (hg : g.length = s.goalValues.length) :
    ∃ fas, setFas (v ++ g) (s.fas.getD []) = (.ok g, fas) ∧ List.Forall₂ Fa.Only (s.fas.getD []) fas ∧
      (∀ fa ∈ fas, fa.Selects) ∧ (fas.map Fa.values).flatten = v ∧
      setParamVector (v ++ g) s = (.ok (), if "goal" ∈ s.selected then
        Dmp.aimed { s with fas := s.fas.map fun _ => fas } g else { s with fas := s.fas.map fun _ => fas }) := by
  obtain ⟨fas, h1, h2, h3, h4⟩ := setFas_eq h (rest := g) hv
  refine ⟨fas, h1, h2, h3, h4, ?_⟩
  unfold setParamVector
  rw [PyM.self_bind, paramVectorSize_eq w h, PyM.lift_ok_bind, if_neg (by simp [hv, hg])]
  refine (PyM.bind_ok (setFas_run h1)).trans ?_
  have w' := wf_fas w (s.fas.map fun _ => fas)
  by_cases hsel : "goal" ∈ s.selected
  · have lg : g.length = s.dimY := by
      rw [hg]; unfold goalValues; rw [if_pos hsel]; exact w.yAttr
    rw [if_pos hsel, if_pos hsel, List.take_of_length_le (by omega)]
    exact setYAttr_run w' (y := g) lg
  · rw [if_neg hsel, if_neg hsel]
    rfl

/-- C27: round trip. -/
theorem C27_roundtrip (d : Nat) (s : Dmp) (h : Reachable DefaultLike Change.Valid d s) (hs : s.Selects) :
    ∃ v0, s.getParamVector = .ok v0 ∧ s.paramVectorSize = .ok v0.length ∧
      setParamVector v0 s = (.ok (), s) ∧
      (∀ v, v.length = v0.length → ∃ s', setParamVector v s = (.ok (), s') ∧ s'.getParamVector = .ok v ∧
        s'.paramVectorSize = .ok v.length) ∧
      ∀ v, v.length ≠ v0.length → setParamVector v s = (.error .valueError, s) := by
  have hi := h.inv
  have w := hi.wf
  refine ⟨_, getParamVector_eq hs, paramVectorSize_eq w hs, ?_, fun v hv => ?_, fun v hv => ?_⟩
  · unfold setParamVector
    rw [PyM.self_bind, paramVectorSize_eq w hs, PyM.lift_ok_bind, if_neg (not_not.mpr rfl)]
    refine (PyM.bind_ok (setFas_run (setFas_self hs))).trans ?_
    have e : ({ s with fas := s.fas.map fun _ => s.fas.getD [] } : Dmp) = s := by
      have : (s.fas.map fun _ => s.fas.getD []) = s.fas := by cases s.fas <;> rfl
      rw [this]
    rw [e]
    by_cases hsel : "goal" ∈ s.selected
    · have eg : s.goalValues = s.yAttr := by unfold goalValues; rw [if_pos hsel]
      rw [if_pos hsel, eg, List.take_of_length_le (by rw [w.yAttr]), setYAttr_run w w.yAttr, aimed_self hi.plain]
    · rw [if_neg hsel]
      rfl
  · set n := ((s.fas.getD []).map Fa.values).flatten.length with hn
    rw [List.length_append] at hv
    obtain ⟨fas, h1, h2, h3, h4, h5⟩ := setParamVector_run w hs (v := v.take n) (g := v.drop n)
      (by rw [List.length_take]; omega) (by rw [List.length_drop]; omega)
    rw [List.take_append_drop] at h1 h5
    refine ⟨_, h5, ?_⟩
    have efas : ∀ fa ∈ ((s.fas.map fun _ => fas).getD []), fa.Selects := by
      cases s.fas with
      | none => exact fun _ h => nomatch h
      | some l => exact h3
    have evals : (((s.fas.map fun _ => fas).getD []).map Fa.values).flatten = v.take n := by
      cases e : s.fas with
      | none =>
        have : n = 0 := by rw [hn, e]; rfl
        rw [this]; rfl
      | some l => exact h4
    by_cases hsel : "goal" ∈ s.selected
    · rw [if_pos hsel]
      have lg : (v.drop n).length = s.dimY := by
        have : s.goalValues.length = s.dimY := by unfold goalValues; rw [if_pos hsel]; exact w.yAttr
        rw [List.length_drop]; omega
      have w' := inv_aimed (d := d) (s := { s with fas := s.fas.map fun _ => fas })
        ⟨wf_fas w _, hi.plain, hi.dim⟩ (y := v.drop n) lg
      set s' := Dmp.aimed { s with fas := s.fas.map fun _ => fas } (v.drop n)
      have e1 := getParamVector_eq (s := s') efas
      have eg : s'.goalValues = v.drop n := if_pos hsel
      have ev : ((s'.fas.getD []).map Fa.values).flatten = v.take n := evals
      rw [ev, eg, List.take_append_drop] at e1
      exact ⟨e1, size_of_vector w'.wf efas e1⟩
    · rw [if_neg hsel]
      have w' := wf_fas w (s.fas.map fun _ => fas)
      set s' : Dmp := { s with fas := s.fas.map fun _ => fas }
      have e1 := getParamVector_eq (s := s') efas
      have eg : s'.goalValues = v.drop n := by
        have e0 : s.goalValues = [] := if_neg hsel
        have e2 : v.drop n = [] := List.eq_nil_of_length_eq_zero (by
          rw [e0, List.length_nil] at hv; rw [List.length_drop]; omega)
        rw [e2]
        exact if_neg hsel
      have ev : ((s'.fas.getD []).map Fa.values).flatten = v.take n := evals
      rw [ev, eg, List.take_append_drop] at e1
      exact ⟨e1, size_of_vector w' efas e1⟩
  · unfold setParamVector
    rw [PyM.self_bind, paramVectorSize_eq w hs, PyM.lift_ok_bind, if_pos hv]
    rfl

/-- `s'` is `s`, except for values of selected parameters. -/
structure OnlySelected (s s' : Dmp) : Prop where
  rest : s' = { s with fas := s'.fas, yAttr := s'.yAttr, goal := s'.goal }
  some : s'.fas.isSome = s.fas.isSome
  fas : List.Forall₂ Fa.Only (s.fas.getD []) (s'.fas.getD [])
  yAttr : "goal" ∉ s.selected → s'.yAttr = s.yAttr
  goal : s'.goal = s.goal.map (Sub.withAttr s'.yAttr)

theorem onlySelected_fas {s : Dmp} (h : s.Plain) {f : List Fa}
    (hf : List.Forall₂ Fa.Only (s.fas.getD []) f) : OnlySelected s { s with fas := s.fas.map fun _ => f } := by
  refine ⟨rfl, by cases s.fas <;> rfl, ?_, fun _ => rfl, ?_⟩
  · cases e : s.fas with
    | none => exact .nil
    | some l => rw [e] at hf; exact hf
  · change s.goal = s.goal.map (Sub.withAttr s.yAttr)
    cases e : s.goal with
    | none => rfl
    | some g => rw [Option.map_some, h.sync g e]

/-- C27: parameters that are not selected are never changed, also if the call fails. -/
theorem C27_unselected (d : Nat) (s : Dmp) (h : Reachable DefaultLike Change.Valid d s) (v : List ℝ) :
    OnlySelected s (setParamVector v s).2 := by
  have hi := h.inv
  have w := hi.wf
  have same : OnlySelected s s := by
    have := onlySelected_fas hi.plain (f := s.fas.getD []) (List.forall₂_same.mpr fun x _ => .refl x)
    have e : (s.fas.map fun _ => s.fas.getD []) = s.fas := by cases s.fas <;> rfl
    rw [e] at this
    exact this
  unfold setParamVector
  rw [PyM.self_bind]
  cases e : s.paramVectorSize with
  | error x => exact same
  | ok n =>
    rw [PyM.lift_ok_bind]
    by_cases hv : v.length ≠ n
    · rw [if_pos hv]; exact same
    rw [if_neg hv]
    have hrun : (match s.fas with
      | none => pure v
      | some _ => onFas ⟨setFas v⟩ : PyM Dmp (List ℝ)) s =
        ((setFas v (s.fas.getD [])).1, { s with fas := s.fas.map fun _ => (setFas v (s.fas.getD [])).2 }) := by
      cases e : s.fas with
      | none =>
        have : s = { s with fas := none } := by cases s; cases e; rfl
        exact congrArg (Prod.mk _) this
      | some l =>
        unfold onFas
        simp only [e]
        rfl
    have h1 := onlySelected_fas hi.plain (setFas_only (s.fas.getD []) v)
    cases e2 : (setFas v (s.fas.getD [])).1 with
    | error x =>
      rw [e2] at hrun
      refine (congrArg (fun r => OnlySelected s (Prod.snd r)) (PyM.bind_error hrun)).mpr ?_
      exact h1
    | ok rest =>
      rw [e2] at hrun
      refine (congrArg (fun r => OnlySelected s (Prod.snd r)) (PyM.bind_ok hrun)).mpr ?_
      by_cases hsel : "goal" ∈ s.selected
      · rw [if_pos hsel]
        set s1 : Dmp := { s with fas := s.fas.map fun _ => (setFas v (s.fas.getD [])).2 }
        by_cases hl : (rest.take s.dimY).length = s1.dimY
        · rw [setYAttr_run (wf_fas w _) hl]
          refine ⟨rfl, h1.some, h1.fas, fun h => absurd hsel h, ?_⟩
          change (if s.requiresScaling then s.goal else s.goal.map (Sub.withAttr (rest.take s.dimY))) = _
          split
          · rename_i hr
            change s.goal = s.goal.map (Sub.withAttr (rest.take s.dimY))
            cases eg : s.goal with
            | none => rfl
            | some g =>
              cases g with
              | exponential e =>
                have := (hi.plain e eg).1
                rw [hr] at this
                cases this
              | time _ => rfl
              | sigmoid _ => rfl
              | richards _ => rfl
          · rfl
        · rw [setYAttr_reject hl]
          exact h1
      · rw [if_neg hsel]
        exact h1

/-- set_selected_param_names: the names except "goal" are passed to the function approximators. -/
theorem setSelected_run (names : List String) (s : Dmp) : setSelected names s = (.ok (),
    { s with
      selected := if "goal" ∈ names then ["goal"] else s.selected
      fas := s.fas.map fun fas => fas.map fun fa => { fa with selected := some (names.filter (· ≠ "goal")) } }) := by
  unfold setSelected
  by_cases h : "goal" ∈ names
  · rw [if_pos h, if_pos h, if_pos h, PyM.modify_bind]
    rfl
  · rw [if_neg h, if_neg h, if_neg h]
    have : names.filter (· ≠ "goal") = names :=
      List.filter_eq_self.mpr fun n hn => by
        simp only [ne_eq, decide_not, Bool.not_eq_eq_eq_not, Bool.not_true, decide_eq_false_iff_not]
        exact fun e => h (e ▸ hn)
    rw [this]
    rfl

/-- C27: selecting different array-valued parameters, and "goal", gives an object to which
`C27_roundtrip` applies. -/
theorem C27_select (s : Dmp) (names : List String) (hn : names.Nodup)
    (ha : ∀ fa ∈ s.fas.getD [], fa.model.isSome = true → ∀ n ∈ names, n ≠ "goal" →
      ∃ sh v, fa.param n = some (.array sh v)) :
    (setSelected names s).1 = .ok () ∧ (setSelected names s).2.Selects ∧
      ("goal" ∈ names → "goal" ∈ (setSelected names s).2.selected) := by
  rw [setSelected_run]
  refine ⟨rfl, ?_, fun h => by simp [h]⟩
  intro fa hfa ht
  have hfa : fa ∈ (s.fas.map fun fas => fas.map fun fa =>
      ({ fa with selected := some (names.filter (· ≠ "goal")) } : Fa)).getD [] := hfa
  cases e : s.fas with
  | none => rw [e] at hfa; exact nomatch hfa
  | some l =>
    rw [e] at hfa ha
    obtain ⟨fa0, h0, rfl⟩ := List.mem_map.mp hfa
    refine ⟨_, rfl, hn.filter _, fun n h => ?_⟩
    rw [List.mem_filter] at h
    exact ha fa0 h0 ht n h.1 (by simpa using h.2)

/-- A case: a Dmp with two trained function approximators, whose offsets are not array-valued. -/
noncomputable def slopes (a b : ℝ) : Fa := ⟨.wls true 0, some ⟨1, .wls ⟨fun _ => a, some b⟩⟩, none⟩

example : ∃ s s' v, init 1 [0, 1] [2, 3] (some [slopes 1 2, slopes 3 4]) = .ok s ∧
    Reachable DefaultLike Change.Valid 2 s' ∧ s'.Selects ∧ s' = (setSelected ["slope", "goal"] s).2 ∧
    s'.getParamVector = .ok v ∧ v = [1, 3, 2, 3] := by
  obtain ⟨s, hs⟩ := (C16_types 1 [0, 1] [2, 3] (some [slopes 1 2, slopes 3 4]) {}).1 (by simp [known])
  have hr : Reachable DefaultLike Change.Valid 2 s := .init hs rfl rfl
    ⟨(fun _ h => nomatch h), trivial, (fun _ h => nomatch h),
      (fun _ h => nomatch h), (fun _ h => nomatch h), (fun _ h => nomatch h), (fun _ h => nomatch h)⟩
    (fun _ h => nomatch h)
  obtain ⟨dflt, hd, hseq⟩ := init_eq hs
  have hfas : s.fas = some [slopes 1 2, slopes 3 4] := by rw [hseq]
  have hya : s.yAttr = [2, 3] := by rw [hseq]
  have hsel : (setSelected ["slope", "goal"] s).2.Selects := by
    refine (C27_select s ["slope", "goal"] (by decide) fun fa hfa _ n hn hg => ?_).2.1
    rw [hfas] at hfa
    have : n = "slope" := by
      simp only [List.mem_cons, List.not_mem_nil, or_false] at hn
      exact hn.resolve_right hg
    subst this
    simp only [Option.getD_some, List.mem_cons, List.not_mem_nil, or_false] at hfa
    rcases hfa with rfl | rfl
    · exact ⟨[1], [1], rfl⟩
    · exact ⟨[1], [3], rfl⟩
  refine ⟨s, _, _, hs, .change hr (.select ["slope", "goal"]) trivial, hsel, rfl, getParamVector_eq hsel, ?_⟩
  change ((((Change.select ["slope", "goal"]).run s).2.fas.getD []).map Fa.values).flatten ++ _ = _
  change ((((setSelected ["slope", "goal"] s).2.fas.getD []).map Fa.values).flatten) ++
    (setSelected ["slope", "goal"] s).2.goalValues = _
  have e : ["slope", "goal"].filter (· ≠ "goal") = ["slope"] := by decide
  rw [setSelected_run, hfas, e]
  unfold goalValues
  rw [hya]
  simp [Fa.values, Fa.entries, Fa.param, FaModel.param, slopes]

/-! ### C28 -/

/-- C28: the length is the size. -/
def C28_length_statement : Prop :=
  ∀ (d : Nat) (s : Dmp), Reachable DefaultLike Change.Valid d s → ∀ v, s.getParamVector = .ok v →
    s.paramVectorSize = .ok v.length

/-- C28: the goal can be deselected. -/
def C28_undo_statement : Prop :=
  ∀ (d : Nat) (s : Dmp), Reachable DefaultLike Change.Valid d s → ∀ names, "goal" ∉ names →
    "goal" ∉ (setSelected names s).2.selected

theorem Fa.size_of_vector {fa : Fa} {names : List String} (hs : fa.selected = some names) {v : List ℝ}
    (h : fa.getParamVector = .ok (some v)) : fa.paramVectorSize = .ok v.length := by
  unfold Fa.getParamVector at h
  rw [hs] at h
  simp only at h
  cases e : fa.model with
  | none => rw [e] at h; cases h
  | some m =>
    rw [e] at h
    obtain ⟨vs, h1, h2⟩ := except_bind_ok h
    cases h2
    unfold Fa.paramVectorSize
    rw [hs]
    simp only
    have : ∀ (names : List String) (vs : List (List ℝ)), names.mapM fa.flatten = .ok vs →
        (names.mapM fun label =>
          (match fa.param label with
          | none => .ok 0
          | some (.array shape _) => .ok shape.prod
          | some (.scalar _) => .ok 1
          | some (.float _) => .error PyErr.attributeError
          | some .none => .error .attributeError : Except PyErr Nat)) = .ok (vs.map List.length) := by
      intro names
      induction names with
      | nil => intro vs h; cases h; rfl
      | cons n names ih =>
        intro vs h
        rw [List.mapM_cons] at h
        obtain ⟨a, h1, h2⟩ := except_bind_ok h
        obtain ⟨b, h3, h4⟩ := except_bind_ok h2
        cases h4
        rw [List.mapM_cons, ih b h3]
        unfold Fa.flatten at h1
        cases e : fa.param n with
        | none => rw [e] at h1; cases h1
        | some p =>
          rw [e] at h1
          cases p with
          | array sh x =>
            cases h1
            change Except.ok (sh.prod :: _) = _
            rw [← Fa.param_length e]
            rfl
          | scalar x => cases h1; rfl
          | float x => cases h1
          | none => cases h1
    refine (congrArg (· >>= fun l : List Nat => pure l.sum) (this names vs h1)).trans ?_
    change Except.ok _ = _
    rw [List.length_flatten]

/-- C28 for objects whose trained function approximators have some selection. Missing for C28: the initial
state without selection (`C28_length_refuted`), and deselecting the goal (`C28_undo_refuted`). -/
theorem C28_length_partial (d : Nat) (s : Dmp) (h : Reachable DefaultLike Change.Valid d s)
    (hs : ∀ fa ∈ s.fas.getD [], fa.model.isSome = true → fa.selected ≠ none) (v : List ℝ)
    (hv : s.getParamVector = .ok v) : s.paramVectorSize = .ok v.length := by
  have w := h.inv.wf
  unfold getParamVector at hv
  obtain ⟨vs, h1, h2⟩ := except_bind_ok hv
  cases h2
  unfold paramVectorSize
  have : ∀ (l : List Fa) (vs : List (List ℝ)), (∀ fa ∈ l, fa.model.isSome = true → fa.selected ≠ none) →
      l.mapM faValues = .ok vs →
      (l.mapM fun fa => if fa.model.isSome then fa.paramVectorSize else .ok 0) = .ok (vs.map List.length) := by
    intro l
    induction l with
    | nil => intro vs _ h; cases h; rfl
    | cons fa l ih =>
      intro vs hl h
      rw [List.mapM_cons] at h
      obtain ⟨a, h1, h2⟩ := except_bind_ok h
      obtain ⟨b, h3, h4⟩ := except_bind_ok h2
      cases h4
      have e : (if fa.model.isSome then fa.paramVectorSize else .ok 0) = .ok a.length := by
        unfold faValues at h1
        by_cases ht : fa.model.isSome = true
        · rw [if_pos ht] at h1 ⊢
          obtain ⟨o, h5, h6⟩ := except_bind_ok h1
          obtain ⟨names, hsn⟩ := Option.ne_none_iff_exists'.mp (hl fa (by simp) ht)
          cases o with
          | none =>
            unfold Fa.getParamVector at h5
            rw [hsn] at h5
            obtain ⟨m, hm⟩ := Option.isSome_iff_exists.mp ht
            rw [hm] at h5
            obtain ⟨_, _, h7⟩ := except_bind_ok h5
            cases h7
          | some x =>
            cases h6
            exact Fa.size_of_vector hsn h5
        · rw [if_neg ht] at h1 ⊢
          cases h1
          rfl
      rw [List.mapM_cons, e, ih b (fun x hx => hl x (by simp [hx])) h3]
      rfl
  rw [this _ vs hs h1, except_ok_bind]
  change Except.ok _ = _
  rw [List.length_append, List.length_flatten]
  congr 2
  split
  · exact w.yAttr.symm
  · rfl

theorem slopes_reachable : ∃ s, Reachable DefaultLike Change.Valid 1 s ∧ s.fas = some [slopes 1 2] ∧
    s.selected = [] := by
  obtain ⟨s, hs⟩ := (C16_types 1 [0] [1] (some [slopes 1 2]) {}).1 (by simp [known])
  refine ⟨s, .init hs rfl rfl ⟨(fun _ h => nomatch h), trivial, (fun _ h => nomatch h),
    (fun _ h => nomatch h), (fun _ h => nomatch h), (fun _ h => nomatch h), (fun _ h => nomatch h)⟩
    (fun _ h => nomatch h), ?_⟩
  obtain ⟨dflt, hd, hseq⟩ := init_eq hs
  exact ⟨by rw [hseq], by rw [hseq]⟩

/-- Without selection, the vector has an entry for each trained function approximator, but the size
is 0. -/
theorem C28_length_refuted : ¬ C28_length_statement := by
  intro H
  obtain ⟨s, hr, hf, hs⟩ := slopes_reachable
  have h1 : s.getParamVector = .ok [0] := by
    unfold getParamVector
    rw [hf, hs]
    rfl
  have h2 : s.paramVectorSize = .ok 0 := by
    unfold paramVectorSize
    rw [hf, hs]
    rfl
  have := H 1 s hr [0] h1
  rw [h2] at this
  cases this

/-- Once selected, the goal stays selected. -/
theorem C28_goal_stays (s : Dmp) (h : "goal" ∈ s.selected) (names : List String) :
    "goal" ∈ (setSelected names s).2.selected := by
  rw [setSelected_run]
  change "goal" ∈ if "goal" ∈ names then ["goal"] else s.selected
  split
  · simp
  · exact h

theorem C28_undo_refuted : ¬ C28_undo_statement := by
  intro H
  obtain ⟨s, hr, -, -⟩ := slopes_reachable
  refine H 1 _ (.change hr (.select ["goal"]) trivial) ["slope"] (by decide) (C28_goal_stays _ ?_ _)
  change "goal" ∈ (setSelected ["goal"] s).2.selected
  rw [setSelected_run]
  simp

/-- A case of `C28_length_partial` with a numpy scalar and a repeated name. -/
example : ∃ s v, Reachable DefaultLike Change.Valid 1 s ∧ s.getParamVector = .ok v ∧ v.length = 3 ∧
    ∀ fa ∈ s.fas.getD [], fa.model.isSome = true → fa.selected ≠ none := by
  obtain ⟨s, hr, hf, hs⟩ := slopes_reachable
  have hs' : setSelected ["offset", "slope", "offset"] s = _ := setSelected_run _ s
  have e : ["offset", "slope", "offset"].filter (· ≠ "goal") = ["offset", "slope", "offset"] := by decide
  rw [hf, hs, e, if_neg (by decide)] at hs'
  refine ⟨_, [2, 1, 2], .change hr (.select ["offset", "slope", "offset"]) trivial, ?_, rfl, ?_⟩
  · change (setSelected ["offset", "slope", "offset"] s).2.getParamVector = _
    rw [hs']
    rfl
  · change ∀ fa ∈ (setSelected ["offset", "slope", "offset"] s).2.fas.getD [], _
    rw [hs']
    intro fa hfa _
    obtain rfl : fa = _ := by simpa using hfa
    simp

end Dmp

end

end Verif
