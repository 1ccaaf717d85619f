import Verif.Props.DmpParams

/- Helper lemmas: set_param_vector overwrites everything that an earlier call has set. -/

set_option autoImplicit false

namespace Verif

namespace FaModel

variable {d : Nat}

theorem setParam_setParam (m : FaModel d) (s : String) (v w : List ℝ) :
    (m.setParam v s).setParam w s = m.setParam w s := by
  cases m
  all_goals
    conv_lhs => arg 3; unfold setParam
    dsimp only
    (repeat' split) <;> subst_vars <;> simp_all [setParam]

theorem setParam_comm (m : FaModel d) {s t : String} (h : s ≠ t) (v w : List ℝ) :
    (m.setParam v s).setParam w t = (m.setParam w t).setParam v s := by
  cases m
  all_goals
    conv_lhs => arg 3; unfold setParam
    conv_rhs => arg 3; unfold setParam
    dsimp only
    (repeat' split) <;> subst_vars <;> simp_all [setParam]

end FaModel

/-- A parameter without the entries of the array. -/
def paramKind : Option Param → Option Param
  | some (.array sh _) => some (.array sh [])
  | p => p

theorem FaModel.kind_setParam {d : Nat} (m : FaModel d) (s t : String) (v : List ℝ) :
    paramKind ((m.setParam v s).param t) = paramKind (m.param t) := by
  by_cases h : t = s
  · subst h
    cases m
    all_goals
      conv_lhs => arg 1; arg 1; unfold setParam
      dsimp only
      (repeat' split) <;> subst_vars <;> simp_all [param, paramKind]
  · rw [param_setParam_ne m h]

namespace Fa

theorem setParam_setParam (fa : Fa) (s : String) (v w : List ℝ) :
    (fa.setParam v s).setParam w s = fa.setParam w s := by
  unfold setParam
  cases e : fa.model with
  | none => rfl
  | some m => simp [FaModel.setParam_setParam]

theorem setParam_comm (fa : Fa) {s t : String} (h : s ≠ t) (v w : List ℝ) :
    (fa.setParam v s).setParam w t = (fa.setParam w t).setParam v s := by
  unfold setParam
  cases e : fa.model with
  | none => rfl
  | some m => simp [FaModel.setParam_comm m.2 h]

theorem kind_setParam (fa : Fa) (s t : String) (v : List ℝ) :
    paramKind ((fa.setParam v s).param t) = paramKind (fa.param t) := by
  unfold setParam param
  cases e : fa.model with
  | none => simp
  | some m => simp [FaModel.kind_setParam]

@[simp] theorem selected_setParam (fa : Fa) (s : String) (v : List ℝ) :
    (fa.setParam v s).selected = fa.selected := rfl

@[simp] theorem isSome_setParam (fa : Fa) (s : String) (v : List ℝ) :
    (fa.setParam v s).model.isSome = fa.model.isSome := by
  unfold setParam; cases fa.model <;> rfl

/-- The object with the arrays with these names emptied (filled with 0). -/
noncomputable def wipe (names : List String) (fa : Fa) : Fa := names.foldl (fun fa n => fa.setParam [] n) fa

@[simp] theorem wipe_nil (fa : Fa) : wipe [] fa = fa := rfl
theorem wipe_cons (n : String) (names : List String) (fa : Fa) :
    wipe (n :: names) fa = wipe names (fa.setParam [] n) := rfl

@[simp] theorem selected_wipe (names : List String) : ∀ fa : Fa, (wipe names fa).selected = fa.selected := by
  induction names with
  | nil => intro _; rfl
  | cons n names ih => intro fa; rw [wipe_cons, ih]; rfl

@[simp] theorem isSome_wipe (names : List String) : ∀ fa : Fa,
    (wipe names fa).model.isSome = fa.model.isSome := by
  induction names with
  | nil => intro _; rfl
  | cons n names ih => intro fa; rw [wipe_cons, ih, isSome_setParam]

theorem kind_wipe (names : List String) (t : String) : ∀ fa : Fa,
    paramKind ((wipe names fa).param t) = paramKind (fa.param t) := by
  induction names with
  | nil => intro _; rfl
  | cons n names ih => intro fa; rw [wipe_cons, ih, kind_setParam]

theorem wipe_setParam_mem {names : List String} {l : String} (h : l ∈ names) (v : List ℝ) : ∀ fa : Fa,
    wipe names (fa.setParam v l) = wipe names fa := by
  induction names with
  | nil => cases h
  | cons n names ih =>
    intro fa
    rw [wipe_cons, wipe_cons]
    by_cases e : l = n
    · subst e; rw [setParam_setParam]
    · rw [setParam_comm _ e]
      exact ih (by simpa [e] using h) _

theorem wipe_setParam_not {names : List String} {l : String} (h : l ∉ names) (v : List ℝ) : ∀ fa : Fa,
    wipe names (fa.setParam v l) = (wipe names fa).setParam v l := by
  induction names with
  | nil => intro _; rfl
  | cons n names ih =>
    intro fa
    rw [wipe_cons, wipe_cons, setParam_comm _ (fun e => h (by simp [e]))]
    exact ih (fun e => h (by simp [e])) _

theorem wipe_next {names : List String} {l : String} {fa fa' : Fa}
    (h : wipe (l :: names) fa = wipe (l :: names) fa') (v : List ℝ) :
    wipe names (fa.setParam v l) = wipe names (fa'.setParam v l) := by
  rw [wipe_cons, wipe_cons] at h
  by_cases hl : l ∈ names
  · rw [wipe_setParam_mem hl, wipe_setParam_mem hl] at h
    rw [wipe_setParam_mem hl, wipe_setParam_mem hl, h]
  · rw [wipe_setParam_not hl, wipe_setParam_not hl] at h
    rw [wipe_setParam_not hl, wipe_setParam_not hl]
    have := congrArg (fun f : Fa => f.setParam v l) h
    simpa only [setParam_setParam] using this

theorem kind_of_wipe {names : List String} {fa fa' : Fa} (h : wipe names fa = wipe names fa') (t : String) :
    paramKind (fa.param t) = paramKind (fa'.param t) := by
  rw [← kind_wipe names, h, kind_wipe]

theorem setLoop_wipe : ∀ (names : List String) (v : List ℝ) {fa fa' : Fa}, wipe names fa = wipe names fa' →
    (setLoop v names fa).1 = (setLoop v names fa').1 ∧
      ((setLoop v names fa).1 = .ok () → (setLoop v names fa).2 = (setLoop v names fa').2) := by
  intro names
  induction names with
  | nil => intro v fa fa' h; exact ⟨rfl, fun _ => h⟩
  | cons l names ih =>
    intro v fa fa' h
    have hk := kind_of_wipe h l
    unfold setLoop
    rw [PyM.self_bind, PyM.self_bind]
    cases e : fa.param l with
    | none =>
      rw [e] at hk
      cases e' : fa'.param l with
      | none => exact ⟨rfl, fun h => nomatch h⟩
      | some p => rw [e'] at hk; cases p <;> cases hk
    | some p =>
      rw [e] at hk
      cases p with
      | array sh x =>
        cases e' : fa'.param l with
        | none => rw [e'] at hk; cases hk
        | some p =>
          rw [e'] at hk
          cases p with
          | array sh' x' =>
            cases hk
            exact ih (v.drop sh.prod) (wipe_next h _)
          | scalar _ => cases hk
          | float _ => cases hk
          | none => cases hk
      | scalar x =>
        cases e' : fa'.param l with
        | none => rw [e'] at hk; cases hk
        | some p => rw [e'] at hk; cases p <;> cases hk; exact ⟨rfl, fun h => nomatch h⟩
      | float x =>
        cases e' : fa'.param l with
        | none => rw [e'] at hk; cases hk
        | some p => rw [e'] at hk; cases p <;> cases hk; exact ⟨rfl, fun h => nomatch h⟩
      | none =>
        cases e' : fa'.param l with
        | none => rw [e'] at hk; cases hk
        | some p => rw [e'] at hk; cases p <;> cases hk; exact ⟨rfl, fun h => nomatch h⟩

theorem wipe_setLoop {all : List String} : ∀ (names : List String), names ⊆ all → ∀ (v : List ℝ) (fa : Fa),
    wipe all (setLoop v names fa).2 = wipe all fa := by
  intro names
  induction names with
  | nil => intro _ _ _; rfl
  | cons l names ih =>
    intro hs v fa
    unfold setLoop
    rw [PyM.self_bind]
    cases fa.param l with
    | none => rfl
    | some p =>
      cases p with
      | array sh x =>
        refine (ih (fun _ h => hs (by simp [h])) _ _).trans ?_
        exact wipe_setParam_mem (hs (by simp)) _ _
      | scalar x => rfl
      | float x => rfl
      | none => rfl

/-- The object with all selected parameters emptied. -/
noncomputable def blank (fa : Fa) : Fa := wipe (fa.selected.getD []) fa

@[simp] theorem selected_blank (fa : Fa) : fa.blank.selected = fa.selected := selected_wipe _ _
@[simp] theorem isSome_blank (fa : Fa) : fa.blank.model.isSome = fa.model.isSome := isSome_wipe _ _
theorem kind_blank (fa : Fa) (t : String) : paramKind (fa.blank.param t) = paramKind (fa.param t) :=
  kind_wipe _ _ _

/-- The size of one parameter depends on its kind only. -/
theorem size_of_kind {fa fa' : Fa} (hs : fa.selected = fa'.selected)
    (hk : ∀ t, paramKind (fa.param t) = paramKind (fa'.param t)) :
    fa.paramVectorSize = fa'.paramVectorSize := by
  unfold paramVectorSize
  rw [hs]
  cases fa'.selected with
  | none => rfl
  | some names =>
    simp only
    congr 2
    funext t
    have := hk t
    cases e : fa.param t with
    | none =>
      rw [e] at this
      cases e' : fa'.param t with
      | none => rfl
      | some p => rw [e'] at this; cases p <;> cases this
    | some p =>
      rw [e] at this
      cases p <;>
      · cases e' : fa'.param t with
        | none => rw [e'] at this; cases this
        | some p => rw [e'] at this; cases p <;> cases this; rfl

theorem size_blank (fa : Fa) : fa.blank.paramVectorSize = fa.paramVectorSize :=
  size_of_kind (selected_blank fa) (kind_blank fa)

theorem blank_eq {fa fa' : Fa} (h : fa.blank = fa'.blank) : fa.selected = fa'.selected ∧
    fa.model.isSome = fa'.model.isSome ∧ (∀ t, paramKind (fa.param t) = paramKind (fa'.param t)) ∧
    fa.paramVectorSize = fa'.paramVectorSize := by
  refine ⟨?_, ?_, fun t => ?_, ?_⟩
  · rw [← selected_blank, h, selected_blank]
  · rw [← isSome_blank, h, isSome_blank]
  · rw [← kind_blank, h, kind_blank]
  · rw [← size_blank, h, size_blank]

theorem setParamVector_blank (v : List ℝ) {fa fa' : Fa} (h : fa.blank = fa'.blank) :
    (setParamVector v fa).1 = (setParamVector v fa').1 ∧
      ((setParamVector v fa).1 = .ok () → (setParamVector v fa).2 = (setParamVector v fa').2) := by
  obtain ⟨h1, h2, h3, h4⟩ := blank_eq h
  unfold setParamVector
  rw [PyM.self_bind, PyM.self_bind]
  have h5 : fa.model.isNone = fa'.model.isNone := by
    rw [← Option.not_isSome, ← Option.not_isSome, h2]
  rw [h5, h4, h1]
  by_cases hn : fa'.model.isNone = true
  · rw [if_pos hn]
    exact ⟨rfl, fun h => nomatch h⟩
  rw [if_neg hn]
  cases fa'.paramVectorSize with
  | error e => exact ⟨rfl, fun h => nomatch h⟩
  | ok n =>
    rw [PyM.lift_ok_bind]
    by_cases hv : v.length ≠ n
    · rw [if_pos hv]
      exact ⟨rfl, fun h => nomatch h⟩
    rw [if_neg hv]
    cases e : fa'.selected with
    | none => exact ⟨rfl, fun h => nomatch h⟩
    | some names =>
      refine setLoop_wipe names v ?_
      unfold blank at h
      rw [h1, e] at h
      exact h

theorem blank_setParamVector (v : List ℝ) (fa : Fa) : (setParamVector v fa).2.blank = fa.blank := by
  unfold setParamVector
  rw [PyM.self_bind]
  split
  · rfl
  cases fa.paramVectorSize with
  | error e => rfl
  | ok n =>
    rw [PyM.lift_ok_bind]
    split
    · rfl
    cases e : fa.selected with
    | none => rfl
    | some names =>
      have hs : (setLoop v names fa).2.selected = fa.selected := (setLoop_only (names := names) fa v).2.1
      simp only
      unfold blank
      rw [hs, e]
      exact wipe_setLoop names (List.Subset.refl _) v fa

end Fa

theorem Fa.blank_untrained {fa : Fa} (h : fa.model.isSome = false) : fa.blank = fa := by
  have hm : fa.model = none := by simpa using h
  have h1 : ∀ n, fa.setParam [] n = fa := fun n => by
    unfold setParam
    cases fa
    simp only at hm
    subst hm
    rfl
  unfold blank wipe
  induction fa.selected.getD [] with
  | nil => rfl
  | cons n l ih => rw [List.foldl_cons, h1]; exact ih

namespace Dmp

theorem sliceSize_blank {fa fa' : Fa} (h : fa.blank = fa'.blank) : sliceSize fa = sliceSize fa' := by
  obtain ⟨h1, -, h3, h4⟩ := Fa.blank_eq h
  unfold sliceSize
  have : (fun label => isScalar (fa.param label)) = fun label => isScalar (fa'.param label) := by
    funext l
    have := h3 l
    cases e : fa.param l with
    | none =>
      rw [e] at this
      cases e' : fa'.param l with
      | none => rfl
      | some p => rw [e'] at this; cases p <;> cases this
    | some p =>
      rw [e] at this
      cases p <;>
      · cases e' : fa'.param l with
        | none => rw [e'] at this; cases this
        | some p => rw [e'] at this; cases p <;> cases this; rfl
  rw [h4, h1, this]

theorem setFas_blank : ∀ {fas fas' : List Fa} (v : List ℝ), fas.map Fa.blank = fas'.map Fa.blank →
    (setFas v fas).1 = (setFas v fas').1 ∧
      (∀ r, (setFas v fas).1 = .ok r → (setFas v fas).2 = (setFas v fas').2)
  | [], [], _, _ => ⟨rfl, fun _ _ => rfl⟩
  | [], _ :: _, _, h => by simp at h
  | _ :: _, [], _, h => by simp at h
  | fa :: fas, fa' :: fas', v, h => by
    rw [List.map_cons, List.map_cons, List.cons.injEq] at h
    obtain ⟨h1, h2⟩ := h
    obtain ⟨-, k2, -, -⟩ := Fa.blank_eq h1
    unfold setFas
    rw [← k2, ← sliceSize_blank h1]
    by_cases hm : fa.model.isSome = true
    · rw [if_pos hm, if_pos hm]
      cases sliceSize fa with
      | error e => exact ⟨rfl, fun _ h => nomatch h⟩
      | ok n =>
        obtain ⟨j1, j2⟩ := Fa.setParamVector_blank (v.take n) h1
        obtain ⟨i1, i2⟩ := setFas_blank (v.drop n) h2
        rcases e : Fa.setParamVector (v.take n) fa with ⟨r, f⟩
        rcases e' : Fa.setParamVector (v.take n) fa' with ⟨r', f'⟩
        rw [e, e'] at j1 j2
        simp only at j1 j2
        subst j1
        cases r with
        | error x => simp only [e, e']; exact ⟨trivial, fun _ h => nomatch h⟩
        | ok u =>
          simp only [e, e']
          exact ⟨i1, fun r hr => by rw [j2 rfl, i2 r hr]⟩
    · rw [if_neg hm, if_neg hm]
      obtain ⟨i1, i2⟩ := setFas_blank v h2
      refine ⟨i1, fun r hr => ?_⟩
      have hm1 : fa.model.isSome = false := by simpa using hm
      rw [Fa.blank_untrained hm1, Fa.blank_untrained (k2.symm.trans hm1)] at h1
      simp only
      rw [h1, i2 r hr]

theorem blank_setFas : ∀ (fas : List Fa) (v : List ℝ), (setFas v fas).2.map Fa.blank = fas.map Fa.blank
  | [], _ => rfl
  | fa :: fas, v => by
    unfold setFas
    split
    · cases sliceSize fa with
      | error e => rfl
      | ok n =>
        have h1 := Fa.blank_setParamVector (v.take n) fa
        rcases e : Fa.setParamVector (v.take n) fa with ⟨r, f⟩
        rw [e] at h1
        cases r with
        | error x => simp only [e, List.map_cons, h1]
        | ok u => simp only [e, List.map_cons, h1, blank_setFas fas]
    · simp only [List.map_cons, blank_setFas fas]

/-- The object with all selected parameters emptied. -/
noncomputable def blank (s : Dmp) : Dmp :=
  if "goal" ∈ s.selected then { s with fas := s.fas.map (List.map Fa.blank) }.aimed []
  else { s with fas := s.fas.map (List.map Fa.blank) }

/-- The object without selected parameters and without the parts that are overwritten before they are
used. -/
noncomputable def norm (s : Dmp) : Dmp := s.core.blank.core

theorem aimed_core (s : Dmp) (y : List ℝ) : (s.aimed y).core = (s.core.aimed y).core := by
  unfold aimed core
  cases s.goal <;> cases s.damping <;> cases s.requiresScaling <;> simp [Sub.touch_withAttr]

theorem core_core (s : Dmp) : s.core.core = s.core := by
  unfold core
  cases s.goal <;> cases s.damping <;> simp

theorem norm_eq {s t : Dmp} (h : s.norm = t.norm) : s.selected = t.selected ∧
    s.fas.map (List.map Fa.blank) = t.fas.map (List.map Fa.blank) ∧ s.toBase = t.toBase := by
  have f : ∀ s : Dmp, s.norm.selected = s.selected ∧ s.norm.fas = s.fas.map (List.map Fa.blank) ∧
      s.norm.toBase = s.toBase := by
    intro s
    unfold norm blank
    split <;> exact ⟨rfl, rfl, rfl⟩
  obtain ⟨a1, a2, a3⟩ := f s
  obtain ⟨b1, b2, b3⟩ := f t
  exact ⟨by rw [← a1, h, b1], by rw [← a2, h, b2], by rw [← a3, h, b3]⟩

theorem aimed_aimed (s : Dmp) (y y' : List ℝ) : (s.aimed y).aimed y' = s.aimed y' := by
  unfold aimed
  cases s.goal with
  | none => simp
  | some g => cases s.requiresScaling <;> cases g <;> simp [Sub.withAttr]

/-- What the norm says if the goal is selected. -/
theorem core_of_norm_goal {s t : Dmp} (h : s.norm = t.norm) (hg : "goal" ∈ s.selected)
    (f : Option (List Fa)) (y : List ℝ) :
    ({ s with fas := f }.aimed y).core = ({ t with fas := f }.aimed y).core := by
  have ht : "goal" ∈ t.selected := (norm_eq h).1 ▸ hg
  unfold norm blank at h
  rw [if_pos (show "goal" ∈ s.core.selected from hg), if_pos (show "goal" ∈ t.core.selected from ht)] at h
  have h1 := congrArg (fun u : Dmp => ({ u with fas := f }.aimed y).core) h
  have h2 : ∀ u : Dmp,
      ({ ({ u.core with fas := u.core.fas.map (List.map Fa.blank) }.aimed []).core with fas := f }.aimed y).core =
        ({ u with fas := f }.aimed y).core := by
    intro u
    have e0 : ∀ x : Dmp, ({ x.core with fas := f } : Dmp) = ({ x with fas := f } : Dmp).core := fun _ => rfl
    rw [e0, ← aimed_core]
    have e1 : ({ ({ u.core with fas := u.core.fas.map (List.map Fa.blank) }.aimed []) with fas := f } : Dmp) =
        ({ u with fas := f } : Dmp).core.aimed [] := rfl
    rw [e1, aimed_aimed, ← aimed_core]
  simpa only [h2] using h1

/-- What the norm says if the goal is not selected. -/
theorem core_of_norm {s t : Dmp} (h : s.norm = t.norm) (hg : "goal" ∉ s.selected)
    (f : Option (List Fa)) : ({ s with fas := f } : Dmp).core = ({ t with fas := f } : Dmp).core := by
  have ht : "goal" ∉ t.selected := (norm_eq h).1 ▸ hg
  unfold norm blank at h
  rw [if_neg (show "goal" ∉ s.core.selected from hg), if_neg (show "goal" ∉ t.core.selected from ht)] at h
  have e0 : ∀ u : Dmp, ({ u.core with fas := u.core.fas.map (List.map Fa.blank) } : Dmp).core =
      { u.core with fas := u.fas.map (List.map Fa.blank) } := fun u =>
    congrArg (fun x : Dmp => { x with fas := u.fas.map (List.map Fa.blank) }) (core_core u)
  rw [e0, e0] at h
  exact congrArg (fun u : Dmp => { u with fas := f }) h

theorem norm_of_core {s t : Dmp} (h : s.core = t.core) : s.norm = t.norm := by
  unfold norm; rw [h]

/-- The first part of set_param_vector. -/
theorem fasPart_run (s : Dmp) (v : List ℝ) :
    (match s.fas with
      | none => pure v
      | some _ => onFas ⟨setFas v⟩ : PyM Dmp (List ℝ)) s =
      ((setFas v (s.fas.getD [])).1, { s with fas := s.fas.map fun _ => (setFas v (s.fas.getD [])).2 }) := by
  cases e : s.fas with
  | none =>
    have : s = { s with fas := none } := by cases s; cases e; rfl
    exact congrArg (Prod.mk _) this
  | some l =>
    unfold onFas
    simp only [e]
    rfl

/-- The object after the first part of set_param_vector. -/
noncomputable def withFas (s : Dmp) (v : List ℝ) : Dmp :=
  { s with fas := s.fas.map fun _ => (setFas v (s.fas.getD [])).2 }

/-- The last part of set_param_vector. -/
noncomputable def goalPart (s : Dmp) (rest : List ℝ) : PyM Dmp Unit :=
  if "goal" ∈ s.selected then setYAttr (rest.take s.dimY) else pure ()

theorem setParamVector_fail {s : Dmp} {v : List ℝ} {n : Nat} (hn : s.paramVectorSize = .ok n)
    (hv : ¬ v.length ≠ n) {e : PyErr} (h : (setFas v (s.fas.getD [])).1 = .error e) :
    setParamVector v s = (.error e, s.withFas v) := by
  unfold setParamVector
  rw [PyM.self_bind, hn, PyM.lift_ok_bind, if_neg hv]
  refine PyM.bind_error ?_
  refine (fasPart_run s v).trans ?_
  rw [h]
  rfl

theorem setParamVector_go {s : Dmp} {v : List ℝ} {n : Nat} (hn : s.paramVectorSize = .ok n)
    (hv : ¬ v.length ≠ n) {rest : List ℝ} (h : (setFas v (s.fas.getD [])).1 = .ok rest) :
    setParamVector v s = s.goalPart rest (s.withFas v) := by
  unfold setParamVector
  rw [PyM.self_bind, hn, PyM.lift_ok_bind, if_neg hv]
  have : (match s.fas with
      | none => pure v
      | some _ => onFas ⟨setFas v⟩ : PyM Dmp (List ℝ)) s = (.ok rest, s.withFas v) := by
    refine (fasPart_run s v).trans ?_
    rw [h]
    rfl
  exact PyM.bind_ok this

theorem size_norm {s t : Dmp} (h : s.norm = t.norm) : s.paramVectorSize = t.paramVectorSize := by
  obtain ⟨h1, h2, h3⟩ := norm_eq h
  have e : ∀ u : Dmp, (u.fas.getD []).mapM (fun fa => if fa.model.isSome then fa.paramVectorSize else .ok 0) =
      ((u.fas.map (List.map Fa.blank)).getD []).mapM
        (fun fa => if fa.model.isSome then fa.paramVectorSize else .ok 0) := by
    intro u
    cases u.fas with
    | none => rfl
    | some l =>
      simp only [Option.map_some, Option.getD_some]
      induction l with
      | nil => rfl
      | cons a l ih =>
        rw [List.map_cons, List.mapM_cons, List.mapM_cons, ih, Fa.isSome_blank, Fa.size_blank]
  unfold paramVectorSize
  rw [e s, e t, h2, h1, show s.dimY = t.dimY from congrArg Base.dimY h3]

theorem wf_aimed {s : Dmp} (w : s.Wf) {y : List ℝ} (hy : y.length = s.dimY) : (s.aimed y).Wf := by
  refine ⟨w.dimX, hy, w.yInit, w.spring, w.springDim, w.phase, w.phaseDim,
    w.gating, w.gatingDim, ?_, ?_, w.damping, w.dampingDim, w.amplitudes⟩
  · intro g hg
    change (if s.requiresScaling then s.goal else s.goal.map (Sub.withAttr y)) = some g at hg
    by_cases hr : s.requiresScaling = true
    · rw [if_pos hr] at hg; exact w.goal g hg
    · rw [if_neg hr] at hg
      obtain ⟨g', h1, rfl⟩ := Option.map_eq_some_iff.mp hg
      exact Sub.wf_withAttr (w.goal g' h1) (by rw [hy, ← (w.goal g' h1).dim, w.goalDim g' h1])
  · intro g hg
    change (if s.requiresScaling then s.goal else s.goal.map (Sub.withAttr y)) = some g at hg
    by_cases hr : s.requiresScaling = true
    · rw [if_pos hr] at hg; exact w.goalDim g hg
    · rw [if_neg hr] at hg
      obtain ⟨g', h1, rfl⟩ := Option.map_eq_some_iff.mp hg
      simpa [aimed] using w.goalDim g' h1

/-- Two objects that differ in selected parameters only have the same result of set_param_vector; if it
succeeds, they have the same core afterwards. -/
theorem setParamVector_norm {s t : Dmp} (ws : s.Wf) (wt : t.Wf) (h : s.norm = t.norm) (v : List ℝ) :
    (setParamVector v s).1 = (setParamVector v t).1 ∧
      ((setParamVector v s).1 = .ok () → (setParamVector v s).2.core = (setParamVector v t).2.core) := by
  obtain ⟨h1, h2, h3⟩ := norm_eq h
  have hd : s.dimY = t.dimY := congrArg Base.dimY h3
  cases hs : s.paramVectorSize with
  | error e =>
    have ht := (size_norm h).symm.trans hs
    unfold setParamVector
    rw [PyM.self_bind, PyM.self_bind, hs, ht]
    exact ⟨rfl, fun h => nomatch h⟩
  | ok n =>
    have ht := (size_norm h).symm.trans hs
    by_cases hv : v.length ≠ n
    · unfold setParamVector
      rw [PyM.self_bind, PyM.self_bind, hs, ht, PyM.lift_ok_bind, PyM.lift_ok_bind, if_pos hv, if_pos hv]
      exact ⟨rfl, fun h => nomatch h⟩
    have hb : (s.fas.getD []).map Fa.blank = (t.fas.getD []).map Fa.blank := by
      have := congrArg (fun o : Option (List Fa) => o.getD []) h2
      cases e : s.fas <;> cases e' : t.fas <;> simp [e, e'] at this ⊢ <;> assumption
    obtain ⟨k1, k2⟩ := setFas_blank v hb
    cases e : (setFas v (s.fas.getD [])).1 with
    | error x =>
      rw [setParamVector_fail hs hv e, setParamVector_fail ht hv (k1.symm.trans e)]
      exact ⟨rfl, fun h => nomatch h⟩
    | ok rest =>
      rw [setParamVector_go hs hv e, setParamVector_go ht hv (k1.symm.trans e)]
      have hf : t.withFas v = { t with fas := s.fas.map fun _ => (setFas v (s.fas.getD [])).2 } := by
        unfold withFas
        rw [← k2 rest e]
        have := congrArg (fun o : Option (List Fa) => o.isSome) h2
        cases e : s.fas <;> cases e' : t.fas <;> simp [e, e'] at this ⊢
      unfold goalPart
      by_cases hg : "goal" ∈ s.selected
      · rw [if_pos hg, if_pos (h1 ▸ hg), ← hd]
        by_cases hl : (rest.take s.dimY).length = s.dimY
        · rw [setYAttr_run (s := s.withFas v) (wf_fas ws _) hl,
            setYAttr_run (s := t.withFas v) (wf_fas wt _) (hl.trans hd), hf]
          exact ⟨rfl, fun _ => core_of_norm_goal h hg _ _⟩
        · rw [setYAttr_reject (s := s.withFas v) hl,
            setYAttr_reject (s := t.withFas v) (fun hh => hl (hh.trans hd.symm))]
          exact ⟨rfl, fun h => nomatch h⟩
      · rw [if_neg hg, if_neg (h1 ▸ hg), hf]
        exact ⟨rfl, fun _ => core_of_norm h hg _⟩

theorem norm_fas (s : Dmp) {f : List Fa} (hf : f.map Fa.blank = (s.fas.getD []).map Fa.blank) :
    norm { s with fas := s.fas.map fun _ => f } = s.norm := by
  have e : (s.fas.map fun _ => f).map (List.map Fa.blank) = s.fas.map (List.map Fa.blank) := by
    cases e : s.fas with
    | none => rfl
    | some l => rw [e] at hf; simpa using hf
  unfold norm blank
  have h1 : ({ ({ s with fas := s.fas.map fun _ => f } : Dmp).core with
      fas := ({ s with fas := s.fas.map fun _ => f } : Dmp).core.fas.map (List.map Fa.blank) } : Dmp) =
      { s.core with fas := s.core.fas.map (List.map Fa.blank) } := by
    change ({ s.core with fas := (s.fas.map fun _ => f).map (List.map Fa.blank) } : Dmp) = _
    rw [e]; rfl
  rw [h1]
  rfl

theorem norm_aimed (s : Dmp) (hg : "goal" ∈ s.selected) (y : List ℝ) : (s.aimed y).norm = s.norm := by
  unfold norm blank
  rw [if_pos (show "goal" ∈ (s.aimed y).core.selected from hg), if_pos (show "goal" ∈ s.core.selected from hg)]
  have h : ∀ u : Dmp, ({ u with fas := u.fas.map (List.map Fa.blank) } : Dmp).aimed [] =
      { u.aimed [] with fas := u.fas.map (List.map Fa.blank) } := fun _ => rfl
  rw [h, h]
  have h2 : ((s.aimed y).core.aimed []).core = (s.core.aimed []).core := by
    rw [← aimed_core, aimed_aimed, ← aimed_core]
  exact congrArg (fun u : Dmp => { u with fas := s.fas.map (List.map Fa.blank) }) h2

/-- set_param_vector changes selected parameters only, also if it fails. -/
theorem norm_setParamVector {s : Dmp} (w : s.Wf) (v : List ℝ) :
    (setParamVector v s).2.norm = s.norm ∧ (setParamVector v s).2.Wf := by
  cases hs : s.paramVectorSize with
  | error e =>
    unfold setParamVector
    rw [PyM.self_bind, hs]
    exact ⟨rfl, w⟩
  | ok n =>
    by_cases hv : v.length ≠ n
    · unfold setParamVector
      rw [PyM.self_bind, hs, PyM.lift_ok_bind, if_pos hv]
      exact ⟨rfl, w⟩
    have hn : (s.withFas v).norm = s.norm := norm_fas s (blank_setFas (s.fas.getD []) v)
    cases e : (setFas v (s.fas.getD [])).1 with
    | error x =>
      rw [setParamVector_fail hs hv e]
      exact ⟨hn, wf_fas w _⟩
    | ok rest =>
      rw [setParamVector_go hs hv e]
      unfold goalPart
      by_cases hg : "goal" ∈ s.selected
      · rw [if_pos hg]
        by_cases hl : (rest.take s.dimY).length = s.dimY
        · rw [setYAttr_run (s := s.withFas v) (wf_fas w _) hl]
          exact ⟨(norm_aimed (s.withFas v) hg _).trans hn, wf_aimed (s := s.withFas v) (wf_fas w _) hl⟩
        · rw [setYAttr_reject (s := s.withFas v) hl]
          exact ⟨hn, wf_fas w _⟩
      · rw [if_neg hg]
        exact ⟨hn, wf_fas w _⟩

/-- analytical_solution depends on the core only and keeps it. -/
theorem analytical_core {s : Dmp} (w : s.Wf) (ts : List ℝ) (b : Bool) :
    (analytical (some ts) b s).1 = s.core.solve ts b ∧ (analytical (some ts) b s).2.core = s.core ∧
      (analytical (some ts) b s).2.Wf ∧ (analytical (some ts) b s).2.toBase = s.toBase := by
  rw [analytical_run w, solve_core]
  refine ⟨rfl, ?_⟩
  have w1 : Wf { s with phase := s.phase.touch, gating := s.gating.touch } :=
    ⟨w.dimX, w.yAttr, w.yInit, w.spring, w.springDim, Sub.wf_touch w.phase, by simpa using w.phaseDim,
      Sub.wf_touch w.gating, by simpa using w.gatingDim, w.goal, w.goalDim, w.damping, w.dampingDim,
      w.amplitudes⟩
  cases s.faUsed ts b >>= s.forcings ts with
  | error e =>
    refine ⟨?_, w1, rfl⟩
    unfold core
    simp
  | ok F =>
    refine ⟨?_, ?_, rfl⟩
    · unfold core
      cases s.goal <;> cases s.damping <;> simp
    · refine ⟨w.dimX, w.yAttr, w.yInit, w.spring, w.springDim, Sub.wf_touch w.phase, by simpa using w.phaseDim,
        Sub.wf_touch w.gating, by simpa using w.gatingDim, ?_, ?_, ?_, ?_, w.amplitudes⟩
      all_goals
        intro g hg
        obtain ⟨g', h1, rfl⟩ := Option.map_eq_some_iff.mp hg
      · exact Sub.wf_touch (w.goal g' h1)
      · simpa using w.goalDim g' h1
      · exact Sub.wf_touch (w.damping g' h1)
      · simpa using w.dampingDim g' h1

end Dmp

end Verif
