import Verif.Props.DmpPure

/- Helper lemmas about a Dmp: properties that all changes and queries keep. -/

set_option autoImplicit false

namespace Verif

/-- The object after decouple_parameters. -/
noncomputable def Sub.decoupled : Sub → Sub
  | .time s => .time s
  | .exponential s => .exponential s.decouple
  | .sigmoid s => .sigmoid { s with
      maxRate := s.maxRate.decouple s.dimX, inflRatio := s.inflRatio.decouple s.dimX, ksCached := none }
  | .richards s => .richards s.decouple

theorem Sub.decouple_run (s : Sub) : Sub.decouple s = (.ok (), s.decoupled) := by cases s <;> rfl

namespace Dmp

/-- The object after decouple_parameters. -/
noncomputable def decoupled (s : Dmp) : Dmp :=
  { s with
    spring := s.spring.decouple
    goal := s.goal.map Sub.decoupled
    damping := s.damping.map Sub.decoupled }

theorem decouple_run (s : Dmp) : decouple s = (.ok (), s.decoupled) := by
  unfold decouple
  have h1 : onSpring (PyM.modify SpringDamper.decouple) s =
    (.ok (), { s with spring := s.spring.decouple }) := rfl
  refine (PyM.bind_ok h1).trans ?_
  rw [PyM.self_bind]
  unfold decoupled
  cases e : s.goal with
  | none =>
    simp only [Option.map_none]
    cases e2 : s.damping with
    | none =>
      refine Prod.ext rfl ?_
      cases s
      simp only at e e2
      subst e e2
      rfl
    | some g =>
      refine (onDamping_ok (g := g) rfl (Sub.decouple_run g)).trans ?_
      rfl
  | some g =>
    simp only [Option.map_some]
    refine (PyM.bind_ok (onGoal_ok (g := g) rfl (Sub.decouple_run g))).trans ?_
    cases e2 : s.damping with
    | none => rfl
    | some g2 =>
      refine (onDamping_ok (g := g2) rfl (Sub.decouple_run g2)).trans ?_
      rfl

variable {d : Nat} {α β : Type} {P : Dmp → Prop}

/-- A method that keeps a property. -/
def Keep (P : Dmp → Prop) (m : PyM Dmp α) : Prop := ∀ s, P s → P (m s).2

theorem Keep.bind {m : PyM Dmp α} {f : α → PyM Dmp β} (hm : Keep P m) (hf : ∀ a, Keep P (f a)) :
    Keep P (m >>= f) := by
  intro s hs
  have h1 := hm s hs
  rw [PyM.bind_apply]
  rcases e : m s with ⟨r, t⟩
  rw [e] at h1
  cases r with
  | error er => exact h1
  | ok a => exact hf a t h1

theorem Keep.pure (a : α) : Keep P (Pure.pure a : PyM Dmp α) := fun _ h => h
theorem Keep.lift (e : Except PyErr α) : Keep P (PyM.lift e : PyM Dmp α) := fun _ h => h
theorem Keep.raise (e : PyErr) : Keep P (PyM.raise e : PyM Dmp α) := fun _ h => h
theorem Keep.self {f : Dmp → PyM Dmp β} (h : ∀ s, Keep P (f s)) : Keep P (PyM.self >>= f) :=
  fun s hs => h s s hs

/-- Changes with positive time constants. -/
def Change.Forward : Change → Prop
  | .tau t => 0 < t
  | .train traj _ => traj.Shape ∧ ∀ t, traj.ts.getLast? = some t → 0 < t
  | _ => True

/-- A property of objects that is kept by everything that changes an object. -/
structure Kept (d : Nat) (P : Dmp → Prop) : Prop where
  inv : ∀ s, P s → Inv d s
  core : ∀ s t : Dmp, P s → Inv d t → t.core = s.core → P t
  tau : ∀ (s : Dmp) (t : ℝ), P s → 0 < t → P (s.retimed t)
  place : ∀ (s : Dmp) (y : List ℝ), P s → y.length = s.dimY → P (s.placed y)
  aim : ∀ (s : Dmp) (y : List ℝ), P s → y.length = s.dimY → P (s.aimed y)
  other : ∀ (s : Dmp) (f : Option (List Fa)) (a ts : Option (List ℝ)) (sel : List String), P s →
    Inv d { s with fas := f, amplitudes := a, tsTrain := ts, selected := sel } →
    P { s with fas := f, amplitudes := a, tsTrain := ts, selected := sel }
  decouple : ∀ s : Dmp, P s → P s.decoupled

namespace Kept

variable (K : Kept d P)
include K

theorem query {m : PyM Dmp α} (h : Stable d m) : Keep P m := fun s hs =>
  K.core s _ hs (h.keeps s (K.inv s hs)) (h s s (K.inv s hs).good (K.inv s hs).good rfl).2.1

theorem setTau {t : ℝ} (h : 0 < t) : Keep P (setTau t) := fun s hs => by
  rw [setTau_run]; exact K.tau s t hs h

theorem setYInit (y : List ℝ) : Keep P (setYInit y) := by
  intro s hs
  by_cases hy : y.length = s.dimY
  · rw [setYInit_run (K.inv s hs).wf hy]; exact K.place s y hs hy
  · rw [setYInit_reject hy]; exact hs

theorem setYAttr (y : List ℝ) : Keep P (setYAttr y) := by
  intro s hs
  by_cases hy : y.length = s.dimY
  · rw [setYAttr_run (K.inv s hs).wf hy]; exact K.aim s y hs hy
  · rw [setYAttr_reject hy]; exact hs

theorem startFrom (y : Option (List ℝ)) : Keep P (startFrom y) := by
  match y with
  | none => exact Keep.pure ()
  | some [] => exact Keep.pure ()
  | some [a] =>
    change Keep P (if a ≠ 0 then Dmp.setYInit [a] else Pure.pure ())
    by_cases h : a ≠ 0
    · rw [if_pos h]; exact K.setYInit [a]
    · rw [if_neg h]; exact Keep.pure ()
  | some (_ :: _ :: _) => exact Keep.raise _

theorem fas {m : PyM (List Fa) α} : Keep P (onFas m) := by
  intro s hs
  unfold onFas
  cases e : s.fas with
  | none => simp only [e]; exact hs
  | some f =>
    simp only [e]
    have i := K.inv s hs
    exact K.other s _ s.amplitudes s.tsTrain s.selected hs
      (i.congr rfl rfl rfl rfl rfl rfl rfl rfl rfl (i.dim ▸ i.wf.amplitudes))

theorem setFas (f : Dmp → Option (List Fa)) :
    Keep P (PyM.modify fun s : Dmp => { s with fas := f s }) := by
  intro s hs
  have i := K.inv s hs
  exact K.other s _ s.amplitudes s.tsTrain s.selected hs
    (i.congr rfl rfl rfl rfl rfl rfl rfl rfl rfl (i.dim ▸ i.wf.amplitudes))

theorem tsTrain (ts : Option (List ℝ)) :
    Keep P (PyM.modify fun s : Dmp => { s with tsTrain := ts }) := by
  intro s hs
  have i := K.inv s hs
  exact K.other s _ s.amplitudes _ s.selected hs
    (i.congr rfl rfl rfl rfl rfl rfl rfl rfl rfl (i.dim ▸ i.wf.amplitudes))

theorem targets (traj : Trajectory ℝ) : Keep P (computeTargets traj) := by
  unfold computeTargets
  refine Keep.self fun s => ?_
  by_cases h : s.dimY ≠ traj.ys.cols
  · rw [if_pos h]; exact Keep.raise _
  · rw [if_neg h]
    refine (K.query (stable_analytical _ _)).bind fun sol => Keep.self fun s' => ?_
    exact (Keep.lift _).bind fun _ => Keep.pure _

theorem trainLast (traj : Trajectory ℝ) : Keep P (trainLast traj) := by
  unfold Dmp.trainLast
  refine Keep.self fun s => ?_
  cases s.fas with
  | none => exact K.tsTrain _
  | some _ =>
    exact (K.targets traj).bind fun r => K.fas.bind fun _ => K.tsTrain _

theorem trainRest {traj : Trajectory ℝ} (ht : traj.Shape) (newFas : Option (Option (List Fa))) :
    Keep P (trainRest traj newFas) := by
  intro s hs
  unfold Dmp.trainRest
  cases hy : traj.yInit with
  | error e => exact hs
  | ok y =>
    rw [PyM.lift_ok_bind]
    by_cases hl : y.length = s.dimY
    · refine (Keep.bind (K.setYInit y) fun _ => ?_) s hs
      refine (Keep.lift _).bind fun yf => (K.setYAttr yf).bind fun _ => ?_
      intro s' hs'
      cases hr : traj.rangePerDim with
      | error e => exact hs'
      | ok r =>
        rw [PyM.lift_ok_bind, PyM.modify_bind]
        refine ((K.setFas _).bind fun _ => K.trainLast traj) _ ?_
        have i := K.inv s' hs'
        refine K.other s' _ _ s'.tsTrain s'.selected hs'
          (i.congr rfl rfl rfl rfl rfl rfl rfl rfl rfl ?_)
        rintro a ⟨⟩
        rw [rangePerDim_length hr, ← yInit_length ht hy, hl, (K.inv s hs).dim]
    · rw [PyM.bind_error (setYInit_reject hl)]
      exact hs

theorem train {traj : Trajectory ℝ} (ht : traj.Shape) (h0 : ∀ t, traj.ts.getLast? = some t → 0 < t)
    (newFas : Option (Option (List Fa))) : Keep P (train traj newFas) := by
  rw [train_eq]
  cases e : traj.ts.getLast? with
  | none => exact Keep.raise _
  | some tau => exact (K.setTau (h0 tau e)).bind fun _ => K.trainRest ht newFas

theorem setSelected (names : List String) : Keep P (setSelected names) := by
  unfold Dmp.setSelected
  by_cases hg : "goal" ∈ names
  · rw [if_pos hg, if_pos hg]
    refine Keep.bind ?_ fun _ => K.setFas fun s =>
      s.fas.map fun fas => fas.map fun fa => (Fa.setSelected (names.filter (· ≠ "goal")) fa).2
    intro s hs
    have i := K.inv s hs
    exact K.other s _ s.amplitudes s.tsTrain _ hs
      (i.congr rfl rfl rfl rfl rfl rfl rfl rfl rfl (i.dim ▸ i.wf.amplitudes))
  · rw [if_neg hg, if_neg hg]
    exact (Keep.pure ()).bind fun _ => K.setFas fun s =>
      s.fas.map fun fas => fas.map fun fa => (Fa.setSelected names fa).2

theorem setParamVector (values : List ℝ) : Keep P (setParamVector values) := by
  unfold Dmp.setParamVector
  refine Keep.self fun s => (Keep.lift _).bind fun size => ?_
  by_cases h : values.length ≠ size
  · rw [if_pos h]; exact Keep.raise _
  · rw [if_neg h]
    refine Keep.bind ?_ fun rest => ?_
    · cases s.fas with
      | none => exact Keep.pure _
      | some _ => exact K.fas
    · by_cases hg : "goal" ∈ s.selected
      · rw [if_pos hg]; exact K.setYAttr _
      · rw [if_neg hg]; exact Keep.pure _

theorem change {c : Change} (h : c.Forward) : Keep P c.run := by
  cases c with
  | tau t => exact K.setTau h
  | yInit y => exact K.setYInit y
  | yAttr y => exact K.setYAttr y
  | startAt y =>
    have e : integrateStart (some y) = Dmp.startFrom (some y) >>= fun _ => integrateStart none := rfl
    change Keep P (integrateStart (some y) >>= fun _ => Pure.pure ())
    rw [e]
    exact ((K.startFrom _).bind fun _ => K.query stable_integrateStart).bind fun _ => Keep.pure _
  | decouple =>
    intro s hs
    change P (Dmp.decouple s).2
    rw [decouple_run]; exact K.decouple s hs
  | train traj fas => exact K.train h.1 h.2 fas
  | select names => exact K.setSelected names
  | params values => exact K.setParamVector values

theorem reachable {G : ℝ → List ℝ → List ℝ → Options → Dmp → Prop}
    (h0 : ∀ (tau : ℝ) (yInit yAttr : List ℝ) (fas : Option (List Fa)) (o : Options) (s : Dmp),
      Dmp.init tau yInit yAttr fas o = .ok s → yInit.length = d → yAttr.length = d → o.Fits d →
      G tau yInit yAttr o s → P s) {s : Dmp} (h : Reachable G Change.Forward d s) : P s := by
  induction h with
  | init h hi ha ho hg => exact h0 _ _ _ _ _ _ h hi ha ho hg
  | change h c hc ih => exact K.change hc _ ih
  | query h c hc ih => exact K.query (Call.stable hc) _ ih

end Kept

end Dmp

end Verif
