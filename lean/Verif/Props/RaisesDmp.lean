import Verif.Spec.Raises
import Verif.Props.RaisesFa
import Verif.Proofs.DmpAnalytical
import Verif.Proofs.DmpMotion
import Verif.Proofs.DmpStart
import Verif.Proofs.DmpSetters
import Verif.Props.DmpTraining

/-
C88 for Dmp: which exception is raised for each invalid call, and by which method.
-/

noncomputable section

set_option autoImplicit false

namespace Verif

open Spec

namespace Dmp

/-- The function approximators can be asked at every phase. -/
def Responds (s : Dmp) : Prop := ∀ ps, ∃ r, s.predictions ps = .ok r

theorem responds_none {s : Dmp} (h : s.fas = none) : s.Responds := fun ps => by
  unfold predictions
  rw [h]
  exact ⟨_, rfl⟩

theorem diffEq_error {s : Dmp} (w : s.Wf) (hc : s.CanScale) {x : List ℝ} (hx : x.length = s.dimX) {e : PyErr}
    (h : ∀ p q, p.length = 1 → s.forcing p q = .error e) : (diffEq x s).1 = .error e := by
  obtain ⟨y, z, g, p, q, c, hs, rfl⟩ := exists_pack (hx.trans w.dimX)
  rw [diffEq_run w hs]
  unfold vf
  have : ∃ ga, s.springGoal g = .ok ga := by
    unfold springGoal
    cases s.goal with
    | none => exact ⟨_, rfl⟩
    | some _ => exact ⟨_, scaleGoal_ok hc g⟩
  obtain ⟨ga, hga⟩ := this
  rw [hga, ok_then, h p q hs.p]
  rfl

theorem faUsed_of {s : Dmp} (h : s.Responds) (ts : List ℝ) (b : Bool) : ∃ fa, s.faUsed ts b = .ok fa := by
  obtain ⟨r, hr⟩ := h (ts.map fun t => (s.phase.xAt t).getD 0 0)
  unfold faUsed
  rw [hr, ok_then]
  exact ⟨_, rfl⟩

theorem analytical_error {s : Dmp} (w : s.Wf) (h : s.Responds) (ts : List ℝ) (b : Bool) {e : PyErr}
    (he : ∀ f, s.scaleForcings f = .error e) : (analytical (some ts) b s).1 = .error e := by
  rw [analytical_run w]
  unfold solve
  obtain ⟨fa, hfa⟩ := faUsed_of h ts b
  simp only [hfa, ok_then, forcings, he]
  rfl

/-- C88: without amplitudes (before training) a Dmp that scales its forcing term with amplitudes cannot move:
differential_equation (and so integrate) raises ValueError, but analytical_solution raises TypeError. -/
theorem C88_no_amplitudes {s : Dmp} (w : s.Wf) (h : s.Responds) (hs : s.scaling = .amplitude)
    (ha : s.amplitudes = none) :
    (s.CanScale → ∀ x : List ℝ, x.length = s.dimX → (diffEq x s).1 = .error .valueError) ∧
    (∀ ts b, (analytical (some ts) b s).1 = .error .typeError) := by
  refine ⟨fun hc x hx => diffEq_error w hc hx fun p q _ => ?_, fun ts b => analytical_error w h ts b fun f => ?_⟩
  · obtain ⟨r, hr⟩ := h p
    simp only [forcing, hr, ok_then, scaleForcing, hs, ha]
  · simp only [scaleForcings, hs, ha]

/-- C88: if y_init was never set, everything that uses it raises AttributeError: the scaling of the forcing
term with g - y0, and the scaling of the goal system. -/
theorem C88_no_start {s : Dmp} (w : s.Wf) (h : s.Responds) (hy : s.yInit? = none) :
    (s.scaling = .gMinusY0 →
      (s.requiresScaling = false → ∀ x : List ℝ, x.length = s.dimX → (diffEq x s).1 = .error .attributeError) ∧
      (∀ ts b, (analytical (some ts) b s).1 = .error .attributeError)) ∧
    (s.requiresScaling = true →
      (s.goal ≠ none → ∀ x : List ℝ, x.length = s.dimX → (diffEq x s).1 = .error .attributeError) ∧
      (integrateStart none s).1 = .error .attributeError ∧
      (s.CanForce → ∀ ts b, ts ≠ [] → (analytical (some ts) b s).1 = .error .attributeError)) := by
  have hg : s.getYInit = .error .attributeError := by unfold getYInit; rw [hy]
  refine ⟨fun hs => ⟨fun hr x hx => diffEq_error w (fun h => by rw [hr] at h; cases h) hx fun p q _ => ?_,
    fun ts b => analytical_error w h ts b fun f => ?_⟩, fun hr => ?_⟩
  · obtain ⟨r, hr⟩ := h p
    simp only [forcing, hr, ok_then, scaleForcing, hs, hg]
    rfl
  · simp only [scaleForcings, hs, hg]
    rfl
  · have hsc : ∀ g, s.scaleGoal g = .error .attributeError := fun g => by
      unfold scaleGoal
      rw [if_pos hr, hg]
      rfl
    refine ⟨fun hgo x hx => ?_, ?_, fun hf ts b hts => ?_⟩
    · obtain ⟨y, z, g, p, q, c, hs, rfl⟩ := exists_pack (hx.trans w.dimX)
      rw [diffEq_run w hs]
      unfold vf springGoal
      cases hgs : s.goal with
      | none => exact absurd hgs hgo
      | some _ =>
        simp only [hsc]
        rfl
    · rw [integrateStart_run w, hsc]
    · rw [analytical_run w]
      unfold solve
      obtain ⟨fa, hfa⟩ := faUsed_of h ts b
      have : ∀ f, ∃ F, s.scaleForcings f = .ok F := fun f => by
        unfold scaleForcings
        unfold CanForce at hf
        cases hsc : s.scaling with
        | noScaling => exact ⟨_, rfl⟩
        | gMinusY0 => rw [hsc] at hf; exact absurd hy hf
        | amplitude =>
          rw [hsc] at hf
          cases ha : s.amplitudes with
          | none => exact absurd ha hf
          | some a => exact ⟨_, rfl⟩
      obtain ⟨F, hF⟩ := this (List.zipWith (fun f t => vscale ((s.gating.xAt t).getD 0 0) f) fa ts)
      simp only [hfa, ok_then, forcings, hF]
      cases ts with
      | nil => exact absurd rfl hts
      | cons t ts =>
        rw [List.length_cons, List.range_succ_eq_map, List.map_cons]
        unfold springRows
        simp only [hsc]
        rfl

/-- C88: with fewer function approximators than dimensions, each motion raises IndexError. -/
theorem C88_few_approximators {s : Dmp} (w : s.Wf) {l : List Fa} (hl : s.fas = some l) (h0 : l ≠ [])
    (hn : l.length < s.dimY) (ha : ∀ ps, ∀ i < l.length, ∃ c, faColumn l ps i = .ok c) :
    (s.CanScale → ∀ x : List ℝ, x.length = s.dimX → (diffEq x s).1 = .error .indexError) ∧
    (∀ ts b, (analytical (some ts) b s).1 = .error .indexError) := by
  have hp : ∀ ps, s.predictions ps = .error .indexError := fun ps => by
    unfold predictions
    rw [hl]
    cases hl2 : l with
    | nil => exact absurd hl2 h0
    | cons f fs =>
      simp only
      rw [← hl2]
      have hsplit : List.range s.dimY =
          List.range l.length ++ l.length :: (List.range (s.dimY - l.length - 1)).map (· + (l.length + 1)) := by
        have e : s.dimY = l.length + 1 + (s.dimY - l.length - 1) := by omega
        rw [e, List.range_add, List.range_succ, List.append_assoc]
        congr 1
        rw [List.singleton_append]
        congr 1
        rw [show l.length + 1 + (s.dimY - l.length - 1) - l.length - 1 = s.dimY - l.length - 1 by omega]
        exact List.map_congr_left fun a _ => by omega
      rw [hsplit, mapM_first (e := .indexError)]
      · rfl
      · intro i hi
        exact ha ps i (List.mem_range.mp hi)
      · unfold faColumn
        rw [List.getElem?_eq_none (le_refl _)]
  refine ⟨fun hc x hx => diffEq_error w hc hx fun p q _ => ?_, fun ts b => ?_⟩
  · unfold forcing
    rw [hp]
    rfl
  · rw [analytical_run w]
    unfold solve faUsed
    rw [hp]
    rfl

/-- C88: no times: analytical_solution and integrate raise IndexError; no times and no training:
analytical_solution raises ValueError. -/
theorem C88_no_times {s : Dmp} (w : s.Wf) (h : s.Responds) :
    (s.CanForce → ∀ b, (analytical (some []) b s).1 = .error .indexError) ∧
    (∀ m r t, integrateStart none s = (.ok r, t) → integrate [] m s = (.error .indexError, t)) ∧
    (s.tsTrain = none → ∀ b, Raises (analytical none b) .valueError s) := by
  refine ⟨fun hf b => ?_, fun m r t hr => ?_, fun ht b => ?_⟩
  · rw [analytical_run w]
    unfold solve
    obtain ⟨fa, hfa⟩ := faUsed_of h [] b
    have : ∃ F, s.scaleForcings (List.zipWith (fun f t => vscale ((s.gating.xAt t).getD 0 0) f) fa []) = .ok F := by
      unfold scaleForcings
      unfold CanForce at hf
      cases hsc : s.scaling with
      | noScaling => exact ⟨_, rfl⟩
      | gMinusY0 =>
        rw [hsc] at hf
        unfold getYInit
        cases hy : s.yInit? with
        | none => exact absurd hy hf
        | some y => exact ⟨_, rfl⟩
      | amplitude =>
        rw [hsc] at hf
        cases ha : s.amplitudes with
        | none => exact absurd ha hf
        | some a => exact ⟨_, rfl⟩
    obtain ⟨F, hF⟩ := this
    simp only [hfa, ok_then, forcings, hF]
    rfl
  · unfold integrate
    rw [PyM.bind_ok hr]
    rfl
  · unfold Raises
    rw [analytical_none, ht]

/-- C88: integrate_start with an initial state of several entries raises ValueError (the truth value of an
array is ambiguous), also if the state has the right size; the setters of y_init and y_attr raise ValueError
for another size; nothing changes. -/
theorem C88_start (s : Dmp) :
    (∀ a b l, Raises (integrateStart (some (a :: b :: l))) .valueError s) ∧
    (∀ a, a ≠ 0 → s.dimY ≠ 1 → Raises (integrateStart (some [a])) .valueError s) ∧
    (∀ y : List ℝ, y.length ≠ s.dimY → Raises (setYInit y) .valueError s ∧ Raises (setYAttr y) .valueError s) := by
  refine ⟨fun a b l => ?_, fun a ha hd => ?_, fun y hy => ⟨setYInit_reject hy, setYAttr_reject hy⟩⟩
  · exact PyM.bind_error (m := startFrom (some (a :: b :: l))) rfl
  · refine PyM.bind_error (m := startFrom (some [a])) ?_
    change (if a ≠ 0 then setYInit [a] else pure () : PyM Dmp Unit) s = _
    rw [if_pos ha]
    exact setYInit_reject (fun h => hd h.symm)

/-- C88: training. An empty demonstration raises IndexError and changes nothing. A demonstration of another
dimension raises ValueError, but after the duration has been taken over. -/
theorem C88_train (s : Dmp) (traj : Trajectory ℝ) (nf : Option (Option (List Fa))) :
    (traj.ts = [] → Raises (train traj nf) .indexError s) ∧
    (∀ tau y0, traj.ts.getLast? = some tau → traj.yInit = .ok y0 → y0.length ≠ s.dimY →
      train traj nf s = (.error .valueError, s.retimed tau)) := by
  refine ⟨fun h => ?_, fun tau y0 ht hy hl => ?_⟩
  · unfold Raises
    rw [train_eq, h]
    rfl
  · rw [train_eq, ht]
    simp only
    rw [PyM.bind_ok (setTau_run s tau)]
    unfold trainRest
    rw [hy, PyM.lift_ok_bind]
    exact PyM.bind_error (setYInit_reject (s := s.retimed tau) hl)

/-- C88: an empty list of function approximators is not the same as none: training raises IndexError, after
duration, initial state, attractor and amplitudes have been taken over. -/
theorem C88_train_empty_list {d : Nat} {s : Dmp} (i : Inv d s) (hd : 0 < d) {traj : Trajectory ℝ}
    (hs : traj.Shape) {newFas : Option (Option (List Fa))} {tau : ℝ} {y0 yg range : List ℝ}
    (h1 : traj.ts.getLast? = some tau) (h2 : traj.yInit = .ok y0) (h3 : traj.yFinal = .ok yg)
    (h4 : traj.rangePerDim = .ok range) (h5 : traj.ys.cols = d) {r : List ℝ × List (List ℝ)}
    (h6 : newFas.getD s.fas = some [])
    (h7 : (computeTargets traj (s.prepared tau y0 yg range (some []))).1 = .ok r) :
    train traj newFas s =
      (.error .indexError, (s.prepared tau y0 yg range (some [])).refreshed (some []) s.tsTrain) := by
  rw [train_eq, h1]
  simp only
  rw [PyM.bind_ok (setTau_run s tau)]
  have i1 := inv_retimed i tau
  unfold trainRest
  rw [h2, PyM.lift_ok_bind]
  have hl : y0.length = (s.retimed tau).dimY := by rw [yInit_length hs h2, h5]; exact i1.dim.symm
  rw [PyM.bind_ok (setYInit_run i1.wf hl), h3, PyM.lift_ok_bind]
  have i2 := inv_placed i1 hl
  have lg : yg.length = ((s.retimed tau).placed y0).dimY := by
    rw [yFinal_length hs h3, h5]; exact i2.dim.symm
  rw [PyM.bind_ok (setYAttr_run i2.wf lg), h4, PyM.lift_ok_bind, PyM.modify_bind, PyM.modify_bind]
  have i3 := inv_aimed i2 lg
  have i4 : Inv d (s.prepared tau y0 yg range (some [])) := by
    refine i3.congr rfl rfl rfl rfl rfl rfl rfl rfl rfl ?_
    rintro a ⟨⟩
    rw [rangePerDim_length h4, h5]
  have hst : ({ ((s.retimed tau).placed y0).aimed yg with
      amplitudes := some range, fas := newFas.getD (((s.retimed tau).placed y0).aimed yg).fas } : Dmp) =
      s.prepared tau y0 yg range (some []) := by
    unfold prepared
    have : newFas.getD (((s.retimed tau).placed y0).aimed yg).fas = some [] := h6
    rw [this]
  change trainLast traj { ((s.retimed tau).placed y0).aimed yg with
      amplitudes := some range, fas := newFas.getD (((s.retimed tau).placed y0).aimed yg).fas } = _
  rw [hst]
  have e7 : computeTargets traj (s.prepared tau y0 yg range (some [])) =
      (.ok r, (s.prepared tau y0 yg range (some [])).refreshed (some []) s.tsTrain) := by
    have e : computeTargets traj (s.prepared tau y0 yg range (some [])) =
      (.ok (r.1, r.2), (computeTargets traj (s.prepared tau y0 yg range (some []))).2) := Prod.ext h7 rfl
    rw [e, computeTargets_state i4.wf e]
    rfl
  unfold trainLast
  rw [PyM.self_bind]
  change (computeTargets traj >>= fun r => (do
    onFas (trainFas r.1 r.2 (List.range (s.prepared tau y0 yg range (some [])).dimY))
    PyM.modify fun s => { s with tsTrain := some traj.ts } : PyM Dmp Unit))
    (s.prepared tau y0 yg range (some [])) = _
  rw [PyM.bind_ok e7, i4.dim]
  refine PyM.bind_error ?_
  obtain ⟨n, rfl⟩ : ∃ n, d = n + 1 := ⟨d - 1, by omega⟩
  rw [List.range_succ_eq_map]
  have : trainFas r.1 r.2 (0 :: (List.range n).map Nat.succ) [] = (.error .indexError, []) :=
    PyM.bind_error rfl
  unfold onFas
  simp only [refreshed, this]

/-- C88: the targets of a demonstration of another dimension: ValueError, nothing changes. -/
theorem C88_targets (s : Dmp) (traj : Trajectory ℝ) (h : s.dimY ≠ traj.ys.cols) :
    Raises (computeTargets traj) .valueError s := by
  unfold Raises computeTargets
  rw [PyM.self_bind, if_pos h]
  rfl

/-- C88: if the forcing term is scaled with g - y0 and goal and start agree in some dimension, there are no
finite targets. -/
theorem C88_no_finite_targets {s t : Dmp} {traj : Trajectory ℝ} {sol : Solution} {y0 : List ℝ}
    (hc : s.dimY = traj.ys.cols) (hs : analytical (some traj.ts) false s = (.ok sol, t))
    (ht : t.scaling = .gMinusY0) (hy : t.yInit? = some y0) (hl : y0.length = t.dimY)
    (hla : t.yAttr.length = t.dimY) (hts : traj.ts ≠ []) (j : Nat) (hj : j < t.dimY)
    (he : t.yAttr.getD j 0 = y0.getD j 0) : computeTargets traj s = (.error .nanResult, t) := by
  unfold computeTargets
  rw [PyM.self_bind, if_neg (not_not.mpr hc), PyM.bind_ok hs, PyM.self_bind]
  have hcs : t.CanScale := fun _ h => by rw [hy] at h; cases h
  have hrow : ∀ x y yd ydd, t.targetRow x y yd ydd = .error .nanResult := fun x y yd ydd => by
    unfold targetRow
    simp only [scaleGoal_ok hcs, ok_then]
    have hu : ∀ f, t.unscale f = .error .nanResult := fun f => by
      unfold unscale getYInit
      simp only [ht, hy, ok_then]
      unfold divide
      refine if_pos ?_
      rw [List.mem_iff_getElem]
      have hjl : j < (vsub t.yAttr y0).length := by simp [vsub, hl, hla, hj]
      refine ⟨j, hjl, ?_⟩
      have : (vsub t.yAttr y0)[j] = t.yAttr[j]'(hla ▸ hj) - y0[j]'(hl ▸ hj) := by simp [vsub]
      rw [this]
      rw [List.getD_eq_getElem?_getD, List.getD_eq_getElem?_getD, List.getElem?_eq_getElem (hla ▸ hj),
        List.getElem?_eq_getElem (hl ▸ hj)] at he
      exact sub_eq_zero.mpr he
    unfold divide
    split
    · rfl
    · exact hu _
  obtain ⟨n, hn⟩ : ∃ n, traj.ts.length = n + 1 := by
    cases hts2 : traj.ts with
    | nil => exact absurd hts2 hts
    | cons a l => exact ⟨l.length, rfl⟩
  rw [hn, List.range_succ_eq_map, List.mapM_cons, hrow]
  rfl

/-- C88: set_param_vector of a Dmp: another number of values raises ValueError, and nothing changes. A
function approximator whose selected parameters include a numpy scalar has no slice of the values: TypeError,
and nothing changes if it is the first. -/
theorem C88_set_params (s : Dmp) (v : List ℝ) (n : Nat) (hn : s.paramVectorSize = .ok n) :
    (v.length ≠ n → Raises (setParamVector v) .valueError s) ∧
    (v.length = n → ∀ fa l label k, s.fas = some (fa :: l) → fa.model.isSome = true →
      label ∈ fa.selected.getD [] → isScalar (fa.param label) = true → fa.paramVectorSize = .ok k →
      Raises (setParamVector v) .typeError s) := by
  refine ⟨fun h => ?_, fun h fa l label k hf hm hlab hsc hk => ?_⟩
  · unfold Raises setParamVector
    rw [PyM.self_bind, hn, PyM.lift_ok_bind, if_pos h]
    rfl
  · unfold Raises setParamVector
    rw [PyM.self_bind, hn, PyM.lift_ok_bind, if_neg (not_not.mpr h)]
    simp only [hf]
    refine PyM.bind_error ?_
    have hsl : sliceSize fa = .error .typeError := by
      unfold sliceSize
      rw [hk, ok_then]
      exact if_pos (List.any_eq_true.mpr ⟨label, hlab, hsc⟩)
    unfold onFas
    simp only [hf]
    have : setFas v (fa :: l) = (.error .typeError, fa :: l) := by
      unfold setFas
      rw [if_pos hm, hsl]
    change ((setFas v (fa :: l)).1, ({ s with fas := some (setFas v (fa :: l)).2 } : Dmp)) = _
    rw [this, ← hf]

theorem fits_plain (o : Options) (n : Nat) (h1 : o.transformation = none) (h2 : o.phase = none)
    (h3 : o.gating = none) (h4 : o.goal = none) (h5 : o.damping = none) (h6 : o.amplitudes = none)
    (h7 : o.alphaSpring.Fits n) : o.Fits n :=
  ⟨(fun _ h => by rw [h1] at h; cases h), h7, (fun _ h => by rw [h2] at h; cases h),
    (fun _ h => by rw [h3] at h; cases h), (fun _ h => by rw [h4] at h; cases h),
    (fun _ h => by rw [h5] at h; cases h), (fun _ h => by rw [h6] at h; cases h)⟩

/-- Examples: new Dmps with two dimensions and without function approximators. One scales its forcing term
with amplitudes, one with g - y0, and one has a goal system that is scaled. -/
example : (∃ s : Dmp, init 1 [0, 0] [1, 2] none { dmpType := "Ijs02", scaling := .amplitude } = .ok s ∧
      s.Wf ∧ s.Responds ∧ s.scaling = .amplitude ∧ s.amplitudes = none ∧ s.CanScale ∧ s.tsTrain = none) ∧
    (∃ s : Dmp, init 1 [0, 0] [1, 2] none { dmpType := "Ijs02", scaling := .gMinusY0 } = .ok s ∧
      s.Wf ∧ s.Responds ∧ s.scaling = .gMinusY0 ∧ s.yInit? = none ∧ s.requiresScaling = false) ∧
    (∃ s : Dmp, init 1 [0, 0] [1, 2] none { dmpType := "SCT23" } = .ok s ∧
      s.Wf ∧ s.Responds ∧ s.yInit? = none ∧ s.requiresScaling = true ∧ s.goal ≠ none ∧ s.CanForce) := by
  refine ⟨?_, ?_, ?_⟩
  · obtain ⟨s, hs⟩ := (C16_types 1 [0, 0] [1, 2] none { dmpType := "Ijs02", scaling := .amplitude }).1
      (by simp [known])
    have w := init_wf hs rfl (fits_plain _ _ rfl rfl rfl rfl rfl rfl trivial)
    obtain ⟨dflt, hd, e⟩ := init_eq hs
    unfold defaults at hd
    simp only at hd
    rw [if_pos (by decide)] at hd
    cases hd
    have hr : s.requiresScaling = false := by rw [e]
    exact ⟨s, hs, w, responds_none (by rw [e]), by rw [e], by rw [e],
      fun h => (by rw [hr] at h; cases h), by rw [e]⟩
  · obtain ⟨s, hs⟩ := (C16_types 1 [0, 0] [1, 2] none { dmpType := "Ijs02", scaling := .gMinusY0 }).1
      (by simp [known])
    have w := init_wf hs rfl (fits_plain _ _ rfl rfl rfl rfl rfl rfl trivial)
    obtain ⟨dflt, hd, e⟩ := init_eq hs
    unfold defaults at hd
    simp only at hd
    rw [if_pos (by decide)] at hd
    cases hd
    exact ⟨s, hs, w, responds_none (by rw [e]), by rw [e], by rw [e], by rw [e]⟩
  · obtain ⟨s, hs⟩ := (C16_types 1 [0, 0] [1, 2] none { dmpType := "SCT23" }).1
      (by simp [known]; exact Or.inr ⟨"", "", rfl⟩)
    have w := init_wf hs rfl (fits_plain _ _ rfl rfl rfl rfl rfl rfl trivial)
    obtain ⟨dflt, hd, e⟩ := init_eq hs
    unfold defaults at hd
    simp only at hd
    rw [if_neg (by decide), if_neg (by decide), if_pos (by decide)] at hd
    cases hd
    refine ⟨s, hs, w, responds_none (by rw [e]), by rw [e], by rw [e]; decide, by rw [e]; exact Option.some_ne_none _, ?_⟩
    rw [e]
    trivial

/-- Example: two dimensions but one function approximator, which is not trained. -/
example : ∃ s : Dmp, init 1 [0, 0] [1, 2] (some [Fa.new (.gpr 1 [1])]) { dmpType := "Ijs02" } = .ok s ∧
    s.Wf ∧ s.CanScale ∧ s.dimY = 2 ∧ s.fas = some [Fa.new (.gpr 1 [1])] ∧
    ∀ ps, ∀ i < 1, ∃ c, faColumn [Fa.new (.gpr 1 [1])] ps i = .ok c := by
  obtain ⟨s, hs⟩ := (C16_types 1 [0, 0] [1, 2] (some [Fa.new (.gpr 1 [1])]) { dmpType := "Ijs02" }).1
    (by simp [known])
  have w := init_wf hs rfl (fits_plain _ _ rfl rfl rfl rfl rfl rfl trivial)
  obtain ⟨dflt, hd, e⟩ := init_eq hs
  unfold defaults at hd
  simp only at hd
  rw [if_pos (by decide)] at hd
  cases hd
  have hr : s.requiresScaling = false := by rw [e]
  refine ⟨s, hs, w, fun h => (by rw [hr] at h; cases h), by rw [e]; rfl, by rw [e], fun ps i hi => ?_⟩
  obtain rfl : i = 0 := by omega
  exact ⟨_, rfl⟩

/-- Example: a demonstration with one dimension for an Ijspeert Dmp, and an empty list of function
approximators. -/
example : ∃ s r, init 1 [0] [1] none { dmpType := "Ijs02" } = .ok s ∧ Inv 1 s ∧ demo.Shape ∧
    demo.ts.getLast? = some 1 ∧ demo.yInit = .ok [3] ∧ demo.yFinal = .ok [3] ∧ demo.rangePerDim = .ok [0] ∧
    (computeTargets demo (s.prepared 1 [3] [3] [0] (some []))).1 = .ok r := by
  obtain ⟨s, hs⟩ := (C16_types 1 [0] [1] none { dmpType := "Ijs02" }).1 (by simp [known])
  have hi : Inv 1 s := init_inv hs rfl (fits_plain _ _ rfl rfl rfl rfl rfl rfl trivial) (fun e he => nomatch he)
  obtain ⟨dflt, hd, e⟩ := init_eq hs
  unfold defaults at hd
  simp only at hd
  rw [if_pos (by decide)] at hd
  cases hd
  have htau : s.spring.tau = s.tau := by rw [e]; rfl
  have ht1 : (0 : ℝ) < s.tau := by rw [e]; exact one_pos
  have i4 : Inv 1 (s.prepared 1 [3] [3] [0] (some [])) := by
    have i3 := inv_aimed (inv_placed (inv_retimed hi 1) (y := [3]) hi.dim.symm) (y := [3]) hi.dim.symm
    refine i3.congr rfl rfl rfl rfl rfl rfl rfl rfl rfl ?_
    rintro a ⟨⟩
    rfl
  have hG : (s.prepared 1 [3] [3] [0] (some [])).gating = .exponential (.init 1 [1] [0] (.scalar 4)) := by
    change (s.retimed 1).gating = _
    unfold retimed
    rw [e]
    simp [Sub.withTau, Sub.base, Exponential.init]
  obtain ⟨phases, targets, h7⟩ := C17_computable (s.prepared 1 [3] [3] [0] (some []))
    i4.wf (springTau_retimed 1 ht1 htau) demo hi.dim (fun h => by
      have : s.requiresScaling = true := h
      rw [e] at this; cases this) (by unfold CanForce prepared; rw [e]; trivial)
    (by simp [demo]) (fa := _) (by
      unfold faUsed predictions
      rfl)
    (fun t _ _ => by
      rw [hG]
      simp [Sub.xAt, Exponential.xAt, Exponential.init, Exponential.xComp])
    (fun j _ => by unfold forcingFactor prepared; rw [e]; exact one_ne_zero)
  exact ⟨s, _, hs, hi, demo_shape, rfl, rfl, rfl, by simp [Trajectory.rangePerDim, demo], h7⟩

/-- Example: the offset of WLS is a numpy scalar; a Dmp that selects it cannot be given new values. -/
example (s : Dmp) : ∃ fa : Fa, fa.model.isSome = true ∧ "offset" ∈ fa.selected.getD [] ∧
    isScalar (fa.param "offset") = true ∧ fa.paramVectorSize = .ok 1 ∧
    ({ s with fas := some [fa], selected := [] } : Dmp).paramVectorSize = .ok 1 := by
  let fa : Fa := ⟨.wls true 0, some ⟨1, .wls ⟨fun _ => 2, some 3⟩⟩, some ["offset"]⟩
  have p2 : fa.param "offset" = some (.scalar 3) := by simp [fa, Fa.param, FaModel.param]
  have hs : fa.paramVectorSize = .ok 1 := by
    change (do
      return (← ["offset"].mapM fun label =>
        match fa.param label with
        | none => .ok 0
        | some (.array shape _) => .ok shape.prod
        | some (.scalar _) => .ok 1
        | some (.float _) => .error PyErr.attributeError
        | some .none => .error .attributeError).sum : Except PyErr Nat) = _
    simp only [List.mapM_cons, List.mapM_nil, p2]
    rfl
  refine ⟨fa, rfl, by simp [fa], by rw [p2]; rfl, hs, ?_⟩
  unfold paramVectorSize
  simp only [Option.getD_some, List.mapM_cons, List.mapM_nil, hs]
  rfl

/-- Example: the demonstration ends where it starts, so that g - y0 is 0. -/
example : ∃ s sol t, s.dimY = demo.ys.cols ∧ analytical (some demo.ts) false s = (.ok sol, t) ∧
    t.scaling = .gMinusY0 ∧ t.yInit? = some [3] ∧ t.yAttr = [3] ∧ t.dimY = 1 ∧ demo.ts ≠ [] := by
  obtain ⟨s, hs⟩ := (C16_types 1 [0] [1] none { dmpType := "Ijs02", scaling := .gMinusY0 }).1 (by simp [known])
  have hi : Inv 1 s := init_inv hs rfl (fits_plain _ _ rfl rfl rfl rfl rfl rfl trivial) (fun e he => nomatch he)
  obtain ⟨dflt, hd, e⟩ := init_eq hs
  unfold defaults at hd
  simp only at hd
  rw [if_pos (by decide)] at hd
  cases hd
  have i3 := inv_aimed (inv_placed (inv_retimed hi 1) (y := [3]) hi.dim.symm) (y := [3]) hi.dim.symm
  have hτ : (((s.retimed 1).placed [3]).aimed [3]).spring.tau = (((s.retimed 1).placed [3]).aimed [3]).tau :=
    springTau_retimed 1 (by rw [e]; exact one_pos) (by rw [e]; rfl)
  have hy : (((s.retimed 1).placed [3]).aimed [3]).yInit? = some [3] := rfl
  have hf0 : (((s.retimed 1).placed [3]).aimed [3]).fas = none := by
    change s.fas = none
    rw [e]
  have hsc : (((s.retimed 1).placed [3]).aimed [3]).scaling = .gMinusY0 := by
    change s.scaling = _
    rw [e]
  have hcs : (((s.retimed 1).placed [3]).aimed [3]).CanScale := fun _ => by rw [hy]; exact Option.some_ne_none _
  have hcf : (((s.retimed 1).placed [3]).aimed [3]).CanForce := by
    unfold CanForce
    rw [hsc, hy]
    exact Option.some_ne_none _
  obtain ⟨fa, hfa⟩ := faUsed_of (responds_none hf0) demo.ts false
  have h1 := (analytical_iff i3.wf (sameStart_of_tau hτ) (ts := demo.ts) (b := false)).mpr
    ⟨hcs, hcf, by simp [demo], fa, hfa, rfl⟩
  refine ⟨_, _, _, i3.dim, Prod.ext h1 rfl, ?_, ?_, ?_, ?_, by simp [demo]⟩
  all_goals
    rw [analytical_run i3.wf]
    split
  · exact hsc
  · exact hsc
  · exact hy
  · exact hy
  · rfl
  · rfl
  · exact hi.dim
  · exact hi.dim

end Dmp

end Verif
