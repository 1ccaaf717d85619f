import Verif.Proofs.DmpAnalytical

/- Helper lemmas about a Dmp: analytical_solution as an Euler recursion for each dimension. -/

set_option autoImplicit false

namespace Verif

namespace Dmp

variable {d : Nat}

/-! ### Dependence on the core -/

theorem springWith_core (s : Dmp) (g : List ℝ) (c : Par ℝ) :
    springWith s.core.spring g c = springWith s.spring g c := by
  unfold springWith SpringDamper.setYAttr
  rw [PyM.self_bind, PyM.self_bind]
  have : s.core.spring.dimY = s.spring.dimY := rfl
  rw [this]
  split_ifs <;> rfl

theorem springLoop_core (s : Dmp) (rows : List Row) : ∀ (t : ℝ) (x xd : List ℝ),
    springLoop s.core t x xd rows = springLoop s t x xd rows := by
  induction rows with
  | nil => intro _ _ _; rfl
  | cons r rows ih =>
    intro t x xd
    unfold springLoop
    simp only [springWith_core, ih]
    rfl

theorem springRows_core (s : Dmp) (g c : List ℝ) (rows : List Row) :
    springRows s.core g c rows = springRows s g c rows := by
  cases rows with
  | nil => rfl
  | cons r rows =>
    unfold springRows
    simp only [springWith_core, springLoop_core]
    rfl

theorem goalAt_core (s : Dmp) : s.core.goalAt = s.goalAt := by
  funext t; unfold goalAt
  cases e : s.goal <;> simp [core, e]
theorem goalDotAt_core (s : Dmp) : s.core.goalDotAt = s.goalDotAt := by
  funext t; unfold goalDotAt
  cases e : s.goal <;> simp [core, e]
theorem dampAt_core (s : Dmp) : s.core.dampAt = s.dampAt := by
  funext t; unfold dampAt
  cases e : s.damping <;> simp [core, e]
theorem dampDotAt_core (s : Dmp) : s.core.dampDotAt = s.dampDotAt := by
  funext t; unfold dampDotAt
  cases e : s.damping <;> simp [core, e]
theorem dampRow_core (s : Dmp) : s.core.dampRow = s.dampRow := by
  funext t; unfold dampRow
  cases e : s.damping <;> simp [core, e]

theorem solve_core (s : Dmp) (ts : List ℝ) (b : Bool) : s.core.solve ts b = s.solve ts b := by
  have h1 : s.core.faUsed ts b = s.faUsed ts b := by
    unfold faUsed
    have : (fun t => (s.core.phase.xAt t).getD 0 0) = fun t => (s.phase.xAt t).getD 0 0 := by
      funext t; simp [core]
    rw [this]; rfl
  have h2 : s.core.forcings ts = s.forcings ts := by
    funext fa
    unfold forcings
    have : (fun (f : List ℝ) t => vscale ((s.core.gating.xAt t).getD 0 0) f) =
        fun f t => vscale ((s.gating.xAt t).getD 0 0) f := by
      funext f t; simp [core]
    rw [this]; rfl
  have h3 : s.core.row0 ts = s.row0 ts := by
    funext F i
    unfold row0
    rw [goalAt_core, goalDotAt_core, dampAt_core, dampDotAt_core]
    simp [core]
  unfold solve
  rw [h1, h2, h3]
  simp only [springRows_core, goalAt_core, dampRow_core]

theorem stable_analytical (ts? : Option (List ℝ)) (b : Bool) : Stable d (analytical ts? b) := by
  have some_case : ∀ ts, Stable d (analytical (some ts) b) := by
    intro ts
    refine Stable.of (fun s h => ?_) (fun s => s.solve ts b) (fun s h => ?_)
    · rw [analytical_run h.wf]
      have h14 : s.spring.yAttr.length = d := h.wf.spring.yAttr.trans (h.wf.springDim.trans h.dim)
      have h15 : s.spring.damping.Fits d := by
        have := h.wf.spring.damping
        rwa [h.wf.springDim, h.dim] at this
      cases s.faUsed ts b >>= s.forcings ts with
      | error e =>
        exact good_of h rfl rfl rfl rfl rfl rfl rfl rfl rfl (.inr rfl) (.inr rfl) (.inl rfl) (.inl rfl)
          (ya := s.spring.yAttr) (c := s.spring.damping) rfl h14 h15 fun _ => rfl
      | ok F =>
        exact good_of h rfl rfl rfl rfl rfl rfl rfl rfl rfl (.inr rfl) (.inr rfl) (.inr rfl) (.inr rfl)
          (ya := s.spring.yAttr) (c := s.spring.damping) rfl h14 h15 fun _ => rfl
    · rw [analytical_run h.wf, solve_core]
  cases ts? with
  | some ts => exact some_case ts
  | none =>
    intro s s' hs hs' hc
    have ht : s.tsTrain = s'.tsTrain := by
      have := congrArg (fun t : Dmp => t.tsTrain) hc
      exact this
    rw [analytical_none, analytical_none, ← ht]
    cases s.tsTrain with
    | none => exact ⟨rfl, rfl, hs⟩
    | some ts => exact some_case ts s s' hs hs' hc

/-! ### Goal and forcing terms -/

/-- The goal of the spring-damper system can be computed. -/
def CanScale (s : Dmp) : Prop := s.requiresScaling = true → s.yInit? ≠ none

/-- The goal of the spring-damper system for goal state `g`. -/
noncomputable def scaled (s : Dmp) (g : List ℝ) : List ℝ :=
  if s.requiresScaling then
    vadd (s.yInit?.getD []) (vmul (vsub s.yAttr (s.yInit?.getD [])) g)
  else g

theorem scaleGoal_ok {s : Dmp} (h : s.CanScale) (g : List ℝ) : s.scaleGoal g = .ok (s.scaled g) := by
  unfold scaleGoal scaled
  by_cases hr : s.requiresScaling = true
  · rw [if_pos hr, if_pos hr]
    unfold getYInit
    cases e : s.yInit? with
    | none => exact absurd e (h hr)
    | some y => rfl
  · rw [if_neg hr, if_neg hr]

theorem scaleGoal_error {s : Dmp} (h : ¬ s.CanScale) (g : List ℝ) :
    s.scaleGoal g = .error .attributeError := by
  unfold CanScale at h
  push Not at h
  unfold scaleGoal
  rw [if_pos h.1]
  unfold getYInit
  rw [h.2]
  rfl

theorem scaled_length {s : Dmp} (hw : s.Wf) (h : s.CanScale) {g : List ℝ} (hg : g.length = s.dimY) :
    (s.scaled g).length = s.dimY := scaleGoal_length hw hg (scaleGoal_ok h g)

/-- Factor by which entry `j` of the forcing term is scaled. -/
noncomputable def forcingFactor (s : Dmp) (j : Nat) : ℝ :=
  match s.scaling with
  | .noScaling => 1
  | .gMinusY0 => s.yAttr.getD j 0 - (s.yInit?.getD []).getD j 0
  | .amplitude => (s.amplitudes.getD []).getD j 0

/-- The forcing term can be scaled. -/
def CanForce (s : Dmp) : Prop :=
  match s.scaling with
  | .noScaling => True
  | .gMinusY0 => s.yInit? ≠ none
  | .amplitude => s.amplitudes ≠ none

/-- Scaled forcing terms. -/
noncomputable def forced (s : Dmp) (f : List ℝ) : List ℝ :=
  (List.range s.dimY).map fun j => s.forcingFactor j * f.getD j 0

theorem range_getD {l : List ℝ} {n : Nat} (h : l.length = n) :
    ((List.range n).map fun j => l.getD j 0) = l := by
  apply ext_getD 0
  · simp [h]
  · intro i hi
    rw [getD_range_map (by simpa using hi)]

theorem scaleForcings_ok {s : Dmp} (hw : s.Wf) (h : s.CanForce) {F : List (List ℝ)}
    (hF : ∀ f ∈ F, f.length = s.dimY) : s.scaleForcings F = .ok (F.map s.forced) := by
  unfold CanForce at h
  unfold scaleForcings
  cases e : s.scaling with
  | noScaling =>
    simp only
    congr 1
    conv_lhs => rw [← List.map_id F]
    apply List.map_congr_left
    intro f hf
    unfold forced
    simp only [forcingFactor, e, one_mul, id]
    exact (range_getD (hF f hf)).symm
  | gMinusY0 =>
    rw [e] at h
    cases e2 : s.yInit? with
    | none => exact absurd e2 h
    | some y =>
      have ly := hw.yInit y e2
      have lg := hw.yAttr
      have : s.getYInit = .ok y := by unfold getYInit; rw [e2]
      simp only [this]
      refine congrArg Except.ok ?_
      apply List.map_congr_left
      intro f hf
      have lf := hF f hf
      apply ext_getD 0
      · simp [lf, ly, lg, forced]
      · intro j hj
        have hj : j < s.dimY := by simpa [lf, ly, lg] using hj
        rw [getD_vmul (by omega) (by simp; omega), getD_vsub (by omega) (by omega), forced,
          getD_range_map hj]
        simp only [forcingFactor, e, e2, Option.getD_some]
        ring
  | amplitude =>
    rw [e] at h
    cases e2 : s.amplitudes with
    | none => exact absurd e2 h
    | some a =>
      have la := hw.amplitudes a e2
      simp only
      refine congrArg Except.ok ?_
      apply List.map_congr_left
      intro f hf
      have lf := hF f hf
      apply ext_getD 0
      · simp [lf, la, forced]
      · intro j hj
        have hj : j < s.dimY := by simpa [lf, la] using hj
        rw [getD_vmul (by omega) (by omega), forced, getD_range_map hj]
        simp only [forcingFactor, e, e2, Option.getD_some]
        ring

theorem scaleForcings_error {s : Dmp} (h : ¬ s.CanForce) (F : List (List ℝ)) :
    ∃ e, s.scaleForcings F = .error e := by
  unfold CanForce at h
  unfold scaleForcings
  cases e : s.scaling with
  | noScaling => rw [e] at h; exact absurd trivial h
  | gMinusY0 =>
    rw [e] at h
    have e2 : s.yInit? = none := not_not.mp h
    refine ⟨.attributeError, ?_⟩
    simp only [getYInit, e2]
    rfl
  | amplitude =>
    rw [e] at h
    have e2 : s.amplitudes = none := not_not.mp h
    exact ⟨.typeError, by simp only [e2]⟩

theorem scaleForcing_ok {s : Dmp} (hw : s.Wf) (h : s.CanForce) {f : List ℝ} (hf : f.length = s.dimY) :
    s.scaleForcing f = .ok (s.forced f) := by
  have h1 := scaleForcings_ok hw h (F := [f]) (by simpa using hf)
  unfold CanForce at h
  unfold scaleForcings at h1
  unfold scaleForcing
  cases e : s.scaling with
  | noScaling => rw [e] at h1; simp only [Except.ok.injEq, List.map_cons, List.map_nil, List.cons.injEq,
      and_true] at h1; simp only; rw [← h1]
  | gMinusY0 =>
    rw [e] at h
    cases e2 : s.yInit? with
    | none => exact absurd e2 h
    | some y =>
      have : s.getYInit = .ok y := by unfold getYInit; rw [e2]
      simp only [e, this] at h1 ⊢
      injection h1 with h1
      injection h1 with h1
      rw [← h1]; rfl
  | amplitude =>
    rw [e] at h
    cases e2 : s.amplitudes with
    | none => exact absurd e2 h
    | some a =>
      simp only [e, e2] at h1 ⊢
      injection h1 with h1
      injection h1 with h1
      rw [← h1]

theorem scaleForcing_error {s : Dmp} (h : ¬ s.CanForce) (f : List ℝ) :
    ∃ e, s.scaleForcing f = .error e := by
  unfold CanForce at h
  unfold scaleForcing
  cases e : s.scaling with
  | noScaling => rw [e] at h; exact absurd trivial h
  | gMinusY0 =>
    rw [e] at h
    have e2 : s.yInit? = none := not_not.mp h
    refine ⟨.attributeError, ?_⟩
    simp only [getYInit, e2]
    rfl
  | amplitude =>
    rw [e] at h
    have e2 : s.amplitudes = none := not_not.mp h
    exact ⟨.valueError, by simp only [e2]⟩

/-! ### Motion -/

/-- Rate of change of the scaled velocity of dimension `j`, for goal, damping, forcing term, position
and scaled velocity. -/
noncomputable def acc (s : Dmp) (j : Nat) (g c f y z : ℝ) : ℝ :=
  (-s.spring.spring.at' j * (y - g) - c * z) / (s.spring.mass.at' j * s.spring.tau) + f / s.tau

theorem zRate_eq (s : Dmp) (ga : List ℝ) (dc : Par ℝ) (f y z : List ℝ) (j : Nat) :
    s.zRate ga dc f y z j = s.acc j (ga.getD j 0) (dc.at' j) (f.getD j 0) (y.getD j 0) (z.getD j 0) := rfl

/-- Position and scaled velocity of dimension `j` at time number `k`: Euler integration. -/
noncomputable def mot (s : Dmp) (ts : List ℝ) (F : List (List ℝ)) (j : Nat) : Nat → ℝ × ℝ
  | 0 => (s.spring.xInit.getD j 0, s.spring.xInit.getD (s.dimY + j) 0)
  | k + 1 =>
    let p := mot s ts F j k
    let t := ts.getD k 0
    let dt := ts.getD (k + 1) 0 - t
    (p.1 + dt * (p.2 / s.tau),
      p.2 + dt * s.acc j ((s.scaled (s.goalAt t)).getD j 0) ((s.dampAt t).getD j 0)
        ((F.getD k []).getD j 0) p.1 p.2)

/-- Rate of change of the scaled velocity of dimension `j` at time number `k`. -/
noncomputable def motAcc (s : Dmp) (ts : List ℝ) (F : List (List ℝ)) (j k : Nat) : ℝ :=
  let t := ts.getD k 0
  s.acc j ((s.scaled (s.goalAt t)).getD j 0) ((s.dampAt t).getD j 0) ((F.getD k []).getD j 0)
    (s.mot ts F j k).1 (s.mot ts F j k).2

/-- State at time number `k`. -/
noncomputable def xRow (s : Dmp) (ts : List ℝ) (F : List (List ℝ)) (k : Nat) : List ℝ :=
  let t := ts.getD k 0
  pack ((List.range s.dimY).map fun j => (s.mot ts F j k).1)
    ((List.range s.dimY).map fun j => (s.mot ts F j k).2)
    (s.goalAt t) (s.phase.xAt t) (s.gating.xAt t) (s.dampAt t)

/-- Rate of change at time number `k`. -/
noncomputable def xdRow (s : Dmp) (ts : List ℝ) (F : List (List ℝ)) (k : Nat) : List ℝ :=
  let t := ts.getD k 0
  pack ((List.range s.dimY).map fun j => (s.mot ts F j k).2 / s.tau)
    ((List.range s.dimY).map fun j => s.motAcc ts F j k)
    (s.goalDotAt t) (s.phase.xdAt t) (s.gating.xdAt t) (s.dampDotAt t)

theorem xRow_sizes {s : Dmp} (h : s.Wf) (ts : List ℝ) (F : List (List ℝ)) (k : Nat) :
    Sizes s.dimY ((List.range s.dimY).map fun j => (s.mot ts F j k).1)
      ((List.range s.dimY).map fun j => (s.mot ts F j k).2)
      (s.goalAt (ts.getD k 0)) (s.phase.xAt (ts.getD k 0)) (s.gating.xAt (ts.getD k 0))
      (s.dampAt (ts.getD k 0)) :=
  ⟨by simp, by simp, goalAt_length h _, phase_length h _, gating_length h _, dampAt_length h _⟩

theorem xdRow_sizes {s : Dmp} (h : s.Wf) (ts : List ℝ) (F : List (List ℝ)) (k : Nat) :
    Sizes s.dimY ((List.range s.dimY).map fun j => (s.mot ts F j k).2 / s.tau)
      ((List.range s.dimY).map fun j => s.motAcc ts F j k)
      (s.goalDotAt (ts.getD k 0)) (s.phase.xdAt (ts.getD k 0)) (s.gating.xdAt (ts.getD k 0))
      (s.dampDotAt (ts.getD k 0)) :=
  ⟨by simp, by simp, goalDotAt_length h _, phaseDot_length h _, gatingDot_length h _,
    dampDotAt_length h _⟩

theorem row0_sizes {s : Dmp} (h : s.Wf) (t : ℝ) :
    Sizes s.dimY (vzeros s.dimY) (vzeros s.dimY) (s.goalAt t) (s.phase.xAt t) (s.gating.xAt t)
      (s.dampAt t) :=
  ⟨by simp, by simp, goalAt_length h _, phase_length h _, gating_length h _, dampAt_length h _⟩

theorem row0d_sizes {s : Dmp} (h : s.Wf) (t : ℝ) :
    Sizes s.dimY (vzeros s.dimY) (vzeros s.dimY) (s.goalDotAt t) (s.phase.xdAt t) (s.gating.xdAt t)
      (s.dampDotAt t) :=
  ⟨by simp, by simp, goalDotAt_length h _, phaseDot_length h _, gatingDot_length h _,
    dampDotAt_length h _⟩

theorem except_ok_bind {α β : Type} (a : α) (f : α → Except PyErr β) : (Except.ok a >>= f) = f a := rfl

theorem row0_x (s : Dmp) (ts : List ℝ) (F : List (List ℝ)) (k : Nat) : (s.row0 ts F k).x =
    pack (vzeros s.dimY) (vzeros s.dimY) (s.goalAt (ts.getD k 0)) (s.phase.xAt (ts.getD k 0))
      (s.gating.xAt (ts.getD k 0)) (s.dampAt (ts.getD k 0)) := rfl

theorem row0_xd (s : Dmp) (ts : List ℝ) (F : List (List ℝ)) (k : Nat) : (s.row0 ts F k).xd =
    pack (vzeros s.dimY) (vzeros s.dimY) (s.goalDotAt (ts.getD k 0)) (s.phase.xdAt (ts.getD k 0))
      (s.gating.xdAt (ts.getD k 0)) (s.dampDotAt (ts.getD k 0)) := rfl

theorem springWith_ok {sp : SpringDamper} {g : List ℝ} (c : Par ℝ) (h : g.length = sp.dimY) :
    springWith sp g c = .ok { sp with yAttr := g, damping := c } := by
  unfold springWith
  rw [spring_setYAttr h]

theorem springWith_diffEq {s : Dmp} (h : s.Wf) (g : List ℝ) (c : Par ℝ) {y z : List ℝ}
    (hy : y.length = s.dimY) :
    ({ s.spring with yAttr := g, damping := c } : SpringDamper).diffEq (y ++ z) =
      vdivs z s.spring.tau ++ (List.range s.dimY).map fun j =>
        (-s.spring.spring.at' j * (y.getD j 0 - g.getD j 0) - c.at' j * z.getD j 0) /
          (s.spring.mass.at' j * s.spring.tau) := by
  rw [spring_diffEq (by simpa [h.springDim] using hy)]
  simp only [h.springDim]
  rfl

theorem map_append_add {s : Dmp} {ts : List ℝ} {F : List (List ℝ)} {k : Nat} :
    (List.range s.dimY).map (fun j => (s.mot ts F j (k + 1)).1) ++
      (List.range s.dimY).map (fun j => (s.mot ts F j (k + 1)).2) =
    vadd ((List.range s.dimY).map (fun j => (s.mot ts F j k).1) ++
        (List.range s.dimY).map (fun j => (s.mot ts F j k).2))
      (vscale (ts.getD (k + 1) 0 - ts.getD k 0)
        ((List.range s.dimY).map (fun j => (s.mot ts F j k).2 / s.tau) ++
        (List.range s.dimY).map fun j => s.motAcc ts F j k)) := by
  unfold vadd vscale
  rw [List.map_append, List.zipWith_append (by simp)]
  simp only [List.map_map, List.zipWith_map, List.zipWith_self]
  rfl

theorem springLoop_run {s : Dmp} (h : s.Wf) (hc : s.CanScale) (ts : List ℝ) (F : List (List ℝ))
    (m : Nat) : ∀ k, (∀ i, k < i → i < k + 1 + m → (F.getD i []).length = s.dimY) →
    springLoop s (ts.getD k 0) (s.xRow ts F k) (s.xdRow ts F k)
      ((List.range' (k + 1) m).map (s.row0 ts F)) =
    .ok ((List.range' (k + 1) m).map fun i => (s.xRow ts F i, s.xdRow ts F i)) := by
  induction m with
  | zero => intro k _; rfl
  | succ m ih =>
    intro k hF
    have ht : ∀ j, (s.row0 ts F j).t = ts.getD j 0 := fun _ => rfl
    rw [List.range'_succ, List.map_cons, List.map_cons]
    unfold springLoop
    have sx := xRow_sizes h ts F k
    have sxd := xdRow_sizes h ts F k
    have e1 : pickAt (s.xRow ts F k) (SPRING s.dimY) = _ := sx.pick_SPRING
    have e2 : pickAt (s.xdRow ts F k) (SPRING s.dimY) = _ := sxd.pick_SPRING
    simp only [e1, e2, ht]
    rw [← map_append_add]
    have r0 := row0_sizes h (ts.getD (k + 1) 0)
    have e3 := s.row0_x ts F (k + 1)
    rw [e3, r0.put_SPRING (by simp; omega), List.take_left' (by simp), List.drop_left' (by simp)]
    have sx1 := xRow_sizes h ts F (k + 1)
    rw [sx1.pick_GOAL, sx1.pick_DAMPING, sx1.pick_SPRING, sx1.pick_SPRING_Z, scaleGoal_ok hc,
      except_ok_bind, springWith_ok _ (by rw [scaled_length h hc (goalAt_length h _), h.springDim]),
      except_ok_bind]
    have e4 := s.row0_xd ts F (k + 1)
    have r0d := row0d_sizes h (ts.getD (k + 1) 0)
    rw [e4, springWith_diffEq h _ _ (by simp), r0d.put_SPRING (by simp; omega),
      List.take_left' (by simp), List.drop_left' (by simp)]
    have sxm : Sizes s.dimY
        (vdivs ((List.range s.dimY).map fun j => (s.mot ts F j (k + 1)).2) s.spring.tau)
        ((List.range s.dimY).map fun j =>
          (-s.spring.spring.at' j *
            (((List.range s.dimY).map fun j => (s.mot ts F j (k + 1)).1).getD j 0 -
              (s.scaled (s.goalAt (ts.getD (k + 1) 0))).getD j 0) -
            (Par.array (s.dampAt (ts.getD (k + 1) 0))).at' j *
              ((List.range s.dimY).map fun j => (s.mot ts F j (k + 1)).2).getD j 0) /
          (s.spring.mass.at' j * s.spring.tau))
        (s.goalDotAt (ts.getD (k + 1) 0)) (s.phase.xdAt (ts.getD (k + 1) 0))
        (s.gating.xdAt (ts.getD (k + 1) 0)) (s.dampDotAt (ts.getD (k + 1) 0)) :=
      ⟨by simp, by simp, r0d.g, r0d.p, r0d.q, r0d.c⟩
    have lF := hF (k + 1) (by omega) (by omega)
    have lf : (s.row0 ts F (k + 1)).f.length = s.dimY := lF
    rw [sxm.pick_SPRING_Z, sxm.put_SPRING_Z (by simp [lf])]
    have hz : vadd ((List.range s.dimY).map fun j =>
          (-s.spring.spring.at' j *
            (((List.range s.dimY).map fun j => (s.mot ts F j (k + 1)).1).getD j 0 -
              (s.scaled (s.goalAt (ts.getD (k + 1) 0))).getD j 0) -
            (Par.array (s.dampAt (ts.getD (k + 1) 0))).at' j *
              ((List.range s.dimY).map fun j => (s.mot ts F j (k + 1)).2).getD j 0) /
          (s.spring.mass.at' j * s.spring.tau)) (vdivs (s.row0 ts F (k + 1)).f s.tau) =
        (List.range s.dimY).map fun j => s.motAcc ts F j (k + 1) := by
      apply ext_getD 0
      · simp [lf]
      · intro j hj
        have hj : j < s.dimY := by simpa [lf] using hj
        rw [getD_vadd (by simpa using hj) (by simpa [lf] using hj), getD_range_map hj,
          getD_range_map hj, getD_range_map hj, getD_range_map hj, getD_vdivs]
        rfl
    rw [hz]
    have sxe : Sizes s.dimY
        (vdivs ((List.range s.dimY).map fun j => (s.mot ts F j (k + 1)).2) s.spring.tau)
        ((List.range s.dimY).map fun j => s.motAcc ts F j (k + 1))
        (s.goalDotAt (ts.getD (k + 1) 0)) (s.phase.xdAt (ts.getD (k + 1) 0))
        (s.gating.xdAt (ts.getD (k + 1) 0)) (s.dampDotAt (ts.getD (k + 1) 0)) :=
      ⟨by simp, by simp, r0d.g, r0d.p, r0d.q, r0d.c⟩
    rw [sxe.put_SPRING_Y (by simp)]
    have hy : vdivs ((List.range s.dimY).map fun j => (s.mot ts F j (k + 1)).2) s.tau =
        (List.range s.dimY).map fun j => (s.mot ts F j (k + 1)).2 / s.tau := by
      unfold vdivs; rw [List.map_map]; rfl
    rw [hy]
    have := ih (k + 1) (fun i h1 h2 => hF i (by omega) (by omega))
    unfold xRow xdRow at this ⊢
    simp only at this ⊢
    rw [this]
    rfl

/-- The initial velocity does not depend on whether the time constant of the Dmp or of the spring-damper
system is used. -/
def SameStart (s : Dmp) : Prop := ∀ j, j < s.dimY →
  s.spring.xInit.getD (s.dimY + j) 0 / s.spring.tau = s.spring.xInit.getD (s.dimY + j) 0 / s.tau

theorem sameStart_of_tau {s : Dmp} (h : s.spring.tau = s.tau) : s.SameStart := fun j _ => by rw [h]

theorem springRows_run {s : Dmp} (h : s.Wf) (hc : s.CanScale) (hτ : s.SameStart)
    {ts : List ℝ} (hts : ts ≠ []) {F : List (List ℝ)}
    (hF : ∀ i, i < ts.length → (F.getD i []).length = s.dimY) :
    s.springRows (s.goalAt (ts.getD 0 0)) (s.dampRow (ts.getD 0 0))
      ((List.range ts.length).map (s.row0 ts F)) =
    .ok ((List.range ts.length).map fun i => (s.xRow ts F i, s.xdRow ts F i)) := by
  obtain ⟨m, hm⟩ : ∃ m, ts.length = m + 1 :=
    ⟨ts.length - 1, by have := List.length_pos_iff.mpr hts; omega⟩
  rw [hm, List.range_eq_range', List.range'_succ, List.map_cons, List.map_cons]
  unfold springRows
  simp only
  have ht : ∀ j, (s.row0 ts F j).t = ts.getD j 0 := fun _ => rfl
  rw [scaleGoal_ok hc, except_ok_bind,
    springWith_ok _ (by rw [scaled_length h hc (goalAt_length h _), h.springDim]), except_ok_bind]
  simp only [ht]
  have r0 := row0_sizes h (ts.getD 0 0)
  have r0d := row0d_sizes h (ts.getD 0 0)
  have e3 := s.row0_x ts F 0
  have e4 := s.row0_xd ts F 0
  have li := springInit_length h
  have hxi : s.spring.xInit = (List.range s.dimY).map (fun j => (s.mot ts F j 0).1) ++
      (List.range s.dimY).map (fun j => (s.mot ts F j 0).2) := by
    apply ext_getD 0
    · simp [li]; omega
    · intro i hi
      by_cases hd : i < s.dimY
      · rw [getD_append_left' (by simpa using hd), getD_range_map hd]
        rfl
      · obtain ⟨l, rfl⟩ := Nat.exists_eq_add_of_le (not_lt.mp hd)
        have e : s.dimY + l = ((List.range s.dimY).map fun j => (s.mot ts F j 0).1).length + l := by
          simp
        conv_rhs => rw [e]
        rw [getD_append_right', getD_range_map (by omega)]
        rfl
  rw [hxi, e3, e4, springWith_diffEq h _ _ (by simp), r0.put_SPRING (by simp; omega),
    r0d.put_SPRING (by simp; omega), List.take_left' (by simp), List.drop_left' (by simp),
    List.take_left' (by simp), List.drop_left' (by simp)]
  have sxm : Sizes s.dimY
      (vdivs ((List.range s.dimY).map fun j => (s.mot ts F j 0).2) s.spring.tau)
      ((List.range s.dimY).map fun j =>
        (-s.spring.spring.at' j *
          (((List.range s.dimY).map fun j => (s.mot ts F j 0).1).getD j 0 -
            (s.scaled (s.goalAt (ts.getD 0 0))).getD j 0) -
          (firstDamping (s.dampRow (ts.getD 0 0))).at' j *
            ((List.range s.dimY).map fun j => (s.mot ts F j 0).2).getD j 0) /
        (s.spring.mass.at' j * s.spring.tau))
      (s.goalDotAt (ts.getD 0 0)) (s.phase.xdAt (ts.getD 0 0))
      (s.gating.xdAt (ts.getD 0 0)) (s.dampDotAt (ts.getD 0 0)) :=
    ⟨by simp, by simp, r0d.g, r0d.p, r0d.q, r0d.c⟩
  have lf : (s.row0 ts F 0).f.length = s.dimY := hF 0 (by omega)
  rw [sxm.pick_SPRING_Z, sxm.put_SPRING_Z (by simp [lf])]
  have hz : vadd ((List.range s.dimY).map fun j =>
        (-s.spring.spring.at' j *
          (((List.range s.dimY).map fun j => (s.mot ts F j 0).1).getD j 0 -
            (s.scaled (s.goalAt (ts.getD 0 0))).getD j 0) -
          (firstDamping (s.dampRow (ts.getD 0 0))).at' j *
            ((List.range s.dimY).map fun j => (s.mot ts F j 0).2).getD j 0) /
        (s.spring.mass.at' j * s.spring.tau)) (vdivs (s.row0 ts F 0).f s.tau) =
      (List.range s.dimY).map fun j => s.motAcc ts F j 0 := by
    apply ext_getD 0
    · simp [lf]
    · intro j hj
      have hj : j < s.dimY := by simpa [lf] using hj
      rw [getD_vadd (by simpa using hj) (by simpa [lf] using hj), getD_range_map hj,
        getD_range_map hj, getD_range_map hj, getD_range_map hj, getD_vdivs, dampRow_at h _ hj]
      rfl
  rw [hz]
  have hy : vdivs ((List.range s.dimY).map fun j => (s.mot ts F j 0).2) s.spring.tau =
      (List.range s.dimY).map fun j => (s.mot ts F j 0).2 / s.tau := by
    unfold vdivs
    rw [List.map_map]
    exact List.map_congr_left fun j hj => hτ j (List.mem_range.mp hj)
  rw [hy]
  have := springLoop_run h hc ts F m 0 (fun i h1 h2 => hF i (by omega))
  unfold xRow xdRow at this ⊢
  simp only at this ⊢
  rw [this]
  rfl

/-! ### The result of analytical_solution -/

/-- Gated and scaled outputs of the function approximators. -/
noncomputable def gated (s : Dmp) (ts : List ℝ) (fa : List (List ℝ)) : List (List ℝ) :=
  (List.zipWith (fun f t => vscale ((s.gating.xAt t).getD 0 0) f) fa ts).map s.forced

theorem faUsed_length {s : Dmp} {ts : List ℝ} {b : Bool} {fa : List (List ℝ)}
    (h : s.faUsed ts b = .ok fa) : fa.length = ts.length ∧ ∀ f ∈ fa, f.length = s.dimY := by
  obtain ⟨r, h1, h2⟩ := except_bind_ok h
  cases h2
  obtain ⟨l1, l2⟩ := predictions_length h1
  rw [List.length_map] at l1
  by_cases hb : b = true
  · rw [if_pos hb]
    refine ⟨by simpa using l1, ?_⟩
    intro f hf
    obtain ⟨f', hf', rfl⟩ := List.mem_map.mp hf
    simpa using l2 f' hf'
  · rw [if_neg hb]; exact ⟨l1, l2⟩

theorem gated_length {s : Dmp} {ts : List ℝ} {fa : List (List ℝ)} (h : fa.length = ts.length) :
    (s.gated ts fa).length = ts.length := by simp [gated, h]

theorem gated_row_length {s : Dmp} {ts : List ℝ} {fa : List (List ℝ)} (h : fa.length = ts.length)
    {i : Nat} (hi : i < ts.length) : ((s.gated ts fa).getD i []).length = s.dimY := by
  unfold gated
  rw [getD_map' (by simpa [h] using hi) [] []]
  simp [forced]

theorem gated_getD {s : Dmp} {ts : List ℝ} {fa : List (List ℝ)} (h : fa.length = ts.length)
    {i j : Nat} (hi : i < ts.length) (hj : j < s.dimY) : ((s.gated ts fa).getD i []).getD j 0 =
      s.forcingFactor j * ((s.gating.xAt (ts.getD i 0)).getD 0 0 * (fa.getD i []).getD j 0) := by
  unfold gated
  rw [getD_map' (by simpa [h] using hi) [] [], forced, getD_range_map hj,
    getD_zipWith' (by omega) hi [] [] 0, getD_vscale]

theorem forcings_ok {s : Dmp} (hw : s.Wf) (hf : s.CanForce) {ts : List ℝ} {fa : List (List ℝ)}
    (h : ∀ f ∈ fa, f.length = s.dimY) : s.forcings ts fa = .ok (s.gated ts fa) := by
  unfold forcings gated
  refine scaleForcings_ok hw hf ?_
  intro f hm
  obtain ⟨i, hi, rfl⟩ := List.getElem_of_mem hm
  simp only [List.getElem_zipWith, length_vscale]
  exact h _ (List.getElem_mem _)

theorem solve_ok {s : Dmp} (h : s.Wf) (hτ : s.SameStart) (hc : s.CanScale) (hf : s.CanForce)
    {ts : List ℝ} (hts : ts ≠ []) {b : Bool} {fa : List (List ℝ)} (hfa : s.faUsed ts b = .ok fa) :
    s.solve ts b = .ok
      { xs := (List.range ts.length).map (s.xRow ts (s.gated ts fa))
        xds := (List.range ts.length).map (s.xdRow ts (s.gated ts fa))
        forcing := s.gated ts fa
        fa := fa } := by
  obtain ⟨l1, l2⟩ := faUsed_length hfa
  unfold solve
  rw [hfa, except_ok_bind, forcings_ok h hf l2, except_ok_bind,
    springRows_run h hc hτ hts (fun i hi => gated_row_length l1 hi), except_ok_bind]
  simp only [List.map_map]
  rfl

theorem solve_inv {s : Dmp} (h : s.Wf) {ts : List ℝ} {b : Bool} {sol : Solution}
    (hs : s.solve ts b = .ok sol) :
    s.CanScale ∧ s.CanForce ∧ ts ≠ [] ∧ ∃ fa, s.faUsed ts b = .ok fa := by
  obtain ⟨fa, h1, h2⟩ := except_bind_ok hs
  obtain ⟨F, h3, h4⟩ := except_bind_ok h2
  obtain ⟨rows, h5, -⟩ := except_bind_ok h4
  refine ⟨?_, ?_, ?_, fa, h1⟩
  · by_contra hc
    cases hr : (List.range ts.length).map (s.row0 ts F) with
    | nil => rw [hr] at h5; cases h5
    | cons r rs =>
      rw [hr] at h5
      unfold springRows at h5
      simp only at h5
      rw [scaleGoal_error hc] at h5
      cases h5
  · by_contra hc
    obtain ⟨e, he⟩ := scaleForcings_error hc
      (List.zipWith (fun f t => vscale ((s.gating.xAt t).getD 0 0) f) fa ts)
    unfold forcings at h3
    rw [he] at h3
    cases h3
  · rintro rfl
    cases h5

/-- Successful calls of analytical_solution. -/
theorem analytical_iff {s : Dmp} (h : s.Wf) (hτ : s.SameStart) {ts : List ℝ} {b : Bool}
    {sol : Solution} : (analytical (some ts) b s).1 = .ok sol ↔
    s.CanScale ∧ s.CanForce ∧ ts ≠ [] ∧ ∃ fa, s.faUsed ts b = .ok fa ∧ sol =
      { xs := (List.range ts.length).map (s.xRow ts (s.gated ts fa))
        xds := (List.range ts.length).map (s.xdRow ts (s.gated ts fa))
        forcing := s.gated ts fa
        fa := fa } := by
  rw [analytical_run h]
  constructor
  · intro hs
    obtain ⟨hc, hf, hts, fa, hfa⟩ := solve_inv h hs
    refine ⟨hc, hf, hts, fa, hfa, ?_⟩
    rw [solve_ok h hτ hc hf hts hfa] at hs
    injection hs with hs
    exact hs.symm
  · rintro ⟨hc, hf, hts, fa, hfa, rfl⟩
    exact solve_ok h hτ hc hf hts hfa

end Dmp

end Verif
