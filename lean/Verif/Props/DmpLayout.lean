import Verif.Proofs.Dmp

/- C16: the layout of the state of a Dmp. -/

set_option autoImplicit false

namespace Verif

namespace Dmp

/-- The index sets of the parts of the state, in the order of the code. -/
def indexSets (d : Nat) : List (List Nat) :=
  [SPRING_Y d, SPRING_Z d, GOAL d, PHASE d, GATING d, DAMPING d]

/-- C16: the index sets are pairwise disjoint, without duplicates, and together are exactly the
indices of the state vector; the spring part consists of position and velocity. -/
theorem C16_partition (d : Nat) :
    (indexSets d).Pairwise List.Disjoint ∧ (∀ l ∈ indexSets d, l.Nodup) ∧
    (∀ i, (∃ l ∈ indexSets d, i ∈ l) ↔ i < 4 * d + 2) ∧
    (∀ i, i ∈ SPRING d ↔ i ∈ SPRING_Y d ∨ i ∈ SPRING_Z d) ∧
    (SPRING_Y d).length = d ∧ (SPRING_Z d).length = d ∧ (GOAL d).length = d ∧
    (PHASE d).length = 1 ∧ (GATING d).length = 1 ∧ (DAMPING d).length = d := by
  refine ⟨?_, ?_, ?_, ?_, by simp [SPRING_Y], by simp [SPRING_Z], by simp [GOAL], by simp [PHASE],
    by simp [GATING], by simp [DAMPING]⟩
  · simp only [indexSets, List.pairwise_cons, List.mem_cons, List.not_mem_nil, or_false,
      forall_eq_or_imp, forall_eq, List.Pairwise.nil, List.Disjoint, SPRING_Y, SPRING_Z, GOAL, PHASE,
      GATING, DAMPING, List.mem_range'_1]
    refine ⟨⟨?_, ?_, ?_, ?_, ?_⟩, ⟨?_, ?_, ?_, ?_⟩, ⟨?_, ?_, ?_⟩, ⟨?_, ?_⟩, ?_, ?_, trivial⟩ <;>
      first | (intro a h1 h2; omega) | (intro a h; exact h.elim) | simp
  · intro l hl
    simp only [indexSets, List.mem_cons, List.not_mem_nil, or_false] at hl
    rcases hl with rfl | rfl | rfl | rfl | rfl | rfl <;> exact List.nodup_range'
  · intro i
    simp only [indexSets, List.mem_cons, List.not_mem_nil, or_false, exists_eq_or_imp,
      exists_eq_left, SPRING_Y, SPRING_Z, GOAL, PHASE, GATING, DAMPING, List.mem_range'_1]
    omega
  · intro i
    simp only [SPRING, SPRING_Y, SPRING_Z, List.mem_range'_1]
    omega

/-- C16: the parts of the state in terms of positions in the vector. `states_as_pos_vel_acc` reads the
first `n` entries of the state, the first `n` entries of its rate of change, and the second `n` entries
of the rate of change divided by tau. -/
theorem C16_read (s : Dmp) (x xd : List ℝ) (hx : x.length = 4 * s.dimY + 2)
    (hxd : xd.length = 4 * s.dimY + 2) :
    s.posVelAcc x xd =
      (x.take s.dimY, xd.take s.dimY, ((xd.drop s.dimY).take s.dimY).map (· / s.tau)) := by
  unfold posVelAcc SPRING_Y SPRING_Z
  rw [pick_range _ _ _ (by omega), pick_range _ _ _ (by omega), pick_range _ _ _ (by omega)]
  simp [vdivs]

/-- C16: `states_as_trajectory` makes a trajectory of what `states_as_pos_vel_acc` reads from the
rows. -/
theorem C16_trajectory (s : Dmp) (ts : List ℝ) (xs xds : List (List ℝ)) (hl : xs.length = xds.length) :
    s.asTrajectory ts xs xds = Trajectory.init ts
      (.two ⟨s.dimY, (List.zipWith s.posVelAcc xs xds).map fun r => r.1⟩)
      (some (.two ⟨s.dimY, (List.zipWith s.posVelAcc xs xds).map fun r => r.2.1⟩))
      (some (.two ⟨s.dimY, (List.zipWith s.posVelAcc xs xds).map fun r => r.2.2⟩)) none := by
  have e1 : (List.zipWith s.posVelAcc xs xds).map (fun r => r.1) =
      xs.map fun x => pickAt x (SPRING_Y s.dimY) := by
    apply List.ext_getElem <;> simp [posVelAcc, hl]
  have e2 : (List.zipWith s.posVelAcc xs xds).map (fun r => r.2.1) =
      xds.map fun x => pickAt x (SPRING_Y s.dimY) := by
    apply List.ext_getElem <;> simp [posVelAcc, hl]
  have e3 : (List.zipWith s.posVelAcc xs xds).map (fun r => r.2.2) =
      xds.map fun xd => vdivs (pickAt xd (SPRING_Z s.dimY)) s.tau := by
    apply List.ext_getElem <;> simp [posVelAcc, hl]
  rw [e1, e2, e3]
  rfl

/-! ### The constructor -/

/-- The keyword arguments fit a Dmp with `n` dimensions. -/
structure Options.Fits (o : Options) (n : Nat) : Prop where
  transformation : ∀ t, o.transformation = some t → t.Wf ∧ t.dimY = n
  alphaSpring : o.alphaSpring.Fits n
  phase : ∀ t, o.phase = some t → t.Wf ∧ t.base.dimX = 1
  gating : ∀ t, o.gating = some t → t.Wf ∧ t.base.dimX = 1
  goal : ∀ t, o.goal = some (some t) → t.Wf ∧ t.base.dimX = n
  damping : ∀ t, o.damping = some (some t) → t.Wf ∧ t.base.dimX = n
  amplitudes : ∀ a, o.amplitudes = some a → a.length = n

/-- The default subsystems fit. -/
structure Defaults.Fits (o : Defaults) (n : Nat) : Prop where
  phase : o.phase.Wf ∧ o.phase.base.dimX = 1
  gating : o.gating.Wf ∧ o.gating.base.dimX = 1
  goal : ∀ t, o.goal = some t → t.Wf ∧ t.base.dimX = n
  damping : ∀ t, o.damping = some t → t.Wf ∧ t.base.dimX = n

theorem exponential_fits (tau : ℝ) (xInit xAttr : List ℝ) (al : ℝ) (h : xAttr.length = xInit.length) :
    (Sub.exponential (.init tau xInit xAttr (.scalar al))).Wf :=
  show Exponential.Wf _ from ⟨rfl, rfl, h, trivial⟩

theorem richards_fits (tau : ℝ) (xInit xAttr : List ℝ) (a b c : ℝ) (h : xAttr.length = xInit.length) :
    (Sub.richards (.init tau xInit (.array xAttr) (.scalar a) (.scalar b) (.scalar c))).Wf :=
  show Richards.Wf _ from ⟨rfl, rfl, trivial, trivial, h, trivial, fun _ h => nomatch h⟩

theorem defaults_fits {dmpType : String} {tau : ℝ} {yInit yAttr : List ℝ} {damping : Par ℝ}
    {r : Defaults} (h : defaults dmpType tau yInit yAttr damping = .ok r)
    (hy : yAttr.length = yInit.length) : r.Fits yInit.length := by
  unfold defaults at h
  simp only at h
  by_cases h1 : dmpType = "IJSPEERT_2002_MOVEMENT" ∨ dmpType = "Ijs02"
  · rw [if_pos h1] at h
    cases h
    exact ⟨⟨exponential_fits _ _ _ _ rfl, rfl⟩, ⟨exponential_fits _ _ _ _ rfl, rfl⟩,
      (fun _ h => nomatch h), (fun _ h => nomatch h)⟩
  rw [if_neg h1] at h
  by_cases h2 : dmpType = "KULVICIUS_2012_JOINING" ∨ dmpType = "Kul12" ∨ dmpType = "COUNTDOWN_2013"
  · rw [if_pos h2] at h
    cases h
    refine ⟨⟨⟨rfl, rfl, rfl⟩, rfl⟩, ⟨⟨Sigmoid.forGating_wf _ _ _, .inl rfl⟩, rfl⟩, ?_,
      (fun _ h => nomatch h)⟩
    rintro _ ⟨⟩
    exact ⟨exponential_fits _ _ _ _ hy, rfl⟩
  rw [if_neg h2] at h
  by_cases h3 : (isIn "2022" dmpType || isIn "SCT23" dmpType) = true
  · rw [if_pos h3] at h
    cases h
    refine ⟨⟨⟨rfl, rfl, rfl⟩, rfl⟩, ⟨richards_fits _ _ _ _ _ _ rfl, rfl⟩, ?_, ?_⟩
    · rintro _ ⟨⟩
      cases !isIn "NO_SCALING" dmpType with
      | true => exact ⟨richards_fits _ _ _ _ _ _ (by simp), by simp [Sub.base, Richards.init]⟩
      | false => exact ⟨richards_fits _ _ _ _ _ _ hy, rfl⟩
    · intro t ht
      simp only at ht
      split_ifs at ht
      cases ht
      refine ⟨exponential_fits _ _ _ _ (by simp [full]), ?_⟩
      simp [Sub.base, Exponential.init, full]
  · rw [if_neg h3] at h
    cases h

theorem stateDim_eq (n : Nat) : Base.stateDim 1 n (some (3 * n + 2 + n)) = 4 * n + 2 := by
  simp only [Base.stateDim]
  rw [if_neg (by omega)]
  change (3 * n + 2 + n) * 1 = _
  omega

/-- The subsystem that is used: the one passed as keyword argument, or else the default. -/
theorem init_eq {tau : ℝ} {yInit yAttr : List ℝ} {fas : Option (List Fa)} {o : Options} {s : Dmp}
    (h : init tau yInit yAttr fas o = .ok s) :
    ∃ dflt, defaults o.dmpType tau yInit yAttr
        (o.transformation.getD (SpringDamper.init tau yInit yAttr o.alphaSpring)).damping = .ok dflt ∧
      s = { tau := tau
            dimY := yInit.length
            dimX := 4 * yInit.length + 2
            xInit := yInit ++ vzeros (3 * yInit.length + 2)
            yInit? := none
            yAttr := yAttr
            fas := fas
            spring := o.transformation.getD (SpringDamper.init tau yInit yAttr o.alphaSpring)
            phase := o.phase.getD dflt.phase
            gating := o.gating.getD dflt.gating
            goal := o.goal.getD dflt.goal
            damping := o.damping.getD dflt.damping
            requiresScaling := dflt.requiresScaling
            scaling := o.scaling
            amplitudes := o.amplitudes
            tsTrain := none
            selected := [] } := by
  unfold init at h
  obtain ⟨b, hb, h⟩ := except_bind_ok h
  obtain ⟨dflt, hd, h⟩ := except_bind_ok h
  refine ⟨dflt, hd, ?_⟩
  cases h
  have e2 : b = { tau := tau
                  dimY := yInit.length
                  dimX := 4 * yInit.length + 2
                  xInit := yInit ++ vzeros (3 * yInit.length + 2) } := by
    unfold Base.init at hb
    rw [if_neg (by decide)] at hb
    simp only [stateDim_eq] at hb
    rw [if_neg (by omega)] at hb
    cases hb
    congr 2
    congr 1
    omega
  subst e2
  rfl

/-- A Dmp made by the constructor, with arguments of the right sizes, is well-formed. -/
theorem init_wf {tau : ℝ} {yInit yAttr : List ℝ} {fas : Option (List Fa)} {o : Options} {s : Dmp}
    (h : init tau yInit yAttr fas o = .ok s) (hy : yAttr.length = yInit.length)
    (ho : o.Fits yInit.length) : s.Wf := by
  obtain ⟨dflt, hd, rfl⟩ := init_eq h
  have hf := defaults_fits hd hy
  have hp : (o.phase.getD dflt.phase).Wf ∧ (o.phase.getD dflt.phase).base.dimX = 1 := by
    cases e : o.phase with
    | none => exact hf.phase
    | some t => exact ho.phase t e
  have hg : (o.gating.getD dflt.gating).Wf ∧ (o.gating.getD dflt.gating).base.dimX = 1 := by
    cases e : o.gating with
    | none => exact hf.gating
    | some t => exact ho.gating t e
  have hgo : ∀ t, o.goal.getD dflt.goal = some t → t.Wf ∧ t.base.dimX = yInit.length := by
    cases e : o.goal with
    | none => exact hf.goal
    | some t => intro t' ht; exact ho.goal t' (by rw [e]; exact congrArg some ht)
  have hda : ∀ t, o.damping.getD dflt.damping = some t → t.Wf ∧ t.base.dimX = yInit.length := by
    cases e : o.damping with
    | none => exact hf.damping
    | some t => intro t' ht; exact ho.damping t' (by rw [e]; exact congrArg some ht)
  have hsp : ∀ sp, sp = o.transformation.getD (SpringDamper.init tau yInit yAttr o.alphaSpring) →
      sp.Wf ∧ sp.dimY = yInit.length := by
    rintro sp rfl
    cases e : o.transformation with
    | some t => exact ho.transformation t e
    | none =>
      refine ⟨⟨?_, ?_, hy, ho.alphaSpring, ?_, trivial⟩, rfl⟩
      · change yInit.length * 2 = yInit.length + yInit.length
        omega
      · change (yInit ++ vzeros yInit.length).length = yInit.length * 2
        simp; omega
      · have := ho.alphaSpring
        cases ha : o.alphaSpring with
        | scalar c => trivial
        | array l =>
          rw [ha] at this
          change (l.map _).length = yInit.length
          rw [List.length_map]
          exact this
  exact ⟨rfl, hy, (fun _ h => nomatch h), (hsp _ rfl).1, (hsp _ rfl).2, hp.1, hp.2, hg.1, hg.2,
    fun t ht => (hgo t ht).1, fun t ht => (hgo t ht).2, fun t ht => (hda t ht).1,
    fun t ht => (hda t ht).2, ho.amplitudes⟩

/-- C16: the constructor makes a state of size 4 n + 2 (for whatever keyword arguments). -/
theorem C16_size (tau : ℝ) (yInit yAttr : List ℝ) (fas : Option (List Fa)) (o : Options) (s : Dmp)
    (h : init tau yInit yAttr fas o = .ok s) :
    s.dimY = yInit.length ∧ s.dimX = 4 * s.dimY + 2 := by
  obtain ⟨dflt, hd, rfl⟩ := init_eq h
  exact ⟨rfl, rfl⟩

/-- The names that the constructor accepts as dmp_type. -/
def known (name : String) : Prop :=
  name ∈ ["IJSPEERT_2002_MOVEMENT", "Ijs02", "KULVICIUS_2012_JOINING", "Kul12", "COUNTDOWN_2013"] ∨
    (∃ a b, name = a ++ "2022" ++ b) ∨ ∃ a b, name = a ++ "SCT23" ++ b

theorem isIn_iff (a b : String) : isIn a b = true ↔ ∃ u v, b = u ++ a ++ v := by
  unfold isIn
  rw [decide_eq_true_iff]
  constructor
  · rintro ⟨u, v, h⟩
    refine ⟨String.ofList u, String.ofList v, ?_⟩
    apply String.toList_injective
    simp [← h]
  · rintro ⟨u, v, rfl⟩
    exact ⟨u.toList, v.toList, by simp⟩

/-- C16: the constructor succeeds exactly for the known types (ValueError otherwise). -/
theorem C16_types (tau : ℝ) (yInit yAttr : List ℝ) (fas : Option (List Fa)) (o : Options) :
    (known o.dmpType → ∃ s, init tau yInit yAttr fas o = .ok s) ∧
    (¬ known o.dmpType → init tau yInit yAttr fas o = .error .valueError) := by
  have hb : ∃ b, Base.init 1 tau yInit (some (3 * yInit.length + 2 + yInit.length)) = .ok b := by
    unfold Base.init
    rw [if_neg (by decide)]
    simp only [stateDim_eq]
    rw [if_neg (by omega)]
    exact ⟨_, rfl⟩
  obtain ⟨b, hb⟩ := hb
  have hk : known o.dmpType ↔ (o.dmpType = "IJSPEERT_2002_MOVEMENT" ∨ o.dmpType = "Ijs02") ∨
      (o.dmpType = "KULVICIUS_2012_JOINING" ∨ o.dmpType = "Kul12" ∨ o.dmpType = "COUNTDOWN_2013") ∨
      (isIn "2022" o.dmpType || isIn "SCT23" o.dmpType) = true := by
    rw [Bool.or_eq_true, isIn_iff, isIn_iff]
    simp only [known, List.mem_cons, List.not_mem_nil, or_false, or_assoc]
  unfold init
  rw [hb, hk]
  generalize o.transformation.getD (SpringDamper.init tau yInit yAttr o.alphaSpring) = sp
  constructor
  · intro h
    have : ∃ dflt, defaults o.dmpType tau yInit yAttr sp.damping = .ok dflt := by
      unfold defaults
      simp only
      by_cases h1 : o.dmpType = "IJSPEERT_2002_MOVEMENT" ∨ o.dmpType = "Ijs02"
      · rw [if_pos h1]; exact ⟨_, rfl⟩
      rw [if_neg h1]
      by_cases h2 : o.dmpType = "KULVICIUS_2012_JOINING" ∨ o.dmpType = "Kul12" ∨
          o.dmpType = "COUNTDOWN_2013"
      · rw [if_pos h2]; exact ⟨_, rfl⟩
      rw [if_neg h2, if_pos (by tauto)]
      exact ⟨_, rfl⟩
    obtain ⟨dflt, hd⟩ := this
    change ∃ s, ((defaults o.dmpType tau yInit yAttr sp.damping) >>= _) = Except.ok s
    rw [hd]
    exact ⟨_, rfl⟩
  · intro h
    have : defaults o.dmpType tau yInit yAttr sp.damping = .error .valueError := by
      unfold defaults
      simp only
      rw [if_neg (by tauto), if_neg (by tauto), if_neg (by tauto)]
    change ((defaults o.dmpType tau yInit yAttr sp.damping) >>= _) = _
    rw [this]
    rfl

/-- The default type is known, as is one with damping system. -/
example : known "KULVICIUS_2012_JOINING" ∧ known "2022_DAMPING" ∧ ¬ known "foo" := by
  refine ⟨by simp [known], .inr (.inl ⟨"", "_DAMPING", rfl⟩), ?_⟩
  rw [known, ← isIn_iff, ← isIn_iff]
  decide

/-- Reading the parts of a state with two dimensions. -/
example : (SPRING_Y 2, SPRING_Z 2, GOAL 2, PHASE 2, GATING 2, DAMPING 2) =
    ([0, 1], [2, 3], [4, 5], [6], [7], [8, 9]) := by decide

end Dmp

end Verif
