import Verif.Proofs.StepRelation
import Verif.Proofs.DmpCore

/- Helper lemmas: integration steps of a Dmp and of its subsystems. -/

set_option autoImplicit false

namespace Verif

/-! ### Selecting entries -/

theorem getD_pick {x : List ℝ} {a k i : Nat} (hi : i < k) :
    (pickAt x (List.range' a k)).getD i 0 = x.getD (a + i) 0 := by
  have e : (List.range' a k)[i]'(by simpa using hi) = a + i := by simp
  rw [pickAt, getD_lt (by simpa using hi), List.getElem_map, e]

/-- `y` consists of `k` entries of `x` from entry `a` on. -/
def PartOf (n a k : Nat) (x y : List ℝ) : Prop := x.length = n ∧ y = pickAt x (List.range' a k)

theorem partOf_linear {n a k : Nat} (h : a + k ≤ n) : DynSys.Linear (PartOf n a k) where
  add := by
    rintro x _ x' _ ⟨h1, rfl⟩ ⟨h2, rfl⟩
    refine ⟨by simp [h1, h2], ?_⟩
    apply ext_getD 0
    · simp [length_pick]
    · intro i hi
      have hi' : i < k := by simpa [length_pick] using hi
      rw [getD_vadd (by simpa [length_pick] using hi') (by simpa [length_pick] using hi'), getD_pick hi',
        getD_pick hi', getD_pick hi', getD_vadd (by omega) (by omega)]
  scale := by
    rintro x _ c ⟨h1, rfl⟩
    refine ⟨by simp [h1], ?_⟩
    apply ext_getD 0
    · simp [length_pick]
    · intro i hi
      have hi' : i < k := by simpa [length_pick] using hi
      rw [getD_vscale, getD_pick hi', getD_pick hi', getD_vscale]
  divs := by
    rintro x _ c ⟨h1, rfl⟩
    refine ⟨by simp [h1], ?_⟩
    apply ext_getD 0
    · simp [length_pick]
    · intro i hi
      have hi' : i < k := by simpa [length_pick] using hi
      rw [getD_vdivs, getD_pick hi', getD_pick hi', getD_vdivs]

/-! ### Steps of subsystems always succeed -/

namespace Sub

theorem realises {u : Sub} (h : u.Wf) :
    DynSys.Realises (fun t : Sub => t.Wf ∧ t.touch = u.touch ∧ t.base = u.base) u.base.dimX u.base.xInit
      (fun x => u.rate x) where
  dim t ht := by change t.base.dimX = _; rw [ht.2.2]
  init t ht := by change t.base.xInit = _; rw [ht.2.2]
  initLen := h.xInit
  diff t x ht hx := by
    refine ⟨t.touch, ?_, wf_touch ht.1, by rw [touch_touch, ht.2.1], by rw [base_touch, ht.2.2]⟩
    change Sub.diffEq x t = _
    rw [diffEq_run ht.1 (by rw [ht.2.2]; exact hx), ← rate_touch t, ht.2.1, rate_touch]
  len x hx := length_rate h hx

end Sub

namespace Dmp

/-! ### Objects whose goal system does not have the attractor of the Dmp yet -/

/-- The Dmp whose goal system has the attractor. -/
noncomputable def synced (s : Dmp) : Dmp := { s with goal := s.goal.map (Sub.withAttr s.yAttr) }

theorem withAttr_withAttr (g : Sub) (y : List ℝ) : (g.withAttr y).withAttr y = g.withAttr y := by
  cases g <;> rfl

theorem synced_good {s : Dmp} (h : s.Wf) : Good s.dimY s.synced := by
  refine ⟨⟨h.dimX, h.yAttr, h.yInit, h.spring, h.springDim, h.phase, h.phaseDim, h.gating,
    h.gatingDim, ?_, ?_, h.damping, h.dampingDim, h.amplitudes⟩, ?_, rfl⟩
  · intro g hg
    obtain ⟨g', h1, rfl⟩ := Option.map_eq_some_iff.mp hg
    refine Sub.wf_withAttr (h.goal g' h1) ?_
    rw [h.yAttr, ← (h.goal g' h1).dim, h.goalDim g' h1]
  · intro g hg
    obtain ⟨g', h1, rfl⟩ := Option.map_eq_some_iff.mp hg
    rw [Sub.base_withAttr]; exact h.goalDim g' h1
  · intro g hg
    obtain ⟨g', h1, rfl⟩ := Option.map_eq_some_iff.mp hg
    exact withAttr_withAttr g' _

theorem synced_diffEq {s : Dmp} (h : s.Wf) {x : List ℝ} (hx : x.length = 4 * s.dimY + 2) :
    diffEq x s.synced = diffEq x s := by
  obtain ⟨y, z, g, p, q, c, hs, rfl⟩ := exists_pack hx
  rw [diffEq_run h hs, diffEq_run (synced_good h).wf hs]
  have e0 : (s.synced.goal.map fun g => (g.withAttr s.synced.yAttr).touch) =
      s.goal.map fun g => (g.withAttr s.yAttr).touch := by
    change Option.map _ (s.goal.map (Sub.withAttr s.yAttr)) = _
    cases s.goal with
    | none => rfl
    | some g => simp only [Option.map_some, synced, withAttr_withAttr]
  have e1 : s.synced.springGoal g = s.springGoal g := by
    unfold springGoal synced
    cases s.goal <;> rfl
  have e2 : s.synced.goalRate g = s.goalRate g := by
    unfold goalRate synced
    cases s.goal with
    | none => rfl
    | some g => simp only [Option.map_some, withAttr_withAttr]
  have e3 : s.synced.vf y z g p q c = s.vf y z g p q c := by
    unfold vf
    rw [e1, e2]
    rfl
  rw [e1, e3]
  refine Prod.ext rfl ?_
  cases s.springGoal g with
  | error _ => simp only [goalTouched, e0]; rfl
  | ok _ => simp only [touched, e0]; rfl

theorem wf_diffEq {s : Dmp} (h : s.Wf) {x : List ℝ} (hx : x.length = 4 * s.dimY + 2) :
    Good s.dimY (diffEq x s).2 := by
  rw [← synced_diffEq h hx]
  exact (stable_diffEq hx s.synced s.synced (synced_good h) (synced_good h) rfl).2.2

/-! ### Parts of the state -/

variable {d a k : Nat} {part : Dmp → Option Sub}

/-- A subsystem whose state consists of the entries from `a` on and which integrates that part. -/
structure IsPart (d a k : Nat) (part : Dmp → Option Sub) : Prop where
  fits : a + k ≤ 4 * d + 2
  wf : ∀ {s u}, s.Wf → s.dimY = d → part s = some u → u.Wf ∧ u.base.dimX = k
  keep : ∀ (s : Dmp) ga c, (part (s.touched ga c)).map Sub.touch = (part s).map Sub.touch
  rate : ∀ {s : Dmp} {y z g p q c r u}, s.Wf → s.dimY = d → Sizes d y z g p q c →
    s.vf y z g p q c = .ok r → part s = some u →
    pickAt r (List.range' a k) = u.rate (pickAt (pack y z g p q c) (List.range' a k))

theorem diffEq_ok {s : Dmp} (h : s.Wf) {y z g p q c r : List ℝ} (hs : Sizes s.dimY y z g p q c)
    {s' : Dmp} (he : diffEq (pack y z g p q c) s = (.ok r, s')) :
    s.vf y z g p q c = .ok r ∧ ∃ ga, s' = s.touched ga c := by
  rw [diffEq_run h hs] at he
  obtain ⟨h1, h2⟩ := Prod.mk.injEq _ _ _ _ ▸ he
  refine ⟨h1, ?_⟩
  obtain ⟨ga, h3, _⟩ := except_bind_ok h1
  rw [h3] at h2
  exact ⟨ga, h2.symm⟩

theorem IsPart.simulates (hp : IsPart d a k part) :
    DynSys.Simulates (fun (s : Dmp) (t : Sub) => s.Wf ∧ s.dimY = d ∧ t.Wf ∧ t.base.dimX = k ∧
      (part s).map Sub.touch = some t.touch) (PartOf (4 * d + 2) a k) := by
  rintro s t x _ r b s' t' ⟨hw, rfl, ht, hk, hu⟩ ⟨hx, rfl⟩ h1 h2
  have hlen : (pickAt x (List.range' a k)).length = t.base.dimX := by simp [length_pick, hk]
  have h2' : Sub.diffEq (pickAt x (List.range' a k)) t = _ := h2
  rw [Sub.diffEq_run ht hlen] at h2'
  cases h2'
  obtain ⟨u, hu1, hu2⟩ := Option.map_eq_some_iff.mp hu
  have hgood := wf_diffEq hw hx
  have hr : r.length = 4 * s.dimY + 2 := by
    refine vf_pack_length (synced_good hw) hx (r := r) ?_
    rw [synced_diffEq hw hx]
    exact congrArg Prod.fst h1
  have h1' : diffEq x s = (.ok r, s') := h1
  rw [h1'] at hgood
  obtain ⟨y, z, g, p, q, c, hs, rfl⟩ := exists_pack hx
  obtain ⟨hv, ga, rfl⟩ := diffEq_ok hw hs h1'
  refine ⟨⟨hr, ?_⟩, hgood.wf, hgood.dim, Sub.wf_touch ht, by rw [Sub.base_touch]; exact hk, ?_⟩
  · rw [hp.rate hw rfl hs hv hu1, ← Sub.rate_touch u, hu2, Sub.rate_touch]
  · rw [hp.keep, hu1, Option.map_some, hu2, Sub.touch_touch]

theorem length_of_step {s : Dmp} {m : DynSys.Method} {dt : ℝ} {x : List ℝ} {r : List ℝ × List ℝ} {s' : Dmp}
    (h : DynSys.step m dt x s = (.ok r, s')) : x.length = s.dimX := by
  by_contra hne'
  have hne : x.length ≠ DynSys.dimX s := hne'
  cases m with
  | euler =>
    change DynSys.eulerStep dt x s = _ at h
    unfold DynSys.eulerStep at h
    rw [PyM.self_bind, if_pos hne] at h
    cases h
  | rungeKutta =>
    change DynSys.rungeKuttaStep dt x s = _ at h
    unfold DynSys.rungeKuttaStep at h
    rw [PyM.self_bind, if_pos hne] at h
    cases h

theorem IsPart.step (hp : IsPart d a k part) {s s' : Dmp} (hw : s.Wf) (hd : s.dimY = d) {u : Sub}
    (hu : part s = some u) {m : DynSys.Method} {dt : ℝ} {x : List ℝ} {r : List ℝ × List ℝ}
    (h : DynSys.step m dt x s = (.ok r, s')) :
    (DynSys.step m dt (pickAt x (List.range' a k)) u).1 =
      .ok (pickAt r.1 (List.range' a k), pickAt r.2 (List.range' a k)) := by
  obtain ⟨huw, huk⟩ := hp.wf hw hd hu
  have hx : x.length = 4 * d + 2 := by rw [length_of_step h, hw.dimX, hd]
  obtain ⟨u', e, -⟩ := (Sub.realises huw).step ⟨huw, rfl, rfl⟩ (x := pickAt x (List.range' a k))
    (by simp [length_pick, huk]) m dt
  obtain ⟨⟨h1, h2⟩, -⟩ := DynSys.step_related (partOf_linear hp.fits) hp.simulates
    ⟨hw, hd, huw, huk, by rw [hu]; rfl⟩ ⟨hx, rfl⟩ m dt h e
  rw [e]
  exact congrArg Except.ok (Prod.ext h1.2 h2.2)

theorem IsPart.loop (hp : IsPart d a k part) {s s' : Dmp} (hw : s.Wf) (hd : s.dimY = d) {u : Sub}
    (hu : part s = some u) {m : DynSys.Method} {t0 : ℝ} {ts x : List ℝ} (hx : x.length = 4 * d + 2)
    {r : List (List ℝ × List ℝ)} (h : DynSys.integrateLoop m t0 x ts s = (.ok r, s')) :
    (DynSys.integrateLoop m t0 (pickAt x (List.range' a k)) ts u).1 =
      .ok (r.map fun row => (pickAt row.1 (List.range' a k), pickAt row.2 (List.range' a k))) := by
  obtain ⟨huw, huk⟩ := hp.wf hw hd hu
  obtain ⟨u', e, -⟩ := (Sub.realises huw).integrateLoop m ts ⟨huw, rfl, rfl⟩
    (x := pickAt x (List.range' a k)) (by simp [length_pick, huk]) t0
  obtain ⟨h1, -⟩ := DynSys.loop_related (partOf_linear hp.fits) hp.simulates m ts
    ⟨hw, hd, huw, huk, by rw [hu]; rfl⟩ ⟨hx, rfl⟩ t0 h e
  rw [e]
  refine congrArg Except.ok ?_
  generalize DynSys.rowsFn _ _ _ _ _ = q at h1
  clear e h
  induction h1 with
  | nil => rfl
  | cons h _ ih => rw [List.map_cons, ih]; exact congrArg (· :: _) (Prod.ext h.1.2 h.2.2)

/-! ### The four subsystems -/

theorem vf_parts {s : Dmp} (h : s.Wf) {y z g p q c r : List ℝ} (hs : Sizes s.dimY y z g p q c)
    (hr : s.vf y z g p q c = .ok r) : ∃ ga f, s.springGoal g = .ok ga ∧ s.forcing p q = .ok f ∧
      r = pack (vdivs z s.spring.tau) ((List.range s.dimY).map (s.zRate ga (s.dampingAt c) f y z))
        (s.goalRate g) (s.phase.rate p) (s.gating.rate q) (s.dampingRate c) ∧
      Sizes s.dimY (vdivs z s.spring.tau) ((List.range s.dimY).map (s.zRate ga (s.dampingAt c) f y z))
        (s.goalRate g) (s.phase.rate p) (s.gating.rate q) (s.dampingRate c) := by
  obtain ⟨ga, h1, h2⟩ := except_bind_ok hr
  obtain ⟨f, h3, h4⟩ := except_bind_ok h2
  cases h4
  refine ⟨ga, f, h1, h3, rfl, ?_, ?_, goalRate_length h hs.g, ?_, ?_, dampingRate_length h hs.c⟩
  · simp [hs.z]
  · simp
  · rw [Sub.length_rate h.phase (hs.p.trans h.phaseDim.symm), h.phaseDim]
  · rw [Sub.length_rate h.gating (hs.q.trans h.gatingDim.symm), h.gatingDim]

theorem isPart_phase (d : Nat) : IsPart d (d + d + d) 1 (fun s => some s.phase) where
  fits := by omega
  wf := by rintro s _ hw rfl ⟨⟩; exact ⟨hw.phase, hw.phaseDim⟩
  keep s ga c := by simp [touched]
  rate := by
    rintro s y z g p q c r _ hw rfl hs hr ⟨⟩
    obtain ⟨ga, f, -, -, rfl, hs'⟩ := vf_parts hw hs hr
    have e1 := hs.pick_PHASE
    have e2 := hs'.pick_PHASE
    simp only [PHASE] at e1 e2
    rw [e1, e2]

theorem isPart_gating (d : Nat) : IsPart d (d + d + d + 1) 1 (fun s => some s.gating) where
  fits := by omega
  wf := by rintro s _ hw rfl ⟨⟩; exact ⟨hw.gating, hw.gatingDim⟩
  keep s ga c := by simp [touched]
  rate := by
    rintro s y z g p q c r _ hw rfl hs hr ⟨⟩
    obtain ⟨ga, f, -, -, rfl, hs'⟩ := vf_parts hw hs hr
    have e1 := hs.pick_GATING
    have e2 := hs'.pick_GATING
    simp only [GATING] at e1 e2
    rw [e1, e2]

theorem isPart_damping (d : Nat) : IsPart d (d + d + d + 1 + 1) d (fun s => s.damping) where
  fits := by omega
  wf := by rintro s _ hw rfl h; exact ⟨hw.damping _ h, hw.dampingDim _ h⟩
  keep s ga c := by simp only [touched]; cases s.damping <;> simp
  rate := by
    rintro s y z g p q c r u hw rfl hs hr hu
    obtain ⟨ga, f, -, -, rfl, hs'⟩ := vf_parts hw hs hr
    have e1 := hs.pick_DAMPING
    have e2 := hs'.pick_DAMPING
    simp only [DAMPING] at e1 e2
    rw [e1, e2]
    simp only [dampingRate, hu]

theorem isPart_goal (d : Nat) :
    IsPart d (d + d) d (fun s => s.goal.map (Sub.withAttr s.yAttr)) where
  fits := by omega
  wf := by
    rintro s _ hw rfl h
    obtain ⟨g, hg, rfl⟩ := Option.map_eq_some_iff.mp h
    refine ⟨Sub.wf_withAttr (hw.goal g hg) ?_, by rw [Sub.base_withAttr]; exact hw.goalDim g hg⟩
    rw [hw.yAttr, ← (hw.goal g hg).dim, hw.goalDim g hg]
  keep s ga c := by
    simp only [touched]
    cases s.goal with
    | none => rfl
    | some g => simp only [Option.map_some, Sub.touch_withAttr, Sub.touch_touch, withAttr_withAttr]
  rate := by
    rintro s y z g p q c r u hw rfl hs hr hu
    obtain ⟨ga, f, -, -, rfl, hs'⟩ := vf_parts hw hs hr
    have e1 := hs.pick_GOAL
    have e2 := hs'.pick_GOAL
    simp only [GOAL] at e1 e2
    rw [e1, e2]
    obtain ⟨gs, hg, rfl⟩ := Option.map_eq_some_iff.mp hu
    simp only [goalRate, hg]

end Dmp

end Verif
