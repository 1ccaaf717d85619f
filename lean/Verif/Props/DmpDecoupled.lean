import Verif.Proofs.DmpParts
import Verif.Props.DmpPure

/- Dmp: subsystems evolve on their own, dimensions of the movement do not influence each other (C26). -/

set_option autoImplicit false

namespace Verif

namespace Dmp

/-! ### Subsystems -/

/-- A system whose state does not change. -/
structure Still where
  dim : Nat

noncomputable instance : DynSys Still where
  dimX s := s.dim
  xInit s := vzeros s.dim
  setYInit _ := pure ()
  diffEq x := pure (vzeros x.length)

theorem still_vadd (x : List ℝ) : vadd x (vzeros x.length) = x := by
  apply ext_getD 0
  · simp
  · intro i hi
    have hi' : i < x.length := by simpa using hi
    rw [getD_vadd hi' (by simpa using hi'), getD_vzeros, add_zero]

theorem still_vscale (c : ℝ) (n : Nat) : vscale c (vzeros n) = vzeros n := by
  simp [vscale, vzeros]

theorem still_vdivs (c : ℝ) (n : Nat) : vdivs (vzeros n) c = vzeros n := by
  simp [vdivs, vzeros]

theorem still_step (u : Still) {x : List ℝ} (hx : x.length = u.dim) (m : DynSys.Method) (dt : ℝ) :
    DynSys.step m dt x u = (.ok (x, vzeros u.dim), u) := by
  have hr : DynSys.Realises (fun t : Still => t = u) u.dim (vzeros u.dim) (fun x => vzeros x.length) :=
    ⟨fun t ht => by rw [ht]; rfl, fun t ht => by rw [ht]; rfl, by simp,
      fun t x ht _ => ⟨t, rfl, ht⟩, fun x h => by simpa using h⟩
  obtain ⟨s', h1, rfl⟩ := hr.step rfl hx m dt
  rw [h1, ← hx]
  have hz : vadd (vzeros x.length) (vzeros x.length) = (vzeros x.length : List ℝ) := by
    have := still_vadd (vzeros x.length)
    rwa [length_vzeros] at this
  cases m with
  | euler => simp only [DynSys.stepFn, still_vscale, still_vadd]
  | rungeKutta =>
    simp only [DynSys.stepFn, DynSys.rkNew, still_vscale, still_vdivs, still_vadd, hz]

/-- A part of the state that no system integrates. -/
theorem still_part {d a k : Nat} {s s' : Dmp} (hk : a + k ≤ 4 * d + 2) (hw : s.Wf) (hd : s.dimY = d)
    (P : Dmp → Prop) (h0 : P s) (hP : ∀ (s : Dmp) ga c, P s → P (s.touched ga c))
    (hrate : ∀ {s : Dmp} {y z g p q c r}, s.Wf → P s → s.dimY = d → Sizes d y z g p q c →
      s.vf y z g p q c = .ok r → pickAt r (List.range' a k) = vzeros k)
    {m : DynSys.Method} {dt : ℝ} {x : List ℝ} {r : List ℝ × List ℝ}
    (h : DynSys.step m dt x s = (.ok r, s')) :
    pickAt r.1 (List.range' a k) = pickAt x (List.range' a k) ∧ pickAt r.2 (List.range' a k) = vzeros k := by
  have hx : x.length = 4 * d + 2 := by rw [length_of_step h, hw.dimX, hd]
  have hsim : DynSys.Simulates (fun (s : Dmp) (_ : Still) => s.Wf ∧ s.dimY = d ∧ P s)
      (PartOf (4 * d + 2) a k) := by
    rintro s t x _ r b s' t' ⟨hw, rfl, hp⟩ ⟨hx, rfl⟩ h1 h2
    have hb : b = vzeros k := by
      have : (pure (vzeros (pickAt x (List.range' a k)).length) : PyM Still (List ℝ)) t = (.ok b, t') := h2
      cases this
      simp [length_pick]
    have hgood := wf_diffEq hw hx
    have hr : r.length = 4 * s.dimY + 2 := by
      refine vf_pack_length (synced_good hw) hx (r := r) ?_
      rw [synced_diffEq hw hx]
      exact congrArg Prod.fst h1
    have h1' : diffEq x s = (.ok r, s') := h1
    rw [h1'] at hgood
    obtain ⟨y, z, g, p, q, c, hs, rfl⟩ := exists_pack hx
    obtain ⟨hv, ga, rfl⟩ := diffEq_ok hw hs h1'
    exact ⟨⟨hr, hb.trans (hrate hw hp rfl hs hv).symm⟩, hgood.wf, hgood.dim, hP _ _ _ hp⟩
  have e := still_step ⟨k⟩ (x := pickAt x (List.range' a k)) (by simp [length_pick]) m dt
  obtain ⟨⟨h1, h2⟩, -⟩ := DynSys.step_related (partOf_linear hk) hsim ⟨hw, hd, h0⟩ ⟨hx, rfl⟩ m dt h e
  exact ⟨h1.2.symm, h2.2.symm⟩

/-- C26, first part: the parts of the state (first component) and of the rates of change (second
component) after one integration step are those of one step that each subsystem does on its own, from
its part of the state. The goal system gets the attractor of the Dmp before. For a Dmp without goal or
damping system, the corresponding part of the state does not change. -/
theorem C26_subsystems (s : Dmp) (hw : s.Wf) (m : DynSys.Method) (dt : ℝ) (x : List ℝ)
    (r : List ℝ × List ℝ) (h : (DynSys.step m dt x s).1 = .ok r) :
    (DynSys.step m dt (pickAt x (PHASE s.dimY)) s.phase).1 =
      .ok (pickAt r.1 (PHASE s.dimY), pickAt r.2 (PHASE s.dimY)) ∧
    (DynSys.step m dt (pickAt x (GATING s.dimY)) s.gating).1 =
      .ok (pickAt r.1 (GATING s.dimY), pickAt r.2 (GATING s.dimY)) ∧
    (∀ g, s.goal = some g →
      ((Sub.setYAttr s.yAttr >>= fun _ => DynSys.step m dt (pickAt x (GOAL s.dimY))) g).1 =
        .ok (pickAt r.1 (GOAL s.dimY), pickAt r.2 (GOAL s.dimY))) ∧
    (s.goal = none → pickAt r.1 (GOAL s.dimY) = pickAt x (GOAL s.dimY) ∧
      pickAt r.2 (GOAL s.dimY) = vzeros s.dimY) ∧
    (∀ c, s.damping = some c →
      (DynSys.step m dt (pickAt x (DAMPING s.dimY)) c).1 =
        .ok (pickAt r.1 (DAMPING s.dimY), pickAt r.2 (DAMPING s.dimY))) ∧
    (s.damping = none → pickAt r.1 (DAMPING s.dimY) = pickAt x (DAMPING s.dimY) ∧
      pickAt r.2 (DAMPING s.dimY) = vzeros s.dimY) := by
  have h' : DynSys.step m dt x s = (.ok r, (DynSys.step m dt x s).2) := Prod.ext h rfl
  refine ⟨(isPart_phase s.dimY).step hw rfl rfl h', (isPart_gating s.dimY).step hw rfl rfl h', ?_, ?_,
    ?_, ?_⟩
  · intro g hg
    have hl : s.yAttr.length = g.base.dimY := by
      rw [hw.yAttr, ← (hw.goal g hg).dim, hw.goalDim g hg]
    rw [PyM.bind_ok (Sub.setYAttr_run s.yAttr hl)]
    exact (isPart_goal s.dimY).step hw rfl (by rw [hg]; rfl) h'
  · intro hg
    refine still_part (d := s.dimY) (by omega) hw rfl (fun t => t.goal = none) hg ?_ ?_ h'
    · intro t ga c ht; simp only [touched, ht, Option.map_none]
    · intro t y z g p q c r' ht hn hd hs hv
      have hs1 : Sizes t.dimY y z g p q c := hd ▸ hs
      obtain ⟨ga, f, -, -, rfl, hs'⟩ := vf_parts ht hs1 hv
      rw [← hd]
      exact hs'.pick_GOAL.trans (by simp only [goalRate, hn])
  · intro c hc
    exact (isPart_damping s.dimY).step hw rfl hc h'
  · intro hg
    refine still_part (d := s.dimY) (by omega) hw rfl (fun t => t.damping = none) hg ?_ ?_ h'
    · intro t ga c ht; simp only [touched, ht, Option.map_none]
    · intro t y z g p q c r' ht hn hd hs hv
      have hs1 : Sizes t.dimY y z g p q c := hd ▸ hs
      obtain ⟨ga, f, -, -, rfl, hs'⟩ := vf_parts ht hs1 hv
      rw [← hd]
      exact hs'.pick_DAMPING.trans (by simp only [dampingRate, hn])

/-- C26, first part, for a whole series of integration steps (the loop of `integrate`), here for phase,
gating and damping. -/
theorem C26_subsystems_loop (s : Dmp) (hw : s.Wf) (m : DynSys.Method) (t0 : ℝ) (ts x : List ℝ)
    (hx : x.length = 4 * s.dimY + 2)
    (r : List (List ℝ × List ℝ)) (h : (DynSys.integrateLoop m t0 x ts s).1 = .ok r) :
    (DynSys.integrateLoop m t0 (pickAt x (PHASE s.dimY)) ts s.phase).1 =
      .ok (r.map fun row => (pickAt row.1 (PHASE s.dimY), pickAt row.2 (PHASE s.dimY))) ∧
    (DynSys.integrateLoop m t0 (pickAt x (GATING s.dimY)) ts s.gating).1 =
      .ok (r.map fun row => (pickAt row.1 (GATING s.dimY), pickAt row.2 (GATING s.dimY))) ∧
    (∀ g, s.goal = some g →
      ((Sub.setYAttr s.yAttr >>= fun _ => DynSys.integrateLoop m t0 (pickAt x (GOAL s.dimY)) ts) g).1 =
        .ok (r.map fun row => (pickAt row.1 (GOAL s.dimY), pickAt row.2 (GOAL s.dimY)))) ∧
    (∀ c, s.damping = some c →
      (DynSys.integrateLoop m t0 (pickAt x (DAMPING s.dimY)) ts c).1 =
        .ok (r.map fun row => (pickAt row.1 (DAMPING s.dimY), pickAt row.2 (DAMPING s.dimY)))) := by
  have h' : DynSys.integrateLoop m t0 x ts s = (.ok r, (DynSys.integrateLoop m t0 x ts s).2) :=
    Prod.ext h rfl
  refine ⟨(isPart_phase s.dimY).loop hw rfl rfl hx h', (isPart_gating s.dimY).loop hw rfl rfl hx h',
    fun g hg => ?_, fun c hc => (isPart_damping s.dimY).loop hw rfl hc hx h'⟩
  have hl : s.yAttr.length = g.base.dimY := by
    rw [hw.yAttr, ← (hw.goal g hg).dim, hw.goalDim g hg]
  rw [PyM.bind_ok (Sub.setYAttr_run s.yAttr hl)]
  exact (isPart_goal s.dimY).loop hw rfl (by rw [hg]; rfl) hx h'

/-! ### Dimensions of the movement -/

/-- Systems of the same class with the same parameters for dimension `i`. -/
def SameSub (i : Nat) : Sub → Sub → Prop
  | .time s, .time t => s = t
  | .exponential s, .exponential t =>
    s.tau = t.tau ∧ s.alpha.at' i = t.alpha.at' i ∧ s.xAttr.getD i 0 = t.xAttr.getD i 0
  | .sigmoid s, .sigmoid t =>
    s.tau = t.tau ∧ s.maxRate.at' i = t.maxRate.at' i ∧ s.inflRatio.at' i = t.inflRatio.at' i ∧
      s.xInit.getD i 0 = t.xInit.getD i 0
  | .richards s, .richards t =>
    s.tau = t.tau ∧ s.alpha.at' i = t.alpha.at' i ∧ s.v.at' i = t.v.at' i ∧
      s.rightAsymp.at' i = t.rightAsymp.at' i ∧ s.tInflRatio.at' i = t.tInflRatio.at' i ∧
      s.xInit.getD i 0 = t.xInit.getD i 0 ∧
      s.leftAsymp.map (·.at' i) = t.leftAsymp.map (·.at' i)
  | _, _ => False

/-- Both absent, or both present and the same for dimension `i`. -/
def SameSub? (i : Nat) : Option Sub → Option Sub → Prop
  | none, none => True
  | some g, some h => SameSub i g h
  | _, _ => False

/-- Dmps that may differ in everything that belongs to other dimensions than `i`: initial state, goal,
function approximators, amplitudes, parameters of spring-damper, goal and damping system. -/
structure SameFor (i : Nat) (s t : Dmp) : Prop where
  dim : s.dimY = t.dimY
  tau : s.tau = t.tau
  springTau : s.spring.tau = t.spring.tau
  spring : s.spring.spring.at' i = t.spring.spring.at' i
  mass : s.spring.mass.at' i = t.spring.mass.at' i
  springDamping : s.damping = none → s.spring.damping.at' i = t.spring.damping.at' i
  yAttr : s.yAttr.getD i 0 = t.yAttr.getD i 0
  yInit : s.yInit?.map (·.getD i 0) = t.yInit?.map (·.getD i 0)
  fas : s.fas.map (·[i]?) = t.fas.map (·[i]?)
  scaling : s.scaling = t.scaling
  requiresScaling : s.requiresScaling = t.requiresScaling
  amplitudes : s.amplitudes.map (·.getD i 0) = t.amplitudes.map (·.getD i 0)
  phase : s.phase = t.phase
  gating : s.gating = t.gating
  goal : SameSub? i s.goal t.goal
  damping : SameSub? i s.damping t.damping

/-- States that may differ in everything that belongs to other dimensions than `i`. -/
structure SameState (d i : Nat) (x y : List ℝ) : Prop where
  pos : (pickAt x (SPRING_Y d)).getD i 0 = (pickAt y (SPRING_Y d)).getD i 0
  vel : (pickAt x (SPRING_Z d)).getD i 0 = (pickAt y (SPRING_Z d)).getD i 0
  goal : (pickAt x (GOAL d)).getD i 0 = (pickAt y (GOAL d)).getD i 0
  phase : pickAt x (PHASE d) = pickAt y (PHASE d)
  gating : pickAt x (GATING d) = pickAt y (GATING d)
  damping : (pickAt x (DAMPING d)).getD i 0 = (pickAt y (DAMPING d)).getD i 0

/-! #### Proof -/

theorem sameSub_touch {i n : Nat} {g h : Sub} (hg : g.Wf) (hh : h.Wf) (hi : i < n)
    (hn : g.base.dimX = n) (hn' : h.base.dimX = n) (hs : SameSub i g h) : SameSub i g.touch h.touch := by
  cases g <;> cases h <;> try exact hs
  all_goals try exact hs.elim
  rename_i s t
  obtain ⟨h1, h2, h3, h4, h5, h6, h7⟩ := hs
  have e : ∀ p : Par ℝ, (Richards.clipMin 0.5 p).Fits n ↔ p.Fits n := by
    intro p; cases p <;> simp [Richards.clipMin, Par.Fits]
  have key : ∀ p : Par ℝ, p.Fits n → (Richards.clipMin 0.5 p).at' i = max (p.at' i) 0.5 := by
    intro p hp
    cases p with
    | scalar c => rfl
    | array l =>
      have hl : l.length = n := hp
      change (l.map (max · 0.5)).getD i 0 = max (l.getD i 0) 0.5
      rw [getD_map' (d := 0) (by omega)]
  refine ⟨h1, h2, ?_, h4, h5, h6, h7⟩
  have fs : s.v.Fits n := by
    have := Richards.Wf.v hg
    have e : s.dimX = n := hn
    rwa [e] at this
  have ft : t.v.Fits n := by
    have := Richards.Wf.v hh
    have e : t.dimX = n := hn'
    rwa [e] at this
  change (Richards.clipped s).v.at' i = (Richards.clipped t).v.at' i
  unfold Richards.clipped
  cases hl : s.leftAsymp with
  | none =>
    cases hl' : t.leftAsymp with
    | none => simp only [key _ fs, key _ ft, h3]
    | some b => rw [hl, hl'] at h7; cases h7
  | some a =>
    cases hl' : t.leftAsymp with
    | none => rw [hl, hl'] at h7; cases h7
    | some b => exact h3

theorem sameSub_withAttr {i : Nat} {g h : Sub} {y y' : List ℝ} (hs : SameSub i g h)
    (hy : y.getD i 0 = y'.getD i 0) : SameSub i (g.withAttr y) (h.withAttr y') := by
  cases g <;> cases h <;> try exact hs
  exact ⟨hs.1, hs.2.1, hy⟩

/-- Entry `i` of the rate of change depends on entry `i` of the state and the parameters of dimension
`i` only. -/
theorem sameSub_rate {i n : Nat} {g h : Sub} (hg : g.Wf) (hh : h.Wf) (hn : g.base.dimX = n)
    (hn' : h.base.dimX = n) (hi : i < n) (hs : SameSub i g h) {x y : List ℝ} (hx : x.length = n)
    (hy : y.length = n) (he : x.getD i 0 = y.getD i 0) : (g.rate x).getD i 0 = (h.rate y).getD i 0 := by
  have hs' := sameSub_touch hg hh hi hn hn' hs
  cases g <;> cases h <;> try exact hs.elim
  · rename_i s t
    cases hs
    have hd : n = 1 := hn.symm.trans hg.1
    subst hd
    obtain ⟨c, rfl⟩ := List.length_eq_one_iff.mp hx
    obtain ⟨c', rfl⟩ := List.length_eq_one_iff.mp hy
    have : i = 0 := by omega
    subst this
    have he' : c = c' := he
    rw [he']
  · rename_i s t
    obtain ⟨h1, h2, h3⟩ := hs
    have d1 : s.dimY = n := (Exponential.Wf.dim hg).symm.trans hn
    have d2 : t.dimY = n := (Exponential.Wf.dim hh).symm.trans hn'
    have l1 : s.xAttr.length = n := (Exponential.Wf.xAttr hg).trans d1
    have l2 : t.xAttr.length = n := (Exponential.Wf.xAttr hh).trans d2
    have m1 : (vsub s.xAttr x).length = n := by simp [l1, hx]
    have m2 : (vsub t.xAttr y).length = n := by simp [l2, hy]
    have f1 : s.alpha.Fits (vsub s.xAttr x).length := by
      rw [m1, ← d1]; exact Exponential.Wf.alpha hg
    have f2 : t.alpha.Fits (vsub t.xAttr y).length := by
      rw [m2, ← d2]; exact Exponential.Wf.alpha hh
    change (vdivs (s.alpha.mul (vsub s.xAttr x)) s.tau).getD i 0 =
      (vdivs (t.alpha.mul (vsub t.xAttr y)) t.tau).getD i 0
    rw [getD_vdivs, getD_vdivs, Par.getD_mul f1 (by omega), Par.getD_mul f2 (by omega),
      getD_vsub (by omega) (by omega), getD_vsub (by omega) (by omega), h1, h2, h3, he]
  · rename_i s t
    obtain ⟨h1, h2, h3, h4⟩ := hs
    have d1 : s.dimX = n := hn
    have d2 : t.dimX = n := hn'
    change (Sigmoid.rate s.maxRate x s.ksNow).getD i 0 = (Sigmoid.rate t.maxRate y t.ksNow).getD i 0
    rw [Sigmoid.rate_getD hg.1 (hx.trans d1.symm) (by omega),
      Sigmoid.rate_getD hh.1 (hy.trans d2.symm) (by omega)]
    simp only [Sigmoid.kComp, h1, h2, h3, h4, he]
  · rename_i s t
    have hi1 : i < x.length := by omega
    have hi2 : i < y.length := by omega
    have d1 : s.dimX = n := hn
    have d2 : t.dimX = n := hn'
    obtain ⟨h1, h2, h3, h4, h5, h6, h7⟩ := hs'
    have hl : s.left.at' i = t.left.at' i := by
      unfold Richards.left
      have k1 : i < s.xInit.length := by rw [Richards.Wf.xInit hg]; omega
      have k2 : i < t.xInit.length := by rw [Richards.Wf.xInit hh]; omega
      have h7' : s.leftAsymp.map (·.at' i) = t.leftAsymp.map (·.at' i) := h7
      cases e1 : s.leftAsymp with
      | none =>
        cases e2 : t.leftAsymp with
        | none =>
          change ((List.range s.xInit.length).map s.clipped.leftComp).getD i 0 =
            ((List.range t.xInit.length).map t.clipped.leftComp).getD i 0
          rw [getD_range_map k1, getD_range_map k2]
          simp only [Richards.leftComp, h1, h2, h3, h4, h5, h6]
        | some b => rw [e1, e2] at h7'; cases h7'
      | some a =>
        cases e2 : t.leftAsymp with
        | none => rw [e1, e2] at h7'; cases h7'
        | some b => rw [e1, e2] at h7'; exact Option.some.inj h7'
    change (s.rhs x).getD i 0 = (t.rhs y).getD i 0
    unfold Richards.rhs
    rw [getD_range_map hi1, getD_range_map hi2]
    simp only [Richards.rateComp, h1, h2, h3, h4, hl, he]

theorem sameSub?_touch {i n : Nat} {g h : Option Sub} (hg : ∀ u, g = some u → u.Wf ∧ u.base.dimX = n)
    (hh : ∀ u, h = some u → u.Wf ∧ u.base.dimX = n) (hi : i < n) (hs : SameSub? i g h) :
    SameSub? i (g.map Sub.touch) (h.map Sub.touch) := by
  cases g <;> cases h <;> try exact hs
  exact sameSub_touch (hg _ rfl).1 (hh _ rfl).1 hi (hg _ rfl).2 (hh _ rfl).2 hs

theorem sameSub?_withAttr {i : Nat} {g h : Option Sub} {y y' : List ℝ} (hs : SameSub? i g h)
    (hy : y.getD i 0 = y'.getD i 0) : SameSub? i (g.map (Sub.withAttr y)) (h.map (Sub.withAttr y')) := by
  cases g <;> cases h <;> try exact hs
  exact sameSub_withAttr hs hy

section
variable {i : Nat} {s t : Dmp}

theorem SameFor.yInit_some (h : SameFor i s t) {y : List ℝ} (hy : s.getYInit = .ok y) {y' : List ℝ}
    (hy' : t.getYInit = .ok y') : y.getD i 0 = y'.getD i 0 := by
  have h0 := h.yInit
  unfold getYInit at hy hy'
  cases e : s.yInit? with
  | none => rw [e] at hy; cases hy
  | some a =>
    cases e' : t.yInit? with
    | none => rw [e'] at hy'; cases hy'
    | some b =>
      rw [e] at hy h0; rw [e'] at hy' h0
      cases hy; cases hy'
      exact Option.some.inj h0

theorem SameFor.springGoal (h : SameFor i s t) (hs : s.Wf) (ht : t.Wf) (hi : i < s.dimY) {g g' a a' : List ℝ}
    (hg : g.length = s.dimY) (hg' : g'.length = s.dimY) (he : g.getD i 0 = g'.getD i 0)
    (h1 : s.springGoal g = .ok a) (h2 : t.springGoal g' = .ok a') : a.getD i 0 = a'.getD i 0 := by
  have hs0 := h.goal
  unfold Dmp.springGoal at h1 h2
  have hd := h.dim
  have key : s.scaleGoal g = .ok a → t.scaleGoal g' = .ok a' → a.getD i 0 = a'.getD i 0 := by
    intro h1 h2
    unfold scaleGoal at h1 h2
    rw [← h.requiresScaling] at h2
    by_cases hr : s.requiresScaling = true
    · rw [if_pos hr] at h1 h2
      obtain ⟨y, hy, h1⟩ := except_bind_ok h1
      obtain ⟨y', hy', h2⟩ := except_bind_ok h2
      cases h1; cases h2
      have l1 := getYInit_length hs hy
      have l2 := getYInit_length ht hy'
      have l3 := hs.yAttr
      have l4 := ht.yAttr
      have m1 : (vsub s.yAttr y).length = s.dimY := by simp [l1, l3]
      have m2 : (vsub t.yAttr y').length = s.dimY := by simp [l2, l4, hd]
      rw [getD_vadd (by omega) (by simp [m1, hg]; omega), getD_vadd (by omega) (by simp [m2, hg']; omega),
        getD_vmul (by omega) (by omega), getD_vmul (by omega) (by omega), getD_vsub (by omega) (by omega),
        getD_vsub (by omega) (by omega), h.yAttr, h.yInit_some hy hy', he]
    · rw [if_neg hr] at h1 h2
      cases h1; cases h2
      exact he
  cases e : s.goal with
  | none =>
    cases e' : t.goal with
    | none =>
      rw [e] at h1; rw [e'] at h2
      cases h1; cases h2
      exact h.yAttr
    | some _ => rw [e, e'] at hs0; exact hs0.elim
  | some _ =>
    cases e' : t.goal with
    | none => rw [e, e'] at hs0; exact hs0.elim
    | some _ =>
      rw [e] at h1; rw [e'] at h2
      exact key h1 h2

theorem predictions_entry (hd : s.dimY = t.dimY) (hf : s.fas.map (·[i]?) = t.fas.map (·[i]?))
    (hi : i < s.dimY) {p : List ℝ} (hp : p.length = 1) {a b : List (List ℝ)}
    (h1 : s.predictions p = .ok a) (h2 : t.predictions p = .ok b) :
    (a.getD 0 []).getD i 0 = (b.getD 0 []).getD i 0 := by
  -- with function approximators, entry `i` is that of column `i`
  have key : ∀ (u : Dmp) (c : List (List ℝ)) (fas : List Fa), u.fas = some fas → fas ≠ [] → i < u.dimY →
      u.predictions p = .ok c → ∃ col, faColumn fas p i = .ok col ∧
        (c.getD 0 []).getD i 0 = col.getD 0 0 := by
    intro u c fas hu hne hiu h
    have h' : ((List.range u.dimY).mapM (faColumn fas p) >>= fun cols =>
        (Except.ok ((List.range p.length).map fun t => cols.map fun c => c.getD t 0) :
          Except PyErr (List (List ℝ)))) = .ok c := by
      unfold predictions at h
      rw [hu] at h
      cases fas with
      | nil => exact absurd rfl hne
      | cons f fs => exact h
    obtain ⟨cols, e, h'⟩ := except_bind_ok h'
    cases h'
    have hF := mapM_ok.mp e
    have hl : cols.length = u.dimY := by simpa using hF.length_eq.symm
    have hi2 : i < cols.length := by omega
    refine ⟨cols[i], ?_, ?_⟩
    · have := hF.get (i := i) (by simpa using hiu) hi2
      simpa using this
    · rw [hp]
      change (cols.map fun c => c.getD 0 0).getD i 0 = _
      rw [getD_map' hi2 0 [], getD_lt hi2]
  have zero : ∀ (u : Dmp) (c : List (List ℝ)), u.fas = none ∨ u.fas = some [] →
      u.predictions p = .ok c → (c.getD 0 []).getD i 0 = 0 := by
    intro u c hu h
    have : c = List.replicate p.length (vzeros u.dimY) := by
      unfold predictions at h
      rcases hu with hu | hu <;> rw [hu] at h <;> cases h <;> rfl
    rw [this, hp]
    change (vzeros u.dimY).getD i 0 = 0
    exact getD_vzeros
  have out : ∀ (u : Dmp) (c : List (List ℝ)) (fas : List Fa), u.fas = some fas → fas[i]? = none →
      fas ≠ [] → i < u.dimY → u.predictions p ≠ .ok c := by
    intro u c fas hu hn hne hiu h
    obtain ⟨col, hc, -⟩ := key u c fas hu hne hiu h
    unfold faColumn at hc
    rw [hn] at hc
    cases hc
  cases e : s.fas with
  | none =>
    have e' : t.fas = none := by
      rw [e] at hf
      cases e' : t.fas with
      | none => rfl
      | some l => rw [e'] at hf; cases hf
    rw [zero s a (.inl e) h1, zero t b (.inl e') h2]
  | some l =>
    rw [e] at hf
    obtain ⟨l', e', hl'⟩ := Option.map_eq_some_iff.mp hf.symm
    have hl' : l'[i]? = l[i]? := hl'
    by_cases hl : l[i]? = none
    · rw [hl] at hl'
      have n1 : l = [] := by
        by_contra hne
        exact out s a l e hl hne hi h1
      have n2 : l' = [] := by
        by_contra hne
        exact out t b l' e' hl' hne (by omega) h2
      rw [zero s a (.inr (n1 ▸ e)) h1, zero t b (.inr (n2 ▸ e')) h2]
    · have n1 : l ≠ [] := by rintro rfl; simp at hl
      have n2 : l' ≠ [] := by
        rintro rfl
        rw [← hl'] at hl
        simp at hl
      obtain ⟨c1, k1, k2⟩ := key s a l e n1 hi h1
      obtain ⟨c2, k3, k4⟩ := key t b l' e' n2 (by omega) h2
      have : faColumn l p i = faColumn l' p i := by
        unfold faColumn
        rw [hl']
      rw [k2, k4]
      rw [k1, k3] at this
      cases this
      rfl

theorem SameFor.forcing (h : SameFor i s t) (hs : s.Wf) (ht : t.Wf) (hi : i < s.dimY) {p q f f' : List ℝ}
    (hp : p.length = 1) (h1 : s.forcing p q = .ok f) (h2 : t.forcing p q = .ok f') :
    f.getD i 0 = f'.getD i 0 := by
  have hd := h.dim
  obtain ⟨a, e1, h1⟩ := except_bind_ok h1
  obtain ⟨b, e2, h2⟩ := except_bind_ok h2
  have he := predictions_entry hd h.fas hi hp e1 e2
  have la : (a.getD 0 []).length = s.dimY := by
    obtain ⟨l1, l2⟩ := predictions_length e1
    rw [hp] at l1
    obtain ⟨r, rfl⟩ := List.length_eq_one_iff.mp l1
    exact l2 r (by simp)
  have lb : (b.getD 0 []).length = s.dimY := by
    obtain ⟨l1, l2⟩ := predictions_length e2
    rw [hp] at l1
    obtain ⟨r, rfl⟩ := List.length_eq_one_iff.mp l1
    exact (l2 r (by simp)).trans hd.symm
  have hv : (vscale (q.getD 0 0) (a.getD 0 [])).getD i 0 = (vscale (q.getD 0 0) (b.getD 0 [])).getD i 0 := by
    rw [getD_vscale, getD_vscale, he]
  have lva : (vscale (q.getD 0 0) (a.getD 0 [])).length = s.dimY := by rw [length_vscale]; exact la
  have lvb : (vscale (q.getD 0 0) (b.getD 0 [])).length = s.dimY := by rw [length_vscale]; exact lb
  generalize vscale (q.getD 0 0) (a.getD 0 []) = va at *
  generalize vscale (q.getD 0 0) (b.getD 0 []) = vb at *
  unfold scaleForcing at h1 h2
  rw [← h.scaling] at h2
  cases e : s.scaling with
  | noScaling => rw [e] at h1 h2; cases h1; cases h2; exact hv
  | amplitude =>
    rw [e] at h1 h2
    have h0 := h.amplitudes
    cases k1 : s.amplitudes with
    | none => rw [k1] at h1; cases h1
    | some m1 =>
      cases k2 : t.amplitudes with
      | none => rw [k2] at h2; cases h2
      | some m2 =>
        rw [k1] at h1 h0; rw [k2] at h2 h0
        cases h1; cases h2
        have l1 := hs.amplitudes m1 k1
        have l2 := ht.amplitudes m2 k2
        rw [getD_vmul (by omega) (by omega), getD_vmul (by omega) (by omega), hv]
        exact congrArg _ (Option.some.inj h0)
  | gMinusY0 =>
    rw [e] at h1 h2
    obtain ⟨y, hy, h1⟩ := except_bind_ok h1
    obtain ⟨y', hy', h2⟩ := except_bind_ok h2
    cases h1; cases h2
    have l1 := getYInit_length hs hy
    have l2 := getYInit_length ht hy'
    have l3 := hs.yAttr
    have l4 := ht.yAttr
    have m1 : (vsub s.yAttr y).length = s.dimY := by simp [l1, l3]
    have m2 : (vsub t.yAttr y').length = s.dimY := by simp [l2, l4, hd]
    rw [getD_vmul (by omega) (by omega), getD_vmul (by omega) (by omega), getD_vsub (by omega) (by omega),
      getD_vsub (by omega) (by omega), h.yAttr, h.yInit_some hy hy', hv]

theorem SameFor.goalRate (h : SameFor i s t) (hs : s.Wf) (ht : t.Wf) (hi : i < s.dimY) {g g' : List ℝ}
    (hg : g.length = s.dimY) (hg' : g'.length = s.dimY) (he : g.getD i 0 = g'.getD i 0) :
    (s.goalRate g).getD i 0 = (t.goalRate g').getD i 0 := by
  have h0 := h.goal
  have hd := h.dim
  unfold Dmp.goalRate
  cases e : s.goal with
  | none =>
    cases e' : t.goal with
    | none => rw [hd]
    | some _ => rw [e, e'] at h0; exact h0.elim
  | some u =>
    cases e' : t.goal with
    | none => rw [e, e'] at h0; exact h0.elim
    | some v =>
      rw [e, e'] at h0
      have k1 := hs.goal u e
      have k2 := ht.goal v e'
      have d1 := hs.goalDim u e
      have d2 := ht.goalDim v e'
      refine sameSub_rate (n := s.dimY) (Sub.wf_withAttr k1 ?_) (Sub.wf_withAttr k2 ?_) ?_ ?_ hi
        (sameSub_withAttr h0 h.yAttr) hg hg' he
      · rw [hs.yAttr, ← k1.dim, d1]
      · rw [ht.yAttr, ← k2.dim, d2]
      · rw [Sub.base_withAttr, d1]
      · rw [Sub.base_withAttr, d2, hd]

theorem SameFor.dampingRate (h : SameFor i s t) (hs : s.Wf) (ht : t.Wf) (hi : i < s.dimY) {g g' : List ℝ}
    (hg : g.length = s.dimY) (hg' : g'.length = s.dimY) (he : g.getD i 0 = g'.getD i 0) :
    (s.dampingRate g).getD i 0 = (t.dampingRate g').getD i 0 := by
  have h0 := h.damping
  have hd := h.dim
  unfold Dmp.dampingRate
  cases e : s.damping with
  | none =>
    cases e' : t.damping with
    | none => rw [hd]
    | some _ => rw [e, e'] at h0; exact h0.elim
  | some u =>
    cases e' : t.damping with
    | none => rw [e, e'] at h0; exact h0.elim
    | some v =>
      rw [e, e'] at h0
      exact sameSub_rate (n := s.dimY) (hs.damping u e) (ht.damping v e') (hs.dampingDim u e)
        ((ht.dampingDim v e').trans hd.symm) hi h0 hg hg' he

theorem SameFor.dampingAt (h : SameFor i s t) {c c' : List ℝ} (he : c.getD i 0 = c'.getD i 0) :
    (s.dampingAt c).at' i = (t.dampingAt c').at' i := by
  have h0 := h.damping
  unfold Dmp.dampingAt
  cases e : s.damping with
  | none =>
    cases e' : t.damping with
    | none => exact h.springDamping e
    | some _ => rw [e, e'] at h0; exact h0.elim
  | some u =>
    cases e' : t.damping with
    | none => rw [e, e'] at h0; exact h0.elim
    | some v => exact he

theorem SameFor.touched (h : SameFor i s t) (hs : s.Wf) (ht : t.Wf) (hi : i < s.dimY) {c c' : List ℝ}
    (he : c.getD i 0 = c'.getD i 0) (ga ga' : List ℝ) :
    SameFor i (s.touched ga c) (t.touched ga' c') where
  dim := h.dim
  tau := h.tau
  springTau := h.springTau
  spring := h.spring
  mass := h.mass
  springDamping _ := h.dampingAt he
  yAttr := h.yAttr
  yInit := h.yInit
  fas := h.fas
  scaling := h.scaling
  requiresScaling := h.requiresScaling
  amplitudes := h.amplitudes
  phase := congrArg Sub.touch h.phase
  gating := congrArg Sub.touch h.gating
  goal := by
    have hd := h.dim
    have key : ∀ u : Dmp, u.Wf → u.dimY = s.dimY → ∀ g, u.goal.map (Sub.withAttr u.yAttr) = some g →
        g.Wf ∧ g.base.dimX = s.dimY := by
      intro u hu hd g hg
      obtain ⟨g', h1, rfl⟩ := Option.map_eq_some_iff.mp hg
      refine ⟨Sub.wf_withAttr (hu.goal g' h1) ?_, ?_⟩
      · rw [hu.yAttr, ← (hu.goal g' h1).dim, hu.goalDim g' h1]
      · rw [Sub.base_withAttr, hu.goalDim g' h1, hd]
    have := sameSub?_touch (key s hs rfl) (key t ht hd.symm) hi (sameSub?_withAttr h.goal h.yAttr)
    simpa only [Dmp.touched, Option.map_map, Function.comp_def] using this
  damping := by
    have hd := h.dim
    exact sameSub?_touch (n := s.dimY) (fun u hu => ⟨hs.damping u hu, hs.dampingDim u hu⟩)
      (fun u hu => ⟨ht.damping u hu, (ht.dampingDim u hu).trans hd.symm⟩) hi h.damping

end

/-- States of the right size that agree as far as dimension `i` is concerned. -/
def SameX (d i : Nat) (x y : List ℝ) : Prop :=
  x.length = 4 * d + 2 ∧ y.length = 4 * d + 2 ∧ SameState d i x y

theorem sameX_linear {d i : Nat} (hi : i < d) : DynSys.Linear (SameX d i) := by
  have add : ∀ {a k : Nat} {x x' : List ℝ}, a + k ≤ 4 * d + 2 → x.length = 4 * d + 2 →
      x'.length = 4 * d + 2 → pickAt (vadd x x') (List.range' a k) =
        vadd (pickAt x (List.range' a k)) (pickAt x' (List.range' a k)) := fun h h1 h2 =>
    ((partOf_linear h).add ⟨h1, rfl⟩ ⟨h2, rfl⟩).2.symm
  have scale : ∀ {a k : Nat} {x : List ℝ} (c : ℝ), a + k ≤ 4 * d + 2 → x.length = 4 * d + 2 →
      pickAt (vscale c x) (List.range' a k) = vscale c (pickAt x (List.range' a k)) := fun c h h1 =>
    ((partOf_linear h).scale c ⟨h1, rfl⟩).2.symm
  have divs : ∀ {a k : Nat} {x : List ℝ} (c : ℝ), a + k ≤ 4 * d + 2 → x.length = 4 * d + 2 →
      pickAt (vdivs x c) (List.range' a k) = vdivs (pickAt x (List.range' a k)) c := fun c h h1 =>
    ((partOf_linear h).divs c ⟨h1, rfl⟩).2.symm
  have ladd : ∀ {a : Nat} {x x' : List ℝ}, (vadd (pickAt x (List.range' a d)) (pickAt x' (List.range' a d))).getD i 0
      = (pickAt x (List.range' a d)).getD i 0 + (pickAt x' (List.range' a d)).getD i 0 := by
    intro a x x'
    rw [getD_vadd (by simpa [length_pick] using hi) (by simpa [length_pick] using hi)]
  constructor
  · rintro x y x' y' ⟨a1, a2, a⟩ ⟨b1, b2, b⟩
    refine ⟨by simp [a1, b1], by simp [a2, b2], ?_⟩
    have p1 := a.pos; have p2 := a.vel; have p3 := a.goal; have p4 := a.phase; have p5 := a.gating
    have p6 := a.damping
    have q1 := b.pos; have q2 := b.vel; have q3 := b.goal; have q4 := b.phase; have q5 := b.gating
    have q6 := b.damping
    simp only [SPRING_Y, SPRING_Z, GOAL, PHASE, GATING, DAMPING] at p1 p2 p3 p4 p5 p6 q1 q2 q3 q4 q5 q6
    constructor <;> simp only [SPRING_Y, SPRING_Z, GOAL, PHASE, GATING, DAMPING]
    · rw [add (by omega) a1 b1, add (by omega) a2 b2, ladd, ladd, p1, q1]
    · rw [add (by omega) a1 b1, add (by omega) a2 b2, ladd, ladd, p2, q2]
    · rw [add (by omega) a1 b1, add (by omega) a2 b2, ladd, ladd, p3, q3]
    · rw [add (by omega) a1 b1, add (by omega) a2 b2, p4, q4]
    · rw [add (by omega) a1 b1, add (by omega) a2 b2, p5, q5]
    · rw [add (by omega) a1 b1, add (by omega) a2 b2, ladd, ladd, p6, q6]
  · rintro x y c ⟨a1, a2, a⟩
    refine ⟨by simp [a1], by simp [a2], ?_⟩
    have p1 := a.pos; have p2 := a.vel; have p3 := a.goal; have p4 := a.phase; have p5 := a.gating
    have p6 := a.damping
    simp only [SPRING_Y, SPRING_Z, GOAL, PHASE, GATING, DAMPING] at p1 p2 p3 p4 p5 p6
    constructor <;> simp only [SPRING_Y, SPRING_Z, GOAL, PHASE, GATING, DAMPING]
    · rw [scale c (by omega) a1, scale c (by omega) a2, getD_vscale, getD_vscale, p1]
    · rw [scale c (by omega) a1, scale c (by omega) a2, getD_vscale, getD_vscale, p2]
    · rw [scale c (by omega) a1, scale c (by omega) a2, getD_vscale, getD_vscale, p3]
    · rw [scale c (by omega) a1, scale c (by omega) a2, p4]
    · rw [scale c (by omega) a1, scale c (by omega) a2, p5]
    · rw [scale c (by omega) a1, scale c (by omega) a2, getD_vscale, getD_vscale, p6]
  · rintro x y c ⟨a1, a2, a⟩
    refine ⟨by simp [a1], by simp [a2], ?_⟩
    have p1 := a.pos; have p2 := a.vel; have p3 := a.goal; have p4 := a.phase; have p5 := a.gating
    have p6 := a.damping
    simp only [SPRING_Y, SPRING_Z, GOAL, PHASE, GATING, DAMPING] at p1 p2 p3 p4 p5 p6
    constructor <;> simp only [SPRING_Y, SPRING_Z, GOAL, PHASE, GATING, DAMPING]
    · rw [divs c (by omega) a1, divs c (by omega) a2, getD_vdivs, getD_vdivs, p1]
    · rw [divs c (by omega) a1, divs c (by omega) a2, getD_vdivs, getD_vdivs, p2]
    · rw [divs c (by omega) a1, divs c (by omega) a2, getD_vdivs, getD_vdivs, p3]
    · rw [divs c (by omega) a1, divs c (by omega) a2, p4]
    · rw [divs c (by omega) a1, divs c (by omega) a2, p5]
    · rw [divs c (by omega) a1, divs c (by omega) a2, getD_vdivs, getD_vdivs, p6]

theorem sameX_simulates {d i : Nat} (hi : i < d) : DynSys.Simulates (fun s t : Dmp =>
    s.Wf ∧ t.Wf ∧ s.dimY = d ∧ SameFor i s t) (SameX d i) := by
  rintro s t x x' a b s' t' ⟨hs, ht, rfl, hst⟩ ⟨hx, hx', hxx⟩ h1 h2
  have hd := hst.dim
  have hx2 : x'.length = 4 * t.dimY + 2 := by rw [← hd]; exact hx'
  have g1 := wf_diffEq hs hx
  have g2 := wf_diffEq ht hx2
  have h1' : diffEq x s = (.ok a, s') := h1
  have h2' : diffEq x' t = (.ok b, t') := h2
  rw [h1'] at g1
  rw [h2'] at g2
  obtain ⟨y, z, g, p, q, c, hz, rfl⟩ := exists_pack hx
  obtain ⟨y', z', g', p', q', c', hz', rfl⟩ := exists_pack hx'
  have hz2 : Sizes t.dimY y' z' g' p' q' c' := hd ▸ hz'
  obtain ⟨e1, e2, e3, e4, e5, e6⟩ := hxx
  rw [hz.pick_SPRING_Y, hz'.pick_SPRING_Y] at e1
  rw [hz.pick_SPRING_Z, hz'.pick_SPRING_Z] at e2
  rw [hz.pick_GOAL, hz'.pick_GOAL] at e3
  rw [hz.pick_PHASE, hz'.pick_PHASE] at e4
  rw [hz.pick_GATING, hz'.pick_GATING] at e5
  rw [hz.pick_DAMPING, hz'.pick_DAMPING] at e6
  subst e4 e5
  obtain ⟨v1, ga, rfl⟩ := diffEq_ok hs hz h1'
  obtain ⟨v2, ga', rfl⟩ := diffEq_ok ht hz2 h2'
  obtain ⟨G, f, k1, k2, rfl, w1⟩ := vf_parts hs hz v1
  obtain ⟨G', f', k3, k4, rfl, w2⟩ := vf_parts ht hz2 v2
  rw [← hd] at w2
  have hG := hst.springGoal hs ht hi hz.g hz'.g e3 k1 k3
  have hf := hst.forcing hs ht hi hz.p k2 k4
  refine ⟨⟨w1.length, ?_, ?_⟩, g1.wf, g2.wf, g1.dim, hst.touched hs ht hi e6 ga ga'⟩
  · rw [← hd]; exact w2.length
  rw [← hd]
  constructor
  · rw [w1.pick_SPRING_Y, w2.pick_SPRING_Y, getD_vdivs, getD_vdivs, e2, hst.springTau]
  · rw [w1.pick_SPRING_Z, w2.pick_SPRING_Z, getD_range_map hi, getD_range_map hi]
    simp only [zRate, hst.spring, hst.mass, hst.springTau, hst.tau, hst.dampingAt e6, hG, hf, e1, e2]
  · rw [w1.pick_GOAL, w2.pick_GOAL]
    exact hst.goalRate hs ht hi hz.g hz'.g e3
  · rw [w1.pick_PHASE, w2.pick_PHASE, hst.phase]
  · rw [w1.pick_GATING, w2.pick_GATING, hst.gating]
  · rw [w1.pick_DAMPING, w2.pick_DAMPING]
    exact hst.dampingRate hs ht hi hz.c hz'.c e6

/-- C26, second part: two Dmps that agree in everything that belongs to dimension `i` (including the
systems for phase and gating, which all dimensions share), and two states that agree in everything that
belongs to dimension `i`: after one integration step, states and rates of change agree in everything
that belongs to dimension `i`. -/
theorem C26_dimensions (s t : Dmp) (hs : s.Wf) (ht : t.Wf) (i : Nat) (hi : i < s.dimY)
    (h : SameFor i s t) (m : DynSys.Method) (dt : ℝ) (x y : List ℝ) (hxy : SameState s.dimY i x y)
    (r q : List ℝ × List ℝ) (h1 : (DynSys.step m dt x s).1 = .ok r)
    (h2 : (DynSys.step m dt y t).1 = .ok q) :
    SameState s.dimY i r.1 q.1 ∧ SameState s.dimY i r.2 q.2 := by
  have h1' : DynSys.step m dt x s = (.ok r, (DynSys.step m dt x s).2) := Prod.ext h1 rfl
  have h2' : DynSys.step m dt y t = (.ok q, (DynSys.step m dt y t).2) := Prod.ext h2 rfl
  have hx : x.length = 4 * s.dimY + 2 := by rw [length_of_step h1', hs.dimX]
  have hy : y.length = 4 * s.dimY + 2 := by rw [length_of_step h2', ht.dimX, h.dim]
  obtain ⟨⟨k1, k2⟩, -⟩ := DynSys.step_related (sameX_linear hi) (sameX_simulates hi) ⟨hs, ht, rfl, h⟩
    ⟨hx, hy, hxy⟩ m dt h1' h2'
  exact ⟨k1.2.2, k2.2.2⟩

/-- C26, second part, for a whole series of integration steps (the loop of `integrate`). -/
theorem C26_dimensions_loop (s t : Dmp) (hs : s.Wf) (ht : t.Wf) (i : Nat) (hi : i < s.dimY)
    (h : SameFor i s t) (m : DynSys.Method) (t0 : ℝ) (ts x y : List ℝ) (hx : x.length = 4 * s.dimY + 2)
    (hy : y.length = 4 * s.dimY + 2) (hxy : SameState s.dimY i x y) (r q : List (List ℝ × List ℝ))
    (h1 : (DynSys.integrateLoop m t0 x ts s).1 = .ok r) (h2 : (DynSys.integrateLoop m t0 y ts t).1 = .ok q) :
    List.Forall₂ (fun a b => SameState s.dimY i a.1 b.1 ∧ SameState s.dimY i a.2 b.2) r q := by
  have h1' : DynSys.integrateLoop m t0 x ts s = (.ok r, (DynSys.integrateLoop m t0 x ts s).2) :=
    Prod.ext h1 rfl
  have h2' : DynSys.integrateLoop m t0 y ts t = (.ok q, (DynSys.integrateLoop m t0 y ts t).2) :=
    Prod.ext h2 rfl
  obtain ⟨k, -⟩ := DynSys.loop_related (sameX_linear hi) (sameX_simulates hi) m ts ⟨hs, ht, rfl, h⟩
    ⟨hx, hy, hxy⟩ t0 h1' h2'
  exact k.imp fun _ _ h => ⟨h.1.2.2, h.2.2.2⟩

/-! ### Concrete cases -/

/-- Integration steps succeed if differential_equation does. -/
theorem step_succeeds {d : Nat} {s : Dmp} (h : Good d s)
    (hv : ∀ x : List ℝ, x.length = 4 * d + 2 → ∃ r, (diffEq x s).1 = .ok r) (m : DynSys.Method) (dt : ℝ)
    {x : List ℝ} (hx : x.length = 4 * d + 2) : ∃ r, (DynSys.step m dt x s).1 = .ok r := by
  have key : ∀ (t : Dmp) (x : List ℝ), Good d t → t.core = s.core → x.length = 4 * d + 2 →
      ∃ r t', DynSys.diffEq x t = (.ok r, t') ∧ r.length = 4 * d + 2 ∧ Good d t' ∧ t'.core = s.core := by
    intro t x ht hc hx
    obtain ⟨k1, k2, k3⟩ := stable_diffEq hx t s ht h hc
    obtain ⟨r, hr⟩ := hv x hx
    exact ⟨r, (diffEq x t).2, Prod.ext (k1.trans hr) rfl, vf_pack_length h hx hr, k3, k2.trans hc⟩
  have hl : ¬ x.length ≠ DynSys.dimX s := by
    rw [not_not, hx]; exact (good_length h).symm
  obtain ⟨k1, s1, e1, l1, g1, c1⟩ := key s x h rfl hx
  cases m with
  | euler =>
    change ∃ r, (DynSys.eulerStep dt x s).1 = .ok r
    unfold DynSys.eulerStep
    rw [PyM.self_bind, if_neg hl, PyM.bind_ok e1]
    exact ⟨_, rfl⟩
  | rungeKutta =>
    change ∃ r, (DynSys.rungeKuttaStep dt x s).1 = .ok r
    unfold DynSys.rungeKuttaStep
    rw [PyM.self_bind, if_neg hl, PyM.bind_ok e1]
    obtain ⟨k2, s2, e2, l2, g2, c2⟩ := key s1 (vadd x (vscale (dt * 0.5) k1)) g1 c1 (by simp [hx, l1])
    rw [PyM.bind_ok e2]
    obtain ⟨k3, s3, e3, l3, g3, c3⟩ := key s2 (vadd x (vscale (dt * 0.5) k2)) g2 c2 (by simp [hx, l2])
    rw [PyM.bind_ok e3]
    obtain ⟨k4, s4, e4, l4, g4, c4⟩ := key s3 (vadd x (vscale dt k3)) g3 c3 (by simp [hx, l3])
    rw [PyM.bind_ok e4]
    obtain ⟨k5, s5, e5, l5, g5, c5⟩ := key s4
      (vadd x (vdivs (vscale dt (vadd (vadd k1 (vscale 2 (vadd k2 k3))) k4)) 6)) g4 c4
      (by simp [hx, l1, l2, l3, l4])
    exact ⟨_, congrArg Prod.fst ((PyM.bind_ok e5).trans rfl)⟩

theorem plain_succeeds {d : Nat} {s : Dmp} (h : Good d s) (h1 : s.requiresScaling = false)
    (h2 : s.fas = none) (h3 : s.scaling = .noScaling) (m : DynSys.Method) (dt : ℝ) {x : List ℝ}
    (hx : x.length = 4 * d + 2) : ∃ r, (DynSys.step m dt x s).1 = .ok r := by
  refine step_succeeds h (fun x hx => ?_) m dt hx
  obtain ⟨y, z, g, p, q, c, hs, rfl⟩ := exists_pack hx
  obtain ⟨hw, hsy, rfl⟩ := h
  rw [diffEq_run hw hs]
  have e1 : ∃ a, s.springGoal g = .ok a := by
    unfold springGoal scaleGoal
    cases s.goal with
    | none => exact ⟨_, rfl⟩
    | some _ => exact ⟨g, by simp [h1]⟩
  have e2 : ∃ f, s.forcing p q = .ok f := by
    unfold forcing predictions scaleForcing
    rw [h2, h3]
    exact ⟨_, rfl⟩
  obtain ⟨a, ha⟩ := e1
  obtain ⟨f, hf⟩ := e2
  simp only [vf, ha, hf]
  exact ⟨_, rfl⟩

/-- Two default Dmps with other initial state and goal in dimension 1, the same in dimension 0. All
integration steps succeed. -/
example : ∃ s t, init 1 [0, 1] [2, 3] none = .ok s ∧ init 1 [0, 5] [2, 7] none = .ok t ∧ s.Wf ∧ t.Wf ∧
    SameFor 0 s t ∧ s ≠ t ∧
    (∀ (m : DynSys.Method) (dt : ℝ) (x : List ℝ), x.length = 10 → ∃ r, (DynSys.step m dt x s).1 = .ok r) ∧
    (∀ (m : DynSys.Method) (dt : ℝ) (x : List ℝ), x.length = 10 → ∃ r, (DynSys.step m dt x t).1 = .ok r) ∧
    SameState 2 0 [1, 2, 3, 4, 5, 6, 7, 8, 9, 10] [1, 0, 3, 0, 5, 0, 7, 8, 9, 0] := by
  have key : ∀ c d : ℝ, ∃ s, init 1 [0, c] [2, d] none = .ok s ∧ Good 2 s := by
    intro c d
    obtain ⟨s, hs⟩ := (C16_types 1 [0, c] [2, d] none {}).1 (by simp [known])
    have : Reachable DefaultLike Change.Valid 2 s := .init hs rfl rfl
      ⟨(fun _ h => nomatch h), trivial, (fun _ h => nomatch h), (fun _ h => nomatch h),
        (fun _ h => nomatch h), (fun _ h => nomatch h), (fun _ h => nomatch h)⟩ (fun _ he => nomatch he)
    exact ⟨s, hs, this.inv.good⟩
  obtain ⟨s, hs, gs⟩ := key 1 3
  obtain ⟨t, ht, gt⟩ := key 5 7
  obtain ⟨D1, d1, e1⟩ := init_eq hs
  obtain ⟨D2, d2, e2⟩ := init_eq ht
  unfold defaults at d1 d2
  rw [if_neg (by simp only; decide), if_pos (by simp only; decide)] at d1 d2
  cases d1
  cases d2
  refine ⟨s, t, hs, ht, gs.wf, gt.wf, ?_, ?_, ?_, ?_, ?_⟩
  · rw [e1, e2]
    constructor <;> try rfl
    · intro _; rfl
    · exact ⟨rfl, rfl, rfl⟩
    · trivial
  · intro h
    have : s.yAttr = t.yAttr := by rw [h]
    rw [e1, e2] at this
    norm_num at this
  · intro m dt x hx
    exact plain_succeeds gs (by rw [e1]) (by rw [e1]) (by rw [e1]) m dt hx
  · intro m dt x hx
    exact plain_succeeds gt (by rw [e2]) (by rw [e2]) (by rw [e2]) m dt hx
  · constructor <;> rfl

end Dmp

end Verif
