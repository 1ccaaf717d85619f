import Verif.Proofs.Sub
import Verif.Props.Predictions

/- Helper lemmas about a Dmp: layout of the state, differential equation as a function. -/

set_option autoImplicit false

namespace Verif

namespace Dmp

/-! ### Layout -/

/-- A state from its parts. -/
def pack (y z g p q c : List ℝ) : List ℝ := y ++ z ++ g ++ p ++ q ++ c

/-- The parts of a state have the right sizes. -/
structure Sizes (d : Nat) (y z g p q c : List ℝ) : Prop where
  y : y.length = d
  z : z.length = d
  g : g.length = d
  p : p.length = 1
  q : q.length = 1
  c : c.length = d

theorem Sizes.length {d : Nat} {y z g p q c : List ℝ} (h : Sizes d y z g p q c) :
    (pack y z g p q c).length = 4 * d + 2 := by
  obtain ⟨h1, h2, h3, h4, h5, h6⟩ := h
  simp only [pack, List.length_append]; omega

theorem pick_mid {a b c : List ℝ} {m n : Nat} (hm : a.length = m) (hn : b.length = n) :
    pickAt (a ++ b ++ c) (List.range' m n) = b := by
  rw [pick_range _ _ _ (by simp; omega)]
  subst hm hn
  simp

theorem put_mid {a b c v : List ℝ} {m n : Nat} (hm : a.length = m) (hn : b.length = n)
    (hv : v.length = n) : putAt (a ++ b ++ c) (List.range' m n) v = a ++ v ++ c := by
  rw [put_range n _ _ _ hv (by simp; omega)]
  subst hm hn
  simp [List.drop_append, List.take_append]

section
variable {d : Nat} {y z g p q c : List ℝ} (h : Sizes d y z g p q c)
include h

theorem Sizes.pick_SPRING : pickAt (pack y z g p q c) (SPRING d) = y ++ z := by
  have e : pack y z g p q c = [] ++ (y ++ z) ++ (g ++ p ++ q ++ c) := by simp [pack]
  rw [e]; exact pick_mid rfl (by simp [h.y, h.z]; omega)

theorem Sizes.pick_SPRING_Y : pickAt (pack y z g p q c) (SPRING_Y d) = y := by
  have e : pack y z g p q c = [] ++ y ++ (z ++ g ++ p ++ q ++ c) := by simp [pack]
  rw [e]; exact pick_mid rfl h.y

theorem Sizes.pick_SPRING_Z : pickAt (pack y z g p q c) (SPRING_Z d) = z := by
  have e : pack y z g p q c = y ++ z ++ (g ++ p ++ q ++ c) := by simp [pack]
  rw [e]; exact pick_mid h.y h.z

theorem Sizes.pick_GOAL : pickAt (pack y z g p q c) (GOAL d) = g := by
  have e : pack y z g p q c = (y ++ z) ++ g ++ (p ++ q ++ c) := by simp [pack]
  rw [e]; exact pick_mid (by simp [h.y, h.z]) h.g

theorem Sizes.pick_PHASE : pickAt (pack y z g p q c) (PHASE d) = p := by
  have e : pack y z g p q c = (y ++ z ++ g) ++ p ++ (q ++ c) := by simp [pack]
  rw [e]; exact pick_mid (by simp [h.y, h.z, h.g]; omega) h.p

theorem Sizes.pick_GATING : pickAt (pack y z g p q c) (GATING d) = q := by
  have e : pack y z g p q c = (y ++ z ++ g ++ p) ++ q ++ c := by simp [pack]
  rw [e]; exact pick_mid (by simp [h.y, h.z, h.g, h.p]; omega) h.q

theorem Sizes.pick_DAMPING : pickAt (pack y z g p q c) (DAMPING d) = c := by
  have e : pack y z g p q c = (y ++ z ++ g ++ p ++ q) ++ c ++ [] := by simp [pack]
  rw [e]; exact pick_mid (by simp [h.y, h.z, h.g, h.p, h.q]; omega) h.c

theorem Sizes.put_SPRING {v : List ℝ} (hv : v.length = 2 * d) :
    putAt (pack y z g p q c) (SPRING d) v = pack (v.take d) (v.drop d) g p q c := by
  have e : pack y z g p q c = [] ++ (y ++ z) ++ (g ++ p ++ q ++ c) := by simp [pack]
  rw [e]; refine (put_mid rfl (by simp [h.y, h.z]; omega) hv).trans ?_
  simp only [pack, ← List.append_assoc]
  rw [List.take_append_drop]; simp

theorem Sizes.put_SPRING_Y {v : List ℝ} (hv : v.length = d) :
    putAt (pack y z g p q c) (SPRING_Y d) v = pack v z g p q c := by
  have e : pack y z g p q c = [] ++ y ++ (z ++ g ++ p ++ q ++ c) := by simp [pack]
  rw [e]; exact (put_mid rfl h.y hv).trans (by simp [pack])

theorem Sizes.put_SPRING_Z {v : List ℝ} (hv : v.length = d) :
    putAt (pack y z g p q c) (SPRING_Z d) v = pack y v g p q c := by
  have e : pack y z g p q c = y ++ z ++ (g ++ p ++ q ++ c) := by simp [pack]
  rw [e]; exact (put_mid h.y h.z hv).trans (by simp [pack])

theorem Sizes.put_GOAL {v : List ℝ} (hv : v.length = d) :
    putAt (pack y z g p q c) (GOAL d) v = pack y z v p q c := by
  have e : pack y z g p q c = (y ++ z) ++ g ++ (p ++ q ++ c) := by simp [pack]
  rw [e]; exact (put_mid (by simp [h.y, h.z]) h.g hv).trans (by simp [pack])

theorem Sizes.put_PHASE {v : List ℝ} (hv : v.length = 1) :
    putAt (pack y z g p q c) (PHASE d) v = pack y z g v q c := by
  have e : pack y z g p q c = (y ++ z ++ g) ++ p ++ (q ++ c) := by simp [pack]
  rw [e]; exact (put_mid (by simp [h.y, h.z, h.g]; omega) h.p hv).trans (by simp [pack])

theorem Sizes.put_GATING {v : List ℝ} (hv : v.length = 1) :
    putAt (pack y z g p q c) (GATING d) v = pack y z g p v c := by
  have e : pack y z g p q c = (y ++ z ++ g ++ p) ++ q ++ c := by simp [pack]
  rw [e]; exact (put_mid (by simp [h.y, h.z, h.g, h.p]; omega) h.q hv).trans (by simp [pack])

theorem Sizes.put_DAMPING {v : List ℝ} (hv : v.length = d) :
    putAt (pack y z g p q c) (DAMPING d) v = pack y z g p q v := by
  have e : pack y z g p q c = (y ++ z ++ g ++ p ++ q) ++ c ++ [] := by simp [pack]
  rw [e]; exact (put_mid (by simp [h.y, h.z, h.g, h.p, h.q]; omega) h.c hv).trans (by simp [pack])

end

/-- Every state of the right size consists of its parts. -/
theorem exists_pack {d : Nat} {x : List ℝ} (hx : x.length = 4 * d + 2) :
    ∃ y z g p q c, Sizes d y z g p q c ∧ x = pack y z g p q c := by
  refine ⟨x.take d, (x.drop d).take d, (x.drop (d + d)).take d, (x.drop (d + d + d)).take 1,
    (x.drop (d + d + d + 1)).take 1, x.drop (d + d + d + 1 + 1), ⟨?_, ?_, ?_, ?_, ?_, ?_⟩, ?_⟩
  all_goals try (simp only [List.length_take, List.length_drop]; omega)
  have key : ∀ (a n : Nat), x.take a ++ (x.drop a).take n = x.take (a + n) := fun a n => by
    rw [List.take_add]
  simp only [pack, key, List.take_append_drop]

theorem zeros_pack (d : Nat) : (vzeros (4 * d + 2) : List ℝ) =
    pack (vzeros d) (vzeros d) (vzeros d) (vzeros 1) (vzeros 1) (vzeros d) := by
  simp only [pack, vzeros, List.replicate_append_replicate]
  congr 1; omega

theorem zeros_sizes (d : Nat) :
    Sizes d (vzeros d) (vzeros d) (vzeros d) (vzeros 1) (vzeros 1) (vzeros d) := by
  constructor <;> simp

/-! ### Well-formed objects -/

/-- Sizes agree (as guaranteed by the constructor and the setters for arguments of the same size),
and caches are up to date. -/
structure Wf (s : Dmp) : Prop where
  dimX : s.dimX = 4 * s.dimY + 2
  yAttr : s.yAttr.length = s.dimY
  yInit : ∀ y, s.yInit? = some y → y.length = s.dimY
  spring : s.spring.Wf
  springDim : s.spring.dimY = s.dimY
  phase : s.phase.Wf
  phaseDim : s.phase.base.dimX = 1
  gating : s.gating.Wf
  gatingDim : s.gating.base.dimX = 1
  goal : ∀ g, s.goal = some g → g.Wf
  goalDim : ∀ g, s.goal = some g → g.base.dimX = s.dimY
  damping : ∀ g, s.damping = some g → g.Wf
  dampingDim : ∀ g, s.damping = some g → g.base.dimX = s.dimY
  amplitudes : ∀ a, s.amplitudes = some a → a.length = s.dimY

/-! ### Calls of subsystems -/

theorem onSpring_ok {α : Type} {m : PyM SpringDamper α} {s : Dmp} {a : α} {t : SpringDamper}
    (h : m s.spring = (.ok a, t)) : onSpring m s = (.ok a, { s with spring := t }) := by
  unfold onSpring; simp only [h]

theorem onPhase_ok {α : Type} {m : PyM Sub α} {s : Dmp} {a : α} {t : Sub}
    (h : m s.phase = (.ok a, t)) : onPhase m s = (.ok a, { s with phase := t }) := by
  unfold onPhase; simp only [h]

theorem onGating_ok {α : Type} {m : PyM Sub α} {s : Dmp} {a : α} {t : Sub}
    (h : m s.gating = (.ok a, t)) : onGating m s = (.ok a, { s with gating := t }) := by
  unfold onGating; simp only [h]

theorem onGoal_ok {α : Type} {m : PyM Sub α} {s : Dmp} {a : α} {g t : Sub} (hg : s.goal = some g)
    (h : m g = (.ok a, t)) : onGoal m s = (.ok a, { s with goal := some t }) := by
  unfold onGoal; simp only [hg, h]

theorem onDamping_ok {α : Type} {m : PyM Sub α} {s : Dmp} {a : α} {g t : Sub}
    (hg : s.damping = some g) (h : m g = (.ok a, t)) :
    onDamping m s = (.ok a, { s with damping := some t }) := by
  unfold onDamping; simp only [hg, h]

theorem spring_setYAttr {sp : SpringDamper} {y : List ℝ} (h : y.length = sp.dimY) :
    SpringDamper.setYAttr y sp = (.ok (), { sp with yAttr := y }) := by
  unfold SpringDamper.setYAttr
  rw [PyM.self_bind, if_neg (by simpa using h)]
  rfl

/-! ### Forcing term and goal -/

theorem getYInit_length {s : Dmp} (h : s.Wf) {y : List ℝ} (hy : s.getYInit = .ok y) :
    y.length = s.dimY := by
  unfold getYInit at hy
  cases e : s.yInit? with
  | none => rw [e] at hy; cases hy
  | some y' => rw [e] at hy; cases hy; exact h.yInit _ e

theorem scaleGoal_length {s : Dmp} (h : s.Wf) {g r : List ℝ} (hg : g.length = s.dimY)
    (hr : s.scaleGoal g = .ok r) : r.length = s.dimY := by
  unfold scaleGoal at hr
  split at hr
  · cases e : s.getYInit with
    | error => rw [e] at hr; cases hr
    | ok y =>
      rw [e] at hr; cases hr
      simp [getYInit_length h e, h.yAttr, hg]
  · cases hr; exact hg

/-- The goal for the spring-damper system in differential_equation. -/
noncomputable def springGoal (s : Dmp) (g : List ℝ) : Except PyErr (List ℝ) :=
  match s.goal with
  | none => .ok s.yAttr
  | some _ => s.scaleGoal g

theorem springGoal_length {s : Dmp} (h : s.Wf) {g r : List ℝ} (hg : g.length = s.dimY)
    (hr : s.springGoal g = .ok r) : r.length = s.dimY := by
  unfold springGoal at hr
  cases e : s.goal with
  | none => rw [e] at hr; cases hr; exact h.yAttr
  | some _ => rw [e] at hr; exact scaleGoal_length h hg hr

theorem predictions_length {s : Dmp} {p : List ℝ} {r : List (List ℝ)}
    (h : s.predictions p = .ok r) : r.length = p.length ∧ ∀ row ∈ r, row.length = s.dimY := by
  have zero : ∀ row ∈ List.replicate p.length (vzeros s.dimY : List ℝ), row.length = s.dimY := by
    intro row hr; rw [List.eq_of_mem_replicate hr]; simp
  unfold predictions at h
  split at h
  · cases h; exact ⟨by simp, zero⟩
  · cases h; exact ⟨by simp, zero⟩
  · rename_i fas _ _
    cases e : (List.range s.dimY).mapM (faColumn fas p) with
    | error => rw [e] at h; cases h
    | ok cols =>
      rw [e] at h; cases h
      have hl : cols.length = s.dimY := by
        simpa using (mapM_ok.mp e).length_eq.symm
      refine ⟨by simp, ?_⟩
      intro row hr
      obtain ⟨t, _, rfl⟩ := List.mem_map.mp hr
      simp [hl]

theorem scaleForcing_length {s : Dmp} (h : s.Wf) {f r : List ℝ} (hf : f.length = s.dimY)
    (hr : s.scaleForcing f = .ok r) : r.length = s.dimY := by
  unfold scaleForcing at hr
  cases e : s.scaling with
  | noScaling => rw [e] at hr; cases hr; exact hf
  | amplitude =>
    rw [e] at hr
    cases e2 : s.amplitudes with
    | none => rw [e2] at hr; cases hr
    | some a => rw [e2] at hr; cases hr; simp [hf, h.amplitudes a e2]
  | gMinusY0 =>
    rw [e] at hr
    cases e2 : s.getYInit with
    | error => rw [e2] at hr; cases hr
    | ok y => rw [e2] at hr; cases hr; simp [hf, getYInit_length h e2, h.yAttr]

/-- The forcing term in differential_equation, for a phase and a gating value. -/
noncomputable def forcing (s : Dmp) (p q : List ℝ) : Except PyErr (List ℝ) := do
  let fa ← s.predictions p
  s.scaleForcing (vscale (q.getD 0 0) (fa.getD 0 []))

theorem forcing_length {s : Dmp} (h : s.Wf) {p q f : List ℝ} (hp : p.length = 1)
    (hf : s.forcing p q = .ok f) : f.length = s.dimY := by
  obtain ⟨fa, h1, h2⟩ := except_bind_ok hf
  obtain ⟨l1, l2⟩ := predictions_length h1
  rw [hp] at l1
  obtain ⟨r, rfl⟩ := List.length_eq_one_iff.mp l1
  refine scaleForcing_length h ?_ h2
  simpa using l2

/-! ### The differential equation -/

/-- The damping coefficient in differential_equation. -/
noncomputable def dampingAt (s : Dmp) (c : List ℝ) : Par ℝ :=
  match s.damping with
  | none => s.spring.damping
  | some _ => .array c

/-- Rate of change of the goal state. -/
noncomputable def goalRate (s : Dmp) (g : List ℝ) : List ℝ :=
  match s.goal with
  | none => vzeros s.dimY
  | some gs => (gs.withAttr s.yAttr).rate g

/-- Rate of change of the damping state. -/
noncomputable def dampingRate (s : Dmp) (c : List ℝ) : List ℝ :=
  match s.damping with
  | none => vzeros s.dimY
  | some ds => ds.rate c

/-- Rate of change of entry `j` of the velocity part: goal `ga`, damping coefficient `dc`, forcing
term `f`. -/
noncomputable def zRate (s : Dmp) (ga : List ℝ) (dc : Par ℝ) (f y z : List ℝ) (j : Nat) : ℝ :=
  (-s.spring.spring.at' j * (y.getD j 0 - ga.getD j 0) - dc.at' j * z.getD j 0) /
    (s.spring.mass.at' j * s.spring.tau) + f.getD j 0 / s.tau

/-- The differential equation as a function. -/
noncomputable def vf (s : Dmp) (y z g p q c : List ℝ) : Except PyErr (List ℝ) := do
  let ga ← s.springGoal g
  let f ← s.forcing p q
  return pack (vdivs z s.spring.tau) ((List.range s.dimY).map (s.zRate ga (s.dampingAt c) f y z))
    (s.goalRate g) (s.phase.rate p) (s.gating.rate q) (s.dampingRate c)

/-- The subsystems after differential_equation. -/
noncomputable def goalTouched (s : Dmp) : Dmp :=
  { s with goal := s.goal.map fun g => (g.withAttr s.yAttr).touch }

/-- The object after differential_equation: `ga` is the goal, `c` the damping state. -/
noncomputable def touched (s : Dmp) (ga c : List ℝ) : Dmp :=
  { s with
    goal := s.goal.map fun g => (g.withAttr s.yAttr).touch
    damping := s.damping.map Sub.touch
    phase := s.phase.touch
    gating := s.gating.touch
    spring := { s.spring with yAttr := ga, damping := s.dampingAt c } }

theorem goalRate_length {s : Dmp} (h : s.Wf) {g : List ℝ} (hg : g.length = s.dimY) :
    (s.goalRate g).length = s.dimY := by
  unfold goalRate
  cases e : s.goal with
  | none => simp
  | some gs =>
    have hd := (h.goal gs e).dim
    have hx := h.goalDim gs e
    have := Sub.length_rate (Sub.wf_withAttr (h.goal gs e) (y := s.yAttr)
      (by rw [h.yAttr, ← hd, hx])) (x := g) (by simpa [hx] using hg)
    simpa [hx] using this

theorem dampingRate_length {s : Dmp} (h : s.Wf) {g : List ℝ} (hg : g.length = s.dimY) :
    (s.dampingRate g).length = s.dimY := by
  unfold dampingRate
  cases e : s.damping with
  | none => simp
  | some gs =>
    have hx := h.dampingDim gs e
    rw [← hx]
    exact Sub.length_rate (h.damping gs e) (hg.trans hx.symm)

theorem vf_length {s : Dmp} (h : s.Wf) {y z g p q c r : List ℝ}
    (hs : Sizes s.dimY y z g p q c) (hr : s.vf y z g p q c = .ok r) : r.length = s.dimX := by
  obtain ⟨ga, h1, h2⟩ := except_bind_ok hr
  obtain ⟨f, h3, h4⟩ := except_bind_ok h2
  cases h4
  rw [h.dimX]
  refine Sizes.length (d := s.dimY) ⟨?_, ?_, goalRate_length h hs.g, ?_, ?_, dampingRate_length h hs.c⟩
  · simp [hs.z]
  · simp
  · rw [Sub.length_rate h.phase (hs.p.trans h.phaseDim.symm), h.phaseDim]
  · rw [Sub.length_rate h.gating (hs.q.trans h.gatingDim.symm), h.gatingDim]

/-- The part of differential_equation after goal and damping system. -/
noncomputable def diffEqEnd (s : Dmp) (x xd : List ℝ) : PyM Dmp (List ℝ) := do
  let d := s.dimY
  let sd ← onSpring (DynSys.diffEq (pickAt x (SPRING d)))
  let xd := putAt xd (SPRING d) sd
  let pd ← onPhase (Sub.diffEq (pickAt x (PHASE d)))
  let xd := putAt xd (PHASE d) pd
  let gd ← onGating (Sub.diffEq (pickAt x (GATING d)))
  let xd := putAt xd (GATING d) gd
  let fa ← PyM.lift (s.predictions (pickAt x (PHASE d)))
  let gate := (pickAt x (GATING d)).getD 0 0
  let forcing ← PyM.lift (s.scaleForcing (vscale gate (fa.getD 0 [])))
  pure (putAt xd (SPRING_Z d) (vadd (pickAt xd (SPRING_Z d)) (vdivs forcing s.tau)))

theorem spring_diffEq {sp : SpringDamper} {y z : List ℝ} (hy : y.length = sp.dimY) :
    sp.diffEq (y ++ z) = vdivs z sp.tau ++ (List.range sp.dimY).map (sp.zdComp y z) := by
  unfold SpringDamper.diffEq
  simp [← hy]

theorem diffEqEnd_run {s t : Dmp} (h : s.Wf) {y z g p q c ga gd cd : List ℝ} {dc : Par ℝ}
    (hs : Sizes s.dimY y z g p q c) (hgd : gd.length = s.dimY) (hcd : cd.length = s.dimY)
    (ht1 : t.spring = { s.spring with yAttr := ga, damping := dc })
    (ht2 : t.phase = s.phase) (ht3 : t.gating = s.gating) :
    diffEqEnd s (pack y z g p q c) (pack (vzeros s.dimY) (vzeros s.dimY) gd (vzeros 1) (vzeros 1) cd) t =
      (do
        let f ← s.forcing p q
        return pack (vdivs z s.spring.tau) ((List.range s.dimY).map (s.zRate ga dc f y z))
          gd (s.phase.rate p) (s.gating.rate q) cd,
       { t with phase := s.phase.touch, gating := s.gating.touch }) := by
  have hz : Sizes s.dimY (vzeros s.dimY) (vzeros s.dimY) gd (vzeros 1) (vzeros 1) cd :=
    ⟨by simp, by simp, hgd, by simp, by simp, hcd⟩
  unfold diffEqEnd
  simp only [hs.pick_SPRING, hs.pick_PHASE, hs.pick_GATING]
  have hsp : DynSys.diffEq (y ++ z) t.spring = (.ok (t.spring.diffEq (y ++ z)), t.spring) := rfl
  rw [PyM.bind_ok (onSpring_ok hsp)]
  have hp : Sub.diffEq p t.phase = (.ok (s.phase.rate p), s.phase.touch) := by
    rw [ht2]; exact Sub.diffEq_run h.phase (hs.p.trans h.phaseDim.symm)
  have hp' := onPhase_ok (s := { t with spring := t.spring }) hp
  rw [PyM.bind_ok hp']
  have hq : Sub.diffEq q t.gating = (.ok (s.gating.rate q), s.gating.touch) := by
    rw [ht3]; exact Sub.diffEq_run h.gating (hs.q.trans h.gatingDim.symm)
  have hq' := onGating_ok (s := { t with phase := s.phase.touch }) hq
  rw [PyM.bind_ok hq']
  have hdim : t.spring.dimY = s.dimY := by rw [ht1]; exact h.springDim
  have hd : t.spring.diffEq (y ++ z) = vdivs z s.spring.tau ++
      (List.range s.dimY).map (t.spring.zdComp y z) := by
    rw [spring_diffEq (by rw [hs.y, hdim]), hdim]
    congr 2
    rw [ht1]
  have l1 : (vdivs z s.spring.tau).length = s.dimY := by simp [hs.z]
  rw [hd, hz.put_SPRING (by simp [hs.z]; omega), List.take_left' l1, List.drop_left' l1]
  have hz1 : Sizes s.dimY (vdivs z s.spring.tau) ((List.range s.dimY).map (t.spring.zdComp y z)) gd
      (vzeros 1) (vzeros 1) cd := ⟨l1, by simp, hgd, by simp, by simp, hcd⟩
  have lp : (s.phase.rate p).length = 1 := by
    rw [Sub.length_rate h.phase (hs.p.trans h.phaseDim.symm), h.phaseDim]
  have lq : (s.gating.rate q).length = 1 := by
    rw [Sub.length_rate h.gating (hs.q.trans h.gatingDim.symm), h.gatingDim]
  rw [hz1.put_PHASE lp]
  have hz2 : Sizes s.dimY (vdivs z s.spring.tau) ((List.range s.dimY).map (t.spring.zdComp y z)) gd
      (s.phase.rate p) (vzeros 1) cd := ⟨l1, by simp, hgd, lp, by simp, hcd⟩
  rw [hz2.put_GATING lq]
  have hz3 : Sizes s.dimY (vdivs z s.spring.tau) ((List.range s.dimY).map (t.spring.zdComp y z)) gd
      (s.phase.rate p) (s.gating.rate q) cd := ⟨l1, by simp, hgd, lp, lq, hcd⟩
  unfold forcing
  cases e1 : s.predictions p with
  | error e => rfl
  | ok fa =>
    rw [PyM.lift_ok_bind]
    cases e2 : s.scaleForcing (vscale (q.getD 0 0) (fa.getD 0 [])) with
    | error e =>
      rw [PyM.lift_error_bind]
      refine Prod.ext ?_ rfl
      change Except.error e = (s.scaleForcing (vscale (q.getD 0 0) (fa.getD 0 [])) >>= _)
      rw [e2]; rfl
    | ok f =>
      rw [PyM.lift_ok_bind]
      have lf : f.length = s.dimY := forcing_length (q := q) h hs.p (by
        unfold forcing; rw [e1]; exact e2)
      have key : vadd ((List.range s.dimY).map (t.spring.zdComp y z)) (vdivs f s.tau) =
          (List.range s.dimY).map (s.zRate ga dc f y z) := by
        apply ext_getD 0
        · simp [lf]
        · intro j hj
          have hj' : j < s.dimY := by simpa [lf] using hj
          rw [getD_vadd (by simpa using hj') (by simpa [lf] using hj'), getD_range_map hj',
            getD_range_map hj', getD_vdivs]
          simp only [SpringDamper.zdComp, ht1, zRate]
      rw [hz3.pick_SPRING_Z, hz3.put_SPRING_Z (by simp [lf]), key]
      refine Prod.ext ?_ rfl
      change _ = (s.scaleForcing (vscale (q.getD 0 0) (fa.getD 0 [])) >>= _)
      rw [e2]; rfl

/-- The part of differential_equation from the damping system on. -/
noncomputable def diffEqRest (s : Dmp) (x xd : List ℝ) : PyM Dmp (List ℝ) := do
  let d := s.dimY
  let xd ← match s.damping with
    | none => pure (putAt xd (DAMPING d) (vzeros d))
    | some _ => do
      onSpring (PyM.modify fun sp => { sp with damping := .array (pickAt x (DAMPING d)) })
      let dd ← onDamping (Sub.diffEq (pickAt x (DAMPING d)))
      pure (putAt xd (DAMPING d) dd)
  diffEqEnd s x xd

theorem diffEqRest_run {s t : Dmp} (h : s.Wf) {y z g p q c ga gd : List ℝ}
    (hs : Sizes s.dimY y z g p q c) (hgd : gd.length = s.dimY)
    (ht1 : t.spring = { s.spring with yAttr := ga })
    (ht2 : t.phase = s.phase) (ht3 : t.gating = s.gating) (ht4 : t.damping = s.damping) :
    diffEqRest s (pack y z g p q c)
      (pack (vzeros s.dimY) (vzeros s.dimY) gd (vzeros 1) (vzeros 1) (vzeros s.dimY)) t =
      (do
        let f ← s.forcing p q
        return pack (vdivs z s.spring.tau)
          ((List.range s.dimY).map (s.zRate ga (s.dampingAt c) f y z))
          gd (s.phase.rate p) (s.gating.rate q) (s.dampingRate c),
       { t with
         phase := s.phase.touch
         gating := s.gating.touch
         damping := s.damping.map Sub.touch
         spring := { s.spring with yAttr := ga, damping := s.dampingAt c } }) := by
  have hz : Sizes s.dimY (vzeros s.dimY) (vzeros s.dimY) gd (vzeros 1) (vzeros 1) (vzeros s.dimY) :=
    ⟨by simp, by simp, hgd, by simp, by simp, by simp⟩
  unfold diffEqRest
  simp only [hs.pick_DAMPING]
  cases e : s.damping with
  | none =>
    simp only [PyM.pure_bind, hz.put_DAMPING (length_vzeros s.dimY)]
    rw [diffEqEnd_run (ga := ga) (dc := s.spring.damping) h hs hgd (by simp) ht1 ht2 ht3]
    simp only [dampingAt, dampingRate, e]
    refine Prod.ext rfl ?_
    rw [e] at ht4
    cases t
    simp only at ht1 ht4 ⊢
    subst ht1
    simp [ht4]
  | some ds =>
    have e' : t.damping = some ds := ht4.trans e
    have h1 : onSpring (PyM.modify fun sp => { sp with damping := .array c }) t =
        (.ok (), { t with spring := { t.spring with damping := .array c } }) := rfl
    simp only
    rw [PyM.bind_ok h1]
    have hx := h.dampingDim ds e
    have h2 := onDamping_ok (s := { t with spring := { t.spring with damping := .array c } }) e'
      (Sub.diffEq_run (h.damping ds e) (hs.c.trans hx.symm))
    rw [PyM.bind_ok h2, PyM.pure_bind]
    have l : (ds.rate c).length = s.dimY := by
      rw [Sub.length_rate (h.damping ds e) (hs.c.trans hx.symm), hx]
    rw [hz.put_DAMPING l]
    refine (diffEqEnd_run (ga := ga) (dc := .array c) h hs hgd l ?_ ?_ ?_).trans ?_
    · simp only [ht1]
    · exact ht2
    · exact ht3
    · simp only [dampingAt, dampingRate, e, ht1]
      rfl

theorem diffEq_run {s : Dmp} (h : s.Wf) {y z g p q c : List ℝ} (hs : Sizes s.dimY y z g p q c) :
    diffEq (pack y z g p q c) s = (s.vf y z g p q c,
      match s.springGoal g with
      | .error _ => s.goalTouched
      | .ok ga => s.touched ga c) := by
  have e0 : (vzeros (pack y z g p q c).length : List ℝ) =
      pack (vzeros s.dimY) (vzeros s.dimY) (vzeros s.dimY) (vzeros 1) (vzeros 1) (vzeros s.dimY) := by
    rw [hs.length, zeros_pack]
  have hz := zeros_sizes s.dimY
  unfold diffEq
  rw [PyM.self_bind]
  change (match s.goal with
    | none => do
      onSpring (SpringDamper.setYAttr s.yAttr)
      let xd ← pure (putAt (vzeros (pack y z g p q c).length) (GOAL s.dimY) (vzeros s.dimY))
      diffEqRest s (pack y z g p q c) xd
    | some _ => do
      onGoal (Sub.setYAttr s.yAttr)
      let gd ← onGoal (Sub.diffEq (pickAt (pack y z g p q c) (GOAL s.dimY)))
      let g' ← PyM.lift (s.scaleGoal (pickAt (pack y z g p q c) (GOAL s.dimY)))
      onSpring (SpringDamper.setYAttr g')
      let xd ← pure (putAt (vzeros (pack y z g p q c).length) (GOAL s.dimY) gd)
      diffEqRest s (pack y z g p q c) xd : PyM Dmp (List ℝ)) s = _
  rw [e0, hs.pick_GOAL]
  cases e : s.goal with
  | none =>
    simp only
    have h1 := onSpring_ok (s := s) (spring_setYAttr (y := s.yAttr)
      (h.yAttr.trans h.springDim.symm))
    rw [PyM.bind_ok h1, PyM.pure_bind, hz.put_GOAL (length_vzeros s.dimY)]
    refine (diffEqRest_run (ga := s.yAttr) h hs (by simp) ?_ ?_ ?_ ?_).trans ?_
    iterate 4 rfl
    simp only [vf, springGoal, e, goalRate, touched]
    refine Prod.ext rfl ?_
    cases s
    simp only at e ⊢
    subst e
    rfl
  | some gs =>
    simp only
    have hd := (h.goal gs e).dim
    have hx := h.goalDim gs e
    have hy : s.yAttr.length = gs.base.dimY := by rw [h.yAttr, ← hd, hx]
    have h1 := onGoal_ok e (Sub.setYAttr_run s.yAttr hy)
    rw [PyM.bind_ok h1]
    have hw := Sub.wf_withAttr (h.goal gs e) hy
    have lg : g.length = (gs.withAttr s.yAttr).base.dimX := by simp [hs.g, hx]
    have h2 := onGoal_ok (s := { s with goal := some (gs.withAttr s.yAttr) }) rfl
      (Sub.diffEq_run hw lg)
    rw [PyM.bind_ok h2]
    have hsg : s.springGoal g = s.scaleGoal g := by simp [springGoal, e]
    rw [vf, hsg]
    cases e3 : s.scaleGoal g with
    | error er =>
      rw [PyM.lift_error_bind]
      refine Prod.ext rfl ?_
      simp only [goalTouched, e]
      rfl
    | ok ga =>
      rw [PyM.lift_ok_bind]
      have lga := scaleGoal_length h hs.g e3
      have h3 := onSpring_ok (s := { s with goal := some (gs.withAttr s.yAttr).touch })
        (spring_setYAttr (y := ga) (lga.trans h.springDim.symm))
      rw [PyM.bind_ok h3, PyM.pure_bind]
      have l : ((gs.withAttr s.yAttr).rate g).length = s.dimY := by
        rw [Sub.length_rate hw lg]; simp [hx]
      rw [hz.put_GOAL l]
      refine (diffEqRest_run (ga := ga) h hs l ?_ ?_ ?_ ?_).trans ?_
      iterate 4 rfl
      simp only [goalRate, e, touched]
      rfl

end Dmp

end Verif
