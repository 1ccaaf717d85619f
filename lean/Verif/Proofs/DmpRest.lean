import Verif.Props.DmpPure
import Verif.Props.DmpStepsBound

/-
A Dmp with two dimensions that starts where it ends, and stays there.
-/

set_option autoImplicit false

namespace Verif.Dmp

/-- Positions, velocities and the state of the goal system are 0. -/
def Motionless (x : List ℝ) : Prop := x.length = 10 ∧ ∀ j, j < 6 → x.getD j 0 = 0

theorem Motionless.add {a b : List ℝ} (h : Motionless a) (h' : Motionless b) : Motionless (vadd a b) :=
  ⟨by simp [h.1, h'.1], fun j hj => by
    rw [getD_vadd (by rw [h.1]; omega) (by rw [h'.1]; omega), h.2 j hj, h'.2 j hj, add_zero]⟩

theorem Motionless.scale {a : List ℝ} (c : ℝ) (h : Motionless a) : Motionless (vscale c a) :=
  ⟨by simp [vscale, h.1], fun j hj => by
    unfold vscale
    rw [getD_map' (by rw [h.1]; omega) 0 0, h.2 j hj, mul_zero]⟩

theorem Motionless.divs {a : List ℝ} (c : ℝ) (h : Motionless a) : Motionless (vdivs a c) :=
  ⟨by simp [vdivs, h.1], fun j hj => by
    unfold vdivs
    rw [getD_map' (by rw [h.1]; omega) 0 0, h.2 j hj, zero_div]⟩

theorem zeros_getD (n j : Nat) : (vzeros n : List ℝ).getD j 0 = 0 := by
  unfold vzeros
  rw [List.getD_eq_getElem?_getD, List.getElem?_replicate]
  by_cases h : j < n <;> simp [h]

/-- A Dmp that stays at 0. -/
structure AtZero (s : Dmp) : Prop where
  good : Good 2 s
  noScaling : s.requiresScaling = false
  rest : ∀ x, Motionless x → ∃ xd, (diffEq x s).1 = .ok xd ∧ Motionless xd

theorem AtZero.of_core {s t : Dmp} (h : AtZero s) (g : Good 2 t) (hc : t.core = s.core) : AtZero t where
  good := g
  noScaling := (congrArg Dmp.requiresScaling hc).trans h.noScaling
  rest x hx := by
    obtain ⟨xd, e, hm⟩ := h.rest x hx
    exact ⟨xd, (stable_diffEq hx.1 t s g h.good hc).1.trans e, hm⟩

theorem AtZero.diffEq {s : Dmp} (h : AtZero s) {x : List ℝ} (hx : Motionless x) :
    ∃ xd s', DynSys.diffEq x s = (.ok xd, s') ∧ Motionless xd ∧ AtZero s' := by
  obtain ⟨e1, e2, e3⟩ := stable_diffEq hx.1 s s h.good h.good rfl
  obtain ⟨xd, e, hm⟩ := h.rest x hx
  exact ⟨xd, _, Prod.ext e rfl, hm, h.of_core e3 e2⟩

/-- No force, and a goal at 0. -/
theorem atZero_of {s : Dmp} (g : Good 2 s) (hs : s.requiresScaling = false)
    (hok : ∀ x, x.length = 10 → ∃ xd, (Dmp.diffEq x s).1 = .ok xd)
    (hf : ∀ p q f, p.length = 1 → s.forcing p q = .ok f → ∀ j, j < 2 → f.getD j 0 = 0)
    (hg : ∀ ga, s.springGoal [0, 0] = .ok ga → ga = [0, 0]) (hgr : s.goalRate [0, 0] = [0, 0]) : AtZero s where
  good := g
  noScaling := hs
  rest x hx := by
    obtain ⟨xd, e⟩ := hok x hx.1
    have w := g.wf
    have hd : s.dimY = 2 := g.dim
    refine ⟨xd, e, vf_pack_length g hx.1 e, ?_⟩
    obtain ⟨ga, f, h1, h2, h3, h4, h5, -⟩ := rates w (by rw [w.dimX, hd]; exact hx.1) e
    have hgoal : pickAt x (GOAL s.dimY) = [0, 0] := by
      rw [hd]
      change [x.getD 4 0, x.getD 5 0] = _
      rw [hx.2 4 (by omega), hx.2 5 (by omega)]
    rw [hgoal] at h1 h5
    rw [hgr] at h5
    have hga := hg ga h1
    have hf' := hf _ _ f (by rw [length_pick]; rfl) h2
    rw [hd] at h3 h4 h5
    intro j hj
    by_cases hj2 : j < 2
    · rw [h3 j hj2, hx.2 (2 + j) (by omega), zero_div]
    · by_cases hj4 : j < 4
      · have := h4 (j - 2) (by omega)
        rw [show 2 + (j - 2) = j by omega] at this
        rw [this, hx.2 (j - 2) (by omega), hx.2 j (by omega), hga, hf' _ (by omega)]
        have : ([0, 0] : List ℝ).getD (j - 2) 0 = 0 := zeros_getD 2 _
        rw [this]
        simp
      · have h6 : [xd.getD 4 0, xd.getD 5 0] = [0, 0] := h5
        match j, hj, hj4 with
        | 4, _, _ => exact (List.cons.inj h6).1
        | 5, _, _ => exact (List.cons.inj (List.cons.inj h6).2).1

theorem AtZero.step {s : Dmp} (h : AtZero s) {x : List ℝ} (hx : Motionless x) (dt : ℝ) :
    ∃ r s', DynSys.step .rungeKutta dt x s = (.ok r, s') ∧ Motionless r.1 ∧ Motionless r.2 ∧ AtZero s' := by
  have ne : ¬ x.length ≠ DynSys.dimX s := by
    change ¬ x.length ≠ s.dimX
    rw [good_length h.good]
    simp [hx.1]
  obtain ⟨k1, s1, p1, l1, g1⟩ := h.diffEq hx
  obtain ⟨k2, s2, p2, l2, g2⟩ := g1.diffEq (hx.add (l1.scale (dt * 0.5)))
  obtain ⟨k3, s3, p3, l3, g3⟩ := g2.diffEq (hx.add (l2.scale (dt * 0.5)))
  obtain ⟨k4, s4, p4, l4, g4⟩ := g3.diffEq (hx.add (l3.scale dt))
  have l5 := hx.add (((((l1.add ((l2.add l3).scale 2)).add l4).scale dt)).divs 6)
  obtain ⟨k5, s5, p5, l6, g5⟩ := g4.diffEq l5
  refine ⟨(_, k5), s5, ?_, l5, l6, g5⟩
  change DynSys.rungeKuttaStep dt x s = _
  unfold DynSys.rungeKuttaStep
  rw [PyM.self_bind, if_neg ne, PyM.bind_ok p1, PyM.bind_ok p2, PyM.bind_ok p3, PyM.bind_ok p4]
  exact (PyM.bind_ok p5).trans rfl

theorem AtZero.loop : ∀ (ts : List ℝ) {s : Dmp}, AtZero s → ∀ {x : List ℝ}, Motionless x → ∀ t0 : ℝ,
    ∃ rows s', DynSys.integrateLoop .rungeKutta t0 x ts s = (.ok rows, s') ∧ rows.length = ts.length ∧
      ∀ r ∈ rows, Motionless r.1 ∧ Motionless r.2
  | [], s, _, _, _, _ => ⟨[], s, rfl, rfl, by simp⟩
  | t :: ts, s, h, x, hx, t0 => by
    obtain ⟨r, s1, p1, l1, l2, g1⟩ := h.step hx (t - t0)
    obtain ⟨rows, s2, p2, hl, hr⟩ := AtZero.loop ts g1 l1 t
    refine ⟨r :: rows, s2, ?_, by simp [hl], ?_⟩
    · unfold DynSys.integrateLoop
      refine (PyM.bind_ok p1).trans ?_
      exact (PyM.bind_ok p2).trans rfl
    · intro q hq
      rcases List.mem_cons.mp hq with rfl | hq
      · exact ⟨l1, l2⟩
      · exact hr q hq

theorem AtZero.run {s : Dmp} (R : AtZero s) (hx : Motionless s.startX) {ts : List ℝ} (hts : ts ≠ []) :
    ∃ rows s', integrate ts .rungeKutta s = (.ok rows, s') ∧ rows.length = ts.length ∧
      ∀ r ∈ rows, Motionless r.1 ∧ Motionless r.2 := by
  obtain ⟨t0, ts, rfl⟩ := List.exists_cons_of_ne_nil hts
  have hstart : ∃ xd s1, integrateStart none s = (.ok (s.startX, xd), s1) ∧ Motionless xd ∧ AtZero s1 := by
    have hcs : s.CanScale := fun hc => by rw [R.noScaling] at hc; cases hc
    have g := R.good
    have es := scaleGoal_ok hcs s.goalStart
    have l : (s.scaled s.goalStart).length = 2 := by
      rw [scaleGoal_length g.wf (goalStart_length g.wf) es, g.dim]
    obtain ⟨c1, g1⟩ := started_good g l
    have R1 : AtZero (s.started (s.scaled s.goalStart)) := R.of_core g1 c1
    obtain ⟨xd, s1, p1, l1, g2⟩ := R1.diffEq hx
    refine ⟨xd, s1, ?_, l1, g2⟩
    rw [integrateStart_run g.wf, es]
    exact (PyM.bind_ok p1).trans rfl
  obtain ⟨xd, s1, p1, l1, g1⟩ := hstart
  obtain ⟨rows, s2, p2, hl, hrows⟩ := g1.loop ts hx t0
  refine ⟨(s.startX, xd) :: rows, s2, ?_, by simp [hl], ?_⟩
  · unfold integrate
    refine (PyM.bind_ok p1).trans ?_
    exact (PyM.bind_ok p2).trans rfl
  · intro q hq
    rcases List.mem_cons.mp hq with rfl | hq
    · exact ⟨hx, l1⟩
    · exact hrows q hq

/-- A Dmp with two dimensions and the subsystems of Ijspeert et al. that starts at its attractor. -/
theorem resting_example : ∃ s, init 1 [0, 0] [0, 0] none { dmpType := "Ijs02" } = .ok s ∧
    Reachable DefaultLike Change.Valid 2 s ∧ s.tau = 1 ∧ ∀ ts, ts ≠ [] → ∃ rows s',
      integrate ts .rungeKutta s = (.ok rows, s') ∧ rows.length = ts.length ∧
        ∀ r ∈ rows, Motionless r.1 ∧ Motionless r.2 := by
  have hfit : Options.Fits { dmpType := "Ijs02" } 2 :=
    ⟨(fun _ h => nomatch h), trivial, (fun _ h => nomatch h),
      (fun _ h => nomatch h), (fun _ h => nomatch h), (fun _ h => nomatch h), (fun _ h => nomatch h)⟩
  obtain ⟨s, hs⟩ := (C16_types 1 [0, 0] [0, 0] none { dmpType := "Ijs02" }).1 (by simp [known])
  have hr : Reachable DefaultLike Change.Valid 2 s := .init hs rfl rfl hfit fun e he => nomatch he
  have g := hr.inv.good
  obtain ⟨dflt, hdf, e⟩ := init_eq hs
  unfold defaults at hdf
  simp only at hdf
  rw [if_pos (by decide)] at hdf
  cases hdf
  have hfas : s.fas = none := by rw [e]
  have hsc : s.scaling = .noScaling := by rw [e]
  have hrs : s.requiresScaling = false := by rw [e]
  have hgo : s.goal = none := by rw [e]; rfl
  have R : AtZero s := by
    refine atZero_of g hrs (fun x hx => ?_) (fun p q f hp hf j _ => ?_) (fun ga hga => ?_) ?_
    · refine unforced_total g (fun hc => by rw [hrs] at hc; cases hc) ?_ hfas hx
      unfold CanForce
      rw [hsc]
      trivial
    · unfold forcing predictions at hf
      rw [hfas] at hf
      obtain ⟨fa, ⟨⟩, hf⟩ := except_bind_ok hf
      unfold scaleForcing at hf
      rw [hsc] at hf
      cases hf
      have : (List.replicate p.length (vzeros s.dimY : List ℝ)).getD 0 [] = vzeros s.dimY := by
        rw [hp]
        rfl
      rw [this]
      unfold vscale
      by_cases hj : j < (vzeros s.dimY : List ℝ).length
      · rw [getD_map' hj 0 0, zeros_getD, mul_zero]
      · rw [List.getD_eq_getElem?_getD, List.getElem?_eq_none (by simpa using hj)]
        rfl
    · unfold springGoal at hga
      rw [hgo] at hga
      cases hga
      rw [e]
    · unfold goalRate
      rw [hgo, g.dim]
      rfl
  have hx : Motionless s.startX := by
    refine ⟨(startX_sizes g.wf).length.trans (by rw [g.dim]), fun j hj => ?_⟩
    rw [e]
    match j, hj with
    | 0, _ => rfl
    | 1, _ => rfl
    | 2, _ => rfl
    | 3, _ => rfl
    | 4, _ => rfl
    | 5, _ => rfl
  have ht : s.tau = 1 := by rw [e]
  exact ⟨s, hs, hr, ht, fun ts hts => R.run hx hts⟩

end Verif.Dmp
