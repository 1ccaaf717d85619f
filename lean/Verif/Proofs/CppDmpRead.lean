import Verif.Proofs.CppDmpRuns

/- Helper lemmas: setters of a Dmp in C++ and in Python, and reading of a Dmp. -/

set_option autoImplicit false

namespace Verif

namespace Cpp

namespace Dmp

theorem Matches.inv {c : Dmp} {s : Verif.Dmp} (h : Matches c s) : Verif.Dmp.Inv s.dimY s := by
  refine ⟨h.wf, ?_, rfl⟩
  intro e he
  obtain ⟨cg, sg, _, h2, _, _, _, h3⟩ := h.goal
  rw [he] at h2
  cases h2
  exact ⟨h.noScaling, h3⟩

/-! ### Setters -/

theorem setTau_eq {c : Dmp} {s : Verif.Dmp} (h : Matches c s) (h0 : s.tau ≠ 0) (t : ℝ) :
    ∃ c', setTau t c = .ok c' ∧ Matches c' (s.retimed t) := by
  obtain ⟨cg, sg, hcg, hsg, tg, gtau, ginit, gattr⟩ := h.goal
  obtain ⟨cp, hcp, tp⟩ := h.phase
  obtain ⟨cq, hcq, tq⟩ := h.gating
  have ht : s.tau * (t / s.tau) = t := by field_simp
  have gtau' : (Sub.exponential sg).base.tau = s.tau := gtau
  refine ⟨{ c with
    tau := t
    spring := c.spring.setTau t
    goal := some (cg.setTau t)
    phase := some (cp.setTau t)
    gating := some (cq.setTau t) }, ?_, ?_⟩
  · unfold setTau
    simp only [hcp, hcq, hcg, deref, ok_bind]
    rfl
  · have w := (Verif.Dmp.inv_retimed h.inv t).wf
    have e : s.retimed t = { s with
        tau := t
        phase := s.phase.withTau t
        gating := s.gating.withTau t
        spring := { s.spring with tau := t }
        goal := some (.exponential { sg with tau := t }) } := by
      unfold Verif.Dmp.retimed
      rw [h.phaseTau, h.gatingTau, h.springTau, hsg, Option.map_some, gtau', ht]
      rfl
    rw [e] at w ⊢
    exact {
      wf := w
      tau := rfl
      dimX := h.dimX
      dimY := h.dimY
      yAttr := h.yAttr
      yInit := h.yInit
      noDamping := h.noDamping
      noScaling := h.noScaling
      spring := SpringTwin.setTau h.spring t
      springAttr := h.springAttr
      springTau := rfl
      goal := ⟨_, _, rfl, rfl, tg.setTau t, rfl, ginit, gattr⟩
      phase := ⟨_, rfl, tp.setTau t⟩
      phaseTau := by simp
      gating := ⟨_, rfl, tq.setTau t⟩
      gatingTau := by simp
      fas := h.fas
      scaling := h.scaling
      amplitudes := h.amplitudes }

theorem setYInit_eq {c : Dmp} {s : Verif.Dmp} (h : Matches c s) {y : List ℝ} (hy : y.length = s.dimY) :
    ∃ c', setYInit y c = .ok c' ∧ Matches c' (s.placed y) := by
  obtain ⟨cg, sg, hcg, hsg, tg, gtau, ginit, gattr⟩ := h.goal
  have hg : y.length = (Sub.exponential sg).base.dimY := by
    rw [hy, ← (h.wf.goal _ hsg).dim, h.wf.goalDim _ hsg]
  obtain ⟨cg', eg, tg'⟩ := Twin.setInit (h.wf.goal _ hsg) tg hg
  obtain ⟨cg', rfl⟩ : ∃ e, cg' = .exponential e := by
    cases cg' <;> first | exact ⟨_, rfl⟩ | exact tg'.elim
  have eg : cg.setXInit y = .ok cg' := by
    change (do return AnySystem.exponential (← cg.setXInit y) : CppResult _) = _ at eg
    cases e : cg.setXInit y with
    | error _ => rw [e] at eg; cases eg
    | ok a => rw [e] at eg; injection eg with eg; injection eg with eg; rw [eg]
  obtain ⟨cs, es, ts⟩ := SpringTwin.setYInit (spring_wf h h.springAttr) h.spring (y := y)
    (by rw [hy]; exact h.wf.springDim.symm)
  have eb : c.toBase.setYInit y = .ok { c.toBase with xInit := y ++ vzeros (2 * s.dimY + 2) } := by
    have h1 : c.toBase.dimX = 3 * s.dimY + 2 := h.dimX
    have h2 : c.toBase.dimY = s.dimY := h.dimY
    have h3 : c.toBase.dimX - c.toBase.dimY = 2 * s.dimY + 2 := by rw [h1, h2]; omega
    rw [Base.setYInit, if_neg (by rw [h2, hy]; simp), if_neg (by rw [h1, h2]; omega),
      if_neg (by rw [h1, h2]; omega), h3]
  refine ⟨{ c with xInit := y ++ vzeros (2 * s.dimY + 2), spring := cs, goal := some cg' }, ?_, ?_⟩
  · unfold setYInit
    rw [if_neg (by rw [h.dimY, hy]; simp)]
    simp only [eb, es, hcg, eg, ok_bind]
    rfl
  · have w := (Verif.Dmp.inv_placed h.inv hy).wf
    have e : s.placed y = { s with
        yInit? := some y
        spring := { s.spring with xInit := y ++ vzeros s.spring.dimY }
        goal := some (.exponential { sg with xInit := y }) } := by
      unfold Verif.Dmp.placed
      rw [h.noScaling, hsg, h.wf.springDim]
      rfl
    rw [e] at w ⊢
    have hcs : cs = { c.spring with xInit := cs.xInit } := by
      unfold Spring.setYInit at es
      unfold Base.setYInit at es
      by_cases e1 : y.length ≠ c.spring.dimY
      · rw [if_pos e1] at es; cases es
      · rw [if_neg e1] at es
        by_cases e2 : c.spring.dimX = c.spring.dimY
        · rw [if_pos e2] at es; cases es; rfl
        · rw [if_neg e2] at es
          by_cases e3 : c.spring.dimX < c.spring.dimY
          · rw [if_pos e3] at es; cases es
          · rw [if_neg e3] at es; cases es; rfl
    have a1 : cs.yAttr = c.spring.yAttr := by rw [hcs]
    have a2 : cs.spring = c.spring.spring := by rw [hcs]
    have a3 : cs.damping = c.spring.damping := by rw [hcs]
    have a4 : cs.mass = c.spring.mass := by rw [hcs]
    exact {
      wf := w
      tau := h.tau
      dimX := h.dimX
      dimY := h.dimY
      yAttr := h.yAttr
      yInit := ⟨y, rfl, rfl, by change y ++ vzeros s.spring.dimY = y ++ vzeros s.dimY; rw [h.wf.springDim]⟩
      noDamping := h.noDamping
      noScaling := h.noScaling
      spring := by rw [a1]; exact ts
      springAttr := by rw [a1]; exact h.springAttr
      springTau := h.springTau
      goal := ⟨_, _, rfl, rfl, tg', gtau, rfl, gattr⟩
      phase := h.phase
      phaseTau := h.phaseTau
      gating := h.gating
      gatingTau := h.gatingTau
      fas := h.fas
      scaling := h.scaling
      amplitudes := h.amplitudes }

theorem setYAttr_eq {c : Dmp} {s : Verif.Dmp} (h : Matches c s) {y : List ℝ} (hy : y.length = s.dimY) :
    ∃ c', setYAttr y c = .ok c' ∧ Matches c' (s.aimed y) := by
  obtain ⟨cg, sg, hcg, hsg, tg, gtau, ginit, gattr⟩ := h.goal
  have hx : sg.dimX = s.dimY := h.wf.goalDim _ hsg
  refine ⟨{ c with yAttr := y, goal := some { cg with xAttr := y } }, ?_, ?_⟩
  · unfold setYAttr
    have : cg.setXAttr y = .ok { cg with xAttr := y } := by
      rw [Exponential.setXAttr, if_neg]
      have : cg.dimX = sg.dimX := tg.1.dimX
      rw [this, hx, hy]
      simp
    simp only [hcg, this, ok_bind]
    rfl
  · have w := (Verif.Dmp.inv_aimed h.inv hy).wf
    have e : s.aimed y = { s with
        yAttr := y
        goal := some (.exponential { sg with xAttr := y }) } := by
      unfold Verif.Dmp.aimed
      rw [h.noScaling, hsg]
      rfl
    rw [e] at w ⊢
    exact {
      wf := w
      tau := h.tau
      dimX := h.dimX
      dimY := h.dimY
      yAttr := rfl
      yInit := h.yInit
      noDamping := h.noDamping
      noScaling := h.noScaling
      spring := h.spring
      springAttr := h.springAttr
      springTau := h.springTau
      goal := ⟨_, _, rfl, rfl, ⟨tg.1, rfl, tg.2.2⟩, gtau, ginit, rfl⟩
      phase := h.phase
      phaseTau := h.phaseTau
      gating := h.gating
      gatingTau := h.gatingTau
      fas := h.fas
      scaling := h.scaling
      amplitudes := h.amplitudes }

theorem setYInit_reject {c : Dmp} {s : Verif.Dmp} (h : Matches c s) {y : List ℝ}
    (hy : y.length ≠ s.dimY) : setYInit y c = .error .assertion := by
  unfold setYInit
  rw [if_pos (by rw [h.dimY]; exact hy)]
  rfl

theorem setYAttr_reject {c : Dmp} {s : Verif.Dmp} (h : Matches c s) {y : List ℝ}
    (hy : y.length ≠ s.dimY) : setYAttr y c = .error .assertion := by
  obtain ⟨cg, sg, hcg, hsg, tg, -⟩ := h.goal
  have hx : sg.dimX = s.dimY := h.wf.goalDim _ hsg
  unfold setYAttr
  have : cg.setXAttr y = .error .assertion := by
    rw [Exponential.setXAttr, if_pos]
    have : cg.dimX = sg.dimX := tg.1.dimX
    rw [this, hx]
    exact hy
  simp only [hcg, this]
  rfl

/-! ### Integration in Python does not fail -/

/-- There is a forcing term for every state. -/
def Forced (s : Verif.Dmp) : Prop := ∀ p q : List ℝ, p.length = 1 → ∃ f, s.forcing p q = .ok f

theorem diffEq_total {c : Dmp} {s : Verif.Dmp} (h : Matches c s) (hf : Forced s) {x : List ℝ}
    (hx : x.length = 4 * s.dimY + 2) :
    ∃ xd s' c', Verif.Dmp.diffEq x s = (.ok xd, s') ∧ xd.length = 4 * s.dimY + 2 ∧ Matches c' s' ∧
      Forced s' ∧ s'.dimY = s.dimY := by
  obtain ⟨y, z, g, p, q, cc, sz, rfl⟩ := Verif.Dmp.exists_pack hx
  obtain ⟨f, hf'⟩ := hf p q sz.p
  have hv : ∃ xd, s.vf y z g p q cc = .ok xd := by
    unfold Verif.Dmp.vf
    rw [h.springGoal, hf']
    exact ⟨_, rfl⟩
  obtain ⟨xd, hv⟩ := hv
  refine ⟨xd, s.touched g cc, c.stepped g, ?_, (diffEq_eq h sz hv).1, h.stepped cc sz.g, hf, rfl⟩
  rw [Verif.Dmp.diffEq_run h.wf sz, h.springGoal, hv]

theorem step_total {c : Dmp} {s : Verif.Dmp} (h : Matches c s) (hf : Forced s) (m : DynSys.Method)
    (dt : ℝ) {x : List ℝ} (hx : x.length = 4 * s.dimY + 2) :
    ∃ r s' c', DynSys.step m dt x s = (.ok r, s') ∧ r.1.length = 4 * s.dimY + 2 ∧ Matches c' s' ∧
      Forced s' ∧ s'.dimY = s.dimY := by
  have hd : DynSys.dimX s = 4 * s.dimY + 2 := h.wf.dimX
  cases m with
  | euler =>
    obtain ⟨k1, s1, c1, p1, l1, h1, f1, d1⟩ := diffEq_total h hf hx
    refine ⟨(vadd x (vscale dt k1), k1), s1, c1, ?_, by simp [hx, l1], h1, f1, d1⟩
    change DynSys.eulerStep dt x s = _
    unfold DynSys.eulerStep
    rw [PyM.self_bind, if_neg (by rw [hx, hd]; simp)]
    exact (PyM.bind_ok p1).trans rfl
  | rungeKutta =>
    obtain ⟨k1, s1, c1, p1, l1, h1, f1, d1⟩ := diffEq_total h hf hx
    obtain ⟨k2, s2, c2, p2, l2, h2, f2, d2⟩ := diffEq_total h1 f1
      (x := vadd x (vscale (dt * 0.5) k1)) (by simp [hx, l1, d1])
    obtain ⟨k3, s3, c3, p3, l3, h3, f3, d3⟩ := diffEq_total h2 f2
      (x := vadd x (vscale (dt * 0.5) k2)) (by simp [hx, l2, d1, d2])
    obtain ⟨k4, s4, c4, p4, l4, h4, f4, d4⟩ := diffEq_total h3 f3
      (x := vadd x (vscale dt k3)) (by simp [hx, l3, d1, d2, d3])
    have l5 : (vadd x (vdivs (vscale dt (vadd (vadd k1 (vscale 2 (vadd k2 k3))) k4)) 6)).length =
        4 * s.dimY + 2 := by simp [hx, l1, l2, l3, l4, d1, d2, d3]
    obtain ⟨k5, s5, c5, p5, -, h5, f5, d5⟩ := diffEq_total h4 f4 (l5.trans (by rw [d4, d3, d2, d1]))
    refine ⟨(vadd x (vdivs (vscale dt (vadd (vadd k1 (vscale 2 (vadd k2 k3))) k4)) 6), k5), s5, c5, ?_, l5,
      h5, f5, by rw [d5, d4, d3, d2, d1]⟩
    · change DynSys.rungeKuttaStep dt x s = _
      unfold DynSys.rungeKuttaStep
      rw [PyM.self_bind, if_neg (by rw [hx, hd]; simp)]
      refine (PyM.bind_ok p1).trans ?_
      refine (PyM.bind_ok p2).trans ?_
      refine (PyM.bind_ok p3).trans ?_
      refine (PyM.bind_ok p4).trans ?_
      exact (PyM.bind_ok p5).trans rfl

theorem loop_total (m : DynSys.Method) : ∀ (ts : List ℝ) (t0 : ℝ) (c : Dmp) (s : Verif.Dmp) (x : List ℝ),
    Matches c s → Forced s → x.length = 4 * s.dimY + 2 →
    ∃ rows s', DynSys.integrateLoop m t0 x ts s = (.ok rows, s')
  | [], _, _, s, _, _, _, _ => ⟨[], s, rfl⟩
  | t :: ts, t0, c, s, x, h, hf, hx => by
    obtain ⟨r, s1, c1, p1, l1, h1, f1, d1⟩ := step_total h hf m (t - t0) hx
    obtain ⟨rows, s2, p2⟩ := loop_total m ts t c1 s1 r.1 h1 f1 (by rw [l1, d1])
    refine ⟨r :: rows, s2, ?_⟩
    unfold DynSys.integrateLoop
    refine (PyM.bind_ok p1).trans ?_
    exact (PyM.bind_ok p2).trans rfl

theorem start_total {c : Dmp} {s : Verif.Dmp} (h : Matches c s) (hf : Forced s) :
    ∃ r s' c', Verif.Dmp.integrateStart none s = (.ok r, s') ∧ r.1.length = 4 * s'.dimY + 2 ∧ Matches c' s' ∧
      Forced s' := by
  have hst := Verif.Dmp.startX_sizes h.wf
  have hg : s.scaleGoal s.goalStart = .ok s.goalStart := by
    unfold Verif.Dmp.scaleGoal
    rw [h.noScaling]
    rfl
  rw [Verif.Dmp.integrateStart_run h.wf, hg]
  simp only
  have m1 : Matches (c.started s.goalStart) (s.started s.goalStart) := h.started hst.g
  have hx : s.startX.length = 4 * (s.started s.goalStart).dimY + 2 := hst.length
  obtain ⟨xd, s1, c1, p1, -, h1, f1, d1⟩ := diffEq_total m1 hf hx
  exact ⟨(s.startX, xd), s1, c1, (PyM.bind_ok p1).trans rfl, by rw [d1]; exact hx, h1, f1⟩

theorem integrate_total {c : Dmp} {s : Verif.Dmp} (h : Matches c s) (hf : Forced s) (m : DynSys.Method)
    (t0 : ℝ) (ts : List ℝ) : ∃ rows s', Verif.Dmp.integrate (t0 :: ts) m s = (.ok rows, s') := by
  obtain ⟨r, s1, c1, p1, l1, h1, f1⟩ := start_total h hf
  obtain ⟨rows, s2, p2⟩ := loop_total m ts t0 c1 s1 r.1 h1 f1 l1
  refine ⟨r :: rows, s2, ?_⟩
  unfold Verif.Dmp.integrate
  refine (PyM.bind_ok p1).trans ?_
  exact (PyM.bind_ok p2).trans rfl

end Dmp

end Cpp

end Verif
