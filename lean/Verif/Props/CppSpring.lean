import Verif.Props.CppDmp
import Verif.Props.TrainScript
import Verif.Model.DmpDynParams

/-
C108: damping coefficient and spring constant of a Dmp that was read by C++, and set_params_dyn_sys of Python.
-/

set_option autoImplicit false

namespace Verif

namespace Cpp

namespace Dmp

open Verif.Dmp (Inv Change Reachable)

/-- Setters that both implementations have: those of C71, and those of the spring-damper system. -/
inductive Adjustment
  | setting (o : Setting)
  | damping (a : ℝ)
  | spring (k : ℝ)

/-- Positive time constant, right size. -/
def Adjustment.Fits (d : Nat) : Adjustment → Prop
  | .setting o => o.Fits d
  | _ => True

/-- Execution in C++. -/
noncomputable def Adjustment.cpp : Adjustment → Dmp → CppResult Dmp
  | .setting o, c => o.cpp c
  | .damping a, c => .ok (c.setDampingCoefficient a)
  | .spring k, c => .ok (c.setSpringConstant k)

/-- The same in Python. -/
noncomputable def Adjustment.py : Adjustment → PyM Verif.Dmp Unit
  | .setting o => ⟨fun s => o.py.run s⟩
  | .damping a => Verif.Dmp.setParamsDynSys [("spring_system", [.damping (.scalar a)])]
  | .spring k => Verif.Dmp.setParamsDynSys [("spring_system", [.spring (.scalar k)])]

/-- A sequence of setters in C++. -/
noncomputable def adjust : List Adjustment → Dmp → CppResult Dmp
  | [], c => .ok c
  | o :: os, c => do adjust os (← o.cpp c)

/-- A sequence of setters in Python. -/
noncomputable def adjustPy : List Adjustment → PyM Verif.Dmp Unit
  | [] => pure ()
  | o :: os => do o.py; adjustPy os

theorem py_damping (a : ℝ) (s : Verif.Dmp) : (Adjustment.damping a).py s =
    (.ok (), { s with spring := { s.spring with damping := .scalar a } }) := by
  rfl

theorem py_spring (k : ℝ) (s : Verif.Dmp) : (Adjustment.spring k).py s =
    (.ok (), { s with spring := { s.spring with spring := .scalar k } }) := by
  rfl

theorem wf_springs {s : Verif.Dmp} (h : s.Wf) (a k : Par ℝ) (ha : ∃ b, a = .scalar b ∨ a = s.spring.damping)
    (hk : ∃ b, k = .scalar b ∨ k = s.spring.spring) :
    ({ s with spring := { s.spring with damping := a, spring := k } } : Verif.Dmp).Wf := by
  have hs : ({ s.spring with damping := a, spring := k } : SpringDamper).Wf := by
    obtain ⟨d1, d2, d3, d4, d5, d6⟩ := h.spring
    refine ⟨d1, d2, d3, ?_, ?_, d6⟩
    · obtain ⟨b, rfl | rfl⟩ := ha
      · trivial
      · exact d4
    · obtain ⟨b, rfl | rfl⟩ := hk
      · trivial
      · exact d5
  exact ⟨h.dimX, h.yAttr, h.yInit, hs, h.springDim, h.phase, h.phaseDim, h.gating, h.gatingDim, h.goal, h.goalDim,
    h.damping, h.dampingDim, h.amplitudes⟩

theorem matches_damping {c : Dmp} {s : Verif.Dmp} (h : Matches c s) (a : ℝ) :
    Matches (c.setDampingCoefficient a) { s with spring := { s.spring with damping := .scalar a } } :=
  { wf := wf_springs h.wf (.scalar a) s.spring.spring ⟨a, .inl rfl⟩ ⟨0, .inr rfl⟩
    tau := h.tau
    dimX := h.dimX
    dimY := h.dimY
    yAttr := h.yAttr
    yInit := h.yInit
    noDamping := h.noDamping
    noScaling := h.noScaling
    spring := ⟨h.spring.base, rfl, rfl, h.spring.spring, h.spring.mass⟩
    springAttr := h.springAttr
    springTau := h.springTau
    goal := h.goal
    phase := h.phase
    phaseTau := h.phaseTau
    gating := h.gating
    gatingTau := h.gatingTau
    fas := h.fas
    scaling := h.scaling
    amplitudes := h.amplitudes }

theorem matches_spring {c : Dmp} {s : Verif.Dmp} (h : Matches c s) (k : ℝ) :
    Matches (c.setSpringConstant k) { s with spring := { s.spring with spring := .scalar k } } :=
  { wf := wf_springs h.wf s.spring.damping (.scalar k) ⟨0, .inr rfl⟩ ⟨k, .inl rfl⟩
    tau := h.tau
    dimX := h.dimX
    dimY := h.dimY
    yAttr := h.yAttr
    yInit := h.yInit
    noDamping := h.noDamping
    noScaling := h.noScaling
    spring := ⟨h.spring.base, rfl, h.spring.damping, rfl, h.spring.mass⟩
    springAttr := h.springAttr
    springTau := h.springTau
    goal := h.goal
    phase := h.phase
    phaseTau := h.phaseTau
    gating := h.gating
    gatingTau := h.gatingTau
    fas := h.fas
    scaling := h.scaling
    amplitudes := h.amplitudes }

theorem adjustment_eq {c : Dmp} {s : Verif.Dmp} (h : Matches c s) (ht : 0 < s.tau) (o : Adjustment)
    (ho : o.Fits s.dimY) : ∃ c' s', o.cpp c = .ok c' ∧ o.py s = (.ok (), s') ∧ Matches c' s' ∧ s'.dimY = s.dimY ∧
      0 < s'.tau ∧ c'.spring.mass = c.spring.mass := by
  cases o with
  | setting o =>
    obtain ⟨c', e, e1, m, d, t⟩ := setting_eq h ht o ho
    refine ⟨c', (o.py.run s).2, e, ?_, m, d, t, (setting_springs e).2.2⟩
    change o.py.run s = _
    rw [← e1]
  | damping a => exact ⟨_, _, rfl, py_damping a s, matches_damping h a, rfl, ht, rfl⟩
  | spring k => exact ⟨_, _, rfl, py_spring k s, matches_spring h k, rfl, ht, rfl⟩

theorem adjust_eq : ∀ (os : List Adjustment) {c : Dmp} {s : Verif.Dmp}, Matches c s → 0 < s.tau →
    (∀ o ∈ os, o.Fits s.dimY) → ∃ c' s', adjust os c = .ok c' ∧ adjustPy os s = (.ok (), s') ∧ Matches c' s' ∧
      s'.dimY = s.dimY ∧ 0 < s'.tau ∧ c'.spring.mass = c.spring.mass
  | [], c, s, h, ht, _ => ⟨c, s, rfl, rfl, h, rfl, ht, rfl⟩
  | o :: os, c, s, h, ht, ho => by
    obtain ⟨c1, s1, e1, p1, m1, d1, t1, k1⟩ := adjustment_eq h ht o (ho o (by simp))
    obtain ⟨c2, s2, e2, p2, m2, d2, t2, k2⟩ := adjust_eq os m1 t1 fun o' h' => by
      rw [d1]; exact ho o' (by simp [h'])
    refine ⟨c2, s2, ?_, ?_, m2, d2.trans d1, t2, k2.trans k1⟩
    · change (o.cpp c >>= adjust os) = _
      rw [e1]
      exact e2
    · unfold adjustPy
      rw [PyM.bind_ok p1]
      exact p2

/-- C108: whatever is adjusted in both implementations, both make the same motions. -/
def C108_statement : Prop :=
  ∀ (d : Nat) (s s' : Verif.Dmp) (c : Dmp) (os : List Adjustment), Reachable Known Change.Forward d s → 0 < d →
    read s = .ok c → Usable c → (∀ o ∈ os, o.Fits d) → adjustPy os s = (.ok (), s') →
    ∃ c', adjust os c = .ok c' ∧ SameMotions d c' s'

/-- C108: whatever is adjusted in both implementations, no exception is raised and no assertion violated, and
numerical integration gives the same states in both. Missing: analytical solutions, which are the same if the
system is critically damped in the end. -/
theorem C108_partial {d : Nat} {s : Verif.Dmp} (h : Reachable Known Change.Forward d s) (hd : 0 < d)
    {c : Dmp} (hr : read s = .ok c) (hu : Usable c) {os : List Adjustment} (ho : ∀ o ∈ os, o.Fits d) :
    ∃ c' s', adjust os c = .ok c' ∧ adjustPy os s = (.ok (), s') ∧ SameSteps d c' s' ∧
      ∀ a, s'.spring.damping = .scalar a → s'.spring.spring = .scalar (a * a / 4) → SameMotions d c' s' := by
  have hc := reachable_common h
  obtain ⟨c1, hr1, m⟩ := read_prepared hc (prepared_of_read hc hr hu) hd
  rw [hr] at hr1
  cases hr1
  have hdim : s.dimY = d := hc.inv.dim
  obtain ⟨c', s', e, p, m', d', t', k'⟩ := adjust_eq os m hc.tau (by rw [hdim]; exact ho)
  refine ⟨c', s', e, p, ?_, fun a h1 h2 => ?_⟩
  · have := m'.sameSteps
    rwa [d', hdim] at this
  · have h3 : s'.spring.damping = .scalar c'.spring.damping := m'.spring.damping
    have h4 : s'.spring.spring = .scalar c'.spring.spring := m'.spring.spring
    rw [h1] at h3
    rw [h2] at h4
    have := m'.sameMotions ⟨by rw [← Par.scalar.inj h3, ← Par.scalar.inj h4], k'.trans (read_critical hr).mass⟩ t'
    rwa [d', hdim] at this

/-- C108: the analytical solution in C++ does not depend on the spring constant. -/
theorem C108_ignored (k : ℝ) (ts : List ℝ) (c : Dmp) : analytical ts (c.setSpringConstant k) = analytical ts c := by
  have hl : ∀ rows (sp : Spring) t x xd, springLoop (c.setSpringConstant k) sp t x xd rows = springLoop c sp t x xd rows := by
    intro rows
    induction rows with
    | nil => intros; rfl
    | cons r rows ih =>
      intro sp t x xd
      obtain ⟨u, g, f⟩ := r
      unfold springLoop
      simp only [ih]
      rfl
  unfold analytical
  simp only [hl]
  rfl

/-- C108: a Dmp that has got another damping coefficient and spring constant in Python and is then read by C++
makes the same motions there, once set_spring_constant has been called (without this call it does not, see
C71_refuted). -/
theorem C108_mended {d : Nat} {s s' : Verif.Dmp} (h : Reachable Known Change.Forward d s) (hd : 0 < d)
    (hp : Prepared s) (a k : ℝ)
    (hs : Verif.Dmp.setParamsDynSys [("spring_system", [.damping (.scalar a), .spring (.scalar k)])] s = (.ok (), s')) :
    ∃ c, read s' = .ok c ∧ SameSteps d (c.setSpringConstant k) s' := by
  have hc := reachable_common h
  obtain ⟨a0, ha0⟩ := hp.damping
  obtain rfl : { s with spring := { s.spring with damping := .scalar a, spring := .scalar k } } = s' :=
    (Prod.mk.inj hs).2
  let s1 : Verif.Dmp := { s with spring := { s.spring with damping := .scalar a, spring := .scalar (a * a / 4) } }
  have hc1 : Common d s1 :=
    { inv := ⟨wf_springs hc.inv.wf (.scalar a) (.scalar (a * a / 4)) ⟨a, .inl rfl⟩ ⟨_, .inl rfl⟩, hc.inv.plain, hc.inv.dim⟩
      tau := hc.tau
      noDamping := hc.noDamping
      noScaling := hc.noScaling
      springTau := hc.springTau
      critical := fun b hb => by
        have e : a = b := Par.scalar.inj hb
        exact ⟨by rw [← e], (hc.critical a0 ha0).2⟩
      rest := hc.rest
      goal := by
        obtain ⟨g, h1, h2, h3, h4⟩ := hc.goal
        exact ⟨g, h1, h2, h3, fun _ => h4 ⟨a0, ha0⟩⟩
      phase := hc.phase
      gating := hc.gating }
  have hp1 : Prepared s1 := ⟨⟨a, rfl⟩, hp.yInit, hp.fas, hp.amplitudes⟩
  obtain ⟨c, hr, m⟩ := read_prepared hc1 hp1 hd
  have hdim : s.dimY = d := hc.inv.dim
  refine ⟨c, hr, ?_⟩
  have := (matches_spring m k).sameSteps
  change SameSteps s.dimY _ _ at this
  rwa [hdim] at this

/-- A Dmp with default subsystems, and with one dimension. -/
theorem spring_sample : ∃ s : Verif.Dmp, Reachable Known Change.Forward 1 s ∧ Prepared s ∧
    (∀ l, s.fas = some l → ∀ fa ∈ l, Smooth fa) ∧
    s.spring = SpringDamper.init 1 [0] [1] (.scalar 20) ∧
    s.goal = some (.exponential (.init 1 [0] [1] (.scalar 15))) := by
  obtain ⟨s0, h0, hr⟩ := sample_reachable Known {} (.inl (by simp))
    ⟨(fun _ h => nomatch h), trivial, (fun _ h => nomatch h), (fun _ h => nomatch h),
      (fun _ h => nomatch h), (fun _ h => nomatch h), (fun _ h => nomatch h)⟩
    fun s _ => ⟨one_pos, by simp, rfl, rfl, rfl, rfl, rfl⟩
  refine ⟨_, hr, ?_, ?_, ?_, ?_⟩
  all_goals obtain ⟨dflt, hd, rfl⟩ := Verif.Dmp.init_eq h0
  · refine ⟨⟨20, rfl⟩, rfl, fun i hi => ?_, fun e => nomatch e⟩
    have hi : i < 1 := hi
    obtain rfl : i = 0 := by omega
    exact ⟨_, _, rfl, rfl, level_trained 3⟩
  · rintro l ⟨⟩ fa hfa
    obtain rfl : fa = level 3 := by simpa using hfa
    exact level_smooth 3
  · rfl
  · have e : dflt.goal = some (.exponential (.init 1 [0] [1] (.scalar 15))) := by
      unfold Verif.Dmp.defaults at hd
      simp at hd
      rw [← hd]
    simp only [Verif.Dmp.placed]
    change (if dflt.requiresScaling = true then dflt.goal else dflt.goal.map (Sub.withInit [0])) = _
    rw [e]
    split_ifs <;> rfl

/-- C108 is not true: analyticalSolution does not use the spring constant that was set. -/
theorem C108_refuted : ¬ C108_statement := by
  intro H
  obtain ⟨s, hr, hp, hs, hsp, hg⟩ := spring_sample
  have hc := reachable_common hr
  have hdim : s.dimY = 1 := hc.inv.dim
  obtain ⟨c, hrd, hu⟩ := (C70_partial hr one_pos).mpr hp
  let s1 : Verif.Dmp := { s with spring := { s.spring with spring := .scalar 50 } }
  have w1 : s1.Wf := wf_springs hc.inv.wf s.spring.damping (.scalar 50) ⟨0, .inr rfl⟩ ⟨_, .inl rfl⟩
  obtain ⟨c', e', m'⟩ := H 1 s s1 c [.spring 50] hr one_pos hrd hu (by simp [Adjustment.Fits]) (by
    unfold adjustPy
    rw [PyM.bind_ok (py_spring 50 s)]
    rfl)
  cases e'
  obtain ⟨c0, e0, m0⟩ := C71_partial hr one_pos hrd hu (os := []) (by simp)
  cases e0
  obtain ⟨fa, hfa⟩ := Verif.Dmp.predictions_total hp (by omega) hs
    (p := [(1 : ℝ)].map fun t => (s.phase.xAt t).getD 0 0) (by simp)
  have hscale : s.CanScale := fun k => by rw [hc.noScaling] at k; cases k
  have hforce : s.CanForce := by
    unfold Verif.Dmp.CanForce
    cases e : s.scaling with
    | noScaling => trivial
    | gMinusY0 => exact Option.isSome_iff_ne_none.mp hp.yInit
    | amplitude => exact Option.isSome_iff_ne_none.mp (hp.amplitudes e (by omega))
  have hused : s.faUsed [1] false = .ok fa := by
    unfold Verif.Dmp.faUsed
    rw [hfa]
    rfl
  have a0 := m0.analytical (ts := [1]) (by simp)
    ((Verif.Dmp.analytical_iff hc.inv.wf (Verif.Dmp.sameStart_of_tau hc.springTau)).mpr
      ⟨hscale, hforce, by simp, fa, hused, rfl⟩)
  have a1 := m'.analytical (ts := [1]) (by simp)
    ((Verif.Dmp.analytical_iff w1 (Verif.Dmp.sameStart_of_tau hc.springTau)).mpr
      ⟨hscale, hforce, by simp, fa, hused, rfl⟩)
  rw [C108_ignored] at a1
  have a2 := congrArg Solution.xds (Except.ok.inj (a0.symm.trans a1))
  have a3 : (s.xdRow [1] (s.gated [1] fa) 0).take 5 = (s1.xdRow [1] (s1.gated [1] fa) 0).take 5 := by
    simpa [cut] using a2
  have a4 := congrArg (fun l : List ℝ => l.getD 1 0) a3
  have hy : s.spring.xInit = [0, 0] := by rw [hsp]; rfl
  have key : ∀ t : Verif.Dmp, t.dimY = 1 → ∀ F, ((t.xdRow [1] F 0).take 5).getD 1 0 = t.motAcc [1] F 0 0 := by
    intro t ht F
    unfold Verif.Dmp.xdRow Verif.Dmp.pack
    rw [ht]
    simp
  rw [key s hdim, key s1 hdim] at a4
  have hgoal : ∀ t : Verif.Dmp, t.goal = s.goal → t.requiresScaling = false →
      (t.scaled (t.goalAt 1)).getD 0 0 = 1 - Real.exp (-15) := by
    intro t h1 h2
    unfold Verif.Dmp.scaled Verif.Dmp.goalAt
    rw [h2, h1, hg]
    simp [Sub.xAt, Verif.Exponential.xAt, Verif.Exponential.xComp, Exponential.init, Par.at']
    ring_nf
  unfold Verif.Dmp.motAcc Verif.Dmp.acc Verif.Dmp.mot at a4
  simp only [List.getD_cons_zero] at a4
  rw [hgoal s rfl hc.noScaling, hgoal s1 rfl hc.noScaling] at a4
  have he : Real.exp (-15) < 1 := Real.exp_zero ▸ Real.exp_lt_exp.mpr (by norm_num : (-15 : ℝ) < 0)
  have k1 : s.spring.spring.at' 0 = 100 := by rw [hsp]; norm_num [SpringDamper.init, SpringDamper.criticalSpring, Par.at']
  have k2 : s1.spring.spring.at' 0 = 50 := rfl
  have k3 : s1.spring.xInit = s.spring.xInit := rfl
  have k4 : s.spring.mass.at' 0 = 1 := by rw [hsp]; rfl
  have k5 : s1.spring.mass = s.spring.mass := rfl
  have k6 : s.spring.tau = 1 := by rw [hsp]; rfl
  have k7 : s1.spring.tau = s.spring.tau := rfl
  have k8 : s1.gated [1] fa = s.gated [1] fa := rfl
  have k9 : s1.tau = s.tau := rfl
  have k10 : s1.dimY = 1 := hdim
  rw [k1, k2, k3, k5, k7, k8, k9, k10, hy, k4, k6] at a4
  simp at a4
  linarith

/-- The hypotheses of C108 can be met: other constants, then another duration and goal. -/
example : ∃ (s : Verif.Dmp) (c : Dmp), Reachable Known Change.Forward 1 s ∧ read s = .ok c ∧ Usable c ∧
    ∃ c' s', adjust [.spring 50, .setting (.tau 2), .damping 3, .setting (.yAttr [6])] c = .ok c' ∧
      adjustPy [.spring 50, .setting (.tau 2), .damping 3, .setting (.yAttr [6])] s = (.ok (), s') ∧ SameSteps 1 c' s' := by
  obtain ⟨s, hr, hp, -⟩ := spring_sample
  obtain ⟨c, hc, hu⟩ := (C70_partial hr one_pos).mpr hp
  have hf : ∀ o ∈ [Adjustment.spring 50, .setting (.tau 2), .damping 3, .setting (.yAttr [6])], o.Fits 1 := by
    intro o ho
    simp only [List.mem_cons, List.not_mem_nil, or_false] at ho
    rcases ho with rfl | rfl | rfl | rfl
    · trivial
    · exact two_pos
    · trivial
    · rfl
  obtain ⟨c', s', h1, h2, h3, -⟩ := C108_partial hr one_pos hc hu hf
  exact ⟨s, c, hr, hc, hu, c', s', h1, h2, h3⟩

/-- The hypotheses of C108_mended can be met, with a system that is not critically damped. -/
example : ∃ (s s' : Verif.Dmp) (c : Dmp), Reachable Known Change.Forward 1 s ∧ Prepared s ∧
    Verif.Dmp.setParamsDynSys [("spring_system", [.damping (.scalar 3), .spring (.scalar 50)])] s = (.ok (), s') ∧
    read s' = .ok c ∧ SameSteps 1 (c.setSpringConstant 50) s' := by
  obtain ⟨s, hr, hp, -⟩ := spring_sample
  obtain ⟨c, h1, h2⟩ := C108_mended (s' := { s with spring := { s.spring with damping := .scalar 3, spring := .scalar 50 } })
    hr one_pos hp 3 50 rfl
  exact ⟨s, _, c, hr, hp, rfl, h1, h2⟩

end Dmp

end Cpp

end Verif
