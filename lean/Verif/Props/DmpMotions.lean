import Verif.Props.DmpExists

/- Dmp: there is exactly one exact motion from each start, and both ways of integrating are close to it (C84). -/

set_option autoImplicit false

namespace Verif

namespace Dmp

open Filter Topology Set Spec
open DynSys (Method)

variable {d : Nat}

/-! ### Objects with the default subsystems -/

/-- Moreover, the phase starts where its analytical solution does, the spring-damper system has the time constant of
the Dmp, and a goal is scaled only if there is a goal system. -/
structure Own (d : Nat) (s : Dmp) : Prop extends Standard d s where
  fromStart : s.phase.FromStart
  sameTau : s.spring.tau = s.tau
  scaledGoal : s.goal = none → s.requiresScaling = false

theorem Sub.fromStart_touch (s : Sub) : s.touch.FromStart ↔ s.FromStart := by cases s <;> rfl

theorem Sub.fromStart_withTau (s : Sub) (t : ℝ) : (s.withTau t).FromStart ↔ s.FromStart := by cases s <;> rfl

theorem kept_own : Kept d (Own d) where
  inv _ h := h.inv
  core s t h i hc := by
    refine ⟨kept_standard.core s t h.toStandard i hc, ?_, ?_, ?_⟩
    · have h1 : t.phase.touch = s.phase.touch := congrArg (fun r : Dmp => r.phase) hc
      rw [← Sub.fromStart_touch, h1, Sub.fromStart_touch]
      exact h.fromStart
    · rw [core_springTau hc, core_tau hc]
      exact h.sameTau
    · have h1 : t.goal.map Sub.touch = s.goal.map Sub.touch := congrArg (fun r : Dmp => r.goal) hc
      have h2 : t.core.requiresScaling = s.core.requiresScaling := by rw [hc]
      change t.requiresScaling = s.requiresScaling at h2
      intro e
      rw [h2]
      refine h.scaledGoal ?_
      rw [e] at h1
      cases e' : s.goal with
      | none => rfl
      | some g => rw [e'] at h1; cases h1
  tau s t h ht := ⟨kept_standard.tau s t h.toStandard ht, (Sub.fromStart_withTau _ _).mpr h.fromStart,
    springTau_retimed t h.tau h.sameTau, fun e => h.scaledGoal (Option.map_eq_none_iff.mp e)⟩
  place s y h hy := ⟨kept_standard.place s y h.toStandard hy, h.fromStart, h.sameTau, fun e => by
    change (if s.requiresScaling then s.goal else s.goal.map (Sub.withInit y)) = none at e
    by_cases hr : s.requiresScaling = true
    · rw [if_pos hr] at e
      exact h.scaledGoal e
    · change s.requiresScaling = false
      simpa using hr⟩
  aim s y h hy := ⟨kept_standard.aim s y h.toStandard hy, h.fromStart, h.sameTau, fun e => by
    change (if s.requiresScaling then s.goal else s.goal.map (Sub.withAttr y)) = none at e
    by_cases hr : s.requiresScaling = true
    · rw [if_pos hr] at e
      exact h.scaledGoal e
    · change s.requiresScaling = false
      simpa using hr⟩
  other s f a ts sel h i := ⟨kept_standard.other s f a ts sel h.toStandard i, h.fromStart, h.sameTau, h.scaledGoal⟩
  decouple s h := ⟨kept_standard.decouple s h.toStandard, h.fromStart, h.sameTau,
    fun e => h.scaledGoal (Option.map_eq_none_iff.mp e)⟩

theorem init_own (tau : ℝ) (yInit yAttr : List ℝ) (fas : Option (List Fa)) (o : Options) (s : Dmp)
    (h : init tau yInit yAttr fas o = .ok s) (hi : yInit.length = d) (ha : yAttr.length = d)
    (ho : o.Fits d) (hg : DefaultScaled tau yInit yAttr o s) : Own d s := by
  have st := init_standard tau yInit yAttr fas o s h hi ha ho hg
  obtain ⟨⟨hτ, hα, htr, hgn, hgt, hph, hdp⟩, -⟩ := hg
  obtain ⟨dflt, hd, rfl⟩ := init_eq h
  have key : dflt.phase.FromStart ∧ (dflt.goal = none → dflt.requiresScaling = false) := by
    unfold defaults at hd
    simp only at hd
    by_cases h1 : o.dmpType = "IJSPEERT_2002_MOVEMENT" ∨ o.dmpType = "Ijs02"
    · rw [if_pos h1] at hd
      cases hd
      exact ⟨trivial, fun _ => rfl⟩
    rw [if_neg h1] at hd
    by_cases h2 : o.dmpType = "KULVICIUS_2012_JOINING" ∨ o.dmpType = "Kul12" ∨ o.dmpType = "COUNTDOWN_2013"
    · rw [if_pos h2] at hd
      cases hd
      exact ⟨rfl, fun _ => rfl⟩
    rw [if_neg h2] at hd
    by_cases h3 : (isIn "2022" o.dmpType || isIn "SCT23" o.dmpType) = true
    · rw [if_pos h3] at hd
      cases hd
      exact ⟨rfl, fun e => nomatch e⟩
    · rw [if_neg h3] at hd
      cases hd
  refine ⟨st, ?_, ?_, ?_⟩
  · change (o.phase.getD dflt.phase).FromStart
    rw [hph]
    exact key.1
  · change (o.transformation.getD _).tau = tau
    rw [htr]
    rfl
  · change o.goal.getD dflt.goal = none → _
    rw [hgn]
    exact key.2

/-! ### Calls that succeed -/

/-- The function approximators have an output for each phase. -/
def Answers (s : Dmp) : Prop := ∀ p : ℝ, ∃ rows, s.predictions [p] = .ok rows

theorem total_of_can {s : Dmp} (g : Good d s) (ha : s.Answers) (hs : s.CanScale) (hc : s.CanForce) {x : List ℝ}
    (hx : x.length = 4 * d + 2) : ∃ xd, (diffEq x s).1 = .ok xd := by
  have w := g.wf
  obtain rfl := g.dim
  obtain ⟨y, z, gg, p, q, c, hz, rfl⟩ := exists_pack hx
  rw [diffEq_run w hz]
  have h1 : ∃ ga, s.springGoal gg = .ok ga := by
    unfold springGoal
    cases s.goal with
    | none => exact ⟨_, rfl⟩
    | some _ => exact ⟨_, scaleGoal_ok hs _⟩
  obtain ⟨ga, h1⟩ := h1
  have h3 : ∃ f, s.forcing p q = .ok f := by
    obtain ⟨p0, rfl⟩ := List.length_eq_one_iff.mp hz.p
    obtain ⟨rows, h2⟩ := ha p0
    obtain ⟨l1, l2⟩ := predictions_length h2
    obtain ⟨r0, rfl⟩ := List.length_eq_one_iff.mp l1
    unfold forcing
    rw [h2]
    exact ⟨_, scaleForcing_ok w hc (by simpa using l2 r0 (by simp))⟩
  obtain ⟨f, h3⟩ := h3
  unfold vf
  rw [h1, h3]
  exact ⟨_, rfl⟩

theorem canForce_of_start {s : Dmp} (g : Good d s) {r : List ℝ × List ℝ} (h : (integrateStart none s).1 = .ok r) :
    s.CanForce := by
  obtain ⟨-, hv⟩ := integrateStart_ok g (x := r.1) (xd := r.2) h
  unfold vf at hv
  obtain ⟨ga, -, hv⟩ := except_bind_ok hv
  obtain ⟨f, hf, -⟩ := except_bind_ok hv
  unfold forcing at hf
  obtain ⟨fa, -, hf⟩ := except_bind_ok hf
  by_contra hc
  obtain ⟨e, he⟩ := scaleForcing_error hc (vscale (s.gating.base.xInit.getD 0 0) (fa.getD 0 []))
  simp only [he] at hf
  cases hf

/-- If `integrate_start` succeeds, then so does differential_equation at each state. -/
theorem total_of_start {s : Dmp} (g : Good d s) (ha : s.Answers) {r : List ℝ × List ℝ}
    (h : (integrateStart none s).1 = .ok r) :
    s.CanScale ∧ ∀ x : List ℝ, x.length = 4 * d + 2 → ∃ xd, (diffEq x s).1 = .ok xd := by
  have hs : s.CanScale := by
    by_contra hc
    rw [integrateStart_run g.wf] at h
    simp only [scaleGoal_error hc] at h
    cases h
  exact ⟨hs, fun x hx => total_of_can g ha hs (canForce_of_start g h) hx⟩

/-! ### Uniqueness -/

/-- Euler's method makes as many steps as wanted. -/
theorem euler_runs {s : Dmp} (g : Good d s)
    (ht : ∀ x : List ℝ, x.length = 4 * d + 2 → ∃ xd, (diffEq x s).1 = .ok xd) {x0 : List ℝ}
    (h0 : x0.length = 4 * d + 2) (h : ℝ) (N : Nat) :
    ∃ X u, StepsOn s .euler N (fun n => (n : ℝ) * h) X u ∧ X 0 = x0 := by
  choose! F hF using ht
  have lF : ∀ x : List ℝ, x.length = 4 * d + 2 → (F x).length = 4 * d + 2 := fun x hx =>
    vf_pack_length g hx (hF x hx)
  let X : Nat → List ℝ := fun n => Nat.rec x0 (fun _ x => vadd x (vscale h (F x))) n
  have hX : ∀ n, X (n + 1) = vadd (X n) (vscale h (F (X n))) := fun _ => rfl
  have lX : ∀ n, (X n).length = 4 * d + 2 := by
    intro n
    induction n with
    | zero => exact h0
    | succ n ih => rw [hX]; simp [ih, lF _ ih]
  refine ⟨X, fun n _ => X n, ⟨fun i _ => (lX i).trans (good_length g).symm,
    fun i _ _ => (lX i).trans (good_length g).symm, fun i _ => ⟨fun _ => F (X i), fun _ => hF _ (lX i), ?_⟩⟩, rfl⟩
  intro a ha
  rw [good_length g] at ha
  refine ⟨rfl, rfl, rfl, rfl, ?_⟩
  rw [hX, getD_vadd (by rw [lX]; exact ha) (by simp [lF _ (lX i)]; exact ha), getD_vscale]
  have : ((i + 1 : Nat) : ℝ) * h - i * h = h := by push_cast; ring
  rw [this]
  rfl

/-- Two motions with the same start are the same. -/
theorem motion_determined {s : Dmp} (g : Good d s) (sm : SmoothParts d s)
    (ht : ∀ x : List ℝ, x.length = 4 * d + 2 → ∃ xd, (diffEq x s).1 = .ok xd) {x x' : ℝ → List ℝ} (hx : Obeys s x)
    (hx' : Obeys s x') (h0 : x 0 = x' 0) {t : ℝ} (t0 : 0 ≤ t) : x t = x' t := by
  refine ext_getD 0 ((hx.len t t0).trans (hx'.len t t0).symm) fun i hi => ?_
  rw [hx.len t t0] at hi
  refine eq_of_abs_sub_le_all fun ε ε0 => ?_
  obtain ⟨δ, p, h⟩ := all_close g sm hx t0 .euler (half_pos ε0)
  obtain ⟨δ', p', h'⟩ := all_close g sm hx' t0 .euler (half_pos ε0)
  obtain ⟨N, hN⟩ := exists_nat_gt (t / min δ δ')
  have m0 : 0 < min δ δ' := lt_min p p'
  have N0 : (0 : ℝ) < N := lt_of_le_of_lt (by positivity) hN
  obtain ⟨X, u, hr, e⟩ := euler_runs g ht ((hx.len 0 le_rfl).trans (good_length g)) (t / N) N
  have grid : Grid t (min δ δ') N (fun n => (n : ℝ) * (t / N)) := by
    refine ⟨by simp, fun n _ => ?_, fun n _ => ?_, ?_⟩
    · have : 0 ≤ t / N := by positivity
      push_cast
      linarith
    · have : t / N ≤ min δ δ' := by
        rw [div_le_iff₀ N0]
        rw [div_lt_iff₀ m0] at hN
        linarith
      push_cast
      linarith
    · exact (mul_div_cancel₀ t N0.ne').le
  have a := (h _ _ X u (grid.finer (min_le_left _ _)) hr e i hi).1 N le_rfl
  have b := (h' _ _ X u (grid.finer (min_le_right _ _)) hr (e.trans h0) i hi).1 N le_rfl
  simp only [mul_div_cancel₀ t N0.ne'] at a b
  rw [abs_sub_comm] at a
  have := abs_sub_le ((x t).getD i 0) ((X N).getD i 0) ((x' t).getD i 0)
  linarith

/-- C84: from the start state of `integrate_start` there is exactly one exact motion. -/
theorem C84_motion (d : Nat) (s : Dmp) (h : Reachable DefaultScaled Change.Forward d s) (ha : s.Answers)
    (r : List ℝ × List ℝ) (h0 : (integrateStart none s).1 = .ok r) :
    ∃ x, Obeys s x ∧ x 0 = r.1 ∧ ∀ x', Obeys s x' → x' 0 = r.1 → ∀ t, 0 ≤ t → x' t = x t := by
  have own := kept_own.reachable init_own h
  have hs := own.toStandard.toSettles
  have g := hs.inv.good
  obtain ⟨-, ht⟩ := total_of_start g ha h0
  obtain ⟨e, -⟩ := integrateStart_ok g (x := r.1) (xd := r.2) h0
  have sz := startX_sizes g.wf
  obtain ⟨x, -, -, hx, e0, -⟩ := exists_motion hs own.fromStart ht (sz.y.trans g.dim) (sz.z.trans g.dim)
  exact ⟨x, hx, e0.trans e.symm, fun x' hx' h' t t0 =>
    motion_determined g hs.smooth ht hx' hx (h'.trans (e.trans e0.symm)) t0⟩

/-! ### analytical_solution -/

/-- The step of `analytical_solution` in dimension `j`: Euler's method, with the exact states of the subsystems. -/
theorem mot_step {s : Dmp} (own : Own d s) {G : Nat → ℝ → ℝ}
    (hG : ∀ (phases : List ℝ) (rows : List (List ℝ)), s.predictions phases = .ok rows → ∀ t, t < phases.length →
      ∀ i, i < s.dimY → (rows.getD t []).getD i 0 = G i (phases.getD t 0)) {ts : List ℝ} {fa : List (List ℝ)}
    (hfa : s.faUsed ts false = .ok fa) (hs : s.CanScale) {i j : Nat} (hi : i < ts.length) (hj : j < s.dimY) :
    ((s.mot ts (s.gated ts fa) j i).2 / s.tau, s.motAcc ts (s.gated ts fa) j i) =
      s.pairRate j (G j) (s.mot ts (s.gated ts fa) j i, ((s.goalAt (ts.getD i 0)).getD j 0,
        (s.dampAt (ts.getD i 0)).getD j 0, (s.phase.xAt (ts.getD i 0)).getD 0 0,
        (s.gating.xAt (ts.getD i 0)).getD 0 0)) := by
  have w := own.inv.wf
  obtain ⟨l1, -⟩ := faUsed_length hfa
  have ef : (fa.getD i []).getD j 0 = G j ((s.phase.xAt (ts.getD i 0)).getD 0 0) := by
    unfold faUsed at hfa
    obtain ⟨r, h1, h2⟩ := except_bind_ok hfa
    cases h2
    have := hG _ _ h1 i (by simpa using hi) j hj
    rw [getD_map' hi 0 0] at this
    exact this
  have eg : (s.scaled (s.goalAt (ts.getD i 0))).getD j 0 = s.goalOf j ((s.goalAt (ts.getD i 0)).getD j 0) := by
    have l := goalAt_length w (ts.getD i 0)
    cases e : s.goal with
    | none =>
      have e2 := own.scaledGoal e
      unfold scaled goalOf goalAt
      rw [e, e2]
      rfl
    | some gs =>
      have : s.springGoal (s.goalAt (ts.getD i 0)) = .ok (s.scaled (s.goalAt (ts.getD i 0))) := by
        unfold springGoal
        rw [e]
        exact scaleGoal_ok hs _
      exact springGoal_getD w l this hj
  have ec : (s.dampAt (ts.getD i 0)).getD j 0 = s.dampOf j ((s.dampAt (ts.getD i 0)).getD j 0) := by
    unfold dampOf dampAt
    cases s.damping with
    | none => simp only [full, getD_range_map hj]
    | some _ => rfl
  unfold motAcc acc pairRate
  simp only
  rw [eg, ← ec, gated_getD l1 hi hj, ef, own.sameTau]

/-- C84: the same for `analytical_solution`, at times that begin with 0. -/
theorem C84_analytical (d : Nat) (s : Dmp) (h : Reachable DefaultScaled Change.Forward d s) (ha : s.Answers)
    (x : ℝ → List ℝ) (hx : Obeys s x) (h0 : ∃ xd, (integrateStart none s).1 = .ok (x 0, xd)) (T : ℝ) (hT : 0 ≤ T)
    (ε : ℝ) (hε : 0 < ε) :
    ∃ δ : ℝ, 0 < δ ∧ ∀ ts sol, Spaced T δ ts → ts.getD 0 0 = 0 → (analytical (some ts) false s).1 = .ok sol →
      sol.xs.length = ts.length ∧ sol.xds.length = ts.length ∧ ∀ i, i < ts.length →
        (∀ j, j < 4 * d + 2 → |(sol.xs.getD i []).getD j 0 - (x (ts.getD i 0)).getD j 0| ≤ ε) ∧
        ∀ v, (diffEq (x (ts.getD i 0)) s).1 = .ok v → ∀ j, j < d + d →
          |(sol.xds.getD i []).getD j 0 - v.getD j 0| ≤ ε := by
  have own := kept_own.reachable init_own h
  have hs := own.toStandard.toSettles
  have g := hs.inv.good
  have w := g.wf
  obtain rfl := g.dim
  obtain ⟨xd0, h0⟩ := h0
  obtain ⟨hsc, ht⟩ := total_of_start g ha h0
  obtain ⟨e0, -⟩ := integrateStart_ok g h0
  have sz0 := startX_sizes w
  have dx := w.dimX
  -- the motion, with the analytical solutions of the subsystems
  obtain ⟨x', y, z, hx', s0, parts⟩ := exists_motion hs own.fromStart ht sz0.y sz0.z
  have same : ∀ t, 0 ≤ t → x t = x' t := fun t t0 =>
    motion_determined g hs.smooth ht hx hx' (e0.trans s0.symm) t0
  have inp : ∀ t, 0 ≤ t → ∀ j, j < s.dimY → inputsOf s.dimY j (x t) = ((s.goalAt t).getD j 0,
      (s.dampAt t).getD j 0, (s.phase.xAt t).getD 0 0, (s.gating.xAt t).getD 0 0) := by
    intro t t0 j hj
    obtain ⟨sz, e⟩ := parts t
    rw [same t t0, e, sz.inputs hj]
  obtain ⟨G, hG, hG2⟩ := s.predictions_smooth
  obtain ⟨η, η0, hη⟩ := rates_close g hx T hε
  have ρ0 : 0 < min ε η := lt_min hε η0
  obtain ⟨δ, δ0, hδ⟩ := Sub.exists_fine (d := s.dimY) (P := fun j δ => ∀ ts fa, Spaced T δ ts → ts.getD 0 0 = 0 →
      s.faUsed ts false = .ok fa → ∀ i, i < ts.length →
      ‖s.mot ts (s.gated ts fa) j i - ((x (ts.getD i 0)).getD j 0, (x (ts.getD i 0)).getD (s.dimY + j) 0)‖ ≤ min ε η)
    (fun j hj => by
      obtain ⟨δ, δ0, hδ⟩ := steps_converge (F := s.pairRate j (G j))
        (x := fun t => ((x t).getD j 0, (x t).getD (s.dimY + j) 0)) (p := fun t => inputsOf s.dimY j (x t))
        (s.pairRate_smooth j (hG j)).locallyLipschitz hT
        (((hx.cont j (by omega)).prodMk (hx.cont (s.dimY + j) (by omega))).mono fun t h => h.1)
        (((hx.cont _ (by omega)).prodMk ((hx.cont _ (by omega)).prodMk
          ((hx.cont _ (by omega)).prodMk (hx.cont _ (by omega))))).mono fun t h => h.1)
        (fun t h => by
          obtain ⟨xd, hxd, hd⟩ := hx.ode t h.1
          rw [← pair_rates w hG2 (hx.len t h.1) hxd hj]
          exact (hd j (by omega)).prodMk (hd (s.dimY + j) (by omega))) .euler ρ0
      refine ⟨δ, δ0, fun ts fa sp t0 hfa i hi => ?_⟩
      have grid := sp.grid hT
      simp only [t0, sub_zero] at grid
      have nn : ∀ n, n ≤ ts.length - 1 → 0 ≤ ts.getD n 0 := fun n hn => grid.nonneg hn
      refine (hδ (ts.length - 1) (fun i => ts.getD i 0) (s.mot ts (s.gated ts fa) j)
        (fun n _ => s.mot ts (s.gated ts fa) j n)
        (fun n _ => ((s.mot ts (s.gated ts fa) j n).2 / s.tau, s.motAcc ts (s.gated ts fa) j n))
        (fun n _ => inputsOf s.dimY j (x (ts.getD n 0))) grid ?_ ?_ ?_ ?_).1 i (by omega)
      · rw [e0]
        unfold startX
        have e1 : (s.spring.xInit.take s.dimY).getD j 0 = s.spring.xInit.getD j 0 := by
          simp [List.getD_eq_getElem?_getD, List.getElem?_take, hj]
        have e2 : (s.spring.xInit.drop s.dimY).getD j 0 = s.spring.xInit.getD (s.dimY + j) 0 := by
          simp [List.getD_eq_getElem?_getD]
        rw [sz0.getD_y hj, sz0.getD_z hj, e1, e2]
        rfl
      · intro n hn _
        simp [δ0.le]
      · intro n hn _
        rw [mot_step own hG2 hfa hsc (by omega) hj, inp _ (nn n hn.le) j hj]
      · intro n hn
        exact ⟨rfl, rfl, rfl, rfl, rfl⟩)
    (fun j δ δ' h1 h2 ts fa sp => h2 ts fa ⟨sp.forward, fun i hi => (sp.fine i hi).trans h1, sp.upto⟩)
  refine ⟨δ, δ0, fun ts sol sp t0 hsol => ?_⟩
  obtain ⟨-, -, ne, fa, hfa, rfl⟩ := (analytical_iff w (sameStart_of_tau own.sameTau)).mp hsol
  refine ⟨by simp, by simp, fun i hi => ?_⟩
  simp only [getD_range_map hi]
  have grid := sp.grid hT
  simp only [t0, sub_zero] at grid
  have ti : 0 ≤ ts.getD i 0 := grid.nonneg (by omega)
  have tT : ts.getD i 0 ≤ T := grid.le (n := i) (by omega)
  have close : ∀ j, j < 4 * s.dimY + 2 →
      |(s.xRow ts (s.gated ts fa) i).getD j 0 - (x (ts.getD i 0)).getD j 0| ≤ min ε η := by
    intro j hj
    have sr := xRow_sizes w ts (s.gated ts fa) i
    obtain ⟨sz, e⟩ := parts (ts.getD i 0)
    have near := fun j hj => hδ j hj ts fa sp t0 hfa i hi
    rw [same _ ti, e] at near ⊢
    unfold xRow
    simp only
    rcases index_cases hj with c | ⟨j, c, rfl⟩ | ⟨j, c, rfl⟩ | rfl | rfl | ⟨j, c, rfl⟩
    · have := (norm_fst_le _).trans (near j c)
      rw [sr.getD_y c, getD_range_map c]
      exact this
    · have := (norm_snd_le _).trans (near j c)
      rw [sr.getD_z c, getD_range_map c]
      exact this
    · rw [sr.getD_g c, sz.getD_g c, sub_self, abs_zero]
      exact ρ0.le
    · rw [sr.getD_p, sz.getD_p, sub_self, abs_zero]
      exact ρ0.le
    · rw [sr.getD_q, sz.getD_q, sub_self, abs_zero]
      exact ρ0.le
    · rw [sr.getD_c c, sz.getD_c c, sub_self, abs_zero]
      exact ρ0.le
  refine ⟨fun j hj => (close j hj).trans (min_le_left _ _), fun v hv j hj => ?_⟩
  have sr := xRow_sizes w ts (s.gated ts fa) i
  have sd := xdRow_sizes w ts (s.gated ts fa) i
  have lr : (s.xRow ts (s.gated ts fa) i).length = 4 * s.dimY + 2 := sr.length
  obtain ⟨u, hu⟩ := ht _ lr
  have key := hη _ ti tT _ (lr.trans dx.symm) (fun j hj => (close j (dx ▸ hj)).trans (min_le_right _ _)) u v hu hv
  have eq : ∀ j, j < s.dimY → u.getD j 0 = (s.xdRow ts (s.gated ts fa) i).getD j 0 ∧
      u.getD (s.dimY + j) 0 = (s.xdRow ts (s.gated ts fa) i).getD (s.dimY + j) 0 := by
    intro j hj
    have e1 := pair_rates w hG2 (lr.trans dx.symm) hu hj
    have e2 := mot_step own hG2 hfa hsc hi hj
    unfold xRow at e1
    simp only at e1
    rw [sr.inputs hj, sr.getD_y hj, sr.getD_z hj, getD_range_map hj, getD_range_map hj] at e1
    have e3 := e1.trans e2.symm
    unfold xdRow
    simp only
    rw [sd.getD_y hj, sd.getD_z hj, getD_range_map hj, getD_range_map hj]
    exact ⟨congrArg Prod.fst e3, congrArg Prod.snd e3⟩
  rcases lt_or_ge j s.dimY with c | c
  · rw [← (eq j c).1]
    exact (key j c).1
  · have := (key (j - s.dimY) (by omega)).2
    rw [(eq (j - s.dimY) (by omega)).2, Nat.add_sub_of_le c] at this
    exact this

/-- C84: `integrate` and `analytical_solution` agree up to any precision, if the times are sufficiently close to each
other. -/
theorem C84_agree (d : Nat) (s : Dmp) (h : Reachable DefaultScaled Change.Forward d s) (ha : s.Answers) (T : ℝ)
    (hT : 0 ≤ T) (m : Method) (ε : ℝ) (hε : 0 < ε) :
    ∃ δ : ℝ, 0 < δ ∧ ∀ ts rows sol, Spaced T δ ts → ts.getD 0 0 = 0 → (integrate ts m s).1 = .ok rows →
      (analytical (some ts) false s).1 = .ok sol → rows.length = sol.xs.length ∧ rows.length = sol.xds.length ∧
      ∀ i, i < rows.length →
        (∀ j, j < 4 * d + 2 → |(rows.getD i ([], [])).1.getD j 0 - (sol.xs.getD i []).getD j 0| ≤ ε) ∧
        ∀ j, j < d + d → |(rows.getD i ([], [])).2.getD j 0 - (sol.xds.getD i []).getD j 0| ≤ ε := by
  have g := (kept_own.reachable init_own h).inv.good
  by_cases h0 : ∃ r, (integrateStart none s).1 = .ok r
  · obtain ⟨r, h0⟩ := h0
    obtain ⟨x, hx, e, -⟩ := C84_motion d s h ha r h0
    have h1 : ∃ xd, (integrateStart none s).1 = .ok (x 0, xd) := ⟨r.2, by rw [h0, e]⟩
    obtain ⟨-, ht⟩ := total_of_start g ha h0
    obtain ⟨δ, p, k⟩ := C84_integrate d s h x hx h1 T hT m (ε / 2) (half_pos hε)
    obtain ⟨δ', p', k'⟩ := C84_analytical d s h ha x hx h1 T hT (ε / 2) (half_pos hε)
    refine ⟨min δ δ', lt_min p p', fun ts rows sol sp t0 hr hs => ?_⟩
    obtain ⟨l, k⟩ := k ts rows ⟨sp.forward, fun i hi => (sp.fine i hi).trans (min_le_left _ _), sp.upto⟩ hr
    obtain ⟨l1, l2, k'⟩ := k' ts sol ⟨sp.forward, fun i hi => (sp.fine i hi).trans (min_le_right _ _), sp.upto⟩ t0 hs
    refine ⟨by omega, by omega, fun i hi => ?_⟩
    have k := k i (by omega)
    have k' := k' i (by omega)
    rw [t0, sub_zero] at k
    have tri : ∀ {a b c : ℝ}, |a - c| ≤ ε / 2 → |b - c| ≤ ε / 2 → |a - b| ≤ ε := by
      intro a b c h1 h2
      rw [abs_sub_comm] at h2
      have := abs_sub_le a c b
      linarith
    refine ⟨fun j hj => tri (k.1 j hj) (k'.1 j hj), fun j hj => ?_⟩
    have ti : 0 ≤ ts.getD i 0 := by
      have := (sp.grid hT).nonneg (n := i) (by omega)
      simp only [t0, sub_zero] at this
      exact this
    obtain ⟨v, hv⟩ := ht _ ((hx.len _ ti).trans (good_length g))
    exact tri (k.2 v hv j hj) (k'.2 v hv j hj)
  · exact ⟨1, one_pos, fun ts rows sol _ _ hr _ => absurd ⟨_, (integrate_rows g hr).2.2.1⟩ h0⟩

/-! ### The calls succeed -/

/-- If `integrate_start` succeeds, then so does `integrate`, for each non-empty list of times. -/
theorem integrate_total {s : Dmp} (g : Good d s)
    (ht : ∀ x : List ℝ, x.length = 4 * d + 2 → ∃ xd, (diffEq x s).1 = .ok xd) (hs : s.CanScale) (m : Method)
    {ts : List ℝ} (ne : ts ≠ []) : ∃ rows, (integrate ts m s).1 = .ok rows := by
  have loop : ∀ (ts : List ℝ) (t0 : ℝ) (x : List ℝ) (t : Dmp), x.length = 4 * d + 2 → Good d t → t.core = s.core →
      ∃ rows, (DynSys.integrateLoop m t0 x ts t).1 = .ok rows := by
    intro ts
    induction ts with
    | nil => exact fun _ _ _ _ _ _ => ⟨[], rfl⟩
    | cons t1 ts ih =>
      intro t0 x t lx gt ct
      obtain ⟨r, hr, lr⟩ := step_total g ht m (t1 - t0) lx
      obtain ⟨q1, q2, q3⟩ := stable_step m (t1 - t0) x t s gt g ct
      rw [hr] at q1
      obtain ⟨rest, h2⟩ := ih t1 r.1 _ lr q3 (q2.trans ct)
      unfold DynSys.integrateLoop
      rw [PyM.bind_ok (Prod.ext q1 rfl), PyM.bind_ok (Prod.ext h2 rfl)]
      exact ⟨_, rfl⟩
  obtain ⟨xd, h0⟩ := start_total g ht hs
  obtain ⟨-, q2, q3⟩ := stable_integrateStart s s g g rfl
  cases ts with
  | nil => exact absurd rfl ne
  | cons t0 ts =>
    have l0 : s.startX.length = 4 * d + 2 := by rw [← g.dim]; exact (startX_sizes g.wf).length
    obtain ⟨rest, h2⟩ := loop ts t0 s.startX _ l0 q3 q2
    unfold integrate
    rw [PyM.bind_ok (Prod.ext h0 rfl)]
    simp only
    rw [PyM.bind_ok (Prod.ext h2 rfl)]
    exact ⟨_, rfl⟩

/-- Activations of several inputs. -/
theorem activations_all {k : Kernels d} {n : Bool}
    (h : ∀ x : Fin d → ℝ, ∃ a, k.activations n (fun _ : Fin 1 => x) = .ok a) {N : Nat} (inputs : Fin N → Fin d → ℝ) :
    ∃ a, k.activations n inputs = .ok a := by
  unfold Kernels.activations at h ⊢
  by_cases h1 : n = true ∧ k.n = 1
  · simp only [if_pos h1]
    exact ⟨_, rfl⟩
  simp only [if_neg h1] at h ⊢
  by_cases h2 : ∃ s b i, k.widths b i = 0 ∧ inputs s i = k.centers b i
  · obtain ⟨s, b, i, h2⟩ := h2
    obtain ⟨a, ha⟩ := h (inputs s)
    rw [if_pos ⟨0, b, i, h2⟩] at ha
    cases ha
  · rw [if_neg h2]
    split_ifs <;> exact ⟨_, rfl⟩

/-- A model that has an output for each single input has outputs for several inputs. -/
theorem model_all {m : FaModel d} (h : ∀ x : Fin d → ℝ, ∃ o, m.predict (fun _ : Fin 1 => x) = .ok o) {N : Nat}
    (inputs : Fin N → Fin d → ℝ) : ∃ o, m.predict inputs = .ok o := by
  cases m with
  | rbfn m =>
    have h1 : ∀ x : Fin d → ℝ, (∃ a, m.kernels.activations false (fun _ : Fin 1 => x) = .ok a) ∧
        m.cols = 1 ∧ m.rows = m.kernels.n := by
      intro x
      obtain ⟨o, ho⟩ := h x
      change m.predict _ = _ at ho
      unfold RbfnModel.predict at ho
      obtain ⟨a, h1, ho⟩ := except_bind_ok ho
      refine ⟨⟨a, h1⟩, ?_⟩
      by_contra c
      rw [dif_neg c] at ho
      split at ho <;> cases ho
    obtain ⟨a, ha⟩ := activations_all (fun x => (h1 x).1) inputs
    change ∃ o, m.predict inputs = .ok o
    unfold RbfnModel.predict
    rw [ha, except_ok_bind, dif_pos (h1 0).2]
    exact ⟨_, rfl⟩
  | lwr m =>
    have h1 : ∀ x : Fin d → ℝ, (∃ a, m.kernels.activations true (fun _ : Fin 1 => x) = .ok a) ∧
        m.lines = m.kernels.n := by
      intro x
      obtain ⟨o, ho⟩ := h x
      change m.predict _ = _ at ho
      unfold LwrModel.predict at ho
      obtain ⟨a, h1, ho⟩ := except_bind_ok ho
      refine ⟨⟨a, h1⟩, ?_⟩
      by_contra c
      rw [dif_neg c] at ho
      cases ho
    obtain ⟨a, ha⟩ := activations_all (fun x => (h1 x).1) inputs
    change ∃ o, m.predict inputs = .ok o
    unfold LwrModel.predict
    rw [ha, except_ok_bind, dif_pos (h1 0).2]
    exact ⟨_, rfl⟩
  | wls m => exact ⟨_, rfl⟩
  | gpr m =>
    have h1 : ∀ x : Fin d → ℝ, (∃ a, m.kernels.activations false (fun _ : Fin 1 => x) = .ok a) := by
      intro x
      obtain ⟨o, ho⟩ := h x
      change m.predict _ = _ at ho
      unfold GprModel.predict gprActivations at ho
      obtain ⟨a, h1, -⟩ := except_bind_ok ho
      obtain ⟨a, h1, -⟩ := except_bind_ok h1
      exact ⟨a, h1⟩
    obtain ⟨a, ha⟩ := activations_all h1 inputs
    change ∃ o, m.predict inputs = .ok o
    unfold GprModel.predict gprActivations
    rw [ha, except_ok_bind]
    exact ⟨_, rfl⟩

theorem answers_all {s : Dmp} (h : s.Answers) {phases : List ℝ} (ne : phases ≠ []) :
    ∃ rows, s.predictions phases = .ok rows := by
  have N0 : phases.length ≠ 0 := by simpa using ne
  unfold Answers predictions at h
  unfold predictions
  rcases e : s.fas with _ | fas
  · exact ⟨_, rfl⟩
  rcases e2 : fas with _ | ⟨fa0, rest⟩
  · exact ⟨_, rfl⟩
  rw [e, e2] at h
  rw [← e2] at h ⊢
  have col : ∀ i ∈ List.range s.dimY, ∃ c, faColumn fas phases i = .ok c := by
    intro i hi
    have h1 : ∀ p, ∃ c, faColumn fas [p] i = .ok c := by
      intro p
      obtain ⟨rows, hr⟩ := h p
      simp only [e2] at hr
      obtain ⟨cols, hc, -⟩ := except_bind_ok hr
      rw [← e2] at hc
      obtain ⟨k, hk, rfl⟩ := List.getElem_of_mem hi
      have := mapM_ok.mp hc
      exact ⟨_, this.get hk (this.length_eq ▸ hk)⟩
    unfold faColumn at h1 ⊢
    cases e3 : fas[i]? with
    | none =>
      obtain ⟨c, hc⟩ := h1 0
      rw [e3] at hc
      cases hc
    | some fa =>
      simp only [e3] at h1 ⊢
      by_cases h4 : fa.model.isSome = true
      · simp only [if_pos h4] at h1 ⊢
        obtain ⟨⟨dim, m⟩, e5⟩ := Option.isSome_iff_exists.mp h4
        by_cases h6 : 1 = dim
        · subst h6
          have h7 : ∀ x : Fin 1 → ℝ, ∃ o, m.predict (fun _ : Fin 1 => x) = .ok o := by
            intro x
            obtain ⟨c, hc⟩ := h1 (x 0)
            obtain ⟨o, ho, -⟩ := except_bind_ok hc
            unfold Fa.predict at ho
            rw [e5] at ho
            simp only at ho
            rw [if_neg (by simp), dif_pos trivial] at ho
            refine ⟨o, ?_⟩
            rw [← ho]
            congr 1
            funext a b
            have : b = 0 := Subsingleton.elim _ _
            subst this
            simp
          obtain ⟨o, ho⟩ := model_all h7 fun (t : Fin phases.length) (_ : Fin 1) => phases[t]
          unfold Fa.predict
          rw [e5]
          simp only
          rw [if_neg N0, dif_pos trivial]
          refine ⟨List.ofFn o, ?_⟩
          have e8 : m.predict (fun s => (fun (_ : Fin 1) => phases[s]) ∘ Fin.cast rfl) = .ok o := ho
          exact (congrArg (· >>= fun o => pure (List.ofFn o)) e8).trans rfl
        · obtain ⟨c, hc⟩ := h1 0
          obtain ⟨o, ho, -⟩ := except_bind_ok hc
          unfold Fa.predict at ho
          rw [e5] at ho
          simp only at ho
          rw [if_neg (by simp), dif_neg h6] at ho
          cases ho
      · simp only [if_neg h4]
        exact ⟨_, rfl⟩
  choose! c hc using col
  rw [e2] at hc ⊢
  simp only
  have hm : (List.range s.dimY).mapM (faColumn (fa0 :: rest) phases) = .ok ((List.range s.dimY).map c) := by
    rw [mapM_ok, List.forall₂_map_right_iff, List.forall₂_same]
    exact hc
  rw [hm]
  exact ⟨_, rfl⟩

/-- C84: if the first call succeeds, then so do both ways of integrating, for each non-empty list of times. -/
theorem C84_succeeds (d : Nat) (s : Dmp) (h : Reachable DefaultScaled Change.Forward d s) (ha : s.Answers)
    (h0 : ∃ r, (integrateStart none s).1 = .ok r) (m : Method) (ts : List ℝ) (ne : ts ≠ []) :
    (∃ rows, (integrate ts m s).1 = .ok rows) ∧ ∃ sol, (analytical (some ts) false s).1 = .ok sol := by
  have own := kept_own.reachable init_own h
  have g := own.inv.good
  obtain ⟨r, h0⟩ := h0
  obtain ⟨hs, ht⟩ := total_of_start g ha h0
  refine ⟨integrate_total g ht hs m ne, ?_⟩
  obtain ⟨fa, hfa⟩ := answers_all ha (phases := ts.map fun t => (s.phase.xAt t).getD 0 0) (by simpa using ne)
  exact ⟨_, (analytical_iff g.wf (sameStart_of_tau own.sameTau)).mpr ⟨hs, canForce_of_start g h0, ne, fa, by
    unfold faUsed; rw [hfa]; rfl, rfl⟩⟩

/-- There are such times, from 0 to `T`. -/
theorem C84_times (T δ : ℝ) (hT : 0 ≤ T) (hδ : 0 < δ) : ∃ ts, Spaced T δ ts ∧ ts.getD 0 0 = 0 ∧ ts.getLast? = some T := by
  obtain ⟨N, hN⟩ := exists_nat_gt (T / δ)
  have N0 : (0 : ℝ) < N := lt_of_le_of_lt (by positivity) hN
  have q0 : 0 ≤ T / N := by positivity
  have qδ : T / N ≤ δ := by
    rw [div_le_iff₀ N0]
    rw [div_lt_iff₀ hδ] at hN
    linarith
  have e : ∀ i, i < N + 1 → ((List.range (N + 1)).map fun n : Nat => (n : ℝ) * (T / N)).getD i 0 = i * (T / N) :=
    fun i hi => getD_range_map hi 0
  have e0 : ((List.range (N + 1)).map fun n : Nat => (n : ℝ) * (T / N)).getD 0 0 = 0 := by
    rw [e 0 (by omega)]
    simp
  refine ⟨(List.range (N + 1)).map fun n : Nat => (n : ℝ) * (T / N), ⟨fun i hi => ?_, fun i hi => ?_, fun i hi => ?_⟩,
    e0, ?_⟩
  · have hi : i + 1 < N + 1 := by simpa using hi
    rw [e i (by omega), e (i + 1) hi]
    push_cast
    linarith
  · have hi : i + 1 < N + 1 := by simpa using hi
    rw [e i (by omega), e (i + 1) hi]
    push_cast
    linarith
  · have hi : i < N + 1 := by simpa using hi
    rw [e0, e i hi, sub_zero]
    have : (i : ℝ) ≤ N := by exact_mod_cast Nat.lt_succ_iff.mp hi
    calc (i : ℝ) * (T / N) ≤ N * (T / N) := mul_le_mul_of_nonneg_right this q0
      _ = T := mul_div_cancel₀ T N0.ne'
  · rw [List.range_succ, List.map_append]
    simp [mul_div_cancel₀ T N0.ne']

/-- The hypotheses of C84 are met by a Dmp with the default subsystems, from 0 to 1, whose forcing term is the phase
times the gating. -/
theorem C84_example : ∃ s, init 1 [0] [1] (some [⟨.wls true 0, some ⟨1, .wls ⟨fun _ => 1, some 0⟩⟩, none⟩]) {} = .ok s ∧
    Reachable DefaultScaled Change.Forward 1 s ∧ s.Answers ∧ ∃ r, (integrateStart none s).1 = .ok r := by
  have hfit : Options.Fits {} 1 :=
    ⟨(fun _ h => nomatch h), trivial, (fun _ h => nomatch h),
      (fun _ h => nomatch h), (fun _ h => nomatch h), (fun _ h => nomatch h), (fun _ h => nomatch h)⟩
  obtain ⟨s, hs⟩ := (C16_types 1 [0] [1] (some [⟨.wls true 0, some ⟨1, .wls ⟨fun _ => 1, some 0⟩⟩, none⟩]) {}).1
    (by simp [known])
  have hr : Reachable DefaultScaled Change.Forward 1 s := by
    refine .init hs rfl rfl hfit ⟨⟨one_pos, fun j _ => ?_, rfl, rfl, rfl, rfl, rfl⟩, by decide⟩
    change (0 : ℝ) < 20
    norm_num
  have g := (kept_own.reachable init_own hr).inv.good
  obtain ⟨dflt, hdf, e⟩ := init_eq hs
  have hreq : s.requiresScaling = false := by
    unfold defaults at hdf
    simp only at hdf
    rw [if_neg (by decide), if_pos (by decide)] at hdf
    cases hdf
    rw [e]
  have hcs : s.CanScale := fun h => by rw [hreq] at h; cases h
  have hcf : s.CanForce := by
    unfold CanForce
    rw [e]
    trivial
  have ans : s.Answers := by
    intro p
    rw [e]
    exact ⟨_, rfl⟩
  obtain ⟨xd, h0⟩ := start_total g (fun x hx => total_of_can g ans hcs hcf hx) hcs
  exact ⟨s, hs, hr, ans, _, h0⟩

end Dmp

end Verif
