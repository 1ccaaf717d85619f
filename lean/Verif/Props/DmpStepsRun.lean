import Verif.Props.DmpSteps
import Verif.Proofs.StepRelation
import Verif.Proofs.DmpSetters

/- Dmp: convergence of `integrate` and of repeated `integrate_step` (C75). -/

set_option autoImplicit false

namespace Verif

namespace Dmp

open Filter Topology Set
open DynSys (Method)

variable {d : Nat}

/-- What a step computes. -/
theorem step_stages {s : Dmp} (g : Good d s) {m : Method} {dt : ℝ} {x : List ℝ} {r : List ℝ × List ℝ}
    (hx : x.length = 4 * d + 2) (h : (DynSys.step m dt x s).1 = .ok r) :
    r.1.length = 4 * d + 2 ∧ ∃ u k : Fin 4 → List ℝ, (∀ j, (u j).length = 4 * d + 2) ∧
      (∀ j, (diffEq (u j) s).1 = .ok (k j)) ∧
      ∀ a, a < 4 * d + 2 → Spec.MethodStep m dt (x.getD a 0) (r.1.getD a 0) (fun j => (u j).getD a 0)
        (fun j => (k j).getD a 0) := by
  have ne : ¬ x.length ≠ DynSys.dimX s := by
    change ¬ x.length ≠ s.dimX
    rw [good_length g]
    simp [hx]
  -- calls of differential_equation after others
  have call : ∀ {t t' : Dmp} {y k : List ℝ}, Good d t → t.core = s.core → y.length = 4 * d + 2 →
      diffEq y t = (.ok k, t') →
      (diffEq y s).1 = .ok k ∧ k.length = 4 * d + 2 ∧ Good d t' ∧ t'.core = s.core := by
    intro t t' y k gt ct hy e
    obtain ⟨e1, e2, e3⟩ := stable_diffEq hy t s gt g ct
    rw [e] at e1 e2 e3
    exact ⟨e1.symm, vf_pack_length g hy e1.symm, e3, e2.trans ct⟩
  obtain ⟨s', h⟩ : ∃ s', DynSys.step m dt x s = (.ok r, s') := ⟨_, Prod.ext h rfl⟩
  cases m with
  | euler =>
    change DynSys.eulerStep dt x s = _ at h
    unfold DynSys.eulerStep at h
    rw [PyM.self_bind] at h
    rw [if_neg ne] at h
    obtain ⟨k, s1, p1, h⟩ := PyM.bind_inv h
    cases h
    obtain ⟨c1, l1, -, -⟩ := call g rfl hx p1
    refine ⟨by simp [hx, l1], fun _ => x, fun _ => k, fun _ => hx, fun _ => c1,
      fun a ha => ⟨rfl, rfl, rfl, rfl, ?_⟩⟩
    change (vadd x (vscale dt k)).getD a 0 = _
    rw [getD_vadd (by omega) (by simp; omega), getD_vscale, smul_eq_mul]
  | rungeKutta =>
    change DynSys.rungeKuttaStep dt x s = _ at h
    unfold DynSys.rungeKuttaStep at h
    rw [PyM.self_bind] at h
    rw [if_neg ne] at h
    obtain ⟨k1, s1, p1, h⟩ := PyM.bind_inv h
    obtain ⟨c1, l1, g1, e1⟩ := call g rfl hx p1
    obtain ⟨k2, s2, p2, h⟩ := PyM.bind_inv h
    have x1 : (vadd x (vscale (dt * 0.5) k1)).length = 4 * d + 2 := by simp [hx, l1]
    obtain ⟨c2, l2, g2, e2⟩ := call g1 e1 x1 p2
    obtain ⟨k3, s3, p3, h⟩ := PyM.bind_inv h
    have x2 : (vadd x (vscale (dt * 0.5) k2)).length = 4 * d + 2 := by simp [hx, l2]
    obtain ⟨c3, l3, g3, e3⟩ := call g2 e2 x2 p3
    obtain ⟨k4, s4, p4, h⟩ := PyM.bind_inv h
    have x3 : (vadd x (vscale dt k3)).length = 4 * d + 2 := by simp [hx, l3]
    obtain ⟨c4, l4, g4, e4⟩ := call g3 e3 x3 p4
    obtain ⟨k5, s5, p5, h⟩ := PyM.bind_inv h
    cases h
    refine ⟨by simp [hx, l1, l2, l3, l4], ![x, vadd x (vscale (dt * 0.5) k1), vadd x (vscale (dt * 0.5) k2),
      vadd x (vscale dt k3)], ![k1, k2, k3, k4], Fin.four hx x1 x2 x3, Fin.four c1 c2 c3 c4,
      fun a ha => ⟨rfl, ?_, ?_, ?_, ?_⟩⟩
    · change (vadd x (vscale (dt * 0.5) k1)).getD a 0 = x.getD a 0 + dt / 2 * k1.getD a 0
      rw [getD_vadd (by omega) (by simp; omega), getD_vscale]
      ring
    · change (vadd x (vscale (dt * 0.5) k2)).getD a 0 = x.getD a 0 + dt / 2 * k2.getD a 0
      rw [getD_vadd (by omega) (by simp; omega), getD_vscale]
      ring
    · change (vadd x (vscale dt k3)).getD a 0 = x.getD a 0 + dt * k3.getD a 0
      rw [getD_vadd (by omega) (by simp; omega), getD_vscale]
    · change (vadd x (vdivs (vscale dt (vadd (vadd k1 (vscale 2 (vadd k2 k3))) k4)) 6)).getD a 0 =
        x.getD a 0 + dt / 6 * (k1.getD a 0 + 2 * k2.getD a 0 + 2 * k3.getD a 0 + k4.getD a 0)
      rw [getD_vadd (by omega) (by simp [l1, l2, l3, l4]; omega), getD_vdivs, getD_vscale,
        getD_vadd (by simp [l1, l2, l3]; omega) (by omega), getD_vadd (by omega) (by simp [l2, l3]; omega),
        getD_vscale, getD_vadd (by omega) (by omega)]
      ring

/-- The states that `x, _ = dmp.integrate_start()` and then `x, _ = dmp.integrate_step_…(dt, x)` again and
again produce. -/
structure Makes (s : Dmp) (m : Method) (dt : ℝ) (X : Nat → List ℝ) : Prop where
  start : ∃ xd, (integrateStart none s).1 = .ok (X 0, xd)
  next : ∀ n, ∃ xd, (DynSys.step m dt (X n) s).1 = .ok (X (n + 1), xd)

theorem Makes.steps {s : Dmp} (g : Good d s) {m : Method} {dt : ℝ} {X : Nat → List ℝ} (h : Makes s m dt X) :
    (∃ u, Steps s m dt X u) ∧ StartsLike s (X 0) := by
  obtain ⟨xd0, h0⟩ := h.start
  have hl : ∀ n, (X n).length = 4 * d + 2 := by
    intro n
    induction n with
    | zero =>
      obtain ⟨e, -⟩ := integrateStart_ok g h0
      rw [e, ← g.dim]
      exact (startX_sizes g.wf).length
    | succ n ih =>
      obtain ⟨xd, hn⟩ := h.next n
      exact (step_stages g ih hn).1
  have hs := h.next
  choose XD hn using hs
  have hs := fun n => (step_stages g (hl n) (hn n)).2
  choose u k h1 h2 h3 using hs
  refine ⟨⟨u, fun n => (hl n).trans (good_length g).symm, fun n j => (h1 n j).trans (good_length g).symm,
    fun n => ⟨k n, h2 n, fun a ha => ?_⟩⟩, X 0, xd0, h0, fun _ _ => rfl⟩
  rw [good_length g] at ha
  exact h3 n a ha

/-- The states that follow each other as long as no exception is raised. -/
noncomputable def orbit (s : Dmp) (m : Method) (dt : ℝ) : Nat → Option (List ℝ)
  | 0 => match (integrateStart none s).1 with
    | .ok r => some r.1
    | .error _ => none
  | n + 1 => match orbit s m dt n with
    | none => none
    | some x => match (DynSys.step m dt x s).1 with
      | .ok r => some r.1
      | .error _ => none

theorem loop_orbit {s : Dmp} (g : Good d s) {m : Method} {dt : ℝ} : ∀ (ts : List ℝ) (t0 : ℝ) (x : List ℝ)
    (n : Nat) (t : Dmp) (rows : List (List ℝ × List ℝ)), Good d t → t.core = s.core →
    orbit s m dt n = some x →
    (∀ i, i + 1 < (t0 :: ts).length → (t0 :: ts).getD (i + 1) 0 - (t0 :: ts).getD i 0 = dt) →
    (DynSys.integrateLoop m t0 x ts t).1 = .ok rows →
    rows.length = ts.length ∧ ∀ i, i < rows.length → orbit s m dt (n + 1 + i) = some (rows.getD i ([], [])).1
  | [], _, _, _, _, _, _, _, _, _, h => by
    cases h
    exact ⟨rfl, fun i hi => absurd hi (by simp)⟩
  | t1 :: ts, t0, x, n, t, rows, gt, ct, ho, hdt, h => by
    obtain ⟨t', h⟩ : ∃ t', DynSys.integrateLoop m t0 x (t1 :: ts) t = (.ok rows, t') := ⟨_, Prod.ext h rfl⟩
    unfold DynSys.integrateLoop at h
    obtain ⟨r, u1, p1, h⟩ := PyM.bind_inv h
    obtain ⟨rest, u2, p2, h⟩ := PyM.bind_inv h
    cases h
    have e : t1 - t0 = dt := hdt 0 (by simp)
    rw [e] at p1
    obtain ⟨q1, q2, q3⟩ := stable_step m dt x t s gt g ct
    rw [p1] at q1 q2 q3
    have ho' : orbit s m dt (n + 1) = some r.1 := by
      rw [orbit, ho]
      simp only
      rw [← q1]
    obtain ⟨l, key⟩ := loop_orbit g ts t1 r.1 (n + 1) u1 rest q3 (q2.trans ct) ho'
      (fun i hi => hdt (i + 1) (by simpa using hi)) (by rw [p2])
    refine ⟨by simp [l], fun i hi => ?_⟩
    cases i with
    | zero => exact ho'
    | succ i =>
      have := key i (by simpa using hi)
      rw [show n + 1 + (i + 1) = n + 1 + 1 + i by omega]
      exact this

theorem integrate_orbit {s : Dmp} (g : Good d s) {m : Method} {dt : ℝ} {ts : List ℝ}
    (hdt : ∀ i, i + 1 < ts.length → ts.getD (i + 1) 0 - ts.getD i 0 = dt) {rows : List (List ℝ × List ℝ)}
    (h : (integrate ts m s).1 = .ok rows) :
    rows.length = ts.length ∧ ∀ i, i < rows.length → orbit s m dt i = some (rows.getD i ([], [])).1 := by
  obtain ⟨t', h⟩ : ∃ t', integrate ts m s = (.ok rows, t') := ⟨_, Prod.ext h rfl⟩
  unfold integrate at h
  obtain ⟨r, u1, p1, h⟩ := PyM.bind_inv h
  cases ts with
  | nil => cases h
  | cons t0 ts =>
    obtain ⟨rest, u2, p2, h⟩ := PyM.bind_inv h
    cases h
    obtain ⟨-, q2, q3⟩ := stable_integrateStart s s g g rfl
    rw [p1] at q2 q3
    have h0 : orbit s m dt 0 = some r.1 := by
      rw [orbit, p1]
    obtain ⟨l, key⟩ := loop_orbit g ts t0 r.1 0 u1 rest q3 q2 h0 hdt (by rw [p2])
    refine ⟨by simp [l], fun i hi => ?_⟩
    cases i with
    | zero => exact h0
    | succ i =>
      have := key i (by simpa using hi)
      rw [show i + 1 = 0 + 1 + i by omega]
      rw [this, show 0 + 1 + i = i + 1 by omega]
      rfl

/-- From some step on, the integration is close to the attractor. -/
theorem settles_integrate {s : Dmp} (h : Settles d s) {m : Method} {dt : ℝ} (hf : FineSteps d s m dt) {ε : ℝ}
    (hε : 0 < ε) : ∃ N, ∀ ts rows, (∀ i, i + 1 < ts.length → ts.getD (i + 1) 0 - ts.getD i 0 = dt) →
      (integrate ts m s).1 = .ok rows → ∀ i, N ≤ i → i < rows.length → ∀ j, j < d →
      |(rows.getD i ([], [])).1.getD j 0 - s.yAttr.getD j 0| < ε ∧
      |(rows.getD i ([], [])).1.getD (d + j) 0| < ε := by
  have g := h.inv.good
  by_cases hall : ∀ n, ∃ x, orbit s m dt n = some x
  · choose X hX using hall
    have hm : Makes s m dt X := by
      constructor
      · have := hX 0
        unfold orbit at this
        cases e : (integrateStart none s).1 with
        | error _ => rw [e] at this; cases this
        | ok r =>
          rw [e] at this
          injection this with this
          exact ⟨r.2, by rw [← this]⟩
      · intro n
        have := hX (n + 1)
        unfold orbit at this
        rw [hX n] at this
        simp only at this
        cases e : (DynSys.step m dt (X n) s).1 with
        | error _ => rw [e] at this; cases this
        | ok r =>
          rw [e] at this
          injection this with this
          exact ⟨r.2, by rw [← this]⟩
    obtain ⟨⟨u, hu⟩, hst⟩ := hm.steps g
    have arr := settles_arrives h hf hu hst
    have fin : ∀ k, k ≤ d → ∃ N, ∀ i, N ≤ i → ∀ j, j < k →
        |(X i).getD j 0 - s.yAttr.getD j 0| < ε ∧ |(X i).getD (d + j) 0| < ε := by
      intro k
      induction k with
      | zero => exact fun _ => ⟨0, fun _ _ j hj => absurd hj (by omega)⟩
      | succ k ih =>
        intro hk
        obtain ⟨N, hN⟩ := ih (by omega)
        obtain ⟨a1, a2⟩ := arr k (by omega)
        obtain ⟨N1, h1⟩ := Metric.tendsto_atTop.mp a1 ε hε
        obtain ⟨N2, h2⟩ := Metric.tendsto_atTop.mp a2 ε hε
        refine ⟨max N (max N1 N2), fun i hi j hj => ?_⟩
        simp only [max_le_iff] at hi
        rcases Nat.lt_succ_iff_lt_or_eq.mp hj with e | e
        · exact hN i hi.1 j e
        · rw [e]
          have b1 := h1 i hi.2.1
          have b2 := h2 i hi.2.2
          rw [Real.dist_eq] at b1 b2
          rw [sub_zero] at b2
          exact ⟨b1, b2⟩
    obtain ⟨N, hN⟩ := fin d le_rfl
    refine ⟨N, fun ts rows hdt hr i hi hl j hj => ?_⟩
    have := (integrate_orbit g hdt hr).2 i hl
    rw [hX i] at this
    injection this with this
    rw [← this]
    exact hN i hi j hj
  · push Not at hall
    obtain ⟨n, hn⟩ := hall
    have hnone : ∀ i, n ≤ i → orbit s m dt i = none := by
      intro i hi
      induction i, hi using Nat.le_induction with
      | base =>
        cases e : orbit s m dt n with
        | none => rfl
        | some x => exact absurd e (hn x)
      | succ i _ ih =>
        rw [orbit, ih]
    refine ⟨n, fun ts rows hdt hr i hi hl => ?_⟩
    have := (integrate_orbit g hdt hr).2 i hl
    rw [hnone i hi] at this
    cases this

/-- C75, for `integrate`: for each tolerance there is a number of steps after which all states that
integrate returns, for times at small enough distances, are as close to rest at the attractor. -/
theorem C75_integrate (d : Nat) (s : Dmp) (h : Reachable DefaultScaled Change.Forward d s) (m : Method) :
    ∃ t : ℝ, 0 < t ∧ ∀ dt, 0 < dt → dt ≤ t → ∀ ε, 0 < ε → ∃ N, ∀ ts rows,
      (∀ i, i + 1 < ts.length → ts.getD (i + 1) 0 - ts.getD i 0 = dt) →
      (integrate ts m s).1 = .ok rows → ∀ i, N ≤ i → i < rows.length → ∀ j, j < d →
      |(rows.getD i ([], [])).1.getD j 0 - s.yAttr.getD j 0| < ε ∧
      |(rows.getD i ([], [])).1.getD (d + j) 0| < ε := by
  have hs := (kept_standard.reachable init_standard h).toSettles
  obtain ⟨t, t0, ht⟩ := fine_small hs m
  exact ⟨t, t0, fun dt d0 h1 ε hε => settles_integrate hs (ht dt d0 h1) hε⟩

/-- C75, for integrate_start and integrate_step. -/
theorem C75_step_by_step (d : Nat) (s : Dmp) (h : Reachable DefaultScaled Change.Forward d s) (m : Method) :
    ∃ t : ℝ, 0 < t ∧ ∀ dt, 0 < dt → dt ≤ t → ∀ X, Makes s m dt X → Arrives d X s.yAttr := by
  have hs := (kept_standard.reachable init_standard h).toSettles
  obtain ⟨t, t0, ht⟩ := fine_small hs m
  refine ⟨t, t0, fun dt d0 h1 X hX => ?_⟩
  obtain ⟨⟨u, hu⟩, hst⟩ := hX.steps hs.inv.good
  exact settles_arrives hs (ht dt d0 h1) hu hst

end Dmp

end Verif
