import Verif.Props.DmpStepsRun

/- Dmp: the rates of change that numerical integration returns, and their limits (C75). -/

set_option autoImplicit false

namespace Verif

namespace Dmp

open Filter Topology Set
open DynSys (Method)

variable {d : Nat}

/-! ### Rates of change of the rows -/

theorem step_rate {s : Dmp} (g : Good d s) {dt : ℝ} {x : List ℝ} {r : List ℝ × List ℝ}
    (hx : x.length = 4 * d + 2) (h : (DynSys.step .rungeKutta dt x s).1 = .ok r) :
    (diffEq r.1 s).1 = .ok r.2 := by
  have ne : ¬ x.length ≠ DynSys.dimX s := by
    change ¬ x.length ≠ s.dimX
    rw [good_length g]
    simp [hx]
  have call : ∀ {t t' : Dmp} {y k : List ℝ}, Good d t → t.core = s.core → y.length = 4 * d + 2 →
      diffEq y t = (.ok k, t') →
      (diffEq y s).1 = .ok k ∧ k.length = 4 * d + 2 ∧ Good d t' ∧ t'.core = s.core := by
    intro t t' y k gt ct hy e
    obtain ⟨e1, e2, e3⟩ := stable_diffEq hy t s gt g ct
    rw [e] at e1 e2 e3
    exact ⟨e1.symm, vf_pack_length g hy e1.symm, e3, e2.trans ct⟩
  obtain ⟨s', h⟩ : ∃ s', DynSys.step .rungeKutta dt x s = (.ok r, s') := ⟨_, Prod.ext h rfl⟩
  change DynSys.rungeKuttaStep dt x s = _ at h
  unfold DynSys.rungeKuttaStep at h
  rw [PyM.self_bind] at h
  rw [if_neg ne] at h
  obtain ⟨k1, s1, p1, h⟩ := PyM.bind_inv h
  obtain ⟨c1, l1, g1, e1⟩ := call g rfl hx p1
  obtain ⟨k2, s2, p2, h⟩ := PyM.bind_inv h
  obtain ⟨c2, l2, g2, e2⟩ := call g1 e1 (by simp [hx, l1]) p2
  obtain ⟨k3, s3, p3, h⟩ := PyM.bind_inv h
  obtain ⟨c3, l3, g3, e3⟩ := call g2 e2 (by simp [hx, l2]) p3
  obtain ⟨k4, s4, p4, h⟩ := PyM.bind_inv h
  obtain ⟨c4, l4, g4, e4⟩ := call g3 e3 (by simp [hx, l3]) p4
  obtain ⟨k5, s5, p5, h⟩ := PyM.bind_inv h
  cases h
  exact (call g4 e4 (by simp [hx, l1, l2, l3, l4]) p5).1

theorem start_rate {s : Dmp} (g : Good d s) {x xd : List ℝ} (h : (integrateStart none s).1 = .ok (x, xd)) :
    (diffEq x s).1 = .ok xd := by
  obtain ⟨rfl, e⟩ := integrateStart_ok g h
  unfold startX
  rw [diffEq_run g.wf (startX_sizes g.wf), e]

theorem loop_rates {s : Dmp} (g : Good d s) : ∀ (ts : List ℝ) (t0 : ℝ) (x : List ℝ) (t : Dmp)
    (rows : List (List ℝ × List ℝ)), Good d t → t.core = s.core → x.length = 4 * d + 2 →
    (DynSys.integrateLoop .rungeKutta t0 x ts t).1 = .ok rows →
    ∀ r ∈ rows, (diffEq r.1 s).1 = .ok r.2
  | [], _, _, _, _, _, _, _, h => by
    cases h
    simp
  | t1 :: ts, t0, x, t, rows, gt, ct, hx, h => by
    obtain ⟨t', h⟩ : ∃ t', DynSys.integrateLoop .rungeKutta t0 x (t1 :: ts) t = (.ok rows, t') :=
      ⟨_, Prod.ext h rfl⟩
    unfold DynSys.integrateLoop at h
    obtain ⟨r, u1, p1, h⟩ := PyM.bind_inv h
    obtain ⟨rest, u2, p2, h⟩ := PyM.bind_inv h
    cases h
    obtain ⟨q1, q2, q3⟩ := stable_step .rungeKutta (t1 - t0) x t s gt g ct
    rw [p1] at q1 q2 q3
    have e := step_rate g hx q1.symm
    have l := (step_stages g hx q1.symm).1
    intro r' hr'
    rcases List.mem_cons.mp hr' with rfl | hr'
    · exact e
    · exact loop_rates g ts t1 r.1 u1 rest q3 (q2.trans ct) l (by rw [p2]) r' hr'

/-- Each row of `integrate` contains a state and its rate of change. -/
theorem integrate_rates {s : Dmp} (g : Good d s) {ts : List ℝ} {rows : List (List ℝ × List ℝ)}
    (h : (integrate ts .rungeKutta s).1 = .ok rows) : ∀ r ∈ rows, (diffEq r.1 s).1 = .ok r.2 := by
  obtain ⟨t', h⟩ : ∃ t', integrate ts .rungeKutta s = (.ok rows, t') := ⟨_, Prod.ext h rfl⟩
  unfold integrate at h
  obtain ⟨r, u1, p1, h⟩ := PyM.bind_inv h
  cases ts with
  | nil => cases h
  | cons t0 ts =>
    obtain ⟨rest, u2, p2, h⟩ := PyM.bind_inv h
    cases h
    obtain ⟨-, q2, q3⟩ := stable_integrateStart s s g g rfl
    rw [p1] at q2 q3
    have h0 := start_rate g (x := r.1) (xd := r.2) (by rw [p1])
    have l0 : r.1.length = 4 * d + 2 := by
      obtain ⟨e, -⟩ := integrateStart_ok g (x := r.1) (xd := r.2) (by rw [p1])
      rw [e, ← g.dim]
      exact (startX_sizes g.wf).length
    intro r' hr'
    rcases List.mem_cons.mp hr' with rfl | hr'
    · exact h0
    · exact loop_rates g ts t0 r.1 u1 rest q3 q2 l0 (by rw [p2]) r' hr'

/-! ### Their limits -/

/-- Velocities and accelerations of numerical motions tend to zero. -/
theorem settles_rates {s : Dmp} (h : Settles d s) {m : Method} {dt : ℝ} (hf : FineSteps d s m dt)
    {X : Nat → List ℝ} {u : Nat → Fin 4 → List ℝ} (hx : Steps s m dt X u) (h0 : StartsLike s (X 0))
    {K : Nat → List ℝ} (hK : ∀ n, (diffEq (X n) s).1 = .ok (K n)) {i : Nat} (hi : i < d) :
    Tendsto (fun n => (K n).getD i 0) atTop (𝓝 0) ∧ Tendsto (fun n => (K n).getD (d + i) 0) atTop (𝓝 0) := by
  obtain ⟨y1, y2⟩ := settles_arrives h hf hx h0 i hi
  have w := h.inv.wf
  obtain rfl := h.inv.dim
  obtain ⟨B, hB⟩ := outputs_steps h hf hx h0
  obtain ⟨c, hc, st⟩ := hf.spring
  have hu : ∀ n, u n 0 = X n := fun n => by
    obtain ⟨k, -, h2⟩ := hx.step n
    refine ext_getD (0 : ℝ) ((hx.lenStage n 0).trans (hx.len n).symm) fun a ha => ?_
    exact (h2 a (by rw [hx.lenStage n 0] at ha; exact ha)).1
  have hr := fun n => rates w (hx.len n) (hK n)
  choose GA FO hga hfo hry hrz hrg hrp hrq hrc using hr
  have hr' := fun n j => rates w (hx.lenStage n j) ((hx.step n).choose_spec.1 j)
  choose GA' FO' hga' hfo' _ _ _ _ _ _ using hr'
  have limG : Tendsto (fun n => (GA n).getD i 0) atTop (𝓝 (s.yAttr.getD i 0)) := by
    refine (spring_goal_steps h hf hx h0 hga' hi 0).congr fun n => ?_
    have e1 := hga' n 0
    rw [hu, hga n] at e1
    rw [Except.ok.inj e1]
  have limF : Tendsto (fun n => (FO n).getD i 0) atTop (𝓝 0) := by
    have h1 : Tendsto (fun n => |s.forcingFactor i| * B * |(pickAt (u n 0) (GATING s.dimY)).getD 0 0|)
        atTop (𝓝 0) := by
      have := ((gating_steps h hf hx h0 0).abs).const_mul (|s.forcingFactor i| * B)
      simpa using this
    refine squeeze_zero_norm (fun n => ?_) h1
    rw [Real.norm_eq_abs, hu]
    refine forcing_bound w (by rw [length_pick]; rfl) (hfo n) ?_ hi
    rw [← hu]
    exact hB n 0
  have limD : Tendsto (fun n => (s.dampingAt (pickAt (X n) (DAMPING s.dimY))).at' i) atTop (𝓝 (c i)) := by
    unfold DampsTo at hc
    cases e : s.damping with
    | none =>
      rw [e] at hc
      simp only [dampingAt, e]
      rw [hc i hi]
      exact tendsto_const_nhds
    | some g =>
      rw [e] at hc
      simp only [dampingAt, e]
      refine (damping_steps h hf hx h0 e hc hi 0).congr fun n => ?_
      rw [hu]
      rfl
  constructor
  · have := y2.div_const s.spring.tau
    rw [zero_div] at this
    exact this.congr fun n => (hry n i hi).symm
  · have a1 := (y1.sub limG).const_mul (-s.spring.spring.at' i)
    have a2 := limD.mul y2
    have a3 := ((a1.sub a2).div_const (s.spring.mass.at' i * s.spring.tau)).add (limF.div_const s.tau)
    rw [sub_self, mul_zero, mul_zero, sub_zero, zero_div, zero_div, add_zero] at a3
    exact a3.congr fun n => (hrz n i hi).symm

end Dmp

end Verif
