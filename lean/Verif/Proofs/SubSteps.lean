import Verif.Proofs.SubMotion
import Verif.Proofs.NumLimits

/- Limits of numerical motions of the subsystems of a Dmp. -/

set_option autoImplicit false

namespace Verif

open Filter Topology Set Spec DynSys

namespace Sub

/-- The step is small enough for the system. -/
def Fine (d : Nat) (m : Method) (dt : ℝ) : Sub → Prop
  | .time _ => True
  | .exponential s => ∀ i, i < d → ‖stepFactor m (dt * (-(s.alpha.at' i / s.tau) : ℝ))‖ < 1
  | .sigmoid s => ∀ i, i < d → dt * -s.maxRate.at' i ≤ 1
  | .richards s => ∀ i, i < d → dt * (s.alpha.at' i / s.tau * s.clipped.v.at' i) ≤ 1

theorem steps_limit {s : Sub} (w : s.Wf) {d : Nat} (hd : s.base.dimX = d) {a : Nat → ℝ} (h : s.Tends d a)
    {m : Method} {dt : ℝ} (hdt : 0 < dt) (hf : s.Fine d m dt) {X : Nat → List ℝ} {u : Nat → Fin 4 → List ℝ}
    (hX : Run d (fun x xd => xd = s.rate x) m dt X u) (h0 : X 0 = s.base.xInit) {i : Nat} (hi : i < d) :
    Tendsto (fun n => (X n).getD i 0) atTop (𝓝 (a i)) ∧
    ∀ j, Tendsto (fun n => (u n j).getD i 0) atTop (𝓝 (a i)) := by
  choose K hK hS using hX.step
  have hS := fun n => hS n i hi
  cases s with
  | time s => exact h.elim
  | exponential s =>
    have w : s.Wf := w
    have hd : s.dimX = d := hd
    have hy : s.dimY = d := w.dim ▸ hd
    obtain ⟨hτ, h1⟩ := h
    rw [← (h1 i hi).2]
    refine linear_steps (r := s.alpha.at' i / s.tau) hS (fun n j => ?_) (hf i hi)
    change (K n j).getD i 0 = _
    rw [hK n j]
    refine (Exponential.diffEq_getD w ((hX.lenStage n j).trans hy.symm) (hy ▸ hi)).trans ?_
    ring
  | sigmoid s =>
    obtain ⟨w, hc⟩ := w
    have hd : s.dimX = d := hd
    have h0 : X 0 = s.xInit := h0
    obtain ⟨p1, p2, p3⟩ := h i hi
    have k0 := Sigmoid.kComp_pos p1
    have hlt : s.xInit.getD i 0 < s.kComp i := by
      have h2 := Sigmoid.coefB_eq p1
      have h3 := Real.exp_pos (s.maxRate.at' i * (s.tau * s.inflRatio.at' i))
      have h4 : 1 < s.kComp i / s.xInit.getD i 0 := by linarith
      rwa [one_lt_div p1] at h4
    rw [p3]
    refine approach_steps (L := -s.maxRate.at' i) (G := fun x => -s.maxRate.at' i * x * (1 - x / s.kComp i)) hS
      (fun n j => ?_) (by rw [h0]; exact p1.le) (fun x x0 x1 => ?_) (fun x x0 x1 => ?_) (by fun_prop) hdt
      (by linarith) (hf i hi)
    · change (K n j).getD i 0 = _
      rw [hK n j]
      refine (Sigmoid.rate_getD w ((hX.lenStage n j).trans hd.symm) (hd ▸ hi)).trans ?_
      ring
    · rw [h0] at x1
      have q1 : x / s.kComp i ≤ 1 := by rw [div_le_one k0]; linarith
      have q2 : 0 ≤ x / s.kComp i := by positivity
      have q3 : 0 ≤ -s.maxRate.at' i * x := mul_nonneg (by linarith) x0
      exact ⟨mul_nonneg q3 (by linarith), mul_le_of_le_one_right q3 (by linarith)⟩
    · rw [h0] at x1
      have q1 : x / s.kComp i < 1 := by rw [div_lt_one k0]; linarith
      exact mul_pos (mul_pos (by linarith) x0) (by linarith)
  | richards s =>
    have w : s.Wf := w
    have hd : s.dimX = d := hd
    have h0 : X 0 = s.xInit := h0
    obtain ⟨h1, h2, h3⟩ := h
    obtain ⟨p1, p2, p3, p4, v, hv⟩ := h3 i hi
    have hreg : Richards.Regular s := ⟨w, h1, h2, fun j hj => (h3 j (hd ▸ hj)).2.1,
      fun j hj => (h3 j (hd ▸ hj)).1, fun j hj => (h3 j (hd ▸ hj)).2.2.1⟩
    obtain ⟨k1, k2, k3⟩ := hreg.key (hd ▸ hi)
    have vp := hreg.vpos (hd ▸ hi)
    have v1 : 1 ≤ v := by
      rcases v with _ | v
      · rw [hv] at vp; simp at vp
      · omega
    obtain ⟨l, hl⟩ : ∃ l, l = s.left.at' i := ⟨_, rfl⟩
    obtain ⟨r, hr⟩ : ∃ r, r = s.rightAsymp.at' i := ⟨_, rfl⟩
    obtain ⟨c, hc⟩ : ∃ c, c = s.alpha.at' i / s.tau := ⟨_, rfl⟩
    have c0 : 0 < c := by rw [hc]; positivity
    rw [← hl, ← hr] at k2 k3
    -- where the system starts between its asymptotes
    obtain ⟨s0, hs0⟩ : ∃ s0, s0 = (s.xInit.getD i 0 - l) / (r - l) := ⟨_, rfl⟩
    have s0p : 0 < s0 := by
      rw [hs0, ← inv_div]
      exact inv_pos.mpr k2
    have s01 : s0 < 1 := by
      have q : 0 < s.clipped.qComp s.left i := by
        rw [k1]; exact mul_pos vp (Real.exp_pos _)
      by_contra hge
      push Not at hge
      have hge : (r - l) / (s.xInit.getD i 0 - l) ≤ 1 := by
        rw [← inv_div, ← hs0]
        exact inv_le_one_of_one_le₀ hge
      have h4 : ((r - l) / (s.xInit.getD i 0 - l)) ^ s.clipped.v.at' i ≤ 1 := Real.rpow_le_one k2.le hge vp.le
      have h5 : s.clipped.qComp s.left i = -1 + ((r - l) / (s.xInit.getD i 0 - l)) ^ s.clipped.v.at' i := by
        rw [hr, hl]
        rfl
      linarith
    have w0 : -1 / (r - l) * (X 0).getD i 0 + r / (r - l) = 1 - s0 := by
      rw [h0, hs0]
      field_simp
      ring
    have bern : ∀ x : ℝ, 0 ≤ x → x ≤ 1 → 1 - (1 - x) ^ v ≤ v * x := fun x x0 x1 => by
      have := one_add_mul_le_pow (a := -x) (by linarith) v
      rw [← sub_eq_add_neg] at this
      linarith
    have lim := approach_steps (L := c * v) (G := fun x => c * (1 - (1 - x) ^ v) * (1 - x))
      (fun n => (hS n).affine (-1 / (r - l)) (r / (r - l)))
      (fun n j => ?_) ?_ (fun x x0 x1 => ?_) (fun x x0 x1 => ?_) (by fun_prop) hdt (by positivity)
      (by have := hf i hi; rwa [hv, ← hc] at this)
    · have e : ∀ y : ℝ, r + (l - r) * (-1 / (r - l) * y + r / (r - l)) = y := fun y => by
        field_simp
        ring
      have fin : ∀ y : Nat → ℝ, Tendsto (fun n => -1 / (r - l) * y n + r / (r - l)) atTop (𝓝 0) →
          Tendsto y atTop (𝓝 (a i)) := by
        intro y hy
        have := (hy.const_mul (l - r)).const_add r
        rw [mul_zero, add_zero, hr, p4] at this
        refine this.congr fun n => ?_
        rw [← p4, ← hr]
        exact e _
      exact ⟨fin _ lim.1, fun j => fin _ (lim.2 j)⟩
    · rw [hK n j]
      have e1 : ((Sub.richards s).rate (u n j)).getD i 0 = _ :=
        Richards.rhs_getD s (by rw [hX.lenStage]; exact hi)
      rw [e1, hv, Real.rpow_natCast, ← hl, ← hr]
      have e2 : 1 - (-1 / (r - l) * (u n j).getD i 0 + r / (r - l)) = ((u n j).getD i 0 - l) / (r - l) := by
        field_simp
        ring
      rw [e2, hc]
      field_simp
    · rw [w0]; linarith
    · rw [w0] at x1
      have y0 : 0 ≤ 1 - x := by linarith
      have b0 : 0 ≤ 1 - (1 - x) ^ v := by
        have := pow_le_one₀ (n := v) y0 (by linarith)
        linarith
      have b1 := bern x x0 (by linarith)
      refine ⟨mul_nonneg (mul_nonneg c0.le b0) y0, ?_⟩
      calc c * (1 - (1 - x) ^ v) * (1 - x) ≤ c * (1 - (1 - x) ^ v) * 1 :=
            mul_le_mul_of_nonneg_left (by linarith) (mul_nonneg c0.le b0)
        _ ≤ c * (v * x) * 1 := by gcongr
        _ = c * v * x := by ring
    · rw [w0] at x1
      have b0 : (1 - x) ^ v < 1 := pow_lt_one₀ (by linarith) (by linarith) (by omega)
      exact mul_pos (mul_pos c0 (by linarith)) (by linarith)

/-- Numerical motions of one-dimensional systems stay bounded. -/
theorem steps_bounded {s : Sub} (w : s.Wf) (hd : s.base.dimX = 1) (h : s.Stays) {m : Method} {dt : ℝ}
    (hdt : 0 < dt) (hf : s.Fine 1 m dt) {X : Nat → List ℝ} {u : Nat → Fin 4 → List ℝ}
    (hX : Run 1 (fun x xd => xd = s.rate x) m dt X u) (h0 : X 0 = s.base.xInit) :
    ∃ R : ℝ, ∀ n j, ∀ p ∈ u n j, |p| ≤ R := by
  have fin : (∃ R : ℝ, ∀ n j, |(u n j).getD 0 0| ≤ R) → ∃ R : ℝ, ∀ n j, ∀ p ∈ u n j, |p| ≤ R := by
    rintro ⟨R, hR⟩
    refine ⟨R, fun n j p hp => ?_⟩
    have hl := hX.lenStage n j
    have hR := hR n j
    match e : u n j, hl with
    | [x], _ =>
      rw [e] at hp hR
      simp only [List.mem_singleton] at hp
      rw [hp]
      exact hR
  have conv : (∃ a, s.Tends 1 a) → ∃ R : ℝ, ∀ n j, ∀ p ∈ u n j, |p| ≤ R := by
    rintro ⟨a, h⟩
    have lim := (steps_limit w hd h hdt hf hX h0 one_pos).2
    have bd : ∀ j, ∃ R : ℝ, ∀ n, |(u n j).getD 0 0| ≤ R := fun j => by
      obtain ⟨R, hR⟩ := (lim j).abs.bddAbove_range
      exact ⟨R, fun n => hR ⟨n, rfl⟩⟩
    choose R hR using bd
    refine fin ⟨|R 0| + |R 1| + |R 2| + |R 3|, fun n => ?_⟩
    have a0 := abs_nonneg (R 0)
    have a1 := abs_nonneg (R 1)
    have a2 := abs_nonneg (R 2)
    have a3 := abs_nonneg (R 3)
    refine Fin.four ?_ ?_ ?_ ?_
    · linarith [hR 0 n, le_abs_self (R 0)]
    · linarith [hR 1 n, le_abs_self (R 1)]
    · linarith [hR 2 n, le_abs_self (R 2)]
    · linarith [hR 3 n, le_abs_self (R 3)]
  cases s with
  | exponential s => exact conv h
  | sigmoid s => exact conv h
  | richards s => exact conv h
  | time s =>
    have h : 0 < s.tau := h
    have c0 : 0 ≤ 1 / s.tau := by positivity
    refine fin ?_
    choose K hK hS using hX.step
    have hS := fun n => hS n 0 one_pos
    have one : ∀ n j, ∃ x, u n j = [x] := fun n j => List.length_eq_one_iff.mp (hX.lenStage n j)
    have a1 := le_abs_self ((X 0).getD 0 0)
    have a2 := neg_abs_le ((X 0).getD 0 0)
    have a3 := mul_nonneg hdt.le c0
    by_cases hcd : s.countDown = true
    · have key := clock_steps (c := 1 / s.tau) (fun n => (hS n).affine (-1) 1) (fun n j => by
        rw [hK n j]
        obtain ⟨x, e⟩ := one n j
        rw [e]
        unfold rate
        simp only [TimeSystem.diffEq, hcd, if_true, List.getD_cons_zero]
        by_cases hx : x > 0
        · rw [if_pos hx, if_pos (by linarith)]
          change -1 * (-1 / s.tau) = _
          ring
        · rw [if_neg hx, if_neg (by linarith)]
          exact mul_zero _) hdt.le c0
      refine ⟨|(X 0).getD 0 0| + 1 + dt * (1 / s.tau), fun n j => ?_⟩
      obtain ⟨k1, k2⟩ := key n j
      have m1 : max (-1 * (X 0).getD 0 0 + 1) 1 ≤ |(X 0).getD 0 0| + 1 :=
        max_le (by linarith) (by linarith [abs_nonneg ((X 0).getD 0 0)])
      rw [abs_le]
      constructor <;> linarith
    · have key := clock_steps (c := 1 / s.tau) hS (fun n j => by
        rw [hK n j]
        obtain ⟨x, e⟩ := one n j
        rw [e]
        unfold rate
        simp only [TimeSystem.diffEq, if_neg hcd, List.getD_cons_zero]
        by_cases hx : x < 1
        · rw [if_pos hx, if_pos hx]
          rfl
        · rw [if_neg hx, if_neg hx]
          rfl) hdt.le c0
      refine ⟨|(X 0).getD 0 0| + 1 + dt * (1 / s.tau), fun n j => ?_⟩
      obtain ⟨k1, k2⟩ := key n j
      have m1 : max ((X 0).getD 0 0) 1 ≤ |(X 0).getD 0 0| + 1 :=
        max_le (by linarith) (by linarith [abs_nonneg ((X 0).getD 0 0)])
      rw [abs_le]
      constructor <;> linarith

/-- A positive number below finitely many. -/
theorem exists_min {d : Nat} {P : Nat → ℝ → Prop}
    (h : ∀ i, i < d → ∃ t : ℝ, 0 < t ∧ ∀ dt, 0 < dt → dt ≤ t → P i dt) :
    ∃ t : ℝ, 0 < t ∧ ∀ dt, 0 < dt → dt ≤ t → ∀ i, i < d → P i dt := by
  induction d with
  | zero => exact ⟨1, one_pos, fun _ _ _ i hi => absurd hi (by omega)⟩
  | succ d ih =>
    obtain ⟨t1, p1, h1⟩ := ih fun i hi => h i (by omega)
    obtain ⟨t2, p2, h2⟩ := h d (by omega)
    refine ⟨min t1 t2, lt_min p1 p2, fun dt h0 hle i hi => ?_⟩
    rcases Nat.lt_succ_iff_lt_or_eq.mp hi with e | e
    · exact h1 dt h0 (hle.trans (min_le_left _ _)) i e
    · rw [e]
      exact h2 dt h0 (hle.trans (min_le_right _ _))

theorem fine_small {s : Sub} {d : Nat} {a : Nat → ℝ} (h : s.Tends d a) (m : Method) :
    ∃ t : ℝ, 0 < t ∧ ∀ dt, 0 < dt → dt ≤ t → s.Fine d m dt := by
  have le : ∀ r : ℝ, ∃ t : ℝ, 0 < t ∧ ∀ dt, 0 < dt → dt ≤ t → dt * r ≤ 1 := fun r => by
    refine ⟨1 / (|r| + 1), by positivity, fun dt h0 h1 => ?_⟩
    rw [le_div_iff₀ (by positivity)] at h1
    have := mul_le_mul_of_nonneg_left (le_abs_self r) h0.le
    linarith
  cases s with
  | time s => exact h.elim
  | exponential s =>
    refine exists_min fun i hi => stepFactor_small m ?_
    rw [Complex.ofReal_re]
    have := div_pos (h.2 i hi).1 h.1
    linarith
  | sigmoid s => exact exists_min fun i hi => le _
  | richards s => exact exists_min fun i hi => le _

end Sub

end Verif
