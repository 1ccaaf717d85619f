import Verif.Proofs.NumSteps

/- Limits of sequences of steps. -/

set_option autoImplicit false

namespace Verif

open Filter Topology Spec DynSys

theorem Fin.four {P : Fin 4 → Prop} (h0 : P 0) (h1 : P 1) (h2 : P 2) (h3 : P 3) : ∀ j, P j := by
  intro j
  match j with
  | 0 => exact h0
  | 1 => exact h1
  | 2 => exact h2
  | 3 => exact h3

/-- Steps on an oscillator whose damping coefficient tends to `a` and whose excitation tends to zero. -/
theorem osc_steps {m : Method} {dt a b c : ℝ} {E W : Nat → ℝ} {uE kE uW kW da h : Nat → Fin 4 → ℝ}
    (hE : ∀ n, MethodStep m dt (E n) (E (n + 1)) (uE n) (kE n))
    (hW : ∀ n, MethodStep m dt (W n) (W (n + 1)) (uW n) (kW n))
    (h1 : ∀ n j, kE n j = c * uW n j)
    (h2 : ∀ n j, kW n j = -b * uE n j - (a + da n j) * uW n j + h n j)
    (hda : ∀ j, Tendsto (fun n => da n j) atTop (𝓝 0)) (hh : ∀ j, Tendsto (fun n => h n j) atTop (𝓝 0))
    (hc : c ≠ 0) (st : StableStep m dt a (b * c)) :
    Tendsto E atTop (𝓝 0) ∧ Tendsto W atTop (𝓝 0) := by
  obtain ⟨l1, l2, s1, s2⟩ := exists_roots a (b * c)
  have f : ∀ l : ℂ, l ^ 2 + a * l + (b * c : ℝ) = (l - l1) * (l - l2) := fun l => by
    have : (l - l1) * (l - l2) = l ^ 2 - (l1 + l2) * l + l1 * l2 := by ring
    rw [this, s1, s2]; ring
  have r1 := st l1 (by rw [f]; simp)
  have r2 := st l2 (by rw [f]; simp)
  obtain ⟨C, hC, key⟩ := step_pair m dt l1 l2
  -- bounds of the perturbations
  obtain ⟨δ, hδ⟩ : ∃ δ : Nat → ℝ, δ = fun n => (1 + ‖l1‖) * (|da n 0| + |da n 1| + |da n 2| + |da n 3|) := ⟨_, rfl⟩
  obtain ⟨r, hr⟩ : ∃ r : Nat → ℝ, r = fun n => |c| * (|h n 0| + |h n 1| + |h n 2| + |h n 3|) := ⟨_, rfl⟩
  have tδ : Tendsto δ atTop (𝓝 0) := by
    have := ((((hda 0).abs.add (hda 1).abs).add (hda 2).abs).add (hda 3).abs).const_mul (1 + ‖l1‖)
    simpa [hδ] using this
  have tr : Tendsto r atTop (𝓝 0) := by
    have := ((((hh 0).abs.add (hh 1).abs).add (hh 2).abs).add (hh 3).abs).const_mul (|c|)
    simpa [hr] using this
  have dle : ∀ n j, (1 + ‖l1‖) * |da n j| ≤ δ n := by
    intro n
    have := norm_nonneg l1
    have a0 := abs_nonneg (da n 0)
    have a1 := abs_nonneg (da n 1)
    have a2 := abs_nonneg (da n 2)
    have a3 := abs_nonneg (da n 3)
    rw [hδ]
    exact Fin.four (mul_le_mul_of_nonneg_left (by linarith) (by linarith))
      (mul_le_mul_of_nonneg_left (by linarith) (by linarith))
      (mul_le_mul_of_nonneg_left (by linarith) (by linarith))
      (mul_le_mul_of_nonneg_left (by linarith) (by linarith))
  have rle : ∀ n j, |c| * |h n j| ≤ r n := by
    intro n
    have := abs_nonneg c
    have a0 := abs_nonneg (h n 0)
    have a1 := abs_nonneg (h n 1)
    have a2 := abs_nonneg (h n 2)
    have a3 := abs_nonneg (h n 3)
    rw [hr]
    exact Fin.four (mul_le_mul_of_nonneg_left (by linarith) (by linarith))
      (mul_le_mul_of_nonneg_left (by linarith) (by linarith))
      (mul_le_mul_of_nonneg_left (by linarith) (by linarith))
      (mul_le_mul_of_nonneg_left (by linarith) (by linarith))
  have d0 : ∀ n, 0 ≤ δ n := fun n => (mul_nonneg (by positivity) (abs_nonneg _)).trans (dle n 0)
  have r0 : ∀ n, 0 ≤ r n := fun n => (mul_nonneg (by positivity) (abs_nonneg _)).trans (rle n 0)
  -- the step in the coordinates `E` and `c W - l1 E`
  have stp : ∀ n, δ n ≤ 1 →
      ‖-l1 * (E (n + 1) : ℂ) + c * W (n + 1) + 0‖ ≤ ‖stepFactor m (dt * l2)‖ * ‖-l1 * (E n : ℂ) + c * W n + 0‖ +
        C * (δ n * (‖(1 : ℂ) * (E n : ℂ) + 0 * W n + 0‖ + ‖-l1 * (E n : ℂ) + c * W n + 0‖) + r n) ∧
      ‖(1 : ℂ) * (E (n + 1) : ℂ) + 0 * W (n + 1) + 0‖ ≤
        ‖stepFactor m (dt * l1)‖ * ‖(1 : ℂ) * (E n : ℂ) + 0 * W n + 0‖ +
        C * ‖-l1 * (E n : ℂ) + c * W n + 0‖ +
        C * (δ n * (‖(1 : ℂ) * (E n : ℂ) + 0 * W n + 0‖ + ‖-l1 * (E n : ℂ) + c * W n + 0‖) + r n) := by
    intro n hn
    refine key _ _ _ _ _ _ _ _ (fun j => (c : ℂ) * (h n j - da n j * uW n j)) _ _
      ((hE n).comb (hW n) 1 0 0) ((hE n).comb (hW n) (-l1) c 0) (fun j => ?_) (fun j => ?_) (d0 n) hn (r0 n)
      (fun j => ?_)
    · rw [h1]; push_cast; ring
    · have e2 : l2 = -a - l1 := by rw [← s1]; ring
      have e3 : l1 * l2 = (b : ℂ) * c := by rw [s2]; push_cast; ring
      have e4 : l2 * (-l1 * (uE n j : ℂ) + c * uW n j + 0) = -(l1 * l2) * uE n j + l2 * (c * uW n j) := by ring
      rw [e4, e3, e2, h1, h2]
      push_cast
      ring
    · have e1 : (c : ℂ) * (h n j - da n j * uW n j) =
          c * h n j + -da n j * ((-l1 * (uE n j : ℂ) + c * uW n j + 0) + l1 * ((1 : ℂ) * uE n j + 0 * uW n j + 0)) := by
        ring
      obtain ⟨v, hv⟩ : ∃ v : ℂ, v = -l1 * (uE n j : ℂ) + c * uW n j + 0 := ⟨_, rfl⟩
      obtain ⟨e, he⟩ : ∃ e : ℂ, e = (1 : ℂ) * uE n j + 0 * uW n j + 0 := ⟨_, rfl⟩
      rw [e1, ← hv, ← he]
      have t1 := norm_add_le ((c : ℂ) * h n j) (-da n j * (v + l1 * e))
      have t2 := norm_add_le v (l1 * e)
      rw [norm_mul, norm_mul, norm_neg, Complex.norm_real, Complex.norm_real, Complex.norm_real,
        Real.norm_eq_abs, Real.norm_eq_abs, Real.norm_eq_abs] at t1
      rw [norm_mul] at t2
      have n1 := norm_nonneg v
      have n2 := norm_nonneg e
      have n3 := norm_nonneg l1
      have t3 : |da n j| * ‖v + l1 * e‖ ≤ |da n j| * ((1 + ‖l1‖) * (‖e‖ + ‖v‖)) :=
        mul_le_mul_of_nonneg_left (by nlinarith) (abs_nonneg _)
      have t4 : (1 + ‖l1‖) * |da n j| * (‖e‖ + ‖v‖) ≤ δ n * (‖e‖ + ‖v‖) :=
        mul_le_mul_of_nonneg_right (dle n j) (by linarith)
      have t5 := rle n j
      linarith
  obtain ⟨ρ, hρ⟩ : ∃ ρ : ℝ, ρ = max ‖stepFactor m (dt * l1)‖ ‖stepFactor m (dt * l2)‖ := ⟨_, rfl⟩
  have ρ1 : ρ < 1 := by rw [hρ]; exact max_lt r1 r2
  have ρa : ‖stepFactor m (dt * l1)‖ ≤ ρ := by rw [hρ]; exact le_max_left _ _
  have ρb : ‖stepFactor m (dt * l2)‖ ≤ ρ := by rw [hρ]; exact le_max_right _ _
  have ρ0 : 0 ≤ ρ := (norm_nonneg _).trans ρa
  have ev : ∀ᶠ n in atTop, δ n ≤ 1 := (tδ.eventually (gt_mem_nhds one_pos)).mono fun _ h => h.le
  obtain ⟨tE, tV⟩ := shrink_pair (E := fun n => ‖(1 : ℂ) * (E n : ℂ) + 0 * W n + 0‖)
    (V := fun n => ‖-l1 * (E n : ℂ) + c * W n + 0‖) (fun n => norm_nonneg _) (fun n => norm_nonneg _) ρ0 ρ1 hC tδ tr
    (ev.mono fun n hn => (stp n hn).1.trans (by
      have := mul_le_mul_of_nonneg_right ρb (norm_nonneg (-l1 * (E n : ℂ) + c * W n + 0))
      linarith))
    (ev.mono fun n hn => (stp n hn).2.trans (by
      have := mul_le_mul_of_nonneg_right ρa (norm_nonneg ((1 : ℂ) * (E n : ℂ) + 0 * W n + 0))
      linarith))
  have tE' : Tendsto E atTop (𝓝 0) := by
    rw [tendsto_zero_iff_abs_tendsto_zero]
    refine tE.congr fun n => ?_
    simp
  refine ⟨tE', ?_⟩
  have t1 : Tendsto (fun n => |c * W n|) atTop (𝓝 0) := by
    refine squeeze_zero (fun n => abs_nonneg _) (g := fun n => ‖-l1 * (E n : ℂ) + c * W n + 0‖ + ‖l1‖ * |E n|)
      (fun n => ?_) (by simpa using tV.add ((tendsto_zero_iff_abs_tendsto_zero _).mp tE' |>.const_mul ‖l1‖))
    have t := norm_add_le (-l1 * (E n : ℂ) + c * W n + 0) (l1 * E n)
    have e : -l1 * (E n : ℂ) + c * W n + 0 + l1 * E n = ((c * W n : ℝ) : ℂ) := by push_cast; ring
    rw [e, Complex.norm_real, norm_mul l1, Complex.norm_real, Real.norm_eq_abs, Real.norm_eq_abs] at t
    exact t
  have t2 := ((tendsto_zero_iff_abs_tendsto_zero _).mpr t1).const_mul c⁻¹
  rw [mul_zero] at t2
  exact t2.congr fun n => by field_simp

/-- Steps on `x' = r (a - x)`. -/
theorem linear_steps {m : Method} {dt r a : ℝ} {x : Nat → ℝ} {u k : Nat → Fin 4 → ℝ}
    (hx : ∀ n, MethodStep m dt (x n) (x (n + 1)) (u n) (k n)) (hk : ∀ n j, k n j = r * (a - u n j))
    (st : ‖stepFactor m (dt * (-r : ℝ))‖ < 1) :
    Tendsto x atTop (𝓝 a) ∧ ∀ j, Tendsto (fun n => u n j) atTop (𝓝 a) := by
  obtain ⟨C, hC, key⟩ := step_scalar m dt (-r : ℝ)
  have h := fun n => key _ _ _ _ (fun _ => 0) ((hx n).comb (hx n) 1 0 (-a)) (fun j => by
    rw [hk]; push_cast; ring)
  have t0 : Tendsto (fun n => ‖(1 : ℂ) * x n + 0 * x n + -a‖) atTop (𝓝 0) := by
    refine shrink (r := fun _ => 0) (fun n => norm_nonneg _) (norm_nonneg _) st
      (Eventually.of_forall fun n => ?_) tendsto_const_nhds
    have h1 := (h n).1
    simp only [norm_zero, add_zero, mul_zero] at h1
    rw [sub_eq_zero.mp (norm_le_zero_iff.mp h1), norm_mul, add_zero]
  have e : ∀ y : ℝ, ‖(1 : ℂ) * y + 0 * y + -a‖ = |y - a| := fun y => by
    have : (1 : ℂ) * y + 0 * y + -a = ((y - a : ℝ) : ℂ) := by push_cast; ring
    rw [this, Complex.norm_real, Real.norm_eq_abs]
  have fin : ∀ y : Nat → ℝ, (∀ n, ‖(1 : ℂ) * y n + 0 * y n + -a‖ ≤ C * ‖(1 : ℂ) * x n + 0 * x n + -a‖) →
      Tendsto y atTop (𝓝 a) := by
    intro y hy
    have t1 : Tendsto (fun n => |y n - a|) atTop (𝓝 0) := by
      have t2 := t0.const_mul C
      rw [mul_zero] at t2
      refine squeeze_zero (fun n => abs_nonneg _) (fun n => ?_) t2
      rw [← e]
      exact hy n
    have t2 := ((tendsto_zero_iff_abs_tendsto_zero _).mpr t1).add_const a
    rw [zero_add] at t2
    exact t2.congr fun n => by ring
  refine ⟨fin x fun n => le_mul_of_one_le_left (norm_nonneg _) hC, Fin.four ?_ ?_ ?_ ?_⟩
  · exact fin _ fun n => (h n).2.1
  · exact fin _ fun n => by simpa only [norm_zero, add_zero] using (h n).2.2.1
  · exact fin _ fun n => by simpa only [norm_zero, add_zero] using (h n).2.2.2.1
  · exact fin _ fun n => by simpa only [norm_zero, add_zero] using (h n).2.2.2.2

/-- Steps of a system that moves towards zero without passing it. -/
theorem approach_steps {m : Method} {dt L : ℝ} {G : ℝ → ℝ} {w : Nat → ℝ} {u k : Nat → Fin 4 → ℝ}
    (hw : ∀ n, MethodStep m dt (w n) (w (n + 1)) (u n) (k n)) (hk : ∀ n j, k n j = -G (u n j))
    (h0 : 0 ≤ w 0) (hG : ∀ x, 0 ≤ x → x ≤ w 0 → 0 ≤ G x ∧ G x ≤ L * x)
    (hpos : ∀ x, 0 < x → x ≤ w 0 → 0 < G x) (hc : ContinuousOn G (Set.Icc 0 (w 0))) (hdt : 0 < dt) (hL : 0 ≤ L)
    (hs : dt * L ≤ 1) :
    Tendsto w atTop (𝓝 0) ∧ ∀ j, Tendsto (fun n => u n j) atTop (𝓝 0) := by
  have one : ∀ n, 0 ≤ w n → w n ≤ w 0 →
      (∀ j, 0 ≤ u n j ∧ u n j ≤ w n) ∧ 0 ≤ w (n + 1) ∧ w (n + 1) ≤ w n - dt / 6 * G (w n) := by
    intro n a0 a1
    -- the bound of each rate
    have rate : ∀ j, 0 ≤ u n j → u n j ≤ w n → 0 ≤ G (u n j) ∧ dt * G (u n j) ≤ w n := fun j b0 b1 => by
      obtain ⟨g0, g1⟩ := hG _ b0 (b1.trans a1)
      refine ⟨g0, ?_⟩
      have := mul_le_mul_of_nonneg_left g1 hdt.le
      nlinarith
    have hw := hw n
    have hk := hk n
    cases m with
    | euler =>
      obtain ⟨e0, e1, e2, e3, e4⟩ := hw
      obtain ⟨g0, g1⟩ := rate 0 (by rw [e0]; exact a0) (by rw [e0])
      rw [hk, smul_eq_mul] at e4
      refine ⟨Fin.four (by rw [e0]; exact ⟨a0, le_rfl⟩) (by rw [e1]; exact ⟨a0, le_rfl⟩)
        (by rw [e2]; exact ⟨a0, le_rfl⟩) (by rw [e3]; exact ⟨a0, le_rfl⟩), by linarith, ?_⟩
      rw [e4]
      rw [e0] at g0 ⊢
      nlinarith
    | rungeKutta =>
      obtain ⟨e0, e1, e2, e3, e4⟩ := hw
      simp only [hk, smul_eq_mul] at e1 e2 e3 e4
      have u0 : 0 ≤ u n 0 ∧ u n 0 ≤ w n := by rw [e0]; exact ⟨a0, le_rfl⟩
      obtain ⟨g0, f0⟩ := rate 0 u0.1 u0.2
      have p0 := mul_nonneg hdt.le g0
      have u1 : 0 ≤ u n 1 ∧ u n 1 ≤ w n := by rw [e1]; constructor <;> linarith
      obtain ⟨g1, f1⟩ := rate 1 u1.1 u1.2
      have p1 := mul_nonneg hdt.le g1
      have u2 : 0 ≤ u n 2 ∧ u n 2 ≤ w n := by rw [e2]; constructor <;> linarith
      obtain ⟨g2, f2⟩ := rate 2 u2.1 u2.2
      have p2 := mul_nonneg hdt.le g2
      have u3 : 0 ≤ u n 3 ∧ u n 3 ≤ w n := by rw [e3]; constructor <;> linarith
      obtain ⟨g3, f3⟩ := rate 3 u3.1 u3.2
      have p3 := mul_nonneg hdt.le g3
      refine ⟨Fin.four u0 u1 u2 u3, by rw [e4]; linarith, ?_⟩
      rw [e4]
      rw [← e0]
      linarith
  have inv : ∀ n, 0 ≤ w n ∧ w n ≤ w 0 := by
    intro n
    induction n with
    | zero => exact ⟨h0, le_rfl⟩
    | succ n ih =>
      obtain ⟨_, a, b⟩ := one n ih.1 ih.2
      have := mul_nonneg (by linarith : 0 ≤ dt / 6) (hG _ ih.1 ih.2).1
      exact ⟨a, by linarith⟩
  have anti : Antitone w := antitone_nat_of_succ_le fun n => by
    obtain ⟨_, a, b⟩ := one n (inv n).1 (inv n).2
    have := mul_nonneg (by linarith : 0 ≤ dt / 6) (hG _ (inv n).1 (inv n).2).1
    linarith
  have tw : Tendsto w atTop (𝓝 0) := by
    have hl := tendsto_atTop_ciInf anti ⟨0, by rintro _ ⟨n, rfl⟩; exact (inv n).1⟩
    obtain ⟨l, he⟩ : ∃ l, l = ⨅ i, w i := ⟨_, rfl⟩
    rw [← he] at hl
    have l0 : 0 ≤ l := ge_of_tendsto' hl fun n => (inv n).1
    have l1 : l ≤ w 0 := le_of_tendsto' hl fun n => (inv n).2
    have tG : Tendsto (fun n => G (w n)) atTop (𝓝 (G l)) := by
      refine (hc l ⟨l0, l1⟩).tendsto.comp (tendsto_nhdsWithin_iff.mpr ⟨hl, Eventually.of_forall inv⟩)
    have hle : l ≤ l - dt / 6 * G l :=
      le_of_tendsto_of_tendsto' (hl.comp (tendsto_add_atTop_nat 1)) (hl.sub (tG.const_mul (dt / 6)))
        fun n => (one n (inv n).1 (inv n).2).2.2
    rcases l0.eq_or_lt with e | e
    · rw [e]; exact hl
    · have := hpos l e l1
      have := mul_pos (by linarith : 0 < dt / 6) this
      linarith
  exact ⟨tw, fun j => squeeze_zero (fun n => ((one n (inv n).1 (inv n).2).1 j).1)
    (fun n => ((one n (inv n).1 (inv n).2).1 j).2) tw⟩

/-- Steps of a clock that stops at one. -/
theorem clock_steps {m : Method} {dt c : ℝ} {x : Nat → ℝ} {u k : Nat → Fin 4 → ℝ}
    (hx : ∀ n, MethodStep m dt (x n) (x (n + 1)) (u n) (k n))
    (hk : ∀ n j, k n j = if u n j < 1 then c else 0) (hdt : 0 ≤ dt) (hc : 0 ≤ c) :
    ∀ n j, x 0 ≤ u n j ∧ u n j ≤ max (x 0) 1 + dt * c := by
  have dc := mul_nonneg hdt hc
  have one : ∀ n, (∀ j, x n ≤ u n j ∧ u n j ≤ max (x n) (1 + dt * c)) ∧ x n ≤ x (n + 1) ∧
      x (n + 1) ≤ max (x n) (1 + dt * c) := by
    intro n
    have kb : ∀ j, 0 ≤ k n j ∧ k n j ≤ c := fun j => by
      rw [hk]; split
      · exact ⟨hc, le_rfl⟩
      · exact ⟨le_rfl, hc⟩
    have ks : ∀ j, 1 ≤ u n j → k n j = 0 := fun j h => by rw [hk, if_neg (not_lt.mpr h)]
    have hx := hx n
    rcases lt_or_ge (x n) 1 with h | h
    · have up : ∀ y, y ≤ x n + dt * c → y ≤ max (x n) (1 + dt * c) := fun y hy =>
        (hy.trans (by linarith)).trans (le_max_right _ _)
      have b : ∀ j, 0 ≤ dt * k n j ∧ dt * k n j ≤ dt * c := fun j =>
        ⟨mul_nonneg hdt (kb j).1, mul_le_mul_of_nonneg_left (kb j).2 hdt⟩
      have b0 := b 0
      have b1 := b 1
      have b2 := b 2
      have b3 := b 3
      cases m with
      | euler =>
        obtain ⟨e0, e1, e2, e3, e4⟩ := hx
        rw [smul_eq_mul] at e4
        refine ⟨Fin.four ?_ ?_ ?_ ?_, by linarith, up _ (by linarith)⟩
        · rw [e0]; exact ⟨le_rfl, le_max_left _ _⟩
        · rw [e1]; exact ⟨le_rfl, le_max_left _ _⟩
        · rw [e2]; exact ⟨le_rfl, le_max_left _ _⟩
        · rw [e3]; exact ⟨le_rfl, le_max_left _ _⟩
      | rungeKutta =>
        obtain ⟨e0, e1, e2, e3, e4⟩ := hx
        simp only [smul_eq_mul] at e1 e2 e3 e4
        refine ⟨Fin.four ?_ ?_ ?_ ?_, by linarith, up _ (by linarith)⟩
        · rw [e0]; exact ⟨le_rfl, le_max_left _ _⟩
        · exact ⟨by linarith, up _ (by linarith)⟩
        · exact ⟨by linarith, up _ (by linarith)⟩
        · exact ⟨by linarith, up _ (by linarith)⟩
    · -- at rest
      have rest : (∀ j, u n j = x n) ∧ x (n + 1) = x n := by
        cases m with
        | euler =>
          obtain ⟨e0, e1, e2, e3, e4⟩ := hx
          rw [ks 0 (by rw [e0]; exact h), smul_zero, add_zero] at e4
          exact ⟨Fin.four e0 e1 e2 e3, e4⟩
        | rungeKutta =>
          obtain ⟨e0, e1, e2, e3, e4⟩ := hx
          have k0 := ks 0 (by rw [e0]; exact h)
          rw [k0, smul_zero, add_zero] at e1
          have k1 := ks 1 (by rw [e1]; exact h)
          rw [k1, smul_zero, add_zero] at e2
          have k2 := ks 2 (by rw [e2]; exact h)
          rw [k2, smul_zero, add_zero] at e3
          have k3 := ks 3 (by rw [e3]; exact h)
          rw [k0, k1, k2, k3] at e4
          refine ⟨Fin.four e0 e1 e2 e3, ?_⟩
          rw [e4]; simp
      refine ⟨fun j => by rw [rest.1 j]; exact ⟨le_rfl, le_max_left _ _⟩, by rw [rest.2], by
        rw [rest.2]; exact le_max_left _ _⟩
  have inv : ∀ n, x 0 ≤ x n ∧ x n ≤ max (x 0) 1 + dt * c := by
    intro n
    induction n with
    | zero => exact ⟨le_rfl, by have := le_max_left (x 0) 1; linarith⟩
    | succ n ih =>
      obtain ⟨_, a, b⟩ := one n
      refine ⟨ih.1.trans a, b.trans (max_le ih.2 ?_)⟩
      have := le_max_right (x 0) 1
      linarith
  intro n j
  obtain ⟨a, _, _⟩ := one n
  refine ⟨(inv n).1.trans (a j).1, (a j).2.trans (max_le (inv n).2 ?_)⟩
  have := le_max_right (x 0) 1
  linarith

end Verif
