import Verif.Proofs.NumLimits
import Verif.Spec.Tracking

/- Stability of a point that follows a desired motion with a controller, in discrete time. -/

set_option autoImplicit false

namespace Verif

open Filter Topology Spec

/-- Roots of a quadratic polynomial inside of the unit circle. -/
theorem root_inside {t D : ℝ} (h1 : |D| < 1) (h2 : |t| < 1 + D) {z : ℂ} (h : z ^ 2 - t * z + D = 0) : ‖z‖ < 1 := by
  have e1 := congrArg Complex.re h
  have e2 := congrArg Complex.im h
  simp [pow_two] at e1 e2
  obtain ⟨b1, b2⟩ := abs_lt.mp h1
  obtain ⟨b3, b4⟩ := abs_lt.mp h2
  have h3 : z.im * (2 * z.re - t) = 0 := by linarith
  have sq : ‖z‖ ^ 2 = z.re ^ 2 + z.im ^ 2 := by
    rw [← Complex.normSq_eq_norm_sq, Complex.normSq_apply]; ring
  have lt : z.re ^ 2 + z.im ^ 2 < 1 := by
    rcases mul_eq_zero.mp h3 with h4 | h4
    · rw [h4] at e1 ⊢
      obtain ⟨x, hx⟩ : ∃ x, x = z.re := ⟨_, rfl⟩
      rw [← hx] at e1 ⊢
      have p1 : (x - 1) * (t - x - 1) > 0 := by nlinarith
      have p2 : (x + 1) * (t - x + 1) > 0 := by nlinarith
      have p3 : x * (t - x) = D := by nlinarith
      by_contra hc
      push Not at hc
      have hx1 : 1 ≤ x ^ 2 := by nlinarith
      have hy1 : (t - x) ^ 2 < 1 := by
        have : x ^ 2 * (t - x) ^ 2 < 1 := by
          rw [← mul_pow, p3]; nlinarith
        nlinarith [sq_nonneg (t - x)]
      obtain ⟨y1, y2⟩ := abs_lt.mp ((sq_lt_one_iff_abs_lt_one _).mp hy1)
      rcases le_or_gt 1 x with e | e
      · nlinarith
      · have : x ≤ -1 := by nlinarith
        nlinarith
    · have : t = 2 * z.re := by linarith
      rw [this] at e1
      nlinarith
  rw [← sq] at lt
  exact (sq_lt_one_iff₀ (norm_nonneg z)).mp lt

/-- A linear recurrence of two sequences whose roots are inside of the unit circle, with perturbations that
become small. -/
theorem pair_limit {h a b : ℝ} {E W p : Nat → ℝ} {ε r : Nat → ℝ} (hh : 0 ≤ h)
    (st : StableStep .euler h a b)
    (hE : ∀ n, E (n + 1) = E n + h * W n) (hW : ∀ n, W (n + 1) = W n + h * (-b * E n - a * W n + p n))
    (hp : ∀ n, |p n| ≤ ε n * (|E n| + |W n|) + r n) (hε0 : ∀ n, 0 ≤ ε n)
    (hε : Tendsto ε atTop (𝓝 0)) (hr : Tendsto r atTop (𝓝 0)) :
    Tendsto E atTop (𝓝 0) ∧ Tendsto W atTop (𝓝 0) := by
  obtain ⟨l1, l2, s1, s2⟩ := exists_roots a b
  have f : ∀ l : ℂ, l ^ 2 + a * l + b = (l - l1) * (l - l2) := fun l => by
    have : (l - l1) * (l - l2) = l ^ 2 - (l1 + l2) * l + l1 * l2 := by ring
    rw [this, s1, s2]; ring
  have r1 := st l1 (by rw [f]; simp)
  have r2 := st l2 (by rw [f]; simp)
  rw [stepFactor] at r1 r2
  obtain ⟨V, hV⟩ : ∃ V : Nat → ℂ, V = fun n => (W n : ℂ) - l1 * E n := ⟨_, rfl⟩
  have eV : ∀ n, V (n + 1) = (1 + h * l2) * V n + h * p n := fun n => by
    have e2 : l2 = -a - l1 := by rw [← s1]; ring
    have e3 : (b : ℂ) = l1 * (-a - l1) := by rw [← e2, s2]
    rw [hV]
    simp only [hE, hW]
    push_cast
    rw [e3, e2]
    ring
  have eE : ∀ n, (E (n + 1) : ℂ) = (1 + h * l1) * E n + h * V n := fun n => by
    rw [hV]
    simp only [hE]
    push_cast
    ring
  have wle : ∀ n, |W n| ≤ ‖V n‖ + ‖l1‖ * |E n| := fun n => by
    have e : (W n : ℂ) = V n + l1 * E n := by rw [hV]; ring
    have := norm_add_le (V n) (l1 * E n)
    rw [← e, norm_mul, Complex.norm_real, Complex.norm_real, Real.norm_eq_abs, Real.norm_eq_abs] at this
    exact this
  obtain ⟨ρ, hρ⟩ : ∃ ρ : ℝ, ρ = max ‖(1 : ℂ) + h * l1‖ ‖(1 : ℂ) + h * l2‖ := ⟨_, rfl⟩
  have ρ1 : ρ < 1 := by rw [hρ]; exact max_lt r1 r2
  have ρa : ‖(1 : ℂ) + h * l1‖ ≤ ρ := by rw [hρ]; exact le_max_left _ _
  have ρb : ‖(1 : ℂ) + h * l2‖ ≤ ρ := by rw [hρ]; exact le_max_right _ _
  have ρ0 : 0 ≤ ρ := (norm_nonneg _).trans ρa
  have n1 := norm_nonneg l1
  have ple : ∀ n, |p n| ≤ (1 + ‖l1‖) * ε n * (|E n| + ‖V n‖) + |r n| := fun n => by
    have h1 : ε n * (|E n| + |W n|) ≤ ε n * ((1 + ‖l1‖) * (|E n| + ‖V n‖)) := by
      refine mul_le_mul_of_nonneg_left ?_ (hε0 n)
      nlinarith [wle n, abs_nonneg (E n), norm_nonneg (V n)]
    have := hp n
    have := le_abs_self (r n)
    nlinarith
  obtain ⟨tE, tV⟩ := shrink_pair (E := fun n => |E n|) (V := fun n => ‖V n‖) (δ := fun n => (1 + ‖l1‖) * ε n)
    (r := fun n => |r n|) (C := h)
    (fun n => abs_nonneg _) (fun n => norm_nonneg _) ρ0 ρ1 hh (by simpa using hε.const_mul (1 + ‖l1‖))
    (by simpa using hr.abs)
    (Eventually.of_forall fun n => by
      have := norm_add_le ((1 + h * l2) * V n) ((h : ℂ) * p n)
      rw [← eV, norm_mul, norm_mul, Complex.norm_real, Complex.norm_real, Real.norm_eq_abs, Real.norm_eq_abs,
        abs_of_nonneg hh] at this
      have h1 := mul_le_mul_of_nonneg_right ρb (norm_nonneg (V n))
      have h2 := mul_le_mul_of_nonneg_left (ple n) hh
      linarith)
    (Eventually.of_forall fun n => by
      have := norm_add_le ((1 + h * l1) * E n) ((h : ℂ) * V n)
      rw [← eE, norm_mul, norm_mul, Complex.norm_real, Complex.norm_real, Complex.norm_real, Real.norm_eq_abs,
        Real.norm_eq_abs, Real.norm_eq_abs, abs_of_nonneg hh] at this
      have h1 := mul_le_mul_of_nonneg_right ρa (abs_nonneg (E n))
      have h2 := mul_nonneg hh (mul_nonneg (mul_nonneg (by linarith : 0 ≤ 1 + ‖l1‖) (hε0 n))
        (add_nonneg (abs_nonneg (E n)) (norm_nonneg (V n))))
      have h3 := mul_nonneg hh (abs_nonneg (r n))
      nlinarith)
  refine ⟨(tendsto_zero_iff_abs_tendsto_zero _).mpr tE, (tendsto_zero_iff_abs_tendsto_zero _).mpr ?_⟩
  exact squeeze_zero (fun n => abs_nonneg _) wle (by simpa using tV.add (tE.const_mul ‖l1‖))

/-- The controller is stable if the product of the step and the root of the gain is below `√5 - 1`. -/
theorem gain_stable {dt g : ℝ} (h0 : 0 < dt) (hg : 0 < g) (h : dt * √g < √5 - 1) :
    StableStep .euler dt (√g + dt * g) g := by
  intro l hl
  rw [stepFactor]
  obtain ⟨b, hb⟩ : ∃ b, b = dt * √g := ⟨_, rfl⟩
  have b0 : 0 < b := by rw [hb]; exact mul_pos h0 (Real.sqrt_pos.mpr hg)
  have hbb : b * b = dt * dt * g := by
    rw [hb]
    have := Real.mul_self_sqrt hg.le
    nlinarith
  have s5 : √5 * √5 = 5 := Real.mul_self_sqrt (by norm_num)
  have s5' : √5 < 3 := by
    rw [Real.sqrt_lt' (by norm_num)]; norm_num
  rw [← hb] at h
  refine root_inside (t := 2 - b - b * b) (D := 1 - b) ?_ ?_ ?_
  · rw [abs_lt]; constructor <;> linarith
  · rw [abs_lt]; constructor <;> nlinarith
  · have e : (b : ℂ) = dt * (√g : ℝ) := by rw [hb]; push_cast; ring
    have e2 : (b : ℂ) * b = dt * dt * g := by exact_mod_cast hbb
    push_cast
    rw [e2, e]
    push_cast at hl
    linear_combination (dt : ℂ) ^ 2 * hl

/-- A point that follows a motion that comes to rest, with gains that tend to a stable gain, against a force
that becomes small, comes to rest at the same place. -/
theorem follower_arrives {dt g A : ℝ} {gain des desVel desAcc force pos vel acc : Nat → ℝ} (h0 : 0 < dt)
    (hg : 0 < g) (hb : dt * √g < √5 - 1)
    (h : ∀ n, Tracks n dt gain des desVel desAcc force pos vel acc)
    (tg : Tendsto gain atTop (𝓝 g)) (t1 : Tendsto des atTop (𝓝 A)) (t2 : Tendsto desVel atTop (𝓝 0))
    (t3 : Tendsto desAcc atTop (𝓝 0)) (t4 : Tendsto force atTop (𝓝 0)) :
    Tendsto pos atTop (𝓝 A) ∧ Tendsto vel atTop (𝓝 0) := by
  have ha := fun i => (h (i + 2)).accel i (by omega)
  have hs := fun i => (h (i + 2)).speed i (by omega)
  have hp := fun i => (h (i + 2)).place i (by omega)
  have st := gain_stable h0 hg hb
  have ts : Tendsto (fun n => √(gain n)) atTop (𝓝 √g) := (Real.continuous_sqrt.tendsto g).comp tg
  have sh : ∀ {f : Nat → ℝ} {a : ℝ}, Tendsto f atTop (𝓝 a) → Tendsto (fun n => f (n + 2)) atTop (𝓝 a) :=
    fun h => h.comp (tendsto_add_atTop_nat 2)
  obtain ⟨k1, k2⟩ := pair_limit (h := dt) (a := √g + dt * g) (b := g) (E := fun n => pos n - A)
    (W := fun n => vel (n + 1))
    (p := fun n => (g - gain (n + 2)) * (pos n - A) +
      (√g - √(gain (n + 2)) + dt * (g - gain (n + 2))) * vel (n + 1) + (desAcc (n + 2) +
        gain (n + 2) * (des (n + 2) - A) + √(gain (n + 2)) * desVel (n + 2) + force (n + 2)))
    (ε := fun n => |g - gain (n + 2)| + |√g - √(gain (n + 2)) + dt * (g - gain (n + 2))|)
    (r := fun n => |desAcc (n + 2) + gain (n + 2) * (des (n + 2) - A) + √(gain (n + 2)) * desVel (n + 2) +
      force (n + 2)|) h0.le st
    (fun n => by
      rw [hp]; ring)
    (fun n => by
      rw [hs (n + 1), ha (n + 1), hp n]
      ring)
    (fun n => by
      refine (abs_add_le _ _).trans (add_le_add_left ((abs_add_le _ _).trans ?_) _)
      rw [abs_mul, abs_mul]
      nlinarith [mul_nonneg (abs_nonneg (g - gain (n + 2))) (abs_nonneg (vel (n + 1))),
        mul_nonneg (abs_nonneg (√g - √(gain (n + 2)) + dt * (g - gain (n + 2)))) (abs_nonneg (pos n - A))])
    (fun n => by positivity)
    (by
      have a1 := (sh tg).const_sub g
      have a2 := (sh ts).const_sub √g
      have a3 := a1.abs.add (a2.add (a1.const_mul dt)).abs
      simpa using a3)
    (by
      have a1 := (sh tg).mul ((sh t1).sub_const A)
      have a2 := (sh ts).mul (sh t2)
      have a3 := ((((sh t3).add a1).add a2).add (sh t4)).abs
      simpa using a3)
  refine ⟨?_, (tendsto_add_atTop_iff_nat 1).mp k2⟩
  have := k1.add_const A
  rw [zero_add] at this
  exact this.congr fun n => by ring

/-- Against a force that is largest at the first step, a controller with a too large gain is unstable: the
point moves away from a desired position at rest without bounds. -/
theorem follower_diverges {dt g A F : ℝ} {force pos vel acc φ : Nat → ℝ} (h0 : 0 < dt) (hg : 0 < g)
    (hb : √5 - 1 < dt * √g)
    (h : ∀ n, Tracks n dt (fun _ => g) (fun _ => A) (fun _ => 0) (fun _ => 0) force pos vel acc)
    (hF : F ≠ 0) (hf : ∀ i, force (i + 1) = F * φ (i + 1)) (hφ0 : ∀ i, 0 < φ (i + 1))
    (hφ : ∀ i, φ (i + 2) ≤ φ (i + 1)) (B : ℝ) : ∃ n, B < |pos n - A| := by
  obtain ⟨q1, q2, -⟩ := (h 1).start
  have ha := fun i => (h (i + 2)).accel i (by omega)
  have hs := fun i => (h (i + 2)).speed i (by omega)
  have hp := fun i => (h (i + 2)).place i (by omega)
  obtain ⟨b, hbd⟩ : ∃ b, b = dt * √g := ⟨_, rfl⟩
  have s5 : √5 * √5 = 5 := Real.mul_self_sqrt (by norm_num)
  have s5' : 2 < √5 := by
    rw [Real.lt_sqrt (by norm_num)]; norm_num
  rw [← hbd] at hb
  have b1 : 1 < b := by linarith
  have hbb : b * b = dt * dt * g := by
    rw [hbd]
    have := Real.mul_self_sqrt hg.le
    nlinarith
  -- the root below `-1`
  obtain ⟨t, ht⟩ : ∃ t, t = 2 - b - b * b := ⟨_, rfl⟩
  have neg : 1 + t + (1 - b) < 0 := by rw [ht]; nlinarith
  have disc : (t + 2) ^ 2 < t ^ 2 - 4 * (1 - b) := by nlinarith
  have disc0 : 0 ≤ t ^ 2 - 4 * (1 - b) := (sq_nonneg _).trans disc.le
  obtain ⟨r, hr⟩ : ∃ r, r = √(t ^ 2 - 4 * (1 - b)) := ⟨_, rfl⟩
  have rr : r * r = t ^ 2 - 4 * (1 - b) := by rw [hr]; exact Real.mul_self_sqrt disc0
  have rlt : t + 2 < r := by
    rw [hr]
    exact Real.lt_sqrt_of_sq_lt disc
  obtain ⟨q, hq⟩ : ∃ q, q = (r - t) / 2 := ⟨_, rfl⟩
  have q1' : 1 < q := by rw [hq]; linarith
  have root : q * q + t * q + (1 - b) = 0 := by rw [hq]; nlinarith
  obtain ⟨k, hk⟩ : ∃ k, k = q / (b - 1) := ⟨_, rfl⟩
  have k0 : 0 < k := by rw [hk]; exact div_pos (by linarith) (by linarith)
  have kb : k * (b - 1) = q := by rw [hk]; field_simp [(by linarith : b - 1 ≠ 0)]
  have kk : k - 1 - k * (b * b) = -q * (k - 1) := by
    have e : (b - 1) * (k - 1 - k * (b * b) + q * (k - 1)) = 0 := by
      have : (b - 1) * (k - 1 - k * (b * b) + q * (k - 1)) =
        (k * (b - 1)) * (1 - b * b + q) - (b - 1) * (1 + q) := by ring
      rw [this, kb]
      rw [ht] at root
      linear_combination root
    rcases mul_eq_zero.mp e with e | e
    · linarith
    · linarith
  -- the unstable mode
  obtain ⟨w, hw⟩ : ∃ w : Nat → ℝ, w = fun n => dt * vel n / F := ⟨_, rfl⟩
  obtain ⟨e, he⟩ : ∃ e : Nat → ℝ, e = fun n => (pos n - A) / F := ⟨_, rfl⟩
  have ew : ∀ n, w (n + 1) = (1 - b) * w n - b * b * e n + dt * dt * φ (n + 1) := fun n => by
    rw [hw, he]
    simp only
    rw [hs, ha, hf, hbb, hbd]
    field_simp
    ring
  have ee : ∀ n, e (n + 1) = e n + w (n + 1) := fun n => by
    rw [hw, he]
    simp only
    rw [hp]
    ring
  obtain ⟨V, hV⟩ : ∃ V : Nat → ℝ, V = fun n => w n + (k - 1) * e n := ⟨_, rfl⟩
  have V0 : V 0 = 0 := by
    rw [hV, hw, he]
    simp [q1, q2]
  have VS : ∀ n, V (n + 1) = -q * V n + k * (dt * dt) * φ (n + 1) := fun n => by
    rw [hV]
    simp only
    rw [ee, ew]
    have := kk
    linear_combination (e n) * kk - (w n) * kb
  obtain ⟨c, hc⟩ : ∃ c, c = k * (dt * dt) := ⟨_, rfl⟩
  have c0 : 0 < c := by rw [hc]; positivity
  rw [← hc] at VS
  obtain ⟨δ, hδ⟩ : ∃ δ, δ = c * φ 1 * (1 - 1 / q) := ⟨_, rfl⟩
  have q1i : 1 / q < 1 := by rw [div_lt_one (by linarith)]; exact q1'
  have δ0 : 0 < δ := by
    rw [hδ]
    exact mul_pos (mul_pos c0 (hφ0 0)) (by linarith)
  have qi : q * (1 / q) = 1 := by field_simp
  have grow : ∀ n, q ^ (2 * n) * δ + c * φ (2 * n + 1) * (1 / q) ≤ V (2 * n + 1) ∧
      q ^ (2 * n + 1) * δ ≤ -V (2 * n + 2) := by
    have second : ∀ n, q ^ (2 * n) * δ + c * φ (2 * n + 1) * (1 / q) ≤ V (2 * n + 1) →
        q ^ (2 * n + 1) * δ ≤ -V (2 * n + 2) := by
      intro n hn
      have h1 := mul_le_mul_of_nonneg_left hn (by linarith : 0 ≤ q)
      have h2 := mul_le_mul_of_nonneg_left (hφ (2 * n)) c0.le
      have e1 : q * (q ^ (2 * n) * δ + c * φ (2 * n + 1) * (1 / q)) =
          q ^ (2 * n + 1) * δ + c * φ (2 * n + 1) * (q * (1 / q)) := by ring
      rw [e1, qi] at h1
      rw [VS (2 * n + 1)]
      change _ ≤ -(-q * V (2 * n + 1) + c * φ (2 * n + 2))
      linarith
    intro n
    induction n with
    | zero =>
      have h1 : q ^ (2 * 0) * δ + c * φ (2 * 0 + 1) * (1 / q) ≤ V (2 * 0 + 1) := by
        rw [VS, V0, hδ]
        simp only [mul_zero, pow_zero, zero_add, one_mul]
        linarith
      exact ⟨h1, second 0 h1⟩
    | succ n ih =>
      have h1 : q ^ (2 * (n + 1)) * δ + c * φ (2 * (n + 1) + 1) * (1 / q) ≤ V (2 * (n + 1) + 1) := by
        have h2 := mul_le_mul_of_nonneg_left ih.2 (by linarith : 0 ≤ q)
        have e1 : q * (q ^ (2 * n + 1) * δ) = q ^ (2 * (n + 1)) * δ := by ring
        rw [e1] at h2
        have h3 := mul_pos c0 (hφ0 (2 * (n + 1)))
        have h4 := mul_le_mul_of_nonneg_left q1i.le h3.le
        rw [VS (2 * (n + 1)), show 2 * (n + 1) = 2 * n + 2 by ring] at *
        linarith
      exact ⟨h1, second _ h1⟩
  by_contra hall
  push Not at hall
  have eb : ∀ n, |e n| ≤ B / |F| := fun n => by
    rw [he]
    simp only
    rw [abs_div]
    exact div_le_div_of_nonneg_right (hall n) (abs_nonneg F)
  have Vb : ∀ n, |V (n + 1)| ≤ (2 + |k - 1|) * (B / |F|) := fun n => by
    have e1 : V (n + 1) = e (n + 1) - e n + (k - 1) * e (n + 1) := by
      rw [hV]
      simp only
      have := ee n
      linarith
    rw [e1]
    have a1 := abs_add_le (e (n + 1) - e n) ((k - 1) * e (n + 1))
    have a2 := abs_sub (e (n + 1)) (e n)
    rw [abs_mul] at a1
    have a3 := mul_le_mul_of_nonneg_left (eb (n + 1)) (abs_nonneg (k - 1))
    have := eb (n + 1)
    have := eb n
    linarith
  obtain ⟨N, hN⟩ := pow_unbounded_of_one_lt ((2 + |k - 1|) * (B / |F|) / δ) q1'
  have h1 := (grow N).1
  have h2 := (le_abs_self _).trans (Vb (2 * N))
  have h3 : q ^ N ≤ q ^ (2 * N) := pow_le_pow_right₀ q1'.le (by omega)
  rw [div_lt_iff₀ δ0] at hN
  have h4 := mul_le_mul_of_nonneg_right h3 δ0.le
  have h5 : 0 < c * φ (2 * N + 1) * (1 / q) :=
    mul_pos (mul_pos c0 (hφ0 (2 * N))) (div_pos one_pos (by linarith))
  linarith

end Verif
