import Mathlib.Analysis.Calculus.MeanValue
import Mathlib.Topology.MetricSpace.Lipschitz
import Mathlib.Topology.UniformSpace.HeineCantor
import Mathlib.Analysis.SpecialFunctions.Exp
import Verif.Spec.StepsOn

/- Numerical integration with small steps stays close to the exact motion. -/

set_option autoImplicit false

namespace Verif

open Filter Topology Set Spec DynSys

variable {E P : Type} [NormedAddCommGroup E] [NormedSpace ℝ E] [NormedAddCommGroup P] [NormedSpace ℝ P]

namespace Spec.Grid

variable {T δ : ℝ} {N : Nat} {t : Nat → ℝ}

theorem mono (h : Grid T δ N t) {i j : Nat} (hij : i ≤ j) (hj : j ≤ N) : t i ≤ t j := by
  induction j with
  | zero => rw [Nat.le_zero.mp hij]
  | succ j ih =>
    rcases Nat.lt_or_ge i (j + 1) with c | c
    · exact (ih (by omega) (by omega)).trans (h.forward j (by omega))
    · rw [Nat.le_antisymm hij c]

theorem nonneg (h : Grid T δ N t) {n : Nat} (hn : n ≤ N) : 0 ≤ t n :=
  h.start ▸ h.mono (Nat.zero_le n) hn

theorem le (h : Grid T δ N t) {n : Nat} (hn : n ≤ N) : t n ≤ T :=
  (h.mono hn le_rfl).trans h.upto

theorem finer {δ' : ℝ} (h : Grid T δ N t) (hd : δ ≤ δ') : Grid T δ' N t :=
  ⟨h.start, h.forward, fun i hi => (h.fine i hi).trans hd, h.upto⟩

end Spec.Grid

/-- Near a path, a locally Lipschitz function is Lipschitz from the path, uniformly. -/
theorem tube_lipschitz {F : E × P → E} (hF : LocallyLipschitz F) {x : ℝ → E} {p : ℝ → P} {T : ℝ}
    (cx : ContinuousOn x (Icc 0 T)) (cp : ContinuousOn p (Icc 0 T)) :
    ∃ L r : ℝ, 0 ≤ L ∧ 0 < r ∧ ∀ t ∈ Icc 0 T, ∀ a q, ‖a - x t‖ ≤ r → ‖q - p t‖ ≤ r →
      ‖F (a, q) - F (x t, p t)‖ ≤ L * (‖a - x t‖ + ‖q - p t‖) := by
  refine isCompact_Icc.induction_on (s := Icc 0 T) (p := fun S => ∃ L r : ℝ, 0 ≤ L ∧ 0 < r ∧ ∀ t ∈ S, ∀ a q,
    ‖a - x t‖ ≤ r → ‖q - p t‖ ≤ r → ‖F (a, q) - F (x t, p t)‖ ≤ L * (‖a - x t‖ + ‖q - p t‖))
    ⟨0, 1, le_rfl, one_pos, fun t ht => ht.elim⟩ ?_ ?_ ?_
  · rintro S S' hS ⟨L, r, h0, h1, h2⟩
    exact ⟨L, r, h0, h1, fun t ht => h2 t (hS ht)⟩
  · rintro S S' ⟨L, r, h0, h1, h2⟩ ⟨L', r', h0', h1', h2'⟩
    refine ⟨max L L', min r r', le_max_of_le_left h0, lt_min h1 h1', fun t ht a q ha hq => ?_⟩
    have n1 := norm_nonneg (a - x t)
    have n2 := norm_nonneg (q - p t)
    rcases ht with ht | ht
    · refine (h2 t ht a q (ha.trans (min_le_left _ _)) (hq.trans (min_le_left _ _))).trans ?_
      exact mul_le_mul_of_nonneg_right (le_max_left _ _) (by positivity)
    · refine (h2' t ht a q (ha.trans (min_le_right _ _)) (hq.trans (min_le_right _ _))).trans ?_
      exact mul_le_mul_of_nonneg_right (le_max_right _ _) (by positivity)
  · intro t ht
    obtain ⟨K, U, hU, hK⟩ := hF (x t, p t)
    obtain ⟨r, r0, hr⟩ := Metric.mem_nhds_iff.mp hU
    have h1 : ∀ᶠ s in 𝓝[Icc 0 T] t, dist (x s) (x t) < r / 2 :=
      (cx t ht).eventually (Metric.ball_mem_nhds _ (by positivity))
    have h2 : ∀ᶠ s in 𝓝[Icc 0 T] t, dist (p s) (p t) < r / 2 :=
      (cp t ht).eventually (Metric.ball_mem_nhds _ (by positivity))
    refine ⟨_, h1.and h2, K, r / 4, K.2, by positivity, ?_⟩
    rintro s ⟨d1, d2⟩ a q ha hq
    have m1 : (x s, p s) ∈ U := hr (by
      rw [Metric.mem_ball, Prod.dist_eq]
      exact max_lt (by simp only; linarith) (by simp only; linarith))
    have m2 : (a, q) ∈ U := hr (by
      rw [Metric.mem_ball, Prod.dist_eq]
      rw [← dist_eq_norm] at ha hq
      refine max_lt ?_ ?_ <;> simp only
      · linarith [dist_triangle a (x s) (x t)]
      · linarith [dist_triangle q (p s) (p t)])
    have := hK.dist_le_mul _ m2 _ m1
    rw [dist_eq_norm] at this
    refine this.trans (mul_le_mul_of_nonneg_left ?_ K.2)
    rw [Prod.dist_eq, ← dist_eq_norm, ← dist_eq_norm]
    exact max_le_add_of_nonneg dist_nonneg dist_nonneg

/-- A path deviates little from its tangent. -/
theorem tangent {x v : ℝ → E} {T η δ : ℝ} (cx : ContinuousOn x (Icc 0 T))
    (hx : ∀ t ∈ Ico 0 T, HasDerivWithinAt x (v t) (Ici t) t)
    (hv : ∀ s ∈ Icc 0 T, ∀ t ∈ Icc 0 T, |t - s| ≤ δ → ‖v t - v s‖ ≤ η) {s h : ℝ} (hs : 0 ≤ s) (h0 : 0 ≤ h)
    (hh : h ≤ δ) (hT : s + h ≤ T) : ‖x (s + h) - x s - h • v s‖ ≤ h * η := by
  have sub : Icc s (s + h) ⊆ Icc 0 T := Icc_subset_Icc hs hT
  have key := norm_image_sub_le_of_norm_deriv_right_le_segment (f := fun t => x t - (t - s) • v s)
    (f' := fun t => v t - v s) (a := s) (b := s + h) (C := η)
    ((cx.mono sub).sub (by fun_prop)) (fun t ht => by
      have h1 := hx t ⟨hs.trans ht.1, ht.2.trans_le hT⟩
      have h2 : HasDerivWithinAt (fun t : ℝ => (t - s) • v s) ((1 : ℝ) • v s) (Ici t) t :=
        ((hasDerivAt_id t).sub_const s).hasDerivWithinAt.smul_const (v s)
      rw [one_smul] at h2
      exact h1.sub h2)
    (fun t ht => hv s (sub ⟨le_rfl, by linarith⟩) t (sub ⟨ht.1, ht.2.le⟩) (by
      rw [abs_of_nonneg (by linarith [ht.1])]
      linarith [ht.2])) (s + h) ⟨by linarith, le_rfl⟩
  simp only [sub_self, zero_smul, sub_zero, add_sub_cancel_left] at key
  rw [mul_comm h η]
  convert key using 2
  abel

/-- One step of either method: if all rates of change deviate from `f` by at most `D`, the state moves almost by
`h f`, and no stage moves by more than `h (‖f‖ + D)`. -/
theorem step_close {m : Method} {h D : ℝ} {X X' f : E} {u k : Fin 4 → E} (hm : MethodStep m h X X' u k)
    (h0 : 0 ≤ h) (P : E → Prop) (hu : ∀ v, ‖v - X‖ ≤ h * (‖f‖ + D) → P v) (D0 : 0 ≤ D)
    (hk : ∀ j, P (u j) → ‖k j - f‖ ≤ D) :
    (∀ j, ‖u j - X‖ ≤ h * (‖f‖ + D)) ∧ ‖X' - X - h • f‖ ≤ h * D := by
  have nf := norm_nonneg f
  have size : ∀ j, P (u j) → ‖k j‖ ≤ ‖f‖ + D := fun j hj => by
    have := norm_add_le f (k j - f)
    rw [add_sub_cancel] at this
    linarith [hk j hj]
  have b0 : 0 ≤ h * (‖f‖ + D) := by positivity
  have stage : ∀ {v w : E} {c : ℝ}, |c| ≤ h → v = X + c • w → ‖w‖ ≤ ‖f‖ + D → ‖v - X‖ ≤ h * (‖f‖ + D) := by
    intro v w c hc hv hw
    rw [hv, add_sub_cancel_left, norm_smul, Real.norm_eq_abs]
    exact mul_le_mul hc hw (norm_nonneg _) h0
  have self : ‖X - X‖ ≤ h * (‖f‖ + D) := by rw [sub_self, norm_zero]; exact b0
  have all : ∀ {Q : Fin 4 → Prop}, Q 0 → Q 1 → Q 2 → Q 3 → ∀ j, Q j := by
    intro Q q0 q1 q2 q3 j
    match j with
    | 0 => exact q0
    | 1 => exact q1
    | 2 => exact q2
    | 3 => exact q3
  cases m with
  | euler =>
    obtain ⟨e0, e1, e2, e3, e4⟩ := hm
    refine ⟨all (by rw [e0]; exact self) (by rw [e1]; exact self) (by rw [e2]; exact self)
      (by rw [e3]; exact self), ?_⟩
    rw [e4, add_sub_cancel_left, ← smul_sub, norm_smul, Real.norm_eq_abs, abs_of_nonneg h0]
    exact mul_le_mul_of_nonneg_left (hk 0 (by rw [e0]; exact hu _ self)) h0
  | rungeKutta =>
    obtain ⟨e0, e1, e2, e3, e4⟩ := hm
    have c2 : |h / 2| ≤ h := by rw [abs_of_nonneg (by positivity)]; linarith
    have u0 : ‖u 0 - X‖ ≤ h * (‖f‖ + D) := by rw [e0]; exact self
    have u1 := stage c2 e1 (size 0 (hu _ u0))
    have u2 := stage c2 e2 (size 1 (hu _ u1))
    have u3 := stage (abs_of_nonneg h0).le e3 (size 2 (hu _ u2))
    refine ⟨all u0 u1 u2 u3, ?_⟩
    have e : X' - X - h • f = (h / 6) • ((k 0 - f) + (2 : ℝ) • (k 1 - f) + (2 : ℝ) • (k 2 - f) + (k 3 - f)) := by
      rw [e4]
      module
    rw [e, norm_smul, Real.norm_eq_abs, abs_of_nonneg (by positivity)]
    have t1 := norm_add_le ((k 0 - f) + (2 : ℝ) • (k 1 - f) + (2 : ℝ) • (k 2 - f)) (k 3 - f)
    have t2 := norm_add_le ((k 0 - f) + (2 : ℝ) • (k 1 - f)) ((2 : ℝ) • (k 2 - f))
    have t3 := norm_add_le (k 0 - f) ((2 : ℝ) • (k 1 - f))
    rw [norm_smul, Real.norm_two] at t2 t3
    have a0 := hk 0 (hu _ u0)
    have a1 := hk 1 (hu _ u1)
    have a2 := hk 2 (hu _ u2)
    have a3 := hk 3 (hu _ u3)
    calc _ ≤ h / 6 * (6 * D) := mul_le_mul_of_nonneg_left (by linarith) (by positivity)
      _ = h * D := by ring

/-- A motion `x' = F(x, p)` with inputs `p`, and steps of either method with inputs close to `p`: if the steps are
small, then the states (and all states at which rates of change are taken) are close to the motion. -/
theorem steps_converge {F : E × P → E} (hF : LocallyLipschitz F) {x : ℝ → E} {p : ℝ → P} {T : ℝ} (hT : 0 ≤ T)
    (cx : ContinuousOn x (Icc 0 T)) (cp : ContinuousOn p (Icc 0 T))
    (hx : ∀ t ∈ Ico 0 T, HasDerivWithinAt x (F (x t, p t)) (Ici t) t) (m : Method) {ε : ℝ} (hε : 0 < ε) :
    ∃ δ : ℝ, 0 < δ ∧ ∀ (N : Nat) (t : Nat → ℝ) (X : Nat → E) (u k : Nat → Fin 4 → E) (q : Nat → Fin 4 → P),
      Grid T δ N t → X 0 = x 0 →
      (∀ n, n < N → ∀ j, ‖q n j - p (t n)‖ ≤ δ) → (∀ n, n < N → ∀ j, k n j = F (u n j, q n j)) →
      (∀ n, n < N → MethodStep m (t (n + 1) - t n) (X n) (X (n + 1)) (u n) (k n)) →
      (∀ n, n ≤ N → ‖X n - x (t n)‖ ≤ ε) ∧ ∀ n, n < N → ∀ j, ‖u n j - x (t n)‖ ≤ ε := by
  obtain ⟨L, r, L0, r0, hL⟩ := tube_lipschitz hF cx cp
  have cv : ContinuousOn (fun t => F (x t, p t)) (Icc 0 T) := hF.continuous.comp_continuousOn (cx.prodMk cp)
  obtain ⟨M, hM⟩ := isCompact_Icc.exists_bound_of_continuousOn cv
  have M0 : 0 ≤ M := (norm_nonneg _).trans (hM 0 ⟨le_rfl, hT⟩)
  obtain ⟨B, hB⟩ : ∃ B, B = M + L * (2 * r) := ⟨_, rfl⟩
  have B0 : 0 ≤ B := by rw [hB]; positivity
  obtain ⟨C, hC⟩ : ∃ C, C = T * Real.exp (L * T) + 1 := ⟨_, rfl⟩
  have C0 : 0 < C := by rw [hC]; positivity
  obtain ⟨ρ, hρ⟩ : ∃ ρ, ρ = min ε r / 2 := ⟨_, rfl⟩
  have ρ0 : 0 < ρ := by rw [hρ]; positivity
  have ρε : 2 * ρ ≤ ε := by rw [hρ]; linarith [min_le_left ε r]
  have ρr : 2 * ρ ≤ r := by rw [hρ]; linarith [min_le_right ε r]
  obtain ⟨δ1, d10, hδ1⟩ := Metric.uniformContinuousOn_iff_le.mp (isCompact_Icc.uniformContinuousOn_of_continuous cv)
    (ρ / (2 * C)) (by positivity)
  have hv : ∀ s ∈ Icc 0 T, ∀ t ∈ Icc 0 T, |t - s| ≤ δ1 → ‖F (x t, p t) - F (x s, p s)‖ ≤ ρ / (2 * C) := by
    intro s hs t ht hst
    have := hδ1 t ht s hs (by rw [Real.dist_eq]; exact hst)
    rwa [dist_eq_norm] at this
  obtain ⟨δ, hδ⟩ : ∃ δ, δ = min (min δ1 r) (min (ρ / (2 * C * (L * (B + 1) + 1))) (ρ / (B + 1))) := ⟨_, rfl⟩
  have δ0 : 0 < δ := by rw [hδ]; positivity
  have l1 : δ ≤ δ1 := by rw [hδ]; exact (min_le_left _ _).trans (min_le_left _ _)
  have l2 : δ ≤ r := by rw [hδ]; exact (min_le_left _ _).trans (min_le_right _ _)
  have l3 : δ * (2 * C * (L * (B + 1) + 1)) ≤ ρ := by
    rw [← le_div_iff₀ (by positivity), hδ]
    exact (min_le_right _ _).trans (min_le_left _ _)
  have l4 : δ * (B + 1) ≤ ρ := by
    rw [← le_div_iff₀ (by positivity), hδ]
    exact (min_le_right _ _).trans (min_le_right _ _)
  refine ⟨δ, δ0, fun N t X u k q grid X0 hq hk hm => ?_⟩
  obtain ⟨σ, hσ⟩ : ∃ σ, σ = L * (δ * (B + 1)) + ρ / (2 * C) := ⟨_, rfl⟩
  have σ0 : 0 ≤ σ := by rw [hσ]; positivity
  have σC : σ * C ≤ ρ := by
    have h1 : L * (δ * (B + 1)) * (2 * C) ≤ ρ := by nlinarith
    have h2 : ρ / (2 * C) * C = ρ / 2 := by field_simp
    rw [hσ, add_mul, h2]
    linarith
  have tN : ∀ n, n ≤ N → 0 ≤ t n ∧ t n ≤ T := fun n hn => ⟨grid.nonneg hn, grid.le hn⟩
  have ht : ∀ n, n < N → t n ≤ t (n + 1) ∧ t (n + 1) - t n ≤ δ ∧ t (n + 1) ≤ T := fun n hn =>
    ⟨grid.forward n hn, grid.fine n hn, grid.le hn⟩
  have bound : ∀ n, n ≤ N → σ * t n * Real.exp (L * t n) ≤ ρ := by
    intro n hn
    obtain ⟨a1, a2⟩ := tN n hn
    refine le_trans ?_ σC
    rw [mul_assoc]
    refine mul_le_mul_of_nonneg_left ?_ σ0
    rw [hC]
    have : Real.exp (L * t n) ≤ Real.exp (L * T) := Real.exp_le_exp.mpr (mul_le_mul_of_nonneg_left a2 L0)
    have := mul_le_mul a2 this (Real.exp_pos _).le hT
    linarith
  -- one step
  have one : ∀ n, n < N → ‖X n - x (t n)‖ ≤ ρ →
      (∀ j, ‖u n j - x (t n)‖ ≤ ε) ∧
      ‖X (n + 1) - x (t (n + 1))‖ ≤ (1 + L * (t (n + 1) - t n)) * ‖X n - x (t n)‖ + (t (n + 1) - t n) * σ := by
    intro n hn he
    obtain ⟨a1, a2⟩ := tN n hn.le
    obtain ⟨b1, b2, b3⟩ := ht n hn
    obtain ⟨h, hh⟩ : ∃ h, h = t (n + 1) - t n := ⟨_, rfl⟩
    have hh' : t (n + 1) = t n + h := by rw [hh]; ring
    rw [← hh] at b2 ⊢
    have h0 : 0 ≤ h := by rw [hh]; linarith
    have mem : t n ∈ Icc 0 T := ⟨a1, a2⟩
    obtain ⟨e, he'⟩ : ∃ e, e = ‖X n - x (t n)‖ := ⟨_, rfl⟩
    have e0 : 0 ≤ e := by rw [he']; exact norm_nonneg _
    rw [← he'] at he ⊢
    obtain ⟨D, hD⟩ : ∃ D, D = L * (e + h * B + δ) := ⟨_, rfl⟩
    have D0 : 0 ≤ D := by rw [hD]; positivity
    have hB1 : h * B ≤ ρ := le_trans (mul_le_mul_of_nonneg_right b2 B0) (by nlinarith)
    have fM := hM (t n) mem
    have fD : ‖F (x (t n), p (t n))‖ + D ≤ B := by
      have : D ≤ L * (2 * r) := by rw [hD]; exact mul_le_mul_of_nonneg_left (by linarith) L0
      rw [hB]
      linarith
    have mm := hm n hn
    rw [← hh] at mm
    obtain ⟨s1, s2⟩ := step_close (f := F (x (t n), p (t n))) (D := D) mm h0
      (fun v => ‖v - x (t n)‖ ≤ e + h * B) (fun v hv => by
        have h1 := norm_sub_le_norm_sub_add_norm_sub v (X n) (x (t n))
        have h2 := mul_le_mul_of_nonneg_left fD h0
        rw [he']
        linarith) D0 (fun j hj => by
        rw [hk n hn j]
        refine (hL (t n) mem _ _ (by linarith) ((hq n hn j).trans l2)).trans ?_
        rw [hD]
        exact mul_le_mul_of_nonneg_left (by linarith [hq n hn j]) L0)
    refine ⟨fun j => ?_, ?_⟩
    · have h1 := norm_sub_le_norm_sub_add_norm_sub (u n j) (X n) (x (t n))
      have h2 := mul_le_mul_of_nonneg_left fD h0
      linarith [s1 j]
    · have h3 := tangent cx hx hv a1 h0 (b2.trans l1) (by rw [← hh']; exact b3)
      have e1 : X (n + 1) - x (t (n + 1)) = (X n - x (t n)) + (X (n + 1) - X n - h • F (x (t n), p (t n))) -
          (x (t n + h) - x (t n) - h • F (x (t n), p (t n))) := by
        rw [hh']
        abel
      have h4 : ‖X (n + 1) - x (t (n + 1))‖ ≤ e + h * D + h * (ρ / (2 * C)) := by
        rw [e1]
        refine (norm_sub_le _ _).trans ?_
        have := norm_add_le (X n - x (t n)) (X (n + 1) - X n - h • F (x (t n), p (t n)))
        linarith
      refine h4.trans ?_
      have h5 : h * D ≤ h * (L * e + L * (δ * (B + 1))) := by
        refine mul_le_mul_of_nonneg_left ?_ h0
        rw [hD]
        have := mul_le_mul_of_nonneg_right b2 B0
        have := mul_le_mul_of_nonneg_left this L0
        nlinarith
      rw [hσ]
      nlinarith
  have main : ∀ n, n ≤ N → ‖X n - x (t n)‖ ≤ σ * t n * Real.exp (L * t n) := by
    intro n
    induction n with
    | zero =>
      intro _
      rw [X0, grid.start, sub_self, norm_zero]
      simp
    | succ n ih =>
      intro hn
      have h1 := ih (by omega)
      refine (one n (by omega) (h1.trans (bound n (by omega)))).2.trans ?_
      obtain ⟨b1, b2, b3⟩ := ht n (by omega)
      obtain ⟨a1, a2⟩ := tN n (by omega)
      obtain ⟨h, hh⟩ : ∃ h, h = t (n + 1) - t n := ⟨_, rfl⟩
      have hh' : t (n + 1) = t n + h := by rw [hh]; ring
      have h0 : 0 ≤ h := by rw [hh]; linarith
      rw [← hh, hh', mul_add L, Real.exp_add]
      have e1 : 1 + L * h ≤ Real.exp (L * h) := by linarith [Real.add_one_le_exp (L * h)]
      have e2 : 1 ≤ Real.exp (L * h) := Real.one_le_exp (by positivity)
      have e3 : 1 ≤ Real.exp (L * t n) := Real.one_le_exp (by positivity)
      have c0 : 0 ≤ σ * t n * Real.exp (L * t n) := by positivity
      have s1 : (1 + L * h) * ‖X n - x (t n)‖ ≤ Real.exp (L * h) * (σ * t n * Real.exp (L * t n)) :=
        mul_le_mul e1 h1 (norm_nonneg _) (by positivity)
      have s2 : 1 ≤ Real.exp (L * t n) * Real.exp (L * h) := one_le_mul_of_one_le_of_one_le e3 e2
      have s3 : h * σ ≤ h * σ * (Real.exp (L * t n) * Real.exp (L * h)) :=
        le_mul_of_one_le_right (by positivity) s2
      have s4 : σ * (t n + h) * (Real.exp (L * t n) * Real.exp (L * h)) =
          Real.exp (L * h) * (σ * t n * Real.exp (L * t n)) +
            h * σ * (Real.exp (L * t n) * Real.exp (L * h)) := by ring
      linarith
  have small : ∀ n, n ≤ N → ‖X n - x (t n)‖ ≤ ρ := fun n hn => (main n hn).trans (bound n hn)
  exact ⟨fun n hn => (small n hn).trans (by linarith), fun n hn => (one n hn (small n hn.le)).1⟩

end Verif
