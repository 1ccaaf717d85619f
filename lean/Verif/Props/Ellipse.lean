import Verif.Model.Ellipse
import Verif.Spec.Exploration
import Mathlib.Analysis.Matrix.PosDef
import Mathlib.Algebra.Order.Star.Real

/- C96: the ellipse that is drawn for a distribution shows one standard deviation in every direction. -/

set_option autoImplicit false

namespace Verif

noncomputable section

open Spec

variable {n : Nat}

/-- A direction of the plane, as direction among all parameters. -/
def Spec.inPlane (a : Fin 2 → ℝ) : Fin n → ℝ := fun i => if h : i.val < 2 then a ⟨i.val, h⟩ else 0

/-- The matrix `U` of the singular value decomposition of a covariance matrix has its eigenvectors. -/
theorem IsSvd.eigen {A : Matrix (Fin 2) (Fin 2) ℝ} (hA : A.PosSemidef) {r : SvdResult} (h : IsSvd A r) :
    A = r.U * Matrix.diagonal r.S * r.U.transpose := by
  have hU : r.U * r.U.transpose = 1 := by simpa [Matrix.star_eq_conjTranspose] using (Matrix.mem_orthogonalGroup_iff _ _).mp h.U
  have hU' : r.U.transpose * r.U = 1 := by simpa [Matrix.star_eq_conjTranspose] using (Matrix.mem_orthogonalGroup_iff' _ _).mp h.U
  have hV : r.V * r.V.transpose = 1 := by simpa [Matrix.star_eq_conjTranspose] using (Matrix.mem_orthogonalGroup_iff _ _).mp h.V
  have hs : A.transpose = A := by
    have := hA.1
    rwa [Matrix.IsHermitian, Matrix.conjTranspose_eq_transpose_of_trivial] at this
  have hsq : A * A * r.U = r.U * (Matrix.diagonal r.S * Matrix.diagonal r.S) := by
    conv_lhs => rw [show A * A = A * A.transpose by rw [hs]]
    rw [h.eq, Matrix.transpose_mul, Matrix.transpose_mul, Matrix.diagonal_transpose]
    calc _ = r.U * Matrix.diagonal r.S * (r.V * r.V.transpose) * Matrix.diagonal r.S * (r.U.transpose * r.U) := by
          simp only [Matrix.mul_assoc]
      _ = _ := by rw [hV, hU', Matrix.mul_one, Matrix.mul_one, Matrix.mul_assoc]
  have hcol : ∀ j, A.mulVec (A.mulVec fun i => r.U i j) = (r.S j ^ 2) • fun i => r.U i j := by
    intro j
    rw [Matrix.mulVec_mulVec]
    funext i
    have := congrFun (congrFun hsq i) j
    rw [Matrix.diagonal_mul_diagonal, Matrix.mul_diagonal] at this
    simp only [Pi.smul_apply, smul_eq_mul]
    rw [mul_comm, sq, ← this]
    rfl
  have hev : ∀ j, A.mulVec (fun i => r.U i j) = r.S j • fun i => r.U i j := by
    intro j
    set u : Fin 2 → ℝ := fun i => r.U i j
    set w : Fin 2 → ℝ := A.mulVec u - r.S j • u with hw
    have hAw : A.mulVec w = -(r.S j • w) := by
      rw [hw, Matrix.mulVec_sub, Matrix.mulVec_smul, hcol j, smul_sub, smul_smul, ← sq]
      abel
    have h0 : w ⬝ᵥ w = 0 := by
      rcases (h.nonneg j).eq_or_lt with e | e
      · rw [← e, zero_smul, sub_zero] at hw
        rw [← e, zero_smul, neg_zero] at hAw
        calc w ⬝ᵥ w = w ⬝ᵥ A.mulVec u := by rw [← hw]
          _ = A.mulVec w ⬝ᵥ u := by rw [Matrix.dotProduct_mulVec, ← Matrix.mulVec_transpose, hs]
          _ = 0 := by rw [hAw, zero_dotProduct]
      · have h1 : 0 ≤ w ⬝ᵥ A.mulVec w := hA.dotProduct_mulVec_nonneg w
        rw [hAw, dotProduct_neg, dotProduct_smul, smul_eq_mul] at h1
        have h2 : 0 ≤ w ⬝ᵥ w := by
          rw [dotProduct]
          exact Finset.sum_nonneg fun i _ => mul_self_nonneg _
        nlinarith
    have : w = 0 := dotProduct_self_eq_zero.mp h0
    exact sub_eq_zero.mp this
  have hAU : A * r.U = r.U * Matrix.diagonal r.S := by
    ext i j
    rw [Matrix.mul_diagonal, mul_comm]
    exact congrFun (hev j) i
  calc A = A * (r.U * r.U.transpose) := by rw [hU, Matrix.mul_one]
    _ = _ := by rw [← Matrix.mul_assoc, hAU]

/-- The entries of a covariance matrix, from the direction of the first axis and the lengths of the axes. -/
theorem IsSvd.entries {A : Matrix (Fin 2) (Fin 2) ℝ} (hA : A.PosSemidef) {r : SvdResult} (h : IsSvd A r) :
    ∃ c s : ℝ, c ^ 2 + s ^ 2 = 1 ∧ Real.cos (arctan2 (r.U 1 0) (r.U 0 0)) = c ∧ Real.sin (arctan2 (r.U 1 0) (r.U 0 0)) = s ∧
      A 0 0 = r.S 0 * c ^ 2 + r.S 1 * s ^ 2 ∧ A 0 1 = (r.S 0 - r.S 1) * (c * s) ∧
      A 1 0 = (r.S 0 - r.S 1) * (c * s) ∧ A 1 1 = r.S 0 * s ^ 2 + r.S 1 * c ^ 2 := by
  have hU : r.U * r.U.transpose = 1 := by simpa [Matrix.star_eq_conjTranspose] using (Matrix.mem_orthogonalGroup_iff _ _).mp h.U
  have hU' : r.U.transpose * r.U = 1 := by simpa [Matrix.star_eq_conjTranspose] using (Matrix.mem_orthogonalGroup_iff' _ _).mp h.U
  have e00 := congrFun (congrFun hU 0) 0
  have e01 := congrFun (congrFun hU 0) 1
  have e11 := congrFun (congrFun hU 1) 1
  have f00 := congrFun (congrFun hU' 0) 0
  have hA' := h.eigen hA
  have a00 := congrFun (congrFun hA' 0) 0
  have a01 := congrFun (congrFun hA' 0) 1
  have a10 := congrFun (congrFun hA' 1) 0
  have a11 := congrFun (congrFun hA' 1) 1
  simp only [Matrix.mul_apply, Matrix.transpose_apply, Fin.sum_univ_two, Matrix.one_apply_eq, Matrix.diagonal_apply_eq,
    Matrix.diagonal_apply_ne _ (zero_ne_one : (0 : Fin 2) ≠ 1), Matrix.diagonal_apply_ne _ (one_ne_zero : (1 : Fin 2) ≠ 0),
    mul_zero, add_zero, zero_add] at e00 e01 e11 f00 a00 a01 a10 a11
  rw [Matrix.one_apply_ne (by simp)] at e01
  set a := r.U 0 0
  set b := r.U 0 1
  set c := r.U 1 0
  set d := r.U 1 1
  have hnorm : ‖(⟨a, c⟩ : ℂ)‖ = 1 := by
    rw [Complex.norm_def, Complex.normSq_mk, f00, Real.sqrt_one]
  have hne : (⟨a, c⟩ : ℂ) ≠ 0 := by
    intro e
    rw [e, norm_zero] at hnorm
    exact zero_ne_one hnorm
  refine ⟨a, c, by rw [sq, sq]; exact f00, ?_, ?_, ?_, ?_, ?_, ?_⟩
  · unfold arctan2
    rw [Complex.cos_arg hne, hnorm, div_one]
  · unfold arctan2
    rw [Complex.sin_arg, hnorm, div_one]
  · rw [a00]
    have : b * b = c * c := by linarith
    linear_combination r.S 1 * this
  · rw [a01]
    linear_combination r.S 1 * e01
  · rw [a10]
    linear_combination r.S 1 * e01
  · rw [a11]
    have : d * d = a * a := by linarith
    linear_combination r.S 1 * this

theorem varianceIn_inPlane (C : Matrix (Fin n) (Fin n) ℝ) (h : 2 ≤ n) (a : Fin 2 → ℝ) :
    varianceIn C (inPlane a) = varianceIn (C.submatrix (Fin.castLE h) (Fin.castLE h)) a := by
  obtain ⟨m, rfl⟩ := Nat.exists_eq_add_of_le h
  unfold varianceIn
  have e : ∀ i : Fin m, (inPlane a : Fin (2 + m) → ℝ) (Fin.natAdd 2 i) = 0 := fun i => dif_neg (by simp; omega)
  have e' : ∀ i : Fin 2, (inPlane a : Fin (2 + m) → ℝ) (Fin.castAdd m i) = a i := fun i => dif_pos (by simp; omega)
  simp only [Fin.sum_univ_add, e, e', mul_zero, zero_mul, Finset.sum_const_zero, add_zero]
  rfl

theorem varianceIn_two (A : Matrix (Fin 2) (Fin 2) ℝ) (a : Fin 2 → ℝ) :
    varianceIn A a = a 0 ^ 2 * A 0 0 + a 0 * a 1 * (A 0 1 + A 1 0) + a 1 ^ 2 * A 1 1 := by
  unfold varianceIn
  simp only [Fin.sum_univ_two]
  ring

theorem plot_eq (d : Dist n) (h : 2 ≤ n) (svd : Matrix (Fin 2) (Fin 2) ℝ → SvdResult) :
    d.plot svd = errorEllipse svd [d.mean (Fin.castLE h 0), d.mean (Fin.castLE h 1)]
      (d.covar.submatrix (Fin.castLE h) (Fin.castLE h)) := by
  obtain ⟨m, rfl⟩ := Nat.exists_eq_add_of_le' h
  unfold Dist.plot
  rw [dif_pos h, List.ofFn_succ, List.ofFn_succ]
  rfl

/-- The points of the ellipse, and the variances, from the axes. -/
theorem errorEllipse_axes {A : Matrix (Fin 2) (Fin 2) ℝ} (hA : A.PosSemidef) {svd : Matrix (Fin 2) (Fin 2) ℝ → SvdResult}
    (h : IsSvd A (svd A)) (x y : ℝ) :
    ∃ c s S₀ S₁ e, errorEllipse svd [x, y] A = .ok e ∧ c ^ 2 + s ^ 2 = 1 ∧ 0 ≤ S₁ ∧ S₁ ≤ S₀ ∧
      e.width = 2 * Real.sqrt S₀ ∧ e.height = 2 * Real.sqrt S₁ ∧
      (∀ p, p ∈ e.points ↔ ∃ t : ℝ, p 0 = x + Real.sqrt S₀ * Real.cos t * c - Real.sqrt S₁ * Real.sin t * s ∧
        p 1 = y + Real.sqrt S₀ * Real.cos t * s + Real.sqrt S₁ * Real.sin t * c) ∧
      (A 0 0 = S₀ * c ^ 2 + S₁ * s ^ 2 ∧ A 0 1 = (S₀ - S₁) * (c * s) ∧ A 1 0 = (S₀ - S₁) * (c * s) ∧
        A 1 1 = S₀ * s ^ 2 + S₁ * c ^ 2) ∧
      ∀ a : Fin 2 → ℝ, varianceIn A a = S₀ * (a 0 * c + a 1 * s) ^ 2 + S₁ * (a 1 * c - a 0 * s) ^ 2 := by
  obtain ⟨c, s, h1, h2, h3, h4, h5, h6, h7⟩ := h.entries hA
  refine ⟨c, s, (svd A).S 0, (svd A).S 1, _, rfl, h1, h.nonneg 1, h.sorted, rfl, rfl, fun p => ?_, ⟨h4, h5, h6, h7⟩, fun a => ?_⟩
  · have hang : degrees (arctan2 ((svd A).U 1 0) ((svd A).U 0 0)) * Real.pi / 180 = arctan2 ((svd A).U 1 0) ((svd A).U 0 0) := by
      unfold degrees
      have := Real.pi_ne_zero
      field_simp
    unfold EllipsePatch.points
    simp only [Set.mem_setOf_eq, hang, h2, h3, mul_div_cancel_left₀ _ (two_ne_zero : (2 : ℝ) ≠ 0)]
    refine exists_congr fun t => ⟨fun e => by rw [e]; exact ⟨rfl, rfl⟩, fun e => ?_⟩
    funext i
    fin_cases i
    · exact e.1
    · exact e.2
  · rw [varianceIn_two, h4, h5, h6, h7]
    ring

/-- C96: the ellipse of a distribution shows one standard deviation in every direction of the plane of the first two
parameters: no point of it is further from the mean than the standard deviation of the samples in this direction, and
one is that far. Its longer half axis is the largest standard deviation in the plane. -/
theorem C96_ellipse (d : Dist n) (h : 2 ≤ n) (hc : d.covar.PosSemidef) (svd : Matrix (Fin 2) (Fin 2) ℝ → SvdResult)
    (hsvd : IsSvd (d.covar.submatrix (Fin.castLE h) (Fin.castLE h)) (svd (d.covar.submatrix (Fin.castLE h) (Fin.castLE h)))) :
    ∃ e, d.plot svd = .ok e ∧
      (∀ a : Fin 2 → ℝ,
        (∀ p ∈ e.points, ∑ i, a i * (p i - d.mean (Fin.castLE h i)) ≤ Real.sqrt (varianceIn d.covar (inPlane a))) ∧
        ∃ p ∈ e.points, ∑ i, a i * (p i - d.mean (Fin.castLE h i)) = Real.sqrt (varianceIn d.covar (inPlane a))) ∧
      Exploration (d.covar.submatrix (Fin.castLE h) (Fin.castLE h)) (e.width / 2) ∧ e.height ≤ e.width := by
  obtain ⟨c, s, S₀, S₁, e, he, h1, h0, hle, hw, hh, hp, -, hv⟩ :=
    errorEllipse_axes (hc.submatrix (Fin.castLE h)) hsvd (d.mean (Fin.castLE h 0)) (d.mean (Fin.castLE h 1))
  have q0 : Real.sqrt S₀ ^ 2 = S₀ := Real.sq_sqrt (h0.trans hle)
  have q1 : Real.sqrt S₁ ^ 2 = S₁ := Real.sq_sqrt h0
  refine ⟨e, (plot_eq d h svd).trans he, fun a => ?_, ⟨?_, ⟨?_, ?_⟩⟩, ?_⟩
  · rw [varianceIn_inPlane _ h, hv]
    set P := Real.sqrt S₀ * (a 0 * c + a 1 * s) with hP
    set Q := Real.sqrt S₁ * (a 1 * c - a 0 * s) with hQ
    have hPQ : S₀ * (a 0 * c + a 1 * s) ^ 2 + S₁ * (a 1 * c - a 0 * s) ^ 2 = P ^ 2 + Q ^ 2 := by
      rw [hP, hQ, mul_pow, mul_pow, q0, q1]
    rw [hPQ]
    have hdot : ∀ (p : Fin 2 → ℝ) (t : ℝ),
        p 0 = d.mean (Fin.castLE h 0) + Real.sqrt S₀ * Real.cos t * c - Real.sqrt S₁ * Real.sin t * s →
        p 1 = d.mean (Fin.castLE h 1) + Real.sqrt S₀ * Real.cos t * s + Real.sqrt S₁ * Real.sin t * c →
        ∑ i, a i * (p i - d.mean (Fin.castLE h i)) = P * Real.cos t + Q * Real.sin t := by
      intro p t e0 e1
      rw [Fin.sum_univ_two, e0, e1, hP, hQ]
      ring
    constructor
    · intro p hpm
      obtain ⟨t, e0, e1⟩ := (hp p).mp hpm
      rw [hdot p t e0 e1]
      apply Real.le_sqrt_of_sq_le
      nlinarith [sq_nonneg (P * Real.sin t - Q * Real.cos t), Real.sin_sq_add_cos_sq t]
    · set z : ℂ := ⟨P, Q⟩
      have hz : ‖z‖ = Real.sqrt (P ^ 2 + Q ^ 2) := by
        rw [Complex.norm_def, Complex.normSq_mk, sq, sq]
      have hcos : ‖z‖ * Real.cos z.arg = P := Complex.norm_mul_cos_arg z
      have hsin : ‖z‖ * Real.sin z.arg = Q := Complex.norm_mul_sin_arg z
      refine ⟨![d.mean (Fin.castLE h 0) + Real.sqrt S₀ * Real.cos z.arg * c - Real.sqrt S₁ * Real.sin z.arg * s,
        d.mean (Fin.castLE h 1) + Real.sqrt S₀ * Real.cos z.arg * s + Real.sqrt S₁ * Real.sin z.arg * c],
        (hp _).mpr ⟨z.arg, rfl, rfl⟩, ?_⟩
      rw [hdot _ z.arg rfl rfl, ← hz]
      calc P * Real.cos z.arg + Q * Real.sin z.arg
          = ‖z‖ * Real.cos z.arg * Real.cos z.arg + ‖z‖ * Real.sin z.arg * Real.sin z.arg := by rw [hcos, hsin]
        _ = ‖z‖ * (Real.sin z.arg ^ 2 + Real.cos z.arg ^ 2) := by ring
        _ = ‖z‖ := by rw [Real.sin_sq_add_cos_sq, mul_one]
  · rw [hw]
    positivity
  · rw [hw, mul_div_cancel_left₀ _ (two_ne_zero : (2 : ℝ) ≠ 0), q0]
    refine ⟨![c, s], ?_, ?_⟩
    · unfold IsDirection
      rw [Fin.sum_univ_two]
      exact h1
    · rw [hv]
      change S₀ * (c * c + s * s) ^ 2 + S₁ * (s * c - c * s) ^ 2 = S₀
      rw [← sq, ← sq, h1]
      ring
  · intro v hd
    rw [hw, mul_div_cancel_left₀ _ (two_ne_zero : (2 : ℝ) ≠ 0), q0, hv]
    unfold IsDirection at hd
    rw [Fin.sum_univ_two] at hd
    have e : (v 0 * c + v 1 * s) ^ 2 + (v 1 * c - v 0 * s) ^ 2 = 1 := by
      calc _ = (v 0 ^ 2 + v 1 ^ 2) * (c ^ 2 + s ^ 2) := by ring
        _ = 1 := by rw [hd, h1, mul_one]
    nlinarith [sq_nonneg (v 1 * c - v 0 * s)]
  · rw [hw, hh]
    have := Real.sqrt_le_sqrt hle
    linarith

/-- C96: if the covariance matrix of the first two parameters is positive definite, the ellipse is a level curve of
the density of their distribution: the curve where the squared Mahalanobis distance from the mean is 1. -/
theorem C96_level (d : Dist n) (h : 2 ≤ n) (hc : (d.covar.submatrix (Fin.castLE h) (Fin.castLE h)).PosDef)
    (svd : Matrix (Fin 2) (Fin 2) ℝ → SvdResult)
    (hsvd : IsSvd (d.covar.submatrix (Fin.castLE h) (Fin.castLE h)) (svd (d.covar.submatrix (Fin.castLE h) (Fin.castLE h)))) :
    ∃ e, d.plot svd = .ok e ∧ ∀ p, p ∈ e.points ↔
      ∃ v : Fin 2 → ℝ, (d.covar.submatrix (Fin.castLE h) (Fin.castLE h)).mulVec v = (fun i => p i - d.mean (Fin.castLE h i)) ∧
        ∑ i, v i * (p i - d.mean (Fin.castLE h i)) = 1 := by
  obtain ⟨c, s, S₀, S₁, e, he, h1, h0, hle, -, -, hp, ⟨a00, a01, a10, a11⟩, hv⟩ :=
    errorEllipse_axes hc.posSemidef hsvd (d.mean (Fin.castLE h 0)) (d.mean (Fin.castLE h 1))
  set A := d.covar.submatrix (Fin.castLE h) (Fin.castLE h) with hA
  have hS1 : 0 < S₁ := by
    have := hc.det_pos
    rw [Matrix.det_fin_two, a00, a01, a10, a11] at this
    have e : (S₀ * c ^ 2 + S₁ * s ^ 2) * (S₀ * s ^ 2 + S₁ * c ^ 2) - (S₀ - S₁) * (c * s) * ((S₀ - S₁) * (c * s)) =
        S₀ * S₁ * (c ^ 2 + s ^ 2) ^ 2 := by ring
    rw [e, h1] at this
    rcases h0.eq_or_lt with e0 | e0
    · rw [← e0] at this
      simp at this
    · exact e0
  have hS0 : 0 < S₀ := hS1.trans_le hle
  have q0 : Real.sqrt S₀ ^ 2 = S₀ := Real.sq_sqrt hS0.le
  have q1 : Real.sqrt S₁ ^ 2 = S₁ := Real.sq_sqrt h0
  have r0 : Real.sqrt S₀ ≠ 0 := (Real.sqrt_pos.mpr hS0).ne'
  have r1 : Real.sqrt S₁ ≠ 0 := (Real.sqrt_pos.mpr hS1).ne'
  refine ⟨e, (plot_eq d h svd).trans he, fun p => (hp p).trans ?_⟩
  constructor
  · rintro ⟨t, e0, e1⟩
    refine ⟨![Real.cos t / Real.sqrt S₀ * c - Real.sin t / Real.sqrt S₁ * s,
      Real.cos t / Real.sqrt S₀ * s + Real.sin t / Real.sqrt S₁ * c], ?_, ?_⟩
    · have g0 : S₀ * (Real.cos t / Real.sqrt S₀) = Real.sqrt S₀ * Real.cos t := by
        rw [mul_div_assoc', div_eq_iff r0]
        linear_combination (-Real.cos t) * q0
      have g1 : S₁ * (Real.sin t / Real.sqrt S₁) = Real.sqrt S₁ * Real.sin t := by
        rw [mul_div_assoc', div_eq_iff r1]
        linear_combination (-Real.sin t) * q1
      set γ := Real.cos t / Real.sqrt S₀
      set σ := Real.sin t / Real.sqrt S₁
      funext i
      fin_cases i
      · change ∑ j, A 0 j * (![γ * c - σ * s, γ * s + σ * c] : Fin 2 → ℝ) j = p 0 - d.mean (Fin.castLE h 0)
        rw [Fin.sum_univ_two, e0, a00, a01]
        change (S₀ * c ^ 2 + S₁ * s ^ 2) * (γ * c - σ * s) + (S₀ - S₁) * (c * s) * (γ * s + σ * c) = _
        linear_combination (S₀ * c * γ - S₁ * s * σ) * h1 + c * g0 - s * g1
      · change ∑ j, A 1 j * (![γ * c - σ * s, γ * s + σ * c] : Fin 2 → ℝ) j = p 1 - d.mean (Fin.castLE h 1)
        rw [Fin.sum_univ_two, e1, a10, a11]
        change (S₀ - S₁) * (c * s) * (γ * c - σ * s) + (S₀ * s ^ 2 + S₁ * c ^ 2) * (γ * s + σ * c) = _
        linear_combination (S₀ * s * γ + S₁ * c * σ) * h1 + s * g0 + c * g1
    · rw [Fin.sum_univ_two, e0, e1]
      have g0 : Real.cos t / Real.sqrt S₀ * Real.sqrt S₀ = Real.cos t := div_mul_cancel₀ _ r0
      have g1 : Real.sin t / Real.sqrt S₁ * Real.sqrt S₁ = Real.sin t := div_mul_cancel₀ _ r1
      set γ := Real.cos t / Real.sqrt S₀
      set σ := Real.sin t / Real.sqrt S₁
      change (γ * c - σ * s) * _ + (γ * s + σ * c) * _ = 1
      have := Real.sin_sq_add_cos_sq t
      linear_combination (γ * Real.sqrt S₀ * Real.cos t + σ * Real.sqrt S₁ * Real.sin t) * h1 + Real.cos t * g0 +
        Real.sin t * g1 + this
  · rintro ⟨v, e0, e1⟩
    have f0 : (S₀ * c ^ 2 + S₁ * s ^ 2) * v 0 + (S₀ - S₁) * (c * s) * v 1 = p 0 - d.mean (Fin.castLE h 0) := by
      have := congrFun e0 0
      rw [Matrix.mulVec, dotProduct, Fin.sum_univ_two, a00, a01] at this
      exact this
    have f1 : (S₀ - S₁) * (c * s) * v 0 + (S₀ * s ^ 2 + S₁ * c ^ 2) * v 1 = p 1 - d.mean (Fin.castLE h 1) := by
      have := congrFun e0 1
      rw [Matrix.mulVec, dotProduct, Fin.sum_univ_two, a10, a11] at this
      exact this
    rw [Fin.sum_univ_two] at e1
    set P := Real.sqrt S₀ * (v 0 * c + v 1 * s) with hP
    set Q := Real.sqrt S₁ * (v 1 * c - v 0 * s) with hQ
    have hPQ : P * P + Q * Q = 1 := by
      rw [← e1, ← f0, ← f1, hP, hQ]
      linear_combination (v 0 * c + v 1 * s) ^ 2 * q0 + (v 1 * c - v 0 * s) ^ 2 * q1
    set z : ℂ := ⟨P, Q⟩
    have hz : ‖z‖ = 1 := by
      rw [Complex.norm_def, Complex.normSq_mk, hPQ, Real.sqrt_one]
    have hcos : ‖z‖ * Real.cos z.arg = P := Complex.norm_mul_cos_arg z
    have hsin : ‖z‖ * Real.sin z.arg = Q := Complex.norm_mul_sin_arg z
    rw [hz, one_mul] at hcos hsin
    refine ⟨z.arg, ?_, ?_⟩
    · rw [hcos, hsin, hP, hQ]
      linear_combination (-1 : ℝ) * f0 - c * (v 0 * c + v 1 * s) * q0 + s * (v 1 * c - v 0 * s) * q1
    · rw [hcos, hsin, hP, hQ]
      linear_combination (-1 : ℝ) * f1 - s * (v 0 * c + v 1 * s) * q0 - c * (v 1 * c - v 0 * s) * q1

/-- C96: a distribution of one parameter cannot be drawn. -/
theorem C96_one (d : Dist n) (h : n < 2) (svd : Matrix (Fin 2) (Fin 2) ℝ → SvdResult) : d.plot svd = .error .valueError := by
  unfold Dist.plot errorEllipse
  match n, h with
  | 0, _ => simp
  | 1, _ => simp [List.ofFn_succ]

/-- The hypotheses can be met: a distribution with three parameters, the second of which varies most among the first
two, so that `U` exchanges the axes. -/
example : ∃ (d : Dist 3) (svd : Matrix (Fin 2) (Fin 2) ℝ → SvdResult), d.covar.PosSemidef ∧
    IsSvd (d.covar.submatrix (Fin.castLE (by norm_num : 2 ≤ 3)) (Fin.castLE (by norm_num : 2 ≤ 3)))
      (svd (d.covar.submatrix (Fin.castLE (by norm_num : 2 ≤ 3)) (Fin.castLE (by norm_num : 2 ≤ 3)))) := by
  refine ⟨⟨![1, 2, 3], Matrix.diagonal ![1, 4, 9], none⟩, fun _ => ⟨!![0, 1; 1, 0], ![4, 1], !![0, 1; 1, 0]⟩,
    Matrix.PosSemidef.diagonal (by intro i; fin_cases i <;> simp), ⟨?_, ?_, ?_, ?_, ?_⟩⟩
  · rw [Matrix.mem_orthogonalGroup_iff]
    ext i j
    fin_cases i <;> fin_cases j <;> simp [Matrix.mul_apply, Fin.sum_univ_two, Matrix.star_eq_conjTranspose]
  · rw [Matrix.mem_orthogonalGroup_iff]
    ext i j
    fin_cases i <;> fin_cases j <;> simp [Matrix.mul_apply, Fin.sum_univ_two, Matrix.star_eq_conjTranspose]
  · ext i j
    rw [Matrix.submatrix_apply, Matrix.mul_apply, Fin.sum_univ_two, Matrix.mul_diagonal, Matrix.mul_diagonal]
    fin_cases i <;> fin_cases j <;> simp [Matrix.diagonal] <;> rfl
  · intro i
    fin_cases i <;> simp
  · simp

end

end Verif
