import Verif.Model.FunctionApproximator
import Verif.Props.BasisFunctions
import Mathlib.LinearAlgebra.Matrix.ToLinearEquiv

/- C34-C39: training and prediction of the function approximators. -/

set_option autoImplicit false

namespace Verif

open Spec Matrix

noncomputable section

variable {d N p : Nat}

/-! ### Least squares -/

/-- The normal equations. -/
theorem solveWls_ok {X : Matrix (Fin N) (Fin p) ℝ} {w t : Fin N → ℝ} {reg : ℝ} {beta : Fin p → ℝ}
    (h : solveWls X w reg t = .ok beta) :
    (Xᵀ * diagonal w * X + reg • (1 : Matrix (Fin p) (Fin p) ℝ)).det ≠ 0 ∧
    ∀ j, ∑ s, w s * (∑ i, X s i * beta i - t s) * X s j + reg * beta j = 0 := by
  unfold solveWls at h
  simp only at h
  split at h
  · cases h
  · rename_i hdet
    refine ⟨hdet, fun j => ?_⟩
    have hb := Except.ok.inj h
    set A := Xᵀ * diagonal w * X + reg • (1 : Matrix (Fin p) (Fin p) ℝ) with hA
    have hu : IsUnit A.det := isUnit_iff_ne_zero.mpr hdet
    have h1 : A *ᵥ beta = Xᵀ *ᵥ (diagonal w *ᵥ t) := by
      rw [← hb, mulVec_mulVec, mulVec_mulVec, ← Matrix.mul_assoc, ← Matrix.mul_assoc,
        Matrix.mul_nonsing_inv A hu, Matrix.one_mul]
    have h2 : A *ᵥ beta = Xᵀ *ᵥ (diagonal w *ᵥ (X *ᵥ beta)) + reg • beta := by
      rw [hA, Matrix.add_mulVec, mulVec_mulVec, mulVec_mulVec, Matrix.smul_mulVec,
        Matrix.one_mulVec]
    have h3 := congrFun (h2.symm.trans h1) j
    simp only [Pi.add_apply, Pi.smul_apply, smul_eq_mul, mulVec, dotProduct, transpose_apply,
      diagonal_apply, ite_mul, zero_mul, Finset.sum_ite_eq, Finset.mem_univ, if_true] at h3
    have h4 : ∑ s, w s * (∑ i, X s i * beta i - t s) * X s j =
        ∑ s, X s j * (w s * ∑ i, X s i * beta i) - ∑ s, X s j * (w s * t s) := by
      rw [← Finset.sum_sub_distrib]
      exact Finset.sum_congr rfl fun s _ => by ring
    rw [h4]
    linarith

/-- The error of other parameters. -/
theorem squaredError_diff {x : Fin N → Fin p → ℝ} {w t : Fin N → ℝ} {reg : ℝ} {beta : Fin p → ℝ}
    (h : ∀ j, ∑ s, w s * (∑ i, x s i * beta i - t s) * x s j + reg * beta j = 0)
    (gamma : Fin p → ℝ) :
    squaredError x t w reg gamma = squaredError x t w reg beta +
      (∑ s, w s * (∑ i, x s i * (gamma i - beta i)) ^ 2 + reg * ∑ i, (gamma i - beta i) ^ 2) := by
  have hx : ∀ s, ∑ i, x s i * gamma i = ∑ i, x s i * beta i + ∑ i, x s i * (gamma i - beta i) := by
    intro s
    rw [← Finset.sum_add_distrib]
    exact Finset.sum_congr rfl fun i _ => by ring
  have hg : ∑ i, gamma i ^ 2 = ∑ i, beta i ^ 2 + 2 * ∑ i, beta i * (gamma i - beta i) +
      ∑ i, (gamma i - beta i) ^ 2 := by
    rw [Finset.mul_sum, ← Finset.sum_add_distrib, ← Finset.sum_add_distrib]
    exact Finset.sum_congr rfl fun i _ => by ring
  have hcross : ∑ s, w s * (∑ i, x s i * beta i - t s) * (∑ i, x s i * (gamma i - beta i)) +
      reg * ∑ i, beta i * (gamma i - beta i) = 0 := by
    have : ∑ s, w s * (∑ i, x s i * beta i - t s) * (∑ i, x s i * (gamma i - beta i)) =
        ∑ j, (∑ s, w s * (∑ i, x s i * beta i - t s) * x s j) * (gamma j - beta j) := by
      simp only [Finset.mul_sum, Finset.sum_mul]
      rw [Finset.sum_comm]
      exact Finset.sum_congr rfl fun i _ => Finset.sum_congr rfl fun s _ => by ring
    rw [this, Finset.mul_sum, ← Finset.sum_add_distrib]
    refine Finset.sum_eq_zero fun j _ => ?_
    have := h j
    have e : (∑ s, w s * (∑ i, x s i * beta i - t s) * x s j) * (gamma j - beta j) +
        reg * (beta j * (gamma j - beta j)) =
        (∑ s, w s * (∑ i, x s i * beta i - t s) * x s j + reg * beta j) * (gamma j - beta j) := by
      ring
    rw [e, this, zero_mul]
  have hs : ∑ s, w s * (∑ i, x s i * gamma i - t s) ^ 2 =
      ∑ s, w s * (∑ i, x s i * beta i - t s) ^ 2 +
      2 * ∑ s, w s * (∑ i, x s i * beta i - t s) * (∑ i, x s i * (gamma i - beta i)) +
      ∑ s, w s * (∑ i, x s i * (gamma i - beta i)) ^ 2 := by
    rw [Finset.mul_sum, ← Finset.sum_add_distrib, ← Finset.sum_add_distrib]
    refine Finset.sum_congr rfl fun s _ => ?_
    rw [hx]
    ring
  unfold squaredError
  rw [hs, hg]
  linear_combination 2 * hcross

theorem solveWls_minimises {X : Matrix (Fin N) (Fin p) ℝ} {w t : Fin N → ℝ} {reg : ℝ}
    {beta : Fin p → ℝ} (h : solveWls X w reg t = .ok beta) (hw : ∀ s, 0 ≤ w s) (hr : 0 ≤ reg)
    (gamma : Fin p → ℝ) :
    squaredError X t w reg beta ≤ squaredError X t w reg gamma ∧
    (squaredError X t w reg gamma ≤ squaredError X t w reg beta → gamma = beta) := by
  obtain ⟨hdet, hn⟩ := solveWls_ok h
  have hd := squaredError_diff hn gamma
  have q1 : 0 ≤ ∑ s, w s * (∑ i, X s i * (gamma i - beta i)) ^ 2 :=
    Finset.sum_nonneg fun s _ => mul_nonneg (hw s) (sq_nonneg _)
  have q2 : 0 ≤ reg * ∑ i, (gamma i - beta i) ^ 2 :=
    mul_nonneg hr (Finset.sum_nonneg fun i _ => sq_nonneg _)
  refine ⟨by linarith, fun hle => ?_⟩
  have z1 : ∑ s, w s * (∑ i, X s i * (gamma i - beta i)) ^ 2 = 0 := by linarith
  have z2 : reg * ∑ i, (gamma i - beta i) ^ 2 = 0 := by linarith
  rw [Finset.sum_eq_zero_iff_of_nonneg fun s _ => mul_nonneg (hw s) (sq_nonneg _)] at z1
  have hA : (Xᵀ * diagonal w * X + reg • (1 : Matrix (Fin p) (Fin p) ℝ)) *ᵥ (gamma - beta) = 0 := by
    rw [Matrix.add_mulVec, Matrix.smul_mulVec, Matrix.one_mulVec, Matrix.mul_assoc,
      ← mulVec_mulVec, ← mulVec_mulVec]
    have e1 : diagonal w *ᵥ (X *ᵥ (gamma - beta)) = 0 := by
      funext s
      rw [mulVec_diagonal]
      have := z1 s (Finset.mem_univ s)
      simp only [mulVec, dotProduct, Pi.sub_apply, Pi.zero_apply]
      rcases mul_eq_zero.mp this with h | h
      · rw [h, zero_mul]
      · rw [pow_eq_zero_iff two_ne_zero |>.mp h, mul_zero]
    have e2 : reg • (gamma - beta) = 0 := by
      rcases mul_eq_zero.mp z2 with h | h
      · rw [h, zero_smul]
      · rw [Finset.sum_eq_zero_iff_of_nonneg fun i _ => sq_nonneg _] at h
        have : gamma - beta = 0 := by
          funext i
          exact pow_eq_zero_iff two_ne_zero |>.mp (h i (Finset.mem_univ i))
        rw [this, smul_zero]
    rw [e1, e2, mulVec_zero, add_zero]
  have := Matrix.eq_zero_of_mulVec_eq_zero hdet hA
  exact sub_eq_zero.mp this

theorem squaredError_snoc (x : Fin N → Fin d → ℝ) (t w : Fin N → ℝ) (reg : ℝ) (beta : Fin (d + 1) → ℝ) :
    squaredError (fun s => (Fin.snoc (x s) 1 : Fin (d + 1) → ℝ)) t w reg beta =
      squaredErrorAffine x t w reg (fun i => beta i.castSucc) (beta (Fin.last d)) := by
  unfold squaredError squaredErrorAffine
  simp only [Fin.sum_univ_castSucc, Fin.snoc_castSucc, Fin.snoc_last, one_mul]

/-- The weights used in training. -/
def weightsOf (weights : Option (Fin N → ℝ)) : Fin N → ℝ := weights.getD fun _ => 1

theorem wlsTrain_false (reg : ℝ) (x : Fin N → Fin d → ℝ) (t : Fin N → ℝ)
    (weights : Option (Fin N → ℝ)) {m : WlsModel d} (h : wlsTrain false reg x t weights = .ok m) :
    solveWls (of x) (weightsOf weights) reg t = .ok m.slope ∧ m.offset = none := by
  unfold wlsTrain at h
  simp only [Bool.false_eq_true, if_false] at h
  obtain ⟨beta, hb, h⟩ := except_bind_ok h
  rw [← Except.ok.inj h]
  refine ⟨?_, rfl⟩
  cases weights <;> exact hb

theorem wlsTrain_true (reg : ℝ) (x : Fin N → Fin d → ℝ) (t : Fin N → ℝ)
    (weights : Option (Fin N → ℝ)) {m : WlsModel d} (h : wlsTrain true reg x t weights = .ok m) :
    ∃ beta, solveWls (of fun s => (Fin.snoc (x s) 1 : Fin (d + 1) → ℝ)) (weightsOf weights) reg t =
      .ok beta ∧ m.slope = (fun i => beta i.castSucc) ∧ m.offset = some (beta (Fin.last d)) := by
  unfold wlsTrain at h
  simp only [if_true] at h
  obtain ⟨beta, hb, h⟩ := except_bind_ok h
  rw [← Except.ok.inj h]
  refine ⟨beta, ?_, rfl, rfl⟩
  cases weights <;> exact hb

/-- C34: without offset, training yields the only minimiser of the weighted squared error (with
weights 1 if none are given) with regularisation; and predictions are linear in the inputs. -/
theorem C34_linear (reg : ℝ) (hr : 0 ≤ reg) (x : Fin N → Fin d → ℝ) (t : Fin N → ℝ)
    (weights : Option (Fin N → ℝ)) (hw : ∀ w, weights = some w → ∀ s, 0 ≤ w s) (m : WlsModel d)
    (h : wlsTrain false reg x t weights = .ok m) :
    (∀ slope, squaredError x t (weights.getD fun _ => 1) reg m.slope ≤
        squaredError x t (weights.getD fun _ => 1) reg slope ∧
      (squaredError x t (weights.getD fun _ => 1) reg slope ≤
        squaredError x t (weights.getD fun _ => 1) reg m.slope → slope = m.slope)) ∧
    ∀ {M : Nat} (q : Fin M → Fin d → ℝ) (s : Fin M), m.predict q s = ∑ i, q s i * m.slope i := by
  obtain ⟨h1, h2⟩ := wlsTrain_false reg x t weights h
  have hw' : ∀ s, 0 ≤ weightsOf weights s := by
    intro s
    cases weights with
    | none => exact zero_le_one
    | some w => exact hw w rfl s
  refine ⟨fun slope => solveWls_minimises h1 hw' hr slope, fun q s => ?_⟩
  rw [WlsModel.predict, h2, Option.getD_none, add_zero]

/-- C34: with offset. -/
theorem C34_affine (reg : ℝ) (hr : 0 ≤ reg) (x : Fin N → Fin d → ℝ) (t : Fin N → ℝ)
    (weights : Option (Fin N → ℝ)) (hw : ∀ w, weights = some w → ∀ s, 0 ≤ w s) (m : WlsModel d)
    (h : wlsTrain true reg x t weights = .ok m) :
    ∃ offset, m.offset = some offset ∧
    (∀ slope' offset', squaredErrorAffine x t (weights.getD fun _ => 1) reg m.slope offset ≤
        squaredErrorAffine x t (weights.getD fun _ => 1) reg slope' offset' ∧
      (squaredErrorAffine x t (weights.getD fun _ => 1) reg slope' offset' ≤
        squaredErrorAffine x t (weights.getD fun _ => 1) reg m.slope offset →
        slope' = m.slope ∧ offset' = offset)) ∧
    ∀ {M : Nat} (q : Fin M → Fin d → ℝ) (s : Fin M),
      m.predict q s = ∑ i, q s i * m.slope i + offset := by
  obtain ⟨beta, h1, h2, h3⟩ := wlsTrain_true reg x t weights h
  have hw' : ∀ s, 0 ≤ weightsOf weights s := by
    intro s
    cases weights with
    | none => exact zero_le_one
    | some w => exact hw w rfl s
  refine ⟨_, h3, fun slope offset => ?_, fun q s => ?_⟩
  · have := solveWls_minimises h1 hw' hr (Fin.snoc slope offset : Fin (d + 1) → ℝ)
    have e1 := squaredError_snoc x t (weightsOf weights) reg beta
    have e2 := squaredError_snoc x t (weightsOf weights) reg (Fin.snoc slope offset : Fin (d + 1) → ℝ)
    simp only [Fin.snoc_castSucc, Fin.snoc_last] at e2
    have e3 : squaredError (of fun s => (Fin.snoc (x s) 1 : Fin (d + 1) → ℝ)) t (weightsOf weights) reg
      = squaredError (fun s => (Fin.snoc (x s) 1 : Fin (d + 1) → ℝ)) t (weightsOf weights) reg := rfl
    rw [e3, e1, e2] at this
    rw [h2]
    refine ⟨this.1, fun hle => ?_⟩
    have hb := this.2 hle
    rw [← hb]
    refine ⟨?_, ?_⟩
    · funext i
      rw [Fin.snoc_castSucc]
    · rw [Fin.snoc_last]
  · rw [WlsModel.predict, h3, Option.getD_some]

/-- C34: exact linear targets are recovered without regularisation. -/
theorem C34_recovers_linear (x : Fin N → Fin d → ℝ) (a : Fin d → ℝ)
    (weights : Option (Fin N → ℝ)) (hw : ∀ w, weights = some w → ∀ s, 0 ≤ w s) (m : WlsModel d)
    (h : wlsTrain false 0 x (fun s => ∑ i, x s i * a i) weights = .ok m) :
    m.slope = a ∧ ∀ {M : Nat} (q : Fin M → Fin d → ℝ) (s : Fin M),
      m.predict q s = ∑ i, q s i * a i := by
  obtain ⟨h1, h2⟩ := C34_linear 0 le_rfl x _ weights hw m h
  have h0 : squaredError x (fun s => ∑ i, x s i * a i) (weights.getD fun _ => 1) 0 a = 0 := by
    simp [squaredError]
  have hm : 0 ≤ squaredError x (fun s => ∑ i, x s i * a i) (weights.getD fun _ => 1) 0 m.slope := by
    rw [squaredError, zero_mul, add_zero]
    refine Finset.sum_nonneg fun s _ => mul_nonneg ?_ (sq_nonneg _)
    cases weights with
    | none => exact zero_le_one
    | some w => exact hw w rfl s
  have ha : a = m.slope := (h1 a).2 (by rw [h0]; exact hm)
  refine ⟨ha.symm, fun q s => ?_⟩
  rw [h2 q s, ← ha]

/-- C34: exact affine targets are recovered without regularisation. -/
theorem C34_recovers_affine (x : Fin N → Fin d → ℝ) (a : Fin d → ℝ) (c : ℝ)
    (weights : Option (Fin N → ℝ)) (hw : ∀ w, weights = some w → ∀ s, 0 ≤ w s) (m : WlsModel d)
    (h : wlsTrain true 0 x (fun s => ∑ i, x s i * a i + c) weights = .ok m) :
    m.slope = a ∧ m.offset = some c ∧ ∀ {M : Nat} (q : Fin M → Fin d → ℝ) (s : Fin M),
      m.predict q s = ∑ i, q s i * a i + c := by
  obtain ⟨offset, h0, h1, h2⟩ := C34_affine 0 le_rfl x _ weights hw m h
  have hz : squaredErrorAffine x (fun s => ∑ i, x s i * a i + c) (weights.getD fun _ => 1) 0 a c = 0 := by
    simp [squaredErrorAffine]
  have hm : 0 ≤ squaredErrorAffine x (fun s => ∑ i, x s i * a i + c) (weights.getD fun _ => 1) 0
      m.slope offset := by
    rw [squaredErrorAffine, zero_mul, add_zero]
    refine Finset.sum_nonneg fun s _ => mul_nonneg ?_ (sq_nonneg _)
    cases weights with
    | none => exact zero_le_one
    | some w => exact hw w rfl s
  obtain ⟨ha, hc⟩ := (h1 a c).2 (by rw [hz]; exact hm)
  refine ⟨ha.symm, by rw [h0, hc], fun q s => ?_⟩
  rw [h2 q s, ← ha, ← hc]

theorem solveWls_succeeds {X : Matrix (Fin N) (Fin p) ℝ} {w t : Fin N → ℝ} {reg : ℝ}
    (h : (Xᵀ * diagonal w * X + reg • (1 : Matrix (Fin p) (Fin p) ℝ)).det ≠ 0) :
    ∃ beta, solveWls X w reg t = .ok beta := by
  unfold solveWls
  simp only
  rw [if_neg h]
  exact ⟨_, rfl⟩

theorem solveWls_error {X : Matrix (Fin N) (Fin p) ℝ} {w t : Fin N → ℝ} {reg : ℝ} {e : PyErr}
    (h : solveWls X w reg t = .error e) : e = .linAlgError := by
  unfold solveWls at h
  simp only at h
  split at h
  · exact (Except.error.inj h).symm
  · cases h

/-- C34: training succeeds if no parameters other than 0 have zero error for zero targets; in
particular always for positive regularisation and non-negative weights. Otherwise it raises
LinAlgError. -/
theorem C34_succeeds (X : Matrix (Fin N) (Fin p) ℝ) (w t : Fin N → ℝ) (reg : ℝ) (hw : ∀ s, 0 ≤ w s)
    (hr : 0 ≤ reg) :
    (∃ beta, solveWls X w reg t = .ok beta) ↔
      ∀ beta, squaredError X (fun _ => 0) w reg beta = 0 → beta = 0 := by
  constructor
  · rintro ⟨_, h⟩ beta hb
    obtain ⟨hdet, -⟩ := solveWls_ok h
    obtain ⟨b0, h0⟩ := solveWls_succeeds (t := fun _ => (0 : ℝ)) hdet
    have hz : squaredError X (fun _ => 0) w reg 0 = 0 := by simp [squaredError]
    have n : 0 ≤ squaredError X (fun _ => 0) w reg b0 := by
      unfold squaredError
      exact add_nonneg (Finset.sum_nonneg fun s _ => mul_nonneg (hw s) (sq_nonneg _))
        (mul_nonneg hr (Finset.sum_nonneg fun i _ => sq_nonneg _))
    rw [(solveWls_minimises h0 hw hr beta).2 (by rw [hb]; exact n),
      (solveWls_minimises h0 hw hr 0).2 (by rw [hz]; exact n)]
  · intro h
    refine solveWls_succeeds fun hdet => ?_
    obtain ⟨v, hv, hAv⟩ := Matrix.exists_mulVec_eq_zero_iff.mpr hdet
    refine hv (h v ?_)
    have h1 : v ⬝ᵥ ((Xᵀ * diagonal w * X + reg • (1 : Matrix (Fin p) (Fin p) ℝ)) *ᵥ v) = 0 := by
      rw [hAv, dotProduct_zero]
    rw [Matrix.add_mulVec, Matrix.smul_mulVec, Matrix.one_mulVec, dotProduct_add, Matrix.mul_assoc,
      ← mulVec_mulVec, ← mulVec_mulVec, dotProduct_mulVec, vecMul_transpose, dotProduct_smul] at h1
    refine Eq.trans ?_ h1
    unfold squaredError
    congr 1
    · simp only [dotProduct, mulVec_diagonal]
      refine Finset.sum_congr rfl fun s _ => ?_
      simp only [mulVec, dotProduct]
      ring
    · simp only [dotProduct, smul_eq_mul]
      congr 1
      exact Finset.sum_congr rfl fun i _ => by ring

/-- Hypotheses: three samples, weighted, with offset. -/
example : ∃ m : WlsModel 1, wlsTrain true 0 (fun (s : Fin 3) _ => (s : ℝ))
    (fun s => ∑ i : Fin 1, (s : ℝ) * (2 : ℝ) + 5) (some fun s => s + 1) = .ok m := by
  unfold wlsTrain
  simp only [if_true]
  obtain ⟨b, h⟩ := (C34_succeeds (of fun (s : Fin 3) => (Fin.snoc (fun _ : Fin 1 => (s : ℝ)) 1 :
    Fin 2 → ℝ)) (fun s => s + 1) (fun s => ∑ i : Fin 1, (s : ℝ) * (2 : ℝ) + 5) 0
    (fun s => by positivity) le_rfl).mpr (by
      intro beta hb
      simp [squaredError, Fin.sum_univ_succ, Fin.snoc] at hb
      have h1 : beta 1 ^ 2 = 0 := by
        nlinarith [sq_nonneg (beta 1), sq_nonneg (beta 0 + beta 1), sq_nonneg (2 * beta 0 + beta 1)]
      have h2 : (beta 0 + beta 1) ^ 2 = 0 := by
        nlinarith [sq_nonneg (beta 1), sq_nonneg (beta 0 + beta 1), sq_nonneg (2 * beta 0 + beta 1)]
      rw [pow_eq_zero_iff two_ne_zero] at h1 h2
      funext i
      fin_cases i
      · simpa [h1] using h2
      · exact h1)
  rw [h]
  exact ⟨_, rfl⟩

end

end Verif
