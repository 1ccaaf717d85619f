import Verif.Spec.FunctionApproximation
import Mathlib.Algebra.BigOperators.Field
import Mathlib.LinearAlgebra.Vandermonde
import Mathlib.LinearAlgebra.FiniteDimensional.Lemmas
import Mathlib.LinearAlgebra.LinearIndependent.Basic
import Mathlib.Analysis.SpecialFunctions.Exponential
import Mathlib.Topology.Algebra.InfiniteSum.Order

/-
Combinations of Gaussians: equidistant Gaussians of one width are determined by their values at as many points;
Gaussians around different points have a regular Gram matrix.
-/

set_option autoImplicit false

namespace Verif

open Spec

/-- A combination of `n` equidistant Gaussians with `n` different zeros is trivial. -/
theorem gaussians_zero {n : Nat} {c δ w : ℝ} (hδ : δ ≠ 0) (hw : w ≠ 0) (x : Fin n → ℝ)
    (hx : Function.Injective x) (β : Fin n → ℝ)
    (h : ∀ s, ∑ b : Fin n, Real.exp (-((x s - (c + (b : ℕ) * δ)) / w) ^ 2 / 2) * β b = 0) : β = 0 := by
  let q : Fin n → ℝ := fun s => Real.exp ((x s - c) * δ / w ^ 2)
  let v : Fin n → ℝ := fun b => Real.exp (-((b : ℕ) * δ / w) ^ 2 / 2) * β b
  have hq : Function.Injective q := by
    intro s s' e
    have e1 := Real.exp_injective e
    have e2 : (x s - c) * δ = (x s' - c) * δ := by
      have := congrArg (· * w ^ 2) e1
      simpa [div_mul_cancel₀ _ (pow_ne_zero 2 hw)] using this
    have e3 := mul_right_cancel₀ hδ e2
    exact hx (by linarith)
  have hv : v = 0 := by
    refine Matrix.eq_zero_of_forall_index_sum_pow_mul_eq_zero hq fun s => ?_
    have e : ∀ b : Fin n, Real.exp (-((x s - (c + (b : ℕ) * δ)) / w) ^ 2 / 2) * β b =
        Real.exp (-((x s - c) / w) ^ 2 / 2) * (q s ^ (b : ℕ) * v b) := by
      intro b
      change _ = _ * (Real.exp _ ^ (b : ℕ) * (Real.exp _ * β b))
      rw [← Real.exp_nat_mul, ← mul_assoc, ← mul_assoc, ← Real.exp_add, ← Real.exp_add]
      congr 2
      field_simp
      ring
    have h1 := h s
    simp only [e] at h1
    rw [← Finset.mul_sum] at h1
    exact (mul_eq_zero.mp h1).resolve_left (Real.exp_ne_zero _)
  funext b
  have := congrFun hv b
  exact (mul_eq_zero.mp this).resolve_left (Real.exp_ne_zero _)

/-- Functions on a set with fewer points than functions have a non-trivial combination that is zero. -/
theorem combination_zero {n : Nat} {α : Type} (S : Finset α) (f : Fin n → α → ℝ) (h : S.card < n) :
    ∃ β : Fin n → ℝ, β ≠ 0 ∧ ∀ a ∈ S, ∑ b, f b a * β b = 0 := by
  let F : (Fin n → ℝ) →ₗ[ℝ] (S → ℝ) :=
    { toFun := fun β a => ∑ b, f b a * β b
      map_add' := by
        intro β γ
        funext a
        simp [mul_add, Finset.sum_add_distrib]
      map_smul' := by
        intro r β
        funext a
        simp only [Pi.smul_apply, smul_eq_mul, RingHom.id_apply, Finset.mul_sum]
        exact Finset.sum_congr rfl fun b _ => by ring }
  have hF : LinearMap.ker F ≠ ⊥ := LinearMap.ker_ne_bot_of_finrank_lt (by simpa using h)
  obtain ⟨β, hβ, h0⟩ := (Submodule.ne_bot_iff _).mp hF
  exact ⟨β, h0, fun a ha => congrFun (LinearMap.mem_ker.mp hβ) ⟨a, ha⟩⟩

/-- Exponential functions with different slopes are independent. -/
theorem exponentials_independent {N d : Nat} (u : Fin N → Fin d → ℝ) (hu : Function.Injective u) (a : Fin N → ℝ)
    (h : ∀ z : Fin d → ℝ, ∑ i, a i * Real.exp (∑ m, u i m * z m) = 0) : a = 0 := by
  let hom : (Fin d → ℝ) → (Multiplicative (Fin d → ℝ) →* ℝ) := fun v =>
    { toFun := fun z => Real.exp (∑ m, v m * z.toAdd m)
      map_one' := by simp
      map_mul' := by
        intro z z'
        rw [← Real.exp_add, ← Finset.sum_add_distrib]
        simp [mul_add] }
  have hinj : Function.Injective hom := by
    intro v v' e
    funext m
    have := congrArg (fun g : Multiplicative (Fin d → ℝ) →* ℝ => g (Multiplicative.ofAdd (Pi.single m 1))) e
    have := Real.exp_injective this
    simpa [Pi.single_apply] using this
  have li := (linearIndependent_monoidHom (Multiplicative (Fin d → ℝ)) ℝ).comp (fun i => hom (u i)) (hinj.comp hu)
  rw [Fintype.linearIndependent_iff] at li
  funext i
  refine li a ?_ i
  funext z
  have := h z.toAdd
  simpa [hom] using this

/-- The quadratic form of the kernel `exp (u · v)` is definite. -/
theorem exp_definite {N d : Nat} (u : Fin N → Fin d → ℝ) (hu : Function.Injective u) (a : Fin N → ℝ)
    (h : ∑ i, ∑ j, a i * a j * Real.exp (∑ m, u i m * u j m) = 0) : a = 0 := by
  have series : ∀ x : ℝ, HasSum (fun k : ℕ => x ^ k / (k.factorial : ℝ)) (Real.exp x) := by
    intro x
    rw [Real.exp_eq_exp_ℝ]
    exact NormedSpace.expSeries_div_hasSum_exp x
  have power : ∀ (i : Fin N) (z : Fin d → ℝ) (k : ℕ),
      (∑ m, u i m * z m) ^ k = ∑ p : Fin k → Fin d, (∏ m, u i (p m)) * ∏ m, z (p m) := by
    intro i z k
    rw [Fintype.sum_pow]
    exact Finset.sum_congr rfl fun p _ => Finset.prod_mul_distrib
  have square : ∀ k : ℕ, ∑ i, ∑ j, a i * a j * ((∑ m, u i m * u j m) ^ k / (k.factorial : ℝ)) =
      (∑ p : Fin k → Fin d, (∑ i, a i * ∏ m, u i (p m)) ^ 2) / (k.factorial : ℝ) := by
    intro k
    have e : ∀ p : Fin k → Fin d, (∑ i, a i * ∏ m, u i (p m)) ^ 2 =
        ∑ i, ∑ j, a i * a j * ((∏ m, u i (p m)) * ∏ m, u j (p m)) := by
      intro p
      rw [sq, Finset.sum_mul_sum]
      exact Finset.sum_congr rfl fun i _ => Finset.sum_congr rfl fun j _ => by ring
    simp only [e, power]
    conv_rhs => rw [Finset.sum_comm, Finset.sum_div]
    refine Finset.sum_congr rfl fun i _ => ?_
    conv_rhs => rw [Finset.sum_comm, Finset.sum_div]
    refine Finset.sum_congr rfl fun j _ => ?_
    rw [← Finset.mul_sum, mul_div_assoc]
  have total : HasSum (fun k : ℕ => (∑ p : Fin k → Fin d, (∑ i, a i * ∏ m, u i (p m)) ^ 2) / (k.factorial : ℝ)) 0 := by
    rw [← h]
    simp only [← square]
    exact hasSum_sum fun i _ => hasSum_sum fun j _ => (series _).mul_left _
  have each := (hasSum_zero_iff_of_nonneg fun k => div_nonneg (Finset.sum_nonneg fun p _ => sq_nonneg _)
    (Nat.cast_nonneg _)).mp total
  have moment : ∀ (k : ℕ) (p : Fin k → Fin d), ∑ i, a i * ∏ m, u i (p m) = 0 := by
    intro k p
    have e := congrFun each k
    have e1 : (∑ p : Fin k → Fin d, (∑ i, a i * ∏ m, u i (p m)) ^ 2) = 0 := by
      rcases div_eq_zero_iff.mp e with e | e
      · exact e
      · exact absurd e (by exact_mod_cast k.factorial_ne_zero)
    have e2 := (Finset.sum_eq_zero_iff_of_nonneg fun p _ => sq_nonneg _).mp e1 p (Finset.mem_univ p)
    exact pow_eq_zero_iff two_ne_zero |>.mp e2
  refine exponentials_independent u hu a fun z => ?_
  have hs : HasSum (fun k : ℕ => ∑ i, a i * ((∑ m, u i m * z m) ^ k / (k.factorial : ℝ)))
      (∑ i, a i * Real.exp (∑ m, u i m * z m)) := hasSum_sum fun i _ => (series _).mul_left _
  have hz : ∀ k : ℕ, ∑ i, a i * ((∑ m, u i m * z m) ^ k / (k.factorial : ℝ)) = 0 := by
    intro k
    have e : ∀ i, a i * ((∑ m, u i m * z m) ^ k / (k.factorial : ℝ)) =
        ∑ p : Fin k → Fin d, (a i * ∏ m, u i (p m)) * ((∏ m, z (p m)) / (k.factorial : ℝ)) := by
      intro i
      rw [power, Finset.sum_div, Finset.mul_sum]
      exact Finset.sum_congr rfl fun p _ => by ring
    simp only [e]
    rw [Finset.sum_comm]
    refine Finset.sum_eq_zero fun p _ => ?_
    rw [← Finset.sum_mul, moment, zero_mul]
  simp only [hz] at hs
  exact hs.unique hasSum_zero

/-- The values of Gaussians around different points at these points determine the combination. -/
theorem gaussian_definite {N d : Nat} (x : Fin N → Fin d → ℝ) (len : Fin d → ℝ) (hlen : ∀ i, len i ≠ 0)
    (hx : Function.Injective x) (a : Fin N → ℝ) (h : ∀ s, ∑ b, gaussian (x b) len (x s) * a b = 0) : a = 0 := by
  let u : Fin N → Fin d → ℝ := fun s m => x s m / len m
  have hu : Function.Injective u := by
    intro s s' e
    refine hx (funext fun m => ?_)
    have := congrFun e m
    exact (div_left_inj' (hlen m)).mp this
  let r : Fin N → ℝ := fun s => Real.exp (-(∑ m, u s m ^ 2) / 2)
  have split : ∀ b s, gaussian (x b) len (x s) = r b * r s * Real.exp (∑ m, u s m * u b m) := by
    intro b s
    unfold gaussian
    change _ = Real.exp _ * Real.exp _ * Real.exp _
    rw [← Real.exp_add, ← Real.exp_add]
    congr 1
    have e : ∀ m, ((x s m - x b m) / len m) ^ 2 = u s m ^ 2 + u b m ^ 2 - 2 * (u s m * u b m) := by
      intro m
      change _ = (x s m / len m) ^ 2 + (x b m / len m) ^ 2 - 2 * (x s m / len m * (x b m / len m))
      rw [sub_div]
      ring
    simp only [e, Finset.sum_sub_distrib, Finset.sum_add_distrib, ← Finset.mul_sum]
    ring
  have key : (fun s => r s * a s) = 0 := by
    refine exp_definite u hu _ ?_
    refine Finset.sum_eq_zero fun s _ => ?_
    have e := h s
    simp only [split] at e
    have e1 : ∀ b, r s * a s * (r b * a b) * Real.exp (∑ m, u s m * u b m) =
        a s * (r b * r s * Real.exp (∑ m, u s m * u b m) * a b) := fun b => by ring
    simp only [e1]
    rw [← Finset.mul_sum, e, mul_zero]
  funext s
  exact (mul_eq_zero.mp (congrFun key s)).resolve_left (Real.exp_ne_zero _)

end Verif
