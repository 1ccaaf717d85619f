import Mathlib.FieldTheory.KummerExtension
import Mathlib.RingTheory.RootsOfUnity.Complex
import Mathlib.Analysis.SpecialFunctions.Trigonometric.Basic
import Mathlib.Algebra.BigOperators.Intervals
import Verif.Model.LowPass
import Verif.Spec.LowPass

/-
The coefficients of the Butterworth filter (Model/LowPass).
-/

set_option autoImplicit false

noncomputable section

namespace Verif

namespace LowPass

open Complex (I)

theorem prod_list_range (n : Nat) (f : Nat → ℂ) :
    ((List.range n).map f).prod = ∏ i ∈ Finset.range n, f i := by
  induction n with
  | zero => rfl
  | succ n ih => rw [List.range_succ, Finset.prod_range_succ, ← ih]; simp

theorem sum_list_range (n : Nat) (f : Nat → ℝ) :
    ((List.range n).map f).sum = ∑ i ∈ Finset.range n, f i := by
  induction n with
  | zero => rfl
  | succ n ih => rw [List.range_succ, Finset.sum_range_succ, ← ih]; simp

/-! ### np.poly -/

theorem poly_snoc (l : List ℂ) (r : ℂ) : poly (l ++ [r]) = polyStep (poly l) r := by
  simp [poly]

theorem poly_zero (l : List ℂ) : poly l 0 = 1 := by
  induction l using List.reverseRecOn with
  | nil => rfl
  | append_singleton l r ih => rw [poly_snoc]; exact ih

theorem poly_large (l : List ℂ) (k : Nat) (h : l.length < k) : poly l k = 0 := by
  induction l using List.reverseRecOn generalizing k with
  | nil =>
    have : k ≠ 0 := by simp at h; omega
    simp [poly, this]
  | append_singleton l r ih =>
    rw [poly_snoc]
    simp only [List.length_append, List.length_singleton] at h
    cases k with
    | zero => omega
    | succ k => simp only [polyStep]; rw [ih (k + 1) (by omega), ih k (by omega)]; simp

theorem poly_eval (l : List ℂ) (u : ℂ) :
    ∑ k ∈ Finset.range (l.length + 1), poly l k * u ^ k = (l.map fun r => 1 - r * u).prod := by
  induction l using List.reverseRecOn with
  | nil => simp [poly]
  | append_singleton l r ih =>
    rw [List.map_append, List.prod_append, ← ih, poly_snoc]
    simp only [List.length_append, List.length_singleton, List.map_cons, List.map_nil,
      List.prod_singleton]
    rw [Finset.sum_range_succ']
    simp only [polyStep, pow_zero, mul_one]
    rw [mul_sub, mul_one, Finset.sum_congr rfl (fun k _ => by
      show (poly l (k + 1) - r * poly l k) * u ^ (k + 1) =
        poly l (k + 1) * u ^ (k + 1) - poly l k * u ^ k * (r * u); ring), Finset.sum_sub_distrib,
      ← Finset.sum_mul]
    have e : ∑ k ∈ Finset.range (l.length + 1), poly l k * u ^ k =
        ∑ k ∈ Finset.range (l.length + 1), poly l (k + 1) * u ^ (k + 1) + poly l 0 := by
      have h1 := Finset.sum_range_succ' (fun k => poly l k * u ^ k) (l.length + 1)
      rw [Finset.sum_range_succ, poly_large l (l.length + 1) (by omega)] at h1
      simpa using h1
    linear_combination -e

theorem polyStep_comm (c : Nat → ℂ) (r s : ℂ) :
    polyStep (polyStep c r) s = polyStep (polyStep c s) r := by
  funext k
  match k with
  | 0 => rfl
  | 1 => simp only [polyStep]; ring
  | k + 2 => simp only [polyStep]; ring

theorem poly_perm {l l' : List ℂ} (h : l.Perm l') : poly l = poly l' :=
  List.Perm.foldl_eq' h (fun _ _ _ _ _ => polyStep_comm _ _ _) _

theorem poly_conj (l : List ℂ) (k : Nat) :
    poly (l.map (starRingEnd ℂ)) k = starRingEnd ℂ (poly l k) := by
  induction l using List.reverseRecOn generalizing k with
  | nil => by_cases h : k = 0 <;> simp [poly, h]
  | append_singleton l r ih =>
    rw [List.map_append, List.map_singleton, poly_snoc, poly_snoc]
    cases k with
    | zero => exact ih 0
    | succ k => simp only [polyStep]; rw [ih, ih]; simp

/-! ### The poles -/

/-- The angles of the analog poles. -/
def angle (n k : Nat) : ℝ := Real.pi * (2 * k + 1 - n) / (2 * n)

/-- The analog poles. -/
def pole (n k : Nat) : ℂ := -Complex.exp (angle n k * I)

theorem analogPoles_eq (n : Nat) : analogPoles n = (List.range n).map (pole n) := by
  unfold analogPoles pole angle
  refine List.map_congr_left fun k _ => ?_
  congr 2
  push_cast
  ring

theorem angle_reflect (n k : Nat) (h : k < n) : angle n (n - 1 - k) = -angle n k := by
  have h1 : ((n - 1 - k : Nat) : ℝ) = n - 1 - k := by
    rw [Nat.sub_sub, Nat.cast_sub (by omega)]; push_cast; ring
  unfold angle
  rw [h1]
  ring

theorem pole_conj (n k : Nat) (h : k < n) : starRingEnd ℂ (pole n k) = pole n (n - 1 - k) := by
  unfold pole
  rw [angle_reflect n k h, map_neg, ← Complex.exp_conj]
  simp

theorem angle_lt (n k : Nat) (h : k < n) :
    -(Real.pi / 2) < angle n k ∧ angle n k < Real.pi / 2 := by
  have hn : (0 : ℝ) < 2 * n := by
    have : (0 : ℝ) < n := by exact_mod_cast (by omega : 0 < n)
    linarith
  have hk : (k : ℝ) + 1 ≤ n := by exact_mod_cast h
  have hk0 : (0 : ℝ) ≤ k := k.cast_nonneg
  have hpi := Real.pi_pos
  unfold angle
  constructor
  · rw [lt_div_iff₀ hn]; nlinarith
  · rw [div_lt_iff₀ hn]; nlinarith

theorem pole_re (n k : Nat) (h : k < n) : (pole n k).re < 0 := by
  have := Real.cos_pos_of_mem_Ioo (angle_lt n k h)
  unfold pole
  rw [Complex.neg_re, Complex.exp_ofReal_mul_I_re]
  linarith

/-- The roots of `-1`. -/
def root (n k : Nat) : ℂ := Complex.exp (I * Real.pi * (2 * k + 1) / (2 * n))

theorem prod_root (n : Nat) (hn : 0 < n) (s t : ℝ) :
    ∏ k ∈ Finset.range (2 * n), ((s : ℂ) - t * root n k) = (s : ℂ) ^ (2 * n) + (t : ℂ) ^ (2 * n) := by
  have hz := Complex.isPrimitiveRoot_exp (2 * n) (by omega)
  have hn' : (n : ℂ) ≠ 0 := by exact_mod_cast hn.ne'
  have h := X_pow_sub_C_eq_prod hz (by omega) (α := t * Complex.exp (I * Real.pi / (2 * n))) rfl
  have h2 := congrArg (Polynomial.eval (s : ℂ)) h
  rw [Polynomial.eval_prod] at h2
  simp only [Polynomial.eval_sub, Polynomial.eval_pow, Polynomial.eval_X, Polynomial.eval_C] at h2
  have e1 : (Complex.exp (I * Real.pi / (2 * n))) ^ (2 * n) = -1 := by
    rw [← Complex.exp_nat_mul, ← Complex.exp_pi_mul_I]
    congr 1
    push_cast
    field_simp
  rw [mul_pow, e1] at h2
  rw [show (s : ℂ) ^ (2 * n) + (t : ℂ) ^ (2 * n) = s ^ (2 * n) - t ^ (2 * n) * -1 by ring, h2]
  refine Finset.prod_congr rfl fun k _ => ?_
  congr 1
  unfold root
  rw [← Complex.exp_nat_mul, mul_left_comm, ← Complex.exp_add]
  congr 2
  push_cast
  field_simp

theorem root_pole (n k : Nat) (hn : 0 < n) : I * root n k = pole n k := by
  have hn' : (n : ℂ) ≠ 0 := by exact_mod_cast hn.ne'
  unfold root pole angle
  have h1 : ∀ x : ℂ, I * Complex.exp x = Complex.exp (Real.pi / 2 * I + x) := fun x => by
    rw [Complex.exp_add, Complex.exp_pi_div_two_mul_I]
  have h2 : ∀ x : ℂ, -Complex.exp x = Complex.exp (Real.pi * I + x) := fun x => by
    rw [Complex.exp_add, Complex.exp_pi_mul_I, neg_one_mul]
  rw [h1, h2]
  congr 1
  push_cast
  field_simp
  ring

theorem root_conj (n k : Nat) (hk : k < n) : starRingEnd ℂ (root n k) = root n (2 * n - 1 - k) := by
  have hn' : (n : ℂ) ≠ 0 := by exact_mod_cast (by omega : n ≠ 0)
  have h1 : ((2 * n - 1 - k : Nat) : ℂ) = 2 * n - 1 - k := by
    rw [Nat.sub_sub, Nat.cast_sub (by omega)]; push_cast; ring
  unfold root
  rw [← Complex.exp_conj, h1]
  have := Complex.exp_periodic (starRingEnd ℂ (I * Real.pi * (2 * k + 1) / (2 * n)))
  have h2 : starRingEnd ℂ (2 : ℂ) = 2 := Complex.conj_ofNat 2
  rw [← this]
  congr 1
  simp [h2]
  field_simp
  ring

theorem prod_normSq (n : Nat) (hn : 0 < n) (s t : ℝ) :
    ∏ k ∈ Finset.range n, Complex.normSq (I * s - t * pole n k) = s ^ (2 * n) + t ^ (2 * n) := by
  have h := prod_root n hn s t
  rw [two_mul n, Finset.prod_range_add, ← Finset.prod_range_reflect (fun x => _ - _ * root n (n + x)),
    ← Finset.prod_mul_distrib] at h
  have e : ((∏ k ∈ Finset.range n, Complex.normSq (I * s - t * pole n k) : ℝ) : ℂ) =
      ((s ^ (2 * n) + t ^ (2 * n) : ℝ) : ℂ) := by
    push_cast
    rw [two_mul n, ← h]
    refine Finset.prod_congr rfl fun k hk => ?_
    have hk := Finset.mem_range.1 hk
    rw [show n + (n - 1 - k) = 2 * n - 1 - k by omega, ← root_conj n k hk, ← root_pole n k hn,
      ← Complex.mul_conj]
    simp
    linear_combination (-(s - t * root n k) * (s - t * starRingEnd ℂ (root n k))) * Complex.I_mul_I
  exact_mod_cast e

/-! ### The coefficients -/

/-- The tangent of half the cutoff frequency. -/
def tanHalf (cut : ℝ) : ℝ := Real.tan (Real.pi * cut / 2)

theorem tanHalf_pos {cut : ℝ} (h0 : 0 < cut) (h1 : cut < 1) : 0 < tanHalf cut := by
  have := Real.pi_pos
  exact Real.tan_pos_of_pos_of_lt_pi_div_two (by positivity) (by nlinarith)

theorem warped_eq (cut : ℝ) : warped cut = 4 * tanHalf cut := by
  unfold warped tanHalf; ring

/-- The divisor of a digital pole. -/
def den (n : Nat) (t : ℝ) (k : Nat) : ℂ := 1 - t * pole n k

/-- The digital poles. -/
def dpole (n : Nat) (t : ℝ) (k : Nat) : ℂ := (1 + t * pole n k) / den n t k

theorem den_ne {n : Nat} {t : ℝ} (ht : 0 < t) {k : Nat} (hk : k < n) : den n t k ≠ 0 := by
  intro h
  have h1 := congrArg Complex.re h
  have := pole_re n k hk
  simp [den] at h1
  nlinarith

theorem poles_eq (n : Nat) (cut : ℝ) :
    poles n cut = (List.range n).map (dpole n (tanHalf cut)) := by
  unfold poles dpole den
  rw [analogPoles_eq, List.map_map]
  refine List.map_congr_left fun k _ => ?_
  simp only [Function.comp_apply, warped_eq]
  push_cast
  rw [show (4 : ℂ) + 4 * tanHalf cut * pole n k = 4 * (1 + tanHalf cut * pole n k) by ring,
    show (4 : ℂ) - 4 * tanHalf cut * pole n k = 4 * (1 - tanHalf cut * pole n k) by ring]
  exact mul_div_mul_left _ _ (by norm_num)

theorem poles_length (n : Nat) (cut : ℝ) : (poles n cut).length = n := by simp [poles, analogPoles]

/-- The product of the divisors. -/
def dens (n : Nat) (t : ℝ) : ℂ := ∏ k ∈ Finset.range n, den n t k

theorem den_conj (n : Nat) (t : ℝ) (k : Nat) (h : k < n) :
    starRingEnd ℂ (den n t k) = den n t (n - 1 - k) := by
  unfold den
  rw [← pole_conj n k h]
  simp

theorem dens_conj (n : Nat) (t : ℝ) : starRingEnd ℂ (dens n t) = dens n t := by
  unfold dens
  rw [map_prod, ← Finset.prod_range_reflect (den n t)]
  exact Finset.prod_congr rfl fun k hk => den_conj n t k (Finset.mem_range.1 hk)

theorem dens_ne {n : Nat} {t : ℝ} (ht : 0 < t) : dens n t ≠ 0 :=
  Finset.prod_ne_zero_iff.2 fun _ hk => den_ne ht (Finset.mem_range.1 hk)

theorem dens_real (n : Nat) (t : ℝ) : ((dens n t).re : ℂ) = dens n t :=
  Complex.conj_eq_iff_re.1 (dens_conj n t)

theorem gain_eq (n : Nat) (cut : ℝ) : (gain n cut : ℂ) * dens n (tanHalf cut) =
    tanHalf cut ^ n * (dens n (tanHalf cut) / dens n (tanHalf cut)) := by
  have h1 : ((analogPoles n).map fun p => (4 - warped cut * p : ℂ)).prod =
      4 ^ n * dens n (tanHalf cut) := by
    rw [analogPoles_eq, List.map_map, prod_list_range, dens]
    rw [show (4 : ℂ) ^ n = ∏ _k ∈ Finset.range n, 4 by simp, ← Finset.prod_mul_distrib]
    refine Finset.prod_congr rfl fun k _ => ?_
    simp only [Function.comp_apply, warped_eq, den]
    push_cast
    ring
  unfold gain
  rw [h1, ← dens_real, warped_eq]
  have h2 : (1 / (4 ^ n * ((dens n (tanHalf cut)).re : ℂ))) =
      ((1 / (4 ^ n * (dens n (tanHalf cut)).re) : ℝ) : ℂ) := by push_cast; ring
  rw [h2, Complex.ofReal_re, mul_pow]
  push_cast
  by_cases h : ((dens n (tanHalf cut)).re : ℂ) = 0
  · simp [h]
  · field_simp

theorem gain_dens {n : Nat} {cut : ℝ} (h0 : 0 < cut) (h1 : cut < 1) :
    (gain n cut : ℂ) * dens n (tanHalf cut) = (tanHalf cut : ℂ) ^ n := by
  rw [gain_eq, div_self (dens_ne (tanHalf_pos h0 h1)), mul_one]

theorem poly_real {l : List ℂ} (h : (l.map (starRingEnd ℂ)).Perm l) (k : Nat) :
    ((poly l k).re : ℂ) = poly l k := by
  refine Complex.conj_eq_iff_re.1 ?_
  rw [← poly_conj, poly_perm h]

theorem poles_perm (n : Nat) (cut : ℝ) :
    ((poles n cut).map (starRingEnd ℂ)).Perm (poles n cut) := by
  refine List.Perm.trans ?_ (List.reverse_perm (poles n cut))
  refine List.Perm.of_eq ?_
  rw [poles_eq]
  refine List.ext_getElem (by simp) fun k h1 h2 => ?_
  simp only [List.length_map, List.length_range] at h1
  simp only [List.getElem_map, List.getElem_range, List.getElem_reverse, List.length_map,
    List.length_range]
  unfold dpole
  rw [map_div₀, den_conj n _ k h1, ← pole_conj n k h1]
  simp

theorem sum_a (n : Nat) (cut : ℝ) (u : ℂ) :
    ∑ k ∈ Finset.range (n + 1), ((design n cut).a k : ℂ) * u ^ k =
      ∏ k ∈ Finset.range n, (1 - dpole n (tanHalf cut) k * u) := by
  have h := poly_eval (poles n cut) u
  rw [poles_length] at h
  rw [Finset.sum_congr rfl (fun k _ => by
    show _ = poly (poles n cut) k * u ^ k
    rw [show ((design n cut).a k : ℂ) = poly (poles n cut) k from poly_real (poles_perm n cut) k]), h,
    poles_eq, List.map_map, prod_list_range]
  rfl

theorem sum_b (n : Nat) (cut : ℝ) (u : ℂ) :
    ∑ k ∈ Finset.range (n + 1), ((design n cut).b k : ℂ) * u ^ k = gain n cut * (1 + u) ^ n := by
  have h := poly_eval (List.replicate n (-1)) u
  rw [List.length_replicate] at h
  rw [Finset.sum_congr rfl (fun k _ => by
    show _ = gain n cut * (poly (List.replicate n (-1)) k * u ^ k)
    rw [← poly_real (l := List.replicate n (-1)) (List.Perm.of_eq (by simp)) k]
    simp [design, mul_assoc]), ← Finset.mul_sum, h]
  simp

theorem design_a_zero (n : Nat) (cut : ℝ) : (design n cut).a 0 = 1 := by
  show (poly _ 0).re = 1
  rw [poly_zero]; rfl

theorem sum_a_dens {n : Nat} {cut : ℝ} (h0 : 0 < cut) (h1 : cut < 1) (u : ℂ) :
    (∑ k ∈ Finset.range (n + 1), ((design n cut).a k : ℂ) * u ^ k) * dens n (tanHalf cut) =
      ∏ k ∈ Finset.range n, ((1 - u) - tanHalf cut * pole n k * (1 + u)) := by
  rw [sum_a, dens, ← Finset.prod_mul_distrib]
  refine Finset.prod_congr rfl fun k hk => ?_
  have := den_ne (tanHalf_pos h0 h1) (Finset.mem_range.1 hk)
  unfold dpole
  field_simp
  unfold den
  ring

theorem sum_b_dens {n : Nat} {cut : ℝ} (h0 : 0 < cut) (h1 : cut < 1) (u : ℂ) :
    (∑ k ∈ Finset.range (n + 1), ((design n cut).b k : ℂ) * u ^ k) * dens n (tanHalf cut) =
      (tanHalf cut * (1 + u)) ^ n := by
  rw [sum_b, mul_pow, ← gain_dens h0 h1]
  ring

theorem sum_angle (n : Nat) : ∑ k ∈ Finset.range n, angle n k = 0 := by
  have h := Finset.sum_range_reflect (angle n) n
  rw [Finset.sum_congr rfl (fun k hk => angle_reflect n k (Finset.mem_range.1 hk)),
    Finset.sum_neg_distrib] at h
  linarith

theorem prod_pole (n : Nat) : ∏ k ∈ Finset.range n, -pole n k = 1 := by
  simp only [pole, neg_neg]
  rw [← Complex.exp_sum, ← Finset.sum_mul, ← Complex.ofReal_sum, sum_angle]
  simp

theorem sum_eq {n : Nat} {cut : ℝ} (h0 : 0 < cut) (h1 : cut < 1) :
    ∑ k ∈ Finset.range (n + 1), (design n cut).a k =
      ∑ k ∈ Finset.range (n + 1), (design n cut).b k := by
  have hd := dens_ne (n := n) (tanHalf_pos h0 h1)
  have ha := sum_a_dens (n := n) h0 h1 1
  have hb := sum_b_dens (n := n) h0 h1 1
  have e : ∏ k ∈ Finset.range n, ((1 - 1 : ℂ) - tanHalf cut * pole n k * (1 + 1)) =
      (tanHalf cut * (1 + 1)) ^ n := by
    rw [Finset.prod_congr rfl (fun k _ => by
      show _ = (tanHalf cut * (1 + 1) : ℂ) * -pole n k; ring), Finset.prod_mul_distrib, prod_pole]
    simp
  rw [e, ← hb] at ha
  have h := mul_right_cancel₀ hd ha
  simp only [one_pow, mul_one] at h
  exact_mod_cast h

theorem sum_ne {n : Nat} {cut : ℝ} (h0 : 0 < cut) (h1 : cut < 1) :
    ∑ k ∈ Finset.range (n + 1), (design n cut).a k ≠ 0 := by
  have ht := tanHalf_pos h0 h1
  have hb := sum_b_dens (n := n) h0 h1 1
  rw [sum_eq h0 h1]
  intro h
  have h' : ∑ k ∈ Finset.range (n + 1), ((design n cut).b k : ℂ) * 1 ^ k = 0 := by
    simp only [one_pow, mul_one]; exact_mod_cast h
  rw [h', zero_mul] at hb
  have : (tanHalf cut * (1 + 1) : ℂ) = 0 := by
    by_contra h2; exact pow_ne_zero n h2 hb.symm
  norm_num at this
  linarith

/-! ### Frequency response -/

theorem exp_pow (w : ℝ) (k : Nat) :
    Complex.exp (-(I * w * k)) = Complex.exp (-(I * w)) ^ k := by
  rw [← Complex.exp_nat_mul]; congr 1; ring

/-- Half the rotation. -/
theorem half_turn (w : ℝ) : ∃ h : ℂ, Complex.normSq h = 1 ∧
    1 + Complex.exp (-(I * w)) = 2 * Real.cos (w / 2) * h ∧
    1 - Complex.exp (-(I * w)) = 2 * I * Real.sin (w / 2) * h := by
  have hc : Complex.exp (-(I * w / 2)) = Real.cos (w / 2) - Real.sin (w / 2) * I := by
    rw [show -(I * w / 2) = ((-(w / 2) : ℝ) : ℂ) * I by push_cast; ring, Complex.exp_mul_I,
      ← Complex.ofReal_cos, ← Complex.ofReal_sin, Real.cos_neg, Real.sin_neg]
    push_cast; ring
  have hs : (Real.cos (w / 2) : ℂ) ^ 2 + (Real.sin (w / 2) : ℂ) ^ 2 = 1 := by
    exact_mod_cast Real.cos_sq_add_sin_sq (w / 2)
  have he : Complex.exp (-(I * w)) = Complex.exp (-(I * w / 2)) * Complex.exp (-(I * w / 2)) := by
    rw [← Complex.exp_add]; congr 1; ring
  refine ⟨Complex.exp (-(I * w / 2)), ?_, ?_, ?_⟩
  · rw [Complex.normSq_eq_norm_sq, show -(I * w / 2) = ((-(w / 2) : ℝ) : ℂ) * I by push_cast; ring,
      Complex.norm_exp_ofReal_mul_I]
    norm_num
  · rw [he, hc]
    linear_combination -hs + (Real.sin (w / 2) : ℂ) ^ 2 * Complex.I_sq
  · rw [he, hc]
    linear_combination -hs + (Real.sin (w / 2) : ℂ) ^ 2 * Complex.I_sq

theorem normSq_a {n : Nat} (hn : 0 < n) {cut : ℝ} (h0 : 0 < cut) (h1 : cut < 1) (w : ℝ) :
    Complex.normSq (∑ k ∈ Finset.range (n + 1),
      ((design n cut).a k : ℂ) * Complex.exp (-(I * w * k))) *
      Complex.normSq (dens n (tanHalf cut)) =
    4 ^ n * (Real.sin (w / 2) ^ (2 * n) + (tanHalf cut * Real.cos (w / 2)) ^ (2 * n)) := by
  obtain ⟨h, hh, hp, hm⟩ := half_turn w
  simp only [exp_pow]
  rw [← map_mul, sum_a_dens h0 h1, hp, hm, map_prod, ← prod_normSq n hn,
    show (4 : ℝ) ^ n = ∏ _k ∈ Finset.range n, 4 by simp, ← Finset.prod_mul_distrib]
  refine Finset.prod_congr rfl fun k _ => ?_
  rw [show 2 * I * (Real.sin (w / 2) : ℂ) * h - tanHalf cut * pole n k * (2 * Real.cos (w / 2) * h) =
    2 * h * (I * (Real.sin (w / 2) : ℝ) - (tanHalf cut * Real.cos (w / 2) : ℝ) * pole n k) by
      push_cast; ring, map_mul, map_mul, hh]
  norm_num

theorem normSq_b {n : Nat} {cut : ℝ} (h0 : 0 < cut) (h1 : cut < 1) (w : ℝ) :
    Complex.normSq (∑ k ∈ Finset.range (n + 1),
      ((design n cut).b k : ℂ) * Complex.exp (-(I * w * k))) *
      Complex.normSq (dens n (tanHalf cut)) =
    4 ^ n * (tanHalf cut * Real.cos (w / 2)) ^ (2 * n) := by
  obtain ⟨h, hh, hp, hm⟩ := half_turn w
  simp only [exp_pow]
  rw [← map_mul, sum_b_dens h0 h1, hp, map_pow, pow_mul, ← mul_pow]
  congr 1
  rw [show (tanHalf cut * (2 * Real.cos (w / 2) * h) : ℂ) =
    ((2 * (tanHalf cut * Real.cos (w / 2)) : ℝ) : ℂ) * h by push_cast; ring, map_mul, hh,
    Complex.normSq_ofReal]
  ring

theorem normSq_response {n : Nat} (hn : 0 < n) {cut : ℝ} (h0 : 0 < cut) (h1 : cut < 1) (w : ℝ) :
    Complex.normSq (Spec.response n (design n cut).b (design n cut).a w) =
      (tanHalf cut * Real.cos (w / 2)) ^ (2 * n) /
        (Real.sin (w / 2) ^ (2 * n) + (tanHalf cut * Real.cos (w / 2)) ^ (2 * n)) := by
  have hd : Complex.normSq (dens n (tanHalf cut)) ≠ 0 := by
    rw [Ne, Complex.normSq_eq_zero]; exact dens_ne (tanHalf_pos h0 h1)
  have ha := normSq_a hn h0 h1 w
  have hb := normSq_b (n := n) h0 h1 w
  unfold Spec.response
  rw [map_div₀, ← mul_div_mul_right _ _ hd, ha, hb]
  exact mul_div_mul_left _ _ (by positivity)

/-! ### Stability -/

theorem dpole_lt {n : Nat} {t : ℝ} (ht : 0 < t) {k : Nat} (hk : k < n) : ‖dpole n t k‖ < 1 := by
  have hr := pole_re n k hk
  have hd : 0 < ‖den n t k‖ := norm_pos_iff.2 (den_ne ht hk)
  unfold dpole
  rw [norm_div, div_lt_one hd]
  refine lt_of_pow_lt_pow_left₀ 2 hd.le ?_
  rw [← Complex.normSq_eq_norm_sq, ← Complex.normSq_eq_norm_sq, Complex.normSq_apply,
    Complex.normSq_apply]
  simp [den]
  nlinarith

theorem sum_a_ne {n : Nat} {cut : ℝ} (h0 : 0 < cut) (h1 : cut < 1) (u : ℂ) (hu : ‖u‖ ≤ 1) :
    ∑ k ∈ Finset.range (n + 1), ((design n cut).a k : ℂ) * u ^ k ≠ 0 := by
  rw [sum_a]
  refine Finset.prod_ne_zero_iff.2 fun k hk h => ?_
  have h2 := dpole_lt (tanHalf_pos h0 h1) (Finset.mem_range.1 hk)
  have h3 : dpole n (tanHalf cut) k * u = 1 := (sub_eq_zero.1 h).symm
  have h4 := congrArg norm h3
  rw [norm_mul, norm_one] at h4
  nlinarith [norm_nonneg u, norm_nonneg (dpole n (tanHalf cut) k)]

end LowPass

end Verif
