import Verif.Proofs.LowPassTime
import Verif.Props.TrajectoryGen

/-
C92: apply_low_pass_filter is a Butterworth filter of the given order and cutoff frequency, applied
forward and backward in time.
-/

set_option autoImplicit false

noncomputable section

namespace Verif

open Spec

namespace LowPass

/-! ### Which filters can be designed -/

/-- C92: butter rejects exactly the critical frequencies outside (0, 1) and negative orders. -/
theorem C92_butter_error (order : Int) (cut : ℝ) (e : PyErr) :
    butter order cut = .error e ↔ e = .valueError ∧ (cut ≤ 0 ∨ 1 ≤ cut ∨ order < 0) := by
  unfold butter
  split_ifs with h1 h2 h3 <;>
    simp only [Except.error.injEq, reduceCtorEq, false_iff, not_and, not_or, not_le, not_lt]
  · exact ⟨fun h => ⟨h.symm, .inl h1⟩, fun h => h.1.symm⟩
  · exact ⟨fun h => ⟨h.symm, .inr (.inr h2)⟩, fun h => h.1.symm⟩
  · exact ⟨fun h => ⟨h.symm, .inr (.inl h3)⟩, fun h => h.1.symm⟩
  · intro _; exact ⟨not_le.1 h1, not_le.1 h3, not_lt.1 h2⟩

theorem butter_ok {order : Int} {cut : ℝ} {f : Filter} (h : butter order cut = .ok f) :
    0 < cut ∧ cut < 1 ∧ 0 ≤ order ∧ f = design order.toNat cut := by
  unfold butter at h
  split_ifs at h with h1 h2 h3
  exact ⟨not_le.1 h1, not_le.1 h3, not_lt.1 h2, (Except.ok.inj h).symm⟩

theorem lowPass_ok {cutoff fs : ℝ} {order : Int} {f : Filter}
    (h : butterLowPass cutoff fs order = .ok f) :
    0 < 2 * cutoff / fs ∧ 2 * cutoff / fs < 1 ∧ 0 ≤ order ∧
      f = design order.toNat (2 * cutoff / fs) := by
  have e : cutoff / (0.5 * fs) = 2 * cutoff / fs := by
    rw [show (0.5 : ℝ) = 1 / 2 by norm_num]
    by_cases h : fs = 0
    · simp [h]
    · field_simp
  have := butter_ok h
  rwa [e] at this

/-- C92: butter_low_pass designs a filter exactly if the order is not negative and the cutoff
frequency is positive and less than half the sample frequency; otherwise ValueError. -/
theorem C92_lowPass_error (cutoff fs : ℝ) (hfs : 0 < fs) (order : Int) (e : PyErr) :
    butterLowPass cutoff fs order = .error e ↔
      e = .valueError ∧ (cutoff ≤ 0 ∨ fs / 2 ≤ cutoff ∨ order < 0) := by
  show butter order (cutoff / (0.5 * fs)) = .error e ↔ _
  have h5 : (0 : ℝ) < 0.5 * fs := by norm_num; exact hfs
  rw [C92_butter_error, div_le_iff₀ h5, le_div_iff₀ h5]
  norm_num
  intro _
  rw [show 1 / 2 * fs = fs / 2 by ring]

example : ∃ f, butterLowPass 0.25 1 3 = .ok f := by
  cases h : butterLowPass 0.25 1 3 with
  | ok f => exact ⟨f, rfl⟩
  | error e => have := (C92_lowPass_error 0.25 1 one_pos 3 e).1 h; norm_num at this

/-! ### The filter is a Butterworth filter -/

/-- C92: the filter has the given order and a normalised difference equation. -/
theorem C92_order {cutoff fs : ℝ} {order : Int} {f : Filter}
    (h : butterLowPass cutoff fs order = .ok f) : (f.order : Int) = order ∧ f.a 0 = 1 := by
  obtain ⟨-, -, h3, rfl⟩ := lowPass_ok h
  exact ⟨Int.toNat_of_nonneg h3, design_a_zero _ _⟩

/-- C92: the squared gain at frequency `F`, in Hz, is that of a Butterworth filter. -/
theorem C92_gain {cutoff fs : ℝ} {order : Int} {f : Filter} (ho : 0 < order)
    (h : butterLowPass cutoff fs order = .ok f) (F : ℝ) (hF : Real.cos (Real.pi * F / fs) ≠ 0) :
    ‖response f.order f.b f.a (2 * Real.pi * F / fs)‖ ^ 2 =
      1 / (1 + (Real.tan (Real.pi * F / fs) / Real.tan (Real.pi * cutoff / fs)) ^ (2 * f.order)) := by
  obtain ⟨h0, h1, h3, rfl⟩ := lowPass_ok h
  have ht := tanHalf_pos h0 h1
  have e1 : 2 * Real.pi * F / fs / 2 = Real.pi * F / fs := by ring
  have e2 : tanHalf (2 * cutoff / fs) = Real.tan (Real.pi * cutoff / fs) := by
    unfold tanHalf; congr 1; ring
  have h2 := normSq_response (n := order.toNat) (by omega) h0 h1 (2 * Real.pi * F / fs)
  rw [e1, e2] at h2
  rw [e2] at ht
  rw [← Complex.normSq_eq_norm_sq]
  show Complex.normSq (response order.toNat _ _ _) = _
  rw [h2, Real.tan_eq_sin_div_cos (Real.pi * F / fs)]
  show _ = 1 / (1 + _ ^ (2 * order.toNat))
  have ht' := ht.ne'
  have hp : (Real.tan (Real.pi * cutoff / fs) * Real.cos (Real.pi * F / fs)) ^
      (2 * order.toNat) ≠ 0 := pow_ne_zero _ (mul_ne_zero ht' hF)
  rw [div_div, mul_comm (Real.cos _) (Real.tan _), div_pow]
  generalize (Real.tan (Real.pi * cutoff / fs) * Real.cos (Real.pi * F / fs)) ^
    (2 * order.toNat) = p at *
  have hpos : 0 ≤ Real.sin (Real.pi * F / fs) ^ (2 * order.toNat) := by
    rw [pow_mul]; positivity
  field_simp
  ring

/-- C92: the mean of the motion passes unchanged. -/
theorem C92_dc {cutoff fs : ℝ} {order : Int} {f : Filter}
    (h : butterLowPass cutoff fs order = .ok f) : response f.order f.b f.a 0 = 1 := by
  obtain ⟨h0, h1, h3, rfl⟩ := lowPass_ok h
  unfold response
  simp only [Complex.ofReal_zero, mul_zero, zero_mul, neg_zero, Complex.exp_zero, mul_one]
  have e := sum_eq (n := order.toNat) h0 h1
  have ne := sum_ne (n := order.toNat) h0 h1
  rw [← Complex.ofReal_sum, ← Complex.ofReal_sum]
  show ((∑ k ∈ Finset.range (order.toNat + 1), _ : ℝ) : ℂ) /
    ((∑ k ∈ Finset.range (order.toNat + 1), _ : ℝ) : ℂ) = 1
  rw [← e]
  exact div_self (by exact_mod_cast ne)

/-- C92: at the cutoff frequency the squared gain is 1/2. -/
theorem C92_cutoff {cutoff fs : ℝ} {order : Int} {f : Filter} (ho : 0 < order)
    (h : butterLowPass cutoff fs order = .ok f) :
    ‖response f.order f.b f.a (2 * Real.pi * cutoff / fs)‖ ^ 2 = 1 / 2 := by
  obtain ⟨h0, h1, -, -⟩ := lowPass_ok h
  have ht := tanHalf_pos h0 h1
  have e2 : tanHalf (2 * cutoff / fs) = Real.tan (Real.pi * cutoff / fs) := by
    unfold tanHalf; congr 1; ring
  rw [e2] at ht
  have hc : Real.cos (Real.pi * cutoff / fs) ≠ 0 := by
    intro hc; rw [Real.tan_eq_sin_div_cos, hc, div_zero] at ht; exact lt_irrefl _ ht
  rw [C92_gain ho h cutoff hc, div_self ht.ne']
  norm_num

/-- C92: half the sample frequency is removed. -/
theorem C92_nyquist {cutoff fs : ℝ} {order : Int} {f : Filter} (ho : 0 < order)
    (h : butterLowPass cutoff fs order = .ok f) :
    response f.order f.b f.a Real.pi = 0 := by
  obtain ⟨h0, h1, h3, rfl⟩ := lowPass_ok h
  have h2 := normSq_response (n := order.toNat) (by omega) h0 h1 Real.pi
  rw [Real.cos_pi_div_two, mul_zero, zero_pow (by omega), zero_div, Complex.normSq_eq_zero] at h2
  exact h2

/-- C92: from frequency 0 to half the sample frequency the gain decreases. -/
theorem C92_decreasing {cutoff fs : ℝ} (hfs : 0 < fs) {order : Int} {f : Filter} (ho : 0 < order)
    (h : butterLowPass cutoff fs order = .ok f) (F G : ℝ) (hF : 0 ≤ F) (hFG : F < G)
    (hG : G < fs / 2) :
    ‖response f.order f.b f.a (2 * Real.pi * G / fs)‖ <
      ‖response f.order f.b f.a (2 * Real.pi * F / fs)‖ := by
  have hpi := Real.pi_pos
  have ang : ∀ {x : ℝ}, 0 ≤ x → x < fs / 2 →
      0 ≤ Real.pi * x / fs ∧ Real.pi * x / fs < Real.pi / 2 := by
    intro x h0 h1
    refine ⟨by positivity, ?_⟩
    rw [div_lt_iff₀ hfs]; nlinarith
  have cosne : ∀ {x : ℝ}, 0 ≤ x → x < fs / 2 → Real.cos (Real.pi * x / fs) ≠ 0 := by
    intro x h0 h1
    exact (Real.cos_pos_of_mem_Ioo ⟨by linarith [(ang h0 h1).1], (ang h0 h1).2⟩).ne'
  obtain ⟨h0, h1, -, -⟩ := lowPass_ok h
  have ht := tanHalf_pos h0 h1
  have e2 : tanHalf (2 * cutoff / fs) = Real.tan (Real.pi * cutoff / fs) := by
    unfold tanHalf; congr 1; ring
  rw [e2] at ht
  have hn : 0 < 2 * f.order := by have := (C92_order h).1; omega
  refine lt_of_pow_lt_pow_left₀ 2 (norm_nonneg _) ?_
  rw [C92_gain ho h G (cosne (by linarith) hG), C92_gain ho h F (cosne hF (by linarith))]
  have a1 := ang hF (by linarith)
  have a2 := ang (x := G) (by linarith) hG
  have hlt : Real.tan (Real.pi * F / fs) < Real.tan (Real.pi * G / fs) := by
    refine Real.tan_lt_tan_of_nonneg_of_lt_pi_div_two a1.1 a2.2 ?_
    exact div_lt_div_of_pos_right (by nlinarith) hfs
  have hnn : 0 ≤ Real.tan (Real.pi * F / fs) :=
    Real.tan_nonneg_of_nonneg_of_le_pi_div_two a1.1 a1.2.le
  have hpow : (Real.tan (Real.pi * F / fs) / Real.tan (Real.pi * cutoff / fs)) ^ (2 * f.order) <
      (Real.tan (Real.pi * G / fs) / Real.tan (Real.pi * cutoff / fs)) ^ (2 * f.order) :=
    pow_lt_pow_left₀ (div_lt_div_of_pos_right hlt ht) (by positivity) hn.ne'
  have : 0 ≤ (Real.tan (Real.pi * F / fs) / Real.tan (Real.pi * cutoff / fs)) ^ (2 * f.order) := by
    positivity
  exact one_div_lt_one_div_of_lt (by linarith) (by linarith)

/-- C92: all poles lie inside the unit circle (the filter is stable). -/
theorem C92_stable {cutoff fs : ℝ} {order : Int} {f : Filter}
    (h : butterLowPass cutoff fs order = .ok f) (z : ℂ) (hz : 1 ≤ ‖z‖) :
    ∑ k ∈ Finset.range (f.order + 1), (f.a k : ℂ) * z⁻¹ ^ k ≠ 0 := by
  obtain ⟨h0, h1, h3, rfl⟩ := lowPass_ok h
  exact sum_a_ne h0 h1 z⁻¹ (by rw [norm_inv]; exact inv_le_one_of_one_le₀ hz)

/-- The difference equation for oscillations. -/
theorem sum_re (n : Nat) (c : Nat → ℝ) (g : ℂ) (w : ℝ) (k : ℤ) (s : ℤ) :
    ∑ j ∈ Finset.range (n + 1), c j * (g * Complex.exp (Complex.I * w * (k + s * j : ℤ))).re =
      (g * Complex.exp (Complex.I * w * k) *
        ∑ j ∈ Finset.range (n + 1), c j * Complex.exp (Complex.I * w * (s * j))).re := by
  rw [Finset.mul_sum, Complex.re_sum]
  refine Finset.sum_congr rfl fun j _ => ?_
  rw [← Complex.re_ofReal_mul]
  congr 1
  rw [show Complex.I * w * ((k + s * j : ℤ) : ℂ) = Complex.I * w * k + Complex.I * w * (s * j) by
    push_cast; ring, Complex.exp_add]
  ring

/-- C92: an oscillation of any frequency, amplitude and phase, filtered forward and then backward
in time, is the same oscillation multiplied by the squared gain: the filter shifts no phase. -/
theorem C92_oscillation {cutoff fs : ℝ} {order : Int} {f : Filter}
    (h : butterLowPass cutoff fs order = .ok f) (w : ℝ) (c : ℂ) (x y : ℤ → ℝ)
    (hx : ∀ k, x k = (c * Complex.exp (Complex.I * w * k)).re)
    (hy : ∀ k, y k = ‖response f.order f.b f.a w‖ ^ 2 * x k) :
    ∃ u : ℤ → ℝ,
      (∀ k : ℤ, ∑ j ∈ Finset.range (f.order + 1), f.a j * u (k - j) =
        ∑ j ∈ Finset.range (f.order + 1), f.b j * x (k - j)) ∧
      (∀ k : ℤ, ∑ j ∈ Finset.range (f.order + 1), f.a j * y (k + j) =
        ∑ j ∈ Finset.range (f.order + 1), f.b j * u (k + j)) := by
  have hst := C92_stable h (Complex.exp (Complex.I * w)) (by
    rw [mul_comm, Complex.norm_exp_ofReal_mul_I])
  have hA : ∑ k ∈ Finset.range (f.order + 1), (f.a k : ℂ) * Complex.exp (-(Complex.I * w * k)) ≠ 0 := by
    rw [Finset.sum_congr rfl (fun k _ => by rw [exp_pow])]
    rwa [← Complex.exp_neg] at hst
  set A := ∑ k ∈ Finset.range (f.order + 1), (f.a k : ℂ) * Complex.exp (-(Complex.I * w * k)) with hAd
  set B := ∑ k ∈ Finset.range (f.order + 1), (f.b k : ℂ) * Complex.exp (-(Complex.I * w * k)) with hBd
  have hH : response f.order f.b f.a w = B / A := rfl
  have neg : ∀ c : Nat → ℝ, ∑ j ∈ Finset.range (f.order + 1),
      (c j : ℂ) * Complex.exp (Complex.I * w * (((-1 : ℤ) : ℂ) * j)) =
        ∑ k ∈ Finset.range (f.order + 1), (c k : ℂ) * Complex.exp (-(Complex.I * w * k)) := by
    intro c
    refine Finset.sum_congr rfl fun j _ => ?_
    congr 2; push_cast; ring
  have pos : ∀ c : Nat → ℝ, ∑ j ∈ Finset.range (f.order + 1),
      (c j : ℂ) * Complex.exp (Complex.I * w * (((1 : ℤ) : ℂ) * j)) = starRingEnd ℂ
        (∑ k ∈ Finset.range (f.order + 1), (c k : ℂ) * Complex.exp (-(Complex.I * w * k))) := by
    intro c
    rw [map_sum]
    refine Finset.sum_congr rfl fun j _ => ?_
    rw [map_mul, ← Complex.exp_conj]
    simp
  refine ⟨fun k => (c * (B / A) * Complex.exp (Complex.I * w * k)).re, fun k => ?_, fun k => ?_⟩
  · have e1 := sum_re f.order f.a (c * (B / A)) w k (-1)
    have e2 := sum_re f.order f.b c w k (-1)
    rw [neg, ← hAd] at e1
    rw [neg, ← hBd] at e2
    simp only [neg_one_mul, ← sub_eq_add_neg] at e1 e2
    simp only [hx]
    rw [e1, e2]
    congr 1
    field_simp
  · have e1 := sum_re f.order f.a (c * (‖B / A‖ ^ 2 : ℝ)) w k 1
    have e2 := sum_re f.order f.b (c * (B / A)) w k 1
    rw [pos, ← hAd] at e1
    rw [pos, ← hBd] at e2
    simp only [one_mul] at e1 e2
    rw [e2]
    refine Eq.trans ?_ (e1.trans ?_)
    · refine Finset.sum_congr rfl fun j _ => ?_
      rw [hy, hx, hH, ← Complex.re_ofReal_mul]
      congr 2; ring
    · congr 1
      have hcA : starRingEnd ℂ A ≠ 0 := by simpa using hA
      rw [← Complex.normSq_eq_norm_sq, ← Complex.mul_conj, map_div₀]
      field_simp

/-! ### Forward and backward -/

theorem lowPass_facts {cutoff fs : ℝ} {order : Int} {f : Filter}
    (h : butterLowPass cutoff fs order = .ok f) :
    f.a 0 = 1 ∧ ∑ j ∈ Finset.range (f.order + 1), f.a j = ∑ j ∈ Finset.range (f.order + 1), f.b j ∧
      ∑ j ∈ Finset.range (f.order + 1), f.a j ≠ 0 := by
  obtain ⟨h0, h1, h3, rfl⟩ := lowPass_ok h
  exact ⟨design_a_zero _ _, sum_eq h0 h1, sum_ne h0 h1⟩

theorem filtfilt_ok {f : Filter} {data out : Arr2 ℝ} (h : filtfilt f data = .ok out) :
    padLength f < data.rows.length ∧ 0 < f.order ∧ out.cols = data.cols ∧
      out.rows.length = data.rows.length ∧ out.Wf ∧
      ∀ i, i < data.rows.length → ∀ j, j < data.cols →
        (out.rows.getD i []).getD j 0 = (twoPasses f (column data.rows j)).getD i 0 := by
  unfold filtfilt at h
  split_ifs at h with h1 h2
  cases h
  refine ⟨by omega, by omega, rfl, by simp, ?_, ?_⟩
  · intro r hr
    simp only [List.mem_map] at hr
    obtain ⟨i, -, rfl⟩ := hr
    simp
  · intro i hi j hj
    simp [List.getD_eq_getElem?_getD, List.getElem?_range hi, List.getElem?_range hj]

theorem column_length (rows : List (List ℝ)) (j : Nat) : (column rows j).length = rows.length := by
  simp [column]

theorem column_getD (rows : List (List ℝ)) (j i : Nat) :
    (column rows j).getD i 0 = (rows.getD i []).getD j 0 := by
  unfold column
  by_cases h : i < rows.length
  · simp [List.getD_eq_getElem?_getD, List.getElem?_eq_getElem h]
  · have h2 : rows.length ≤ i := by omega
    simp [List.getD_eq_getElem?_getD, List.getElem?_eq_none h2]

theorem filtfilt_column {f : Filter} {data out : Arr2 ℝ} (h : filtfilt f data = .ok out) (j : Nat)
    (hj : j < data.cols) : column out.rows j = twoPasses f (column data.rows j) := by
  obtain ⟨h1, -, -, h4, -, h6⟩ := filtfilt_ok h
  have hl : (twoPasses f (column data.rows j)).length = data.rows.length := by
    rw [twoPasses_length f _ (by rw [column_length]; exact h1), column_length]
  refine List.ext_getElem (by rw [column_length, h4, hl]) fun i k1 k2 => ?_
  have := h6 i (by omega) j hj
  rw [← column_getD] at this
  simpa [List.getD_eq_getElem?_getD, k1, k2] using this

/-- C92: the filtered data have the shape of the data. Every column is the column of the data,
reflected at both ends, filtered forward in time and then backward, each time with the filter of
the given order. -/
theorem C92_filtered {cutoff fs : ℝ} {order : Int} {f : Filter} {data out : Arr2 ℝ}
    (hf : butterLowPass cutoff fs order = .ok f)
    (h : butterLowPassFilter data cutoff fs order = .ok out) :
    out.shape = data.shape ∧ out.Wf ∧ ∀ j, j < data.cols →
      FilteredBothWays f.order f.b f.a (3 * (f.order + 1)) (column data.rows j)
        (column out.rows j) := by
  obtain ⟨ha, hs, hne⟩ := lowPass_facts hf
  unfold butterLowPassFilter at h
  rw [hf] at h
  change filtfilt f data = .ok out at h
  obtain ⟨h1, h2, h3, h4, h5, -⟩ := filtfilt_ok h
  refine ⟨by simp [Arr2.shape, h3, h4], h5, fun j hj => ?_⟩
  rw [filtfilt_column h j hj]
  exact twoPasses_spec f h2 ha hs hne _ (by rw [column_length]; exact h1)

/-- C92: the claim `C92_filtered` determines the filtered data. -/
theorem C92_determined {cutoff fs : ℝ} {order : Int} {f : Filter}
    (hf : butterLowPass cutoff fs order = .ok f) (x y y' : List ℝ) (hx : 3 * (f.order + 1) < x.length)
    (h : FilteredBothWays f.order f.b f.a (3 * (f.order + 1)) x y)
    (h' : FilteredBothWays f.order f.b f.a (3 * (f.order + 1)) x y') : y = y' :=
  bothWays_unique _ _ _ (lowPass_facts hf).1 _ _ _ _ hx h h'

/-- C92: when the data are rejected, always with ValueError. -/
theorem C92_rejected (data : Arr2 ℝ) (cutoff fs : ℝ) (hfs : 0 < fs) (order : Int) (e : PyErr) :
    butterLowPassFilter data cutoff fs order = .error e ↔ e = .valueError ∧
      (cutoff ≤ 0 ∨ fs / 2 ≤ cutoff ∨ order < 1 ∨ (data.rows.length : Int) ≤ 3 * (order + 1)) := by
  unfold butterLowPassFilter
  cases hf : butterLowPass cutoff fs order with
  | error e' =>
    have he := (C92_lowPass_error cutoff fs hfs order e').1 hf
    show Except.error e' = _ ↔ _
    rw [he.1]
    simp only [Except.error.injEq]
    constructor
    · intro h
      refine ⟨h.symm, ?_⟩
      rcases he.2 with h | h | h
      · exact .inl h
      · exact .inr (.inl h)
      · exact .inr (.inr (.inl (by omega)))
    · intro h; exact h.1.symm
  | ok f =>
    have hn : ¬ (cutoff ≤ 0 ∨ fs / 2 ≤ cutoff ∨ order < 0) := by
      intro hc
      have := (C92_lowPass_error cutoff fs hfs order .valueError).2 ⟨rfl, hc⟩
      rw [hf] at this; cases this
    have ho := (C92_order hf).1
    push Not at hn
    have n1 : ¬ cutoff ≤ 0 := not_le.2 hn.1
    have n2 : ¬ fs / 2 ≤ cutoff := not_le.2 hn.2.1
    show filtfilt f data = .error e ↔ _
    unfold filtfilt padLength
    simp only [n1, n2, false_or]
    split_ifs with c1 c2
    · simp only [Except.error.injEq]
      exact ⟨fun h => ⟨h.symm, .inr (by omega)⟩, fun h => h.1.symm⟩
    · simp only [Except.error.injEq]
      exact ⟨fun h => ⟨h.symm, .inl (by omega)⟩, fun h => h.1.symm⟩
    · simp only [reduceCtorEq, false_iff, not_and, not_or]
      intro _; constructor <;> omega

/-! ### Linearity -/

theorem reflected_linear {m : Nat} {x1 x2 x3 e1 e2 e3 : List ℝ} {p q : ℝ}
    (hm : m < x1.length) (l2 : x2.length = x1.length) (l3 : x3.length = x1.length)
    (hx : ∀ i, i < x1.length → x3.getD i 0 = p * x1.getD i 0 + q * x2.getD i 0)
    (h1 : Reflected m x1 e1) (h2 : Reflected m x2 e2) (h3 : Reflected m x3 e3) (k : Nat)
    (hk : k < x1.length + 2 * m) : e3.getD k 0 = p * e1.getD k 0 + q * e2.getD k 0 := by
  by_cases c1 : k ≤ m
  · have a := h1.front (m - k) (by omega)
    have b := h2.front (m - k) (by omega)
    have c := h3.front (m - k) (by omega)
    rw [show m - (m - k) = k by omega] at a b c
    rw [a, b, c, hx _ (by omega), hx _ (by omega)]; ring
  · by_cases c2 : k < m + x1.length
    · have a := h1.inner (k - m) (by omega)
      have b := h2.inner (k - m) (by omega)
      have c := h3.inner (k - m) (by omega)
      rw [show m + (k - m) = k by omega] at a b c
      rw [a, b, c, hx _ (by omega)]
    · have a := h1.back (k - (m + x1.length - 1)) (by omega)
      have b := h2.back (k - (m + x1.length - 1)) (by omega)
      have c := h3.back (k - (m + x1.length - 1)) (by omega)
      rw [l2] at b; rw [l3] at c
      rw [show m + x1.length - 1 + (k - (m + x1.length - 1)) = k by omega] at a b c
      rw [a, b, c, hx _ (by omega), hx _ (by omega)]; ring

theorem rest_linear {n : Nat} {b a : Nat → ℝ} (ha : a 0 = 1) {x1 x2 x3 y1 y2 y3 : List ℝ} {p q : ℝ}
    (l2 : x2.length = x1.length) (l3 : x3.length = x1.length)
    (hx : ∀ i, i < x1.length → x3.getD i 0 = p * x1.getD i 0 + q * x2.getD i 0)
    (h1 : FilteredFromRest n b a x1 y1) (h2 : FilteredFromRest n b a x2 y2)
    (h3 : FilteredFromRest n b a x3 y3) (k : Nat) (hk : k < x1.length) :
    y3.getD k 0 = p * y1.getD k 0 + q * y2.getD k 0 := by
  have h0 : x3.headD 0 = p * x1.headD 0 + q * x2.headD 0 := by
    simp only [headD_eq]; exact hx 0 (by omega)
  induction k using Nat.strong_induction_on with
  | _ k ih =>
    have s1 := h1.equation k hk
    have s2 := h2.equation k (by omega)
    have s3 := h3.equation k (by omega)
    have bx : ∑ j ∈ Finset.range (n + 1), b j * heldBefore (x3.headD 0) x3 (k - j) =
        p * ∑ j ∈ Finset.range (n + 1), b j * heldBefore (x1.headD 0) x1 (k - j) +
        q * ∑ j ∈ Finset.range (n + 1), b j * heldBefore (x2.headD 0) x2 (k - j) := by
      rw [Finset.mul_sum, Finset.mul_sum, ← Finset.sum_add_distrib]
      refine Finset.sum_congr rfl fun j _ => ?_
      unfold heldBefore
      split_ifs with c
      · rw [h0]; ring
      · rw [hx _ (by omega)]; ring
    have ay : ∑ j ∈ Finset.range n, a (j + 1) * heldBefore (x3.headD 0) y3 (k - (j + 1 : Nat)) =
        p * ∑ j ∈ Finset.range n, a (j + 1) * heldBefore (x1.headD 0) y1 (k - (j + 1 : Nat)) +
        q * ∑ j ∈ Finset.range n, a (j + 1) * heldBefore (x2.headD 0) y2 (k - (j + 1 : Nat)) := by
      rw [Finset.mul_sum, Finset.mul_sum, ← Finset.sum_add_distrib]
      refine Finset.sum_congr rfl fun j _ => ?_
      unfold heldBefore
      split_ifs with c
      · rw [h0]; ring
      · rw [ih _ (by omega) (by omega)]; ring
    rw [bx, ← s1, ← s2] at s3
    simp only [Finset.sum_range_succ' (n := n)] at s3
    rw [ay] at s3
    have hk0 : ¬ ((k : ℤ) < 0) := by omega
    simp only [ha, heldBefore, Nat.cast_zero, sub_zero, hk0, if_false, Int.toNat_natCast,
      one_mul] at s3
    linarith

theorem bothWays_linear {n : Nat} {b a : Nat → ℝ} (ha : a 0 = 1) {m : Nat}
    {x1 x2 x3 y1 y2 y3 : List ℝ} {p q : ℝ} (hm : m < x1.length)
    (l2 : x2.length = x1.length) (l3 : x3.length = x1.length)
    (hx : ∀ i, i < x1.length → x3.getD i 0 = p * x1.getD i 0 + q * x2.getD i 0)
    (h1 : FilteredBothWays n b a m x1 y1) (h2 : FilteredBothWays n b a m x2 y2)
    (h3 : FilteredBothWays n b a m x3 y3) (k : Nat) (hk : k < x1.length) :
    y3.getD k 0 = p * y1.getD k 0 + q * y2.getD k 0 := by
  obtain ⟨e1, u1, v1, r1, f1, g1, -, o1⟩ := h1.passes
  obtain ⟨e2, u2, v2, r2, f2, g2, -, o2⟩ := h2.passes
  obtain ⟨e3, u3, v3, r3, f3, g3, -, o3⟩ := h3.passes
  have L1 := r1.length
  have L2 := r2.length
  have L3 := r3.length
  have hu := rest_linear ha (p := p) (q := q) (by omega) (by omega)
    (fun i hi => reflected_linear hm l2 l3 hx r1 r2 r3 i (by omega)) f1 f2 f3
  have U1 := f1.length
  have U2 := f2.length
  have U3 := f3.length
  have rev : ∀ (l : List ℝ) (i : Nat), i < l.length →
      l.reverse.getD i 0 = l.getD (l.length - 1 - i) 0 := by
    intro l i hi
    rw [List.getD_eq_getElem?_getD, List.getElem?_reverse hi, ← List.getD_eq_getElem?_getD]
  have hv := rest_linear ha (p := p) (q := q) (x1 := u1.reverse) (x2 := u2.reverse)
    (x3 := u3.reverse) (by simp; omega) (by simp; omega)
    (fun i hi => by
      rw [List.length_reverse] at hi
      rw [rev _ _ (by omega), rev _ _ (by omega), rev _ _ (by omega), show u3.length = u1.length by omega,
        show u2.length = u1.length by omega]
      exact hu _ (by omega)) g1 g2 g3
  have V1 := g1.length
  have V2 := g2.length
  have V3 := g3.length
  simp only [List.length_reverse] at V1 V2 V3 hv
  rw [o1 k hk, o2 k (by omega), o3 k (by omega), rev _ _ (by omega), rev _ _ (by omega),
    rev _ _ (by omega), show v3.length = v1.length by omega, show v2.length = v1.length by omega]
  exact hv _ (by omega)

theorem filtered_ok {data out : Arr2 ℝ} {cutoff fs : ℝ} {order : Int}
    (h : butterLowPassFilter data cutoff fs order = .ok out) :
    ∃ f, butterLowPass cutoff fs order = .ok f ∧ 3 * (f.order + 1) < data.rows.length := by
  unfold butterLowPassFilter at h
  cases hf : butterLowPass cutoff fs order with
  | error e => rw [hf] at h; cases h
  | ok f =>
    rw [hf] at h
    exact ⟨f, rfl, (filtfilt_ok h).1⟩

/-- C92: the filter is linear: a combination of two motions is filtered to the same combination of
the filtered motions. -/
theorem C92_linear {d1 d2 d3 o1 o2 o3 : Arr2 ℝ} {cutoff fs : ℝ} {order : Int} (p q : ℝ)
    (s2 : d2.shape = d1.shape) (s3 : d3.shape = d1.shape)
    (hd : ∀ i, i < d1.rows.length → ∀ j, j < d1.cols → (d3.rows.getD i []).getD j 0 =
      p * (d1.rows.getD i []).getD j 0 + q * (d2.rows.getD i []).getD j 0)
    (h1 : butterLowPassFilter d1 cutoff fs order = .ok o1)
    (h2 : butterLowPassFilter d2 cutoff fs order = .ok o2)
    (h3 : butterLowPassFilter d3 cutoff fs order = .ok o3) :
    ∀ i, i < d1.rows.length → ∀ j, j < d1.cols → (o3.rows.getD i []).getD j 0 =
      p * (o1.rows.getD i []).getD j 0 + q * (o2.rows.getD i []).getD j 0 := by
  obtain ⟨f, hf, hl⟩ := filtered_ok h1
  simp only [Arr2.shape, Prod.mk.injEq] at s2 s3
  intro i hi j hj
  simp only [← column_getD]
  refine bothWays_linear (lowPass_facts hf).1 (m := 3 * (f.order + 1)) ?_ ?_ ?_ ?_
    ((C92_filtered hf h1).2.2 j hj) ((C92_filtered hf h2).2.2 j (by omega))
    ((C92_filtered hf h3).2.2 j (by omega)) i (by rw [column_length]; exact hi)
  · rw [column_length]; exact hl
  · rw [column_length, column_length]; exact s2.1
  · rw [column_length, column_length]; exact s3.1
  · intro k hk
    rw [column_length] at hk
    simp only [column_getD]
    exact hd k hk j hj

theorem rest_constant {n : Nat} {b a : Nat → ℝ} (ha : a 0 = 1)
    (hs : ∑ j ∈ Finset.range (n + 1), a j = ∑ j ∈ Finset.range (n + 1), b j) (m : Nat) (v : ℝ)
    {y : List ℝ} (h : FilteredFromRest n b a (List.replicate m v) y) : y = List.replicate m v := by
  refine rest_unique n b a ha _ _ _ h ⟨by simp, fun k hk => ?_⟩
  simp only [List.length_replicate] at hk
  have e : ∀ j : Nat, heldBefore ((List.replicate m v).headD 0) (List.replicate m v) (k - j) = v := by
    intro j
    unfold heldBefore
    split_ifs with c
    · cases m with
      | zero => omega
      | succ m => rfl
    · simp [List.getD_eq_getElem?_getD, List.getElem?_replicate,
        (by omega : k - j < m)]
  simp only [e]
  rw [← Finset.sum_mul, ← Finset.sum_mul, hs]

/-- C92: a position that does not change is not changed by the filter. -/
theorem C92_constant {data out : Arr2 ℝ} {cutoff fs : ℝ} {order : Int}
    (h : butterLowPassFilter data cutoff fs order = .ok out) (j : Nat) (hj : j < data.cols) (v : ℝ)
    (hv : ∀ i, i < data.rows.length → (data.rows.getD i []).getD j 0 = v) :
    ∀ i, i < data.rows.length → (out.rows.getD i []).getD j 0 = v := by
  obtain ⟨f, hf, hl⟩ := filtered_ok h
  obtain ⟨ha, hs, -⟩ := lowPass_facts hf
  obtain ⟨e, u, w, r, f1, g1, -, o⟩ := ((C92_filtered hf h).2.2 j hj).passes
  rw [column_length] at o
  have hcol : ∀ i, i < data.rows.length → (column data.rows j).getD i 0 = v := by
    intro i hi; rw [column_getD]; exact hv i hi
  have he : e = List.replicate (data.rows.length + 2 * (3 * (f.order + 1))) v := by
    refine reflected_unique _ _ _ _ (by rw [column_length]; exact hl) r ⟨by simp [column_length], ?_, ?_, ?_⟩
    all_goals intro i hi
    · rw [column_length] at hi
      rw [hcol i hi]
      simp [List.getD_eq_getElem?_getD, List.getElem?_replicate,
        (by omega : 3 * (f.order + 1) + i < data.rows.length + 2 * (3 * (f.order + 1)))]
    · rw [hcol 0 (by omega), hcol i (by omega)]
      simp [List.getD_eq_getElem?_getD, List.getElem?_replicate,
        (by omega : 3 * (f.order + 1) - i < data.rows.length + 2 * (3 * (f.order + 1)))]
      ring
    · rw [column_length, hcol _ (by omega), hcol _ (by omega)]
      simp [List.getD_eq_getElem?_getD, List.getElem?_replicate,
        (by omega : 3 * (f.order + 1) + data.rows.length - 1 + i <
          data.rows.length + 2 * (3 * (f.order + 1)))]
      ring
  rw [he] at f1
  have hu := rest_constant ha hs _ v f1
  rw [hu, List.reverse_replicate] at g1
  have hw := rest_constant ha hs _ v g1
  intro i hi
  rw [← column_getD, o i hi, hw, List.reverse_replicate]
  simp [List.getD_eq_getElem?_getD, List.getElem?_replicate,
    (by omega : 3 * (f.order + 1) + i < data.rows.length + 2 * (3 * (f.order + 1)))]

/-- C92: the filter commutes with translations. -/
theorem C92_translation {d1 d2 o1 o2 : Arr2 ℝ} {cutoff fs : ℝ} {order : Int} (v : Nat → ℝ)
    (s2 : d2.shape = d1.shape)
    (hd : ∀ i, i < d1.rows.length → ∀ j, j < d1.cols → (d2.rows.getD i []).getD j 0 =
      (d1.rows.getD i []).getD j 0 + v j)
    (h1 : butterLowPassFilter d1 cutoff fs order = .ok o1)
    (h2 : butterLowPassFilter d2 cutoff fs order = .ok o2) :
    ∀ i, i < d1.rows.length → ∀ j, j < d1.cols → (o2.rows.getD i []).getD j 0 =
      (o1.rows.getD i []).getD j 0 + v j := by
  let dc : Arr2 ℝ := ⟨d1.cols, List.replicate d1.rows.length ((List.range d1.cols).map v)⟩
  have hdc : ∀ i, i < d1.rows.length → ∀ j, j < d1.cols → (dc.rows.getD i []).getD j 0 = v j := by
    intro i hi j hj
    simp [dc, List.getD_eq_getElem?_getD, List.getElem?_replicate, hi, List.getElem?_range hj]
  have hlen : dc.rows.length = d1.rows.length := by simp [dc]
  obtain ⟨oc, hc⟩ : ∃ oc, butterLowPassFilter dc cutoff fs order = .ok oc := by
    unfold butterLowPassFilter at h1 ⊢
    cases hf : butterLowPass cutoff fs order with
    | error e => rw [hf] at h1; cases h1
    | ok f =>
      rw [hf] at h1
      change filtfilt f d1 = .ok o1 at h1
      show ∃ oc, filtfilt f dc = .ok oc
      obtain ⟨k1, k2, -⟩ := filtfilt_ok h1
      unfold filtfilt
      rw [if_neg (by omega), if_neg (by omega)]
      exact ⟨_, rfl⟩
  intro i hi j hj
  have := C92_linear 1 1 (d1 := d1) (d2 := dc) (d3 := d2) (by simp [Arr2.shape, dc]) s2
    (fun i hi j hj => by rw [hd i hi j hj, hdc i hi j hj]; ring) h1 hc h2 i hi j hj
  rw [this, C92_constant hc j hj (v j) (fun i hi => hdc i (by omega) j hj) i (by omega)]
  ring

end LowPass

namespace Trajectory

open LowPass

theorem apply_eq {cutoff : ℝ} {order : Int} {s : Trajectory ℝ} {dt : ℝ}
    (hdt : meanDiff s.ts = some dt) (h0 : dt ≠ 0) :
    applyLowPassFilter cutoff order s =
      match butterLowPassFilter s.ys cutoff (1 / dt) order with
      | .error e => (.error e, s)
      | .ok ys => recomputeDerivatives { s with ys := ys } := by
  unfold applyLowPassFilter
  rw [PyM.self_bind, hdt]
  dsimp only
  rw [if_neg h0]
  cases butterLowPassFilter s.ys cutoff (1 / dt) order with
  | error e => rfl
  | ok ys => rfl

/-- C92: apply_low_pass_filter changes only the positions, velocities and accelerations. The
positions are those of the trajectory, filtered forward and backward in time with the filter of the
given order and cutoff frequency for the mean sample frequency. The velocities and accelerations
are computed from the filtered positions. -/
theorem C92_apply {cutoff : ℝ} {order : Int} {s s' : Trajectory ℝ}
    (h : applyLowPassFilter cutoff order s = (.ok (), s')) :
    ∃ dt f, meanDiff s.ts = some dt ∧ dt ≠ 0 ∧ butterLowPass cutoff (1 / dt) order = .ok f ∧
      s'.ts = s.ts ∧ s'.misc = s.misc ∧ s'.dtMean = s.dtMean ∧ s'.dim = s.dim ∧
      s'.ys.shape = s.ys.shape ∧ s'.ys.Wf ∧
      (∀ j, j < s.ys.cols → FilteredBothWays f.order f.b f.a (3 * (f.order + 1))
        (column s.ys.rows j) (column s'.ys.rows j)) ∧
      diffnc s'.ys s.dtMean = .ok s'.yds ∧ diffnc s'.yds s.dtMean = .ok s'.ydds := by
  cases hd : meanDiff s.ts with
  | none =>
    unfold applyLowPassFilter at h
    rw [PyM.self_bind, hd] at h
    simp at h
  | some dt =>
    by_cases h0 : dt = 0
    · unfold applyLowPassFilter at h
      rw [PyM.self_bind, hd] at h
      simp [h0] at h
    · rw [apply_eq hd h0] at h
      cases hf : butterLowPassFilter s.ys cutoff (1 / dt) order with
      | error e => rw [hf] at h; simp at h
      | ok ys =>
        rw [hf] at h
        obtain ⟨yd, ydd, h1, h2, rfl⟩ := recompute_ok h
        obtain ⟨f, hb, -⟩ := filtered_ok hf
        obtain ⟨k1, k2, k3⟩ := C92_filtered hb hf
        exact ⟨dt, f, rfl, h0, hb, rfl, rfl, rfl, rfl, k1, k2, k3, h1, h2⟩

/-- C92: the result has the shape of a trajectory. -/
theorem C92_apply_shape {cutoff : ℝ} {order : Int} {s s' : Trajectory ℝ} (hs : s.Shape)
    (h : applyLowPassFilter cutoff order s = (.ok (), s')) : s'.Shape := by
  obtain ⟨dt, f, -, -, -, h1, h2, -, h4, h5, h6, -, h7, h8⟩ := C92_apply h
  simp only [Arr2.shape, Prod.mk.injEq] at h5
  obtain ⟨a1, a2, a3⟩ := diffnc_shape h7
  obtain ⟨b1, b2, b3⟩ := diffnc_shape h8
  refine ⟨?_, ?_, ?_, h6, ?_, ?_, a2, b2.trans a2, ?_, ?_⟩
  · rw [h5.1, h1, hs.ys]
  · rw [a1, h5.1, h1, hs.ys]
  · rw [b1, a1, h5.1, h1, hs.ys]
  · intro r hr; rw [a3 r hr, a2]
  · intro r hr; rw [b3 r hr, b2, a2]
  · rw [h4, h5.2, hs.dim]
  · rw [h1, h2]; exact hs.misc

/-- C92: exactly when a trajectory is filtered. -/
theorem C92_apply_succeeds {cutoff : ℝ} {order : Int} {s : Trajectory ℝ} (hs : s.Shape)
    {dt dt' : ℝ} (hdt : meanDiff s.ts = some dt) (h0 : 0 < dt) (hd' : s.dtMean = some dt')
    (h0' : dt' ≠ 0) :
    (∃ s', applyLowPassFilter cutoff order s = (.ok (), s')) ↔
      0 < cutoff ∧ cutoff < 1 / dt / 2 ∧ 1 ≤ order ∧ 3 * (order + 1) < s.ts.length := by
  have hfs : 0 < 1 / dt := by positivity
  rw [apply_eq hdt h0.ne']
  cases hf : butterLowPassFilter s.ys cutoff (1 / dt) order with
  | error e =>
    have := ((C92_rejected s.ys cutoff (1 / dt) hfs order e).1 hf).2
    rw [hs.ys] at this
    constructor
    · rintro ⟨s', h⟩; simp at h
    · rintro ⟨c1, c2, c3, c4⟩
      rcases this with c | c | c | c
      · linarith
      · linarith
      · omega
      · omega
  | ok ys =>
    have hn : ¬ (cutoff ≤ 0 ∨ 1 / dt / 2 ≤ cutoff ∨ order < 1 ∨
        (s.ys.rows.length : Int) ≤ 3 * (order + 1)) := by
      intro hc
      have := (C92_rejected s.ys cutoff (1 / dt) hfs order .valueError).2 ⟨rfl, hc⟩
      rw [hf] at this; cases this
    rw [hs.ys] at hn
    push Not at hn
    refine ⟨fun _ => ⟨hn.1, hn.2.1, hn.2.2.1, hn.2.2.2⟩, fun _ => ?_⟩
    obtain ⟨f, hb, hl⟩ := filtered_ok hf
    have hsh := (C92_filtered hb hf).1
    simp only [Arr2.shape, Prod.mk.injEq] at hsh
    obtain ⟨d, e1, e2, e3, -⟩ := diffnc_entries ys dt' h0' (by omega)
    obtain ⟨d2, e4, -⟩ := diffnc_entries d dt' h0' (by omega)
    refine ⟨{ s with ys := ys, yds := d, ydds := d2 }, ?_⟩
    dsimp only
    unfold recomputeDerivatives
    rw [PyM.self_bind]
    simp only [hd', e1, lift, PyM.lift_ok_bind, PyM.pure_bind, PyM.modify_bind, e4]
    rw [PyM.modify_apply]

/-- C92: otherwise ValueError is raised and the trajectory is not changed. -/
theorem C92_apply_error {cutoff : ℝ} {order : Int} {s s' : Trajectory ℝ} (hs : s.Shape)
    {dt dt' : ℝ} (hdt : meanDiff s.ts = some dt) (h0 : 0 < dt) (hd' : s.dtMean = some dt')
    (h0' : dt' ≠ 0) (e : PyErr) (h : applyLowPassFilter cutoff order s = (.error e, s')) :
    e = .valueError ∧ s' = s := by
  have hfs : 0 < 1 / dt := by positivity
  cases hf : butterLowPassFilter s.ys cutoff (1 / dt) order with
  | error e' =>
    rw [apply_eq hdt h0.ne', hf] at h
    have := ((C92_rejected s.ys cutoff (1 / dt) hfs order e').1 hf).1
    simp only [Prod.mk.injEq, Except.error.injEq] at h
    exact ⟨h.1 ▸ this, h.2.symm⟩
  | ok ys =>
    have hn : ¬ (cutoff ≤ 0 ∨ 1 / dt / 2 ≤ cutoff ∨ order < 1 ∨
        (s.ys.rows.length : Int) ≤ 3 * (order + 1)) := by
      intro hc
      have := (C92_rejected s.ys cutoff (1 / dt) hfs order .valueError).2 ⟨rfl, hc⟩
      rw [hf] at this; cases this
    rw [hs.ys] at hn
    push Not at hn
    obtain ⟨t, ht⟩ := (C92_apply_succeeds hs hdt h0 hd' h0').2 ⟨hn.1, hn.2.1, hn.2.2.1, hn.2.2.2⟩
    rw [h] at ht
    cases congrArg Prod.fst ht

/-- C92: with fewer than two samples, or if the last time is not after the first, a positive cutoff
frequency is rejected with ValueError and the trajectory is not changed. -/
theorem C92_apply_times {cutoff : ℝ} (hc : 0 < cutoff) {order : Int} {s : Trajectory ℝ}
    (h : ∀ dt, meanDiff s.ts = some dt → dt ≤ 0) :
    applyLowPassFilter cutoff order s = (.error .valueError, s) := by
  cases hd : meanDiff s.ts with
  | none =>
    unfold applyLowPassFilter
    rw [PyM.self_bind, hd]
    rfl
  | some dt =>
    by_cases h0 : dt = 0
    · unfold applyLowPassFilter
      rw [PyM.self_bind, hd]
      dsimp only
      rw [if_pos h0]
      rfl
    · rw [apply_eq hd h0]
      have hneg : dt < 0 := lt_of_le_of_ne (h dt hd) h0
      have : butterLowPassFilter s.ys cutoff (1 / dt) order = .error .valueError := by
        have hb : butterLowPass cutoff (1 / dt) order = .error .valueError := by
          refine (C92_butter_error order _ _).2 ⟨rfl, .inl ?_⟩
          refine div_nonpos_of_nonneg_of_nonpos hc.le ?_
          have := one_div_neg.2 hneg
          have h5 : (0 : ℝ) < 0.5 := by norm_num
          nlinarith
        unfold butterLowPassFilter
        rw [hb]
        rfl
      rw [this]

/-- C92: a trajectory at rest is not changed; its velocities and accelerations become 0. -/
theorem C92_apply_rest {cutoff : ℝ} {order : Int} {s s' : Trajectory ℝ} {dt' : ℝ}
    (hd' : s.dtMean = some dt') (h0' : dt' ≠ 0) (v : List ℝ)
    (hv : s.ys.rows = List.replicate s.ys.rows.length v)
    (h : applyLowPassFilter cutoff order s = (.ok (), s')) :
    ∀ i, i < s.ys.rows.length → ∀ j, j < s.ys.cols →
      (s'.ys.rows.getD i []).getD j 0 = v.getD j 0 ∧
      (s'.yds.rows.getD i []).getD j 0 = 0 ∧ (s'.ydds.rows.getD i []).getD j 0 = 0 := by
  have hrow : ∀ i, i < s.ys.rows.length → s.ys.rows.getD i [] = v := by
    intro i hi
    rw [hv]
    simp [List.getD_eq_getElem?_getD, List.getElem?_replicate, hi]
  cases hd : meanDiff s.ts with
  | none =>
    unfold applyLowPassFilter at h
    rw [PyM.self_bind, hd] at h
    simp at h
  | some dt =>
  by_cases h0 : dt = 0
  · unfold applyLowPassFilter at h
    rw [PyM.self_bind, hd] at h
    simp [h0] at h
  rw [apply_eq hd h0] at h
  cases hf : butterLowPassFilter s.ys cutoff (1 / dt) order with
  | error e => rw [hf] at h; simp at h
  | ok ys =>
    rw [hf] at h
    obtain ⟨yd, ydd, h1, h2, rfl⟩ := recompute_ok h
    obtain ⟨f, hb, hl⟩ := filtered_ok hf
    have hsh := (C92_filtered hb hf).1
    simp only [Arr2.shape, Prod.mk.injEq] at hsh
    have hp : ∀ i, i < s.ys.rows.length → ∀ j, j < s.ys.cols →
        (ys.rows.getD i []).getD j 0 = v.getD j 0 := fun i hi j hj =>
      C92_constant hf j hj _ (fun k hk => by rw [hrow k hk]) i hi
    dsimp only at h1 h2 ⊢
    rw [hd'] at h1 h2
    obtain ⟨d, e1, c1, l1, en1⟩ := diffnc_entries ys dt' h0' (by omega)
    rw [h1] at e1
    obtain rfl := Except.ok.inj e1
    obtain ⟨d2, e2, c2, l2, en2⟩ := diffnc_entries yd dt' h0' (by omega)
    rw [h2] at e2
    obtain rfl := Except.ok.inj e2
    have val : ∀ (a : Arr2 ℝ) (i j : Nat) (x : ℝ), entry a i j = some x →
        (a.rows.getD i []).getD j 0 = x := by
      intro a i j x hx
      unfold entry at hx
      cases hr : a.rows[i]? with
      | none => simp [hr] at hx
      | some r =>
        simp [hr] at hx
        simp [List.getD_eq_getElem?_getD, hr, hx]
    have hyd : ∀ i, i < s.ys.rows.length → ∀ j, j < s.ys.cols →
        (yd.rows.getD i []).getD j 0 = 0 := by
      intro i hi j hj
      rw [val _ _ _ _ (en1 i (by omega) j (by omega)), hp _ (by omega) j hj, hp _ (by omega) j hj]
      simp
    intro i hi j hj
    refine ⟨hp i hi j hj, hyd i hi j hj, ?_⟩
    rw [val _ _ _ _ (en2 i (by omega) j (by omega)), hyd _ (by omega) j hj, hyd _ (by omega) j hj]
    simp

/-- A trajectory of eight samples. -/
def eight : Trajectory ℝ :=
  ⟨[0, 1, 2, 3, 4, 5, 6, 7], some 1, ⟨1, [[0], [1], [0], [2], [0], [3], [0], [4]]⟩,
    ⟨1, List.replicate 8 [0]⟩, ⟨1, List.replicate 8 [0]⟩, none, 1⟩

theorem eight_shape : eight.Shape := by
  refine ⟨rfl, rfl, rfl, ?_, ?_, ?_, rfl, rfl, rfl, ?_⟩ <;> intro r hr <;>
    simp [eight] at hr ⊢
  · rcases hr with h | h | h | h | h | h | h | h <;> simp [h]
  · simp [hr]
  · simp [hr]

example : ∃ s', applyLowPassFilter 0.25 1 eight = (.ok (), s') := by
  refine (C92_apply_succeeds eight_shape (dt := 1) (dt' := 1) ?_ one_pos rfl one_ne_zero).2 ?_
  · norm_num [eight, meanDiff, diff]
  · norm_num [eight]

example : applyLowPassFilter 0.25 2 eight = (.error .valueError, eight) := by
  have hm : meanDiff eight.ts = some 1 := by norm_num [eight, meanDiff, diff]
  have h := C92_apply_succeeds (cutoff := 0.25) (order := 2) eight_shape hm one_pos rfl one_ne_zero
  rcases hr : applyLowPassFilter 0.25 2 eight with ⟨r, s'⟩
  cases r with
  | ok u =>
    have := (h.1 ⟨s', hr⟩).2.2.2
    norm_num [eight] at this
  | error e =>
    obtain ⟨rfl, rfl⟩ := C92_apply_error eight_shape hm one_pos rfl one_ne_zero e hr
    rfl

end Trajectory

end Verif
