import Mathlib.Data.List.GetD
import Verif.Proofs.LowPass

/-
The filter in the time domain: lfilter and filtfilt (Model/LowPass).
-/

set_option autoImplicit false

noncomputable section

namespace Verif

namespace LowPass

/-- The part of the difference equation that uses the samples of the series. -/
def inside (n : Nat) (c : Nat → ℝ) (l : List ℝ) (k : Nat) : ℝ :=
  ∑ j ∈ Finset.range (n + 1), if j ≤ k then c j * l.getD (k - j) 0 else 0

theorem inside_zero (n : Nat) (c : Nat → ℝ) (x : ℝ) (l : List ℝ) :
    inside n c (x :: l) 0 = c 0 * x := by
  unfold inside
  rw [Finset.sum_eq_single 0]
  · simp
  · intro j _ hj; simp [hj]
  · simp

theorem inside_succ (n : Nat) (c : Nat → ℝ) (x : ℝ) (l : List ℝ) (k : Nat) :
    inside n c (x :: l) (k + 1) = inside n c l k + if k < n then c (k + 1) * x else 0 := by
  unfold inside
  have e : ∀ j, (if j ≤ k + 1 then c j * (x :: l).getD (k + 1 - j) 0 else 0) =
      (if j ≤ k then c j * l.getD (k - j) 0 else 0) + if j = k + 1 then c j * x else 0 := by
    intro j
    rcases lt_trichotomy j (k + 1) with h | h | h
    · have h1 : j ≤ k := by omega
      have h2 : k + 1 - j = (k - j) + 1 := by omega
      simp [h1, h2, h.ne, h.le]
    · simp [h]
    · have h1 : ¬ j ≤ k := by omega
      have h2 : ¬ j ≤ k + 1 := by omega
      simp [h1, h2, h.ne']
  rw [Finset.sum_congr rfl (fun j _ => e j), Finset.sum_add_distrib]
  congr 1
  rw [Finset.sum_ite_eq']
  simp

theorem lfilter_length (f : Filter) (x : List ℝ) (z : Nat → ℝ) :
    (lfilter f z x).length = x.length := by
  induction x generalizing z with
  | nil => rfl
  | cons x l ih => simp [lfilter, ih]

theorem lfilter_eq (f : Filter) (hf : 0 < f.order) (ha : f.a 0 = 1) (x : List ℝ) (z : Nat → ℝ)
    (k : Nat) (hk : k < x.length) :
    inside f.order f.a (lfilter f z x) k =
      inside f.order f.b x k + if k < f.order then z k else 0 := by
  induction x generalizing z k with
  | nil => simp at hk
  | cons x l ih =>
    cases k with
    | zero => simp only [lfilter, inside_zero, if_pos hf, ha, output]; ring
    | succ k =>
      simp only [List.length_cons] at hk
      rw [lfilter, inside_succ, inside_succ, ih _ k (by omega)]
      unfold next
      by_cases h1 : k + 1 < f.order
      · have h2 : k < f.order := by omega
        simp only [h1, h2, if_true]; ring
      · by_cases h2 : k + 1 = f.order
        · have h3 : k < f.order := by omega
          simp only [h1, h2, h3, if_true, if_false, lt_irrefl]; ring
        · have h3 : ¬ k < f.order := by omega
          simp only [h1, h3, if_false]

/-- The part of the difference equation that uses the values before the series. -/
theorem held_sum (n : Nat) (c : Nat → ℝ) (v : ℝ) (l : List ℝ) (k : Nat) :
    ∑ j ∈ Finset.range (n + 1), c j * Spec.heldBefore v l (k - j) =
      inside n c l k + (∑ j ∈ Finset.range (n + 1), if j ≤ k then 0 else c j) * v := by
  unfold inside
  rw [Finset.sum_mul, ← Finset.sum_add_distrib]
  refine Finset.sum_congr rfl fun j _ => ?_
  unfold Spec.heldBefore
  by_cases h : j ≤ k
  · have h1 : ¬ ((k : ℤ) - j < 0) := by omega
    have h2 : ((k : ℤ) - j).toNat = k - j := by omega
    simp [h, h1, h2]
  · have h1 : (k : ℤ) - j < 0 := by omega
    simp [h, h1]

theorem sum_split (n k : Nat) (c : Nat → ℝ) (hk : k ≤ n) :
    ∑ j ∈ Finset.range (n + 1), c j =
      ∑ j ∈ Finset.range (k + 1), c j + ∑ j ∈ Finset.range (n + 1), if j ≤ k then 0 else c j := by
  have h1 : ∀ j, c j = (if j < k + 1 then c j else 0) + if j ≤ k then 0 else c j := by
    intro j
    by_cases h : j ≤ k
    · simp [h, Nat.lt_succ_of_le h]
    · have : ¬ j < k + 1 := by omega
      simp [h, this]
  rw [Finset.sum_congr rfl (fun j _ => h1 j), Finset.sum_add_distrib]
  congr 1
  rw [← Finset.sum_filter]
  refine Finset.sum_congr ?_ fun _ _ => rfl
  ext j; simp; omega

theorem zi_eq (f : Filter) (ha : f.a 0 = 1)
    (hs : ∑ j ∈ Finset.range (f.order + 1), f.a j = ∑ j ∈ Finset.range (f.order + 1), f.b j)
    (hne : ∑ j ∈ Finset.range (f.order + 1), f.a j ≠ 0) (k : Nat) (hk : k < f.order) :
    lfilterZi f k = (∑ j ∈ Finset.range (f.order + 1), if j ≤ k then 0 else f.b j) -
      ∑ j ∈ Finset.range (f.order + 1), if j ≤ k then 0 else f.a j := by
  have hsa := sum_split f.order k f.a hk.le
  have hsb := sum_split f.order k f.b hk.le
  have a1 : ∀ m, ∑ j ∈ Finset.range m, f.a (j + 1) = ∑ j ∈ Finset.range (m + 1), f.a j - 1 := by
    intro m; rw [Finset.sum_range_succ', ha]; ring
  have b1 : ∀ m, ∑ j ∈ Finset.range m, (f.b (j + 1) - f.a (j + 1) * f.b 0) =
      ∑ j ∈ Finset.range (m + 1), f.b j - f.b 0 * ∑ j ∈ Finset.range (m + 1), f.a j := by
    intro m
    rw [Finset.sum_sub_distrib, ← Finset.sum_mul, a1, Finset.sum_range_succ' f.b]; ring
  unfold lfilterZi
  simp only [sum_list_range, if_pos hk, a1, b1]
  rw [show 1 + (∑ j ∈ Finset.range (f.order + 1), f.a j - 1) =
    ∑ j ∈ Finset.range (f.order + 1), f.a j by ring]
  rw [← hs] at hsb ⊢
  rw [div_eq_of_eq_mul hne (show _ = (1 - f.b 0) * ∑ j ∈ Finset.range (f.order + 1), f.a j by ring)]
  linarith

theorem lfilter_rest (f : Filter) (hf : 0 < f.order) (ha : f.a 0 = 1)
    (hs : ∑ j ∈ Finset.range (f.order + 1), f.a j = ∑ j ∈ Finset.range (f.order + 1), f.b j)
    (hne : ∑ j ∈ Finset.range (f.order + 1), f.a j ≠ 0) (x : List ℝ) :
    Spec.FilteredFromRest f.order f.b f.a x
      (lfilter f (fun i => lfilterZi f i * x.headD 0) x) := by
  refine ⟨lfilter_length f x _, fun k hk => ?_⟩
  rw [held_sum, held_sum, lfilter_eq f hf ha x _ k hk]
  by_cases h : k < f.order
  · rw [if_pos h, zi_eq f ha hs hne k h]; ring
  · rw [if_neg h]
    have z : ∀ c : Nat → ℝ, ∑ j ∈ Finset.range (f.order + 1), (if j ≤ k then 0 else c j) = 0 := by
      intro c
      refine Finset.sum_eq_zero fun j hj => ?_
      rw [if_pos]; have := Finset.mem_range.1 hj; omega
    rw [z, z]; ring

/-- The equation determines the output. -/
theorem rest_unique (n : Nat) (b a : Nat → ℝ) (ha : a 0 = 1) (x y y' : List ℝ)
    (h : Spec.FilteredFromRest n b a x y) (h' : Spec.FilteredFromRest n b a x y') : y = y' := by
  have key : ∀ k, k < x.length → y.getD k 0 = y'.getD k 0 := by
    intro k
    induction k using Nat.strong_induction_on with
    | _ k ih =>
      intro hk
      have e := (h.equation k hk).trans (h'.equation k hk).symm
      rw [Finset.sum_range_succ', Finset.sum_range_succ'] at e
      have e2 : ∑ j ∈ Finset.range n, a (j + 1) * Spec.heldBefore (x.headD 0) y (k - (j + 1 : Nat)) =
          ∑ j ∈ Finset.range n, a (j + 1) * Spec.heldBefore (x.headD 0) y' (k - (j + 1 : Nat)) := by
        refine Finset.sum_congr rfl fun j _ => ?_
        unfold Spec.heldBefore
        split_ifs with hj
        · rfl
        · rw [ih _ (by omega) (by omega)]
      rw [e2] at e
      have e3 := add_left_cancel e
      have hk0 : ¬ ((k : ℤ) < 0) := by omega
      simpa [ha, Spec.heldBefore, hk0] using e3
  refine List.ext_getElem (h.length.trans h'.length.symm) fun k h1 h2 => ?_
  have := key k (by rw [← h.length]; exact h1)
  simpa [List.getD_eq_getElem?_getD, h1, h2] using this

/-! ### Extension -/

theorem oddExt_length (m : Nat) (x : List ℝ) (h : m < x.length) :
    (oddExt m x).length = x.length + 2 * m := by
  simp [oddExt]; omega

theorem headD_eq (l : List ℝ) : l.headD 0 = l.getD 0 0 := by cases l <;> rfl

theorem oddExt_reflected (m : Nat) (x : List ℝ) (h : m < x.length) :
    Spec.Reflected m x (oddExt m x) := by
  have hf : (((x.drop 1).take m).reverse.map (fun v => 2 * x.headD 0 - v)).length = m := by
    simp; omega
  have hlast : x.reverse.headD 0 = x.getD (x.length - 1) 0 := by
    rw [headD_eq]; simp [List.getD_eq_getElem?_getD, List.getElem?_reverse (show 0 < x.length by omega)]
  refine ⟨oddExt_length m x h, ?_, ?_, ?_⟩
  · intro i hi
    unfold oddExt
    rw [List.append_assoc, List.getD_append_right _ _ _ _ (by omega), hf,
      List.getD_append _ _ _ _ (by omega)]
    congr 1; omega
  · intro i hi
    unfold oddExt
    rw [List.append_assoc]
    by_cases h0 : i = 0
    · subst h0
      rw [List.getD_append_right _ _ _ _ (by omega), hf, List.getD_append _ _ _ _ (by omega)]
      simp; ring
    · rw [List.getD_append _ _ _ _ (by omega), headD_eq]
      have h1 : m - i < (((x.drop 1).take m).reverse).length := by simp; omega
      rw [List.getD_eq_getElem?_getD, List.getElem?_map, List.getElem?_eq_getElem h1]
      simp only [Option.map_some, Option.getD_some]
      congr 1
      rw [List.getElem_reverse, List.getElem_take, List.getElem_drop,
        List.getD_eq_getElem?_getD, List.getElem?_eq_getElem (by omega), Option.getD_some]
      congr 1
      simp; omega
  · intro i hi
    unfold oddExt
    by_cases h0 : i = 0
    · subst h0
      rw [List.append_assoc, List.getD_append_right _ _ _ _ (by omega), hf,
        List.getD_append _ _ _ _ (by omega)]
      simp only [add_zero, Nat.sub_zero]
      rw [show m + x.length - 1 - m = x.length - 1 by omega]
      ring
    · rw [List.getD_append_right _ _ _ _ (by rw [List.length_append, hf]; omega),
        List.length_append, hf, hlast]
      have h1 : m + x.length - 1 + i - (m + x.length) < ((x.reverse.drop 1).take m).length := by
        simp; omega
      rw [List.getD_eq_getElem?_getD, List.getElem?_map, List.getElem?_eq_getElem h1]
      simp only [Option.map_some, Option.getD_some]
      congr 1
      rw [List.getElem_take, List.getElem_drop, List.getElem_reverse,
        List.getD_eq_getElem?_getD, List.getElem?_eq_getElem (by omega), Option.getD_some]
      congr 1
      omega

theorem reflected_unique (m : Nat) (x e e' : List ℝ) (hm : m < x.length)
    (h : Spec.Reflected m x e) (h' : Spec.Reflected m x e') : e = e' := by
  have key : ∀ k, k < x.length + 2 * m → e.getD k 0 = e'.getD k 0 := by
    intro k hk
    by_cases h1 : k ≤ m
    · have := (h.front (m - k) (by omega)).trans (h'.front (m - k) (by omega)).symm
      rwa [show m - (m - k) = k by omega] at this
    · by_cases h2 : k < m + x.length
      · have := (h.inner (k - m) (by omega)).trans (h'.inner (k - m) (by omega)).symm
        rwa [show m + (k - m) = k by omega] at this
      · have := (h.back (k - (m + x.length - 1)) (by omega)).trans
          (h'.back (k - (m + x.length - 1)) (by omega)).symm
        rwa [show m + x.length - 1 + (k - (m + x.length - 1)) = k by omega] at this
  refine List.ext_getElem (h.length.trans h'.length.symm) fun k h1 h2 => ?_
  have := key k (by rw [← h.length]; exact h1)
  simpa [List.getD_eq_getElem?_getD, h1, h2] using this

theorem twoPasses_length (f : Filter) (x : List ℝ) (h : padLength f < x.length) :
    (twoPasses f x).length = x.length := by
  simp only [twoPasses, List.length_take, List.length_drop, List.length_reverse, lfilter_length,
    oddExt_length _ x h]
  omega

theorem twoPasses_spec (f : Filter) (hf : 0 < f.order) (ha : f.a 0 = 1)
    (hs : ∑ j ∈ Finset.range (f.order + 1), f.a j = ∑ j ∈ Finset.range (f.order + 1), f.b j)
    (hne : ∑ j ∈ Finset.range (f.order + 1), f.a j ≠ 0) (x : List ℝ) (h : padLength f < x.length) :
    Spec.FilteredBothWays f.order f.b f.a (padLength f) x (twoPasses f x) := by
  refine ⟨_, _, _, oddExt_reflected _ x h, lfilter_rest f hf ha hs hne _,
    lfilter_rest f hf ha hs hne _, twoPasses_length f x h, fun i hi => ?_⟩
  unfold twoPasses
  simp only [List.getD_eq_getElem?_getD, List.getElem?_take, if_pos hi, List.getElem?_drop]

theorem bothWays_unique (n : Nat) (b a : Nat → ℝ) (ha : a 0 = 1) (m : Nat) (x y y' : List ℝ)
    (hm : m < x.length)
    (h : Spec.FilteredBothWays n b a m x y) (h' : Spec.FilteredBothWays n b a m x y') : y = y' := by
  obtain ⟨e, u, v, h1, h2, h3, h4, h5⟩ := h.passes
  obtain ⟨e', u', v', h1', h2', h3', h4', h5'⟩ := h'.passes
  obtain rfl := reflected_unique m x e e' hm h1 h1'
  obtain rfl := rest_unique n b a ha e u u' h2 h2'
  obtain rfl := rest_unique n b a ha _ v v' h3 h3'
  refine List.ext_getElem (h4.trans h4'.symm) fun k k1 k2 => ?_
  have := (h5 k (by omega)).trans (h5' k (by omega)).symm
  rw [List.getD_eq_getElem?_getD, List.getD_eq_getElem?_getD, List.getElem?_eq_getElem k1,
    List.getElem?_eq_getElem k2] at this
  simpa using this

end LowPass

end Verif
