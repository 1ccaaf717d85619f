import Mathlib.Data.List.Basic
import Mathlib.Algebra.Order.Field.Basic
import Mathlib.Algebra.BigOperators.Group.List.Basic
import Mathlib.Data.List.TakeWhile
import Mathlib.Tactic.Linarith
import Mathlib.Tactic.Ring
import Mathlib.Tactic.FieldSimp
import Verif.Model.Trajectory

/- Helper lemmas about lists of numbers, used for trajectories. -/

set_option autoImplicit false

namespace Verif

theorem sliceIndex_nat (n i : Nat) : sliceIndex n (i : Int) = min i n := by
  unfold sliceIndex
  rw [if_neg (by omega)]
  simp

theorem pySlice_nat {α : Type} (a b : Nat) (l : List α) :
    pySlice (a : Int) (b : Int) l = (l.take b).drop a := by
  unfold pySlice
  rw [sliceIndex_nat, sliceIndex_nat]
  have h1 : l.take (min b l.length) = l.take b := by
    rcases le_total b l.length with h | h
    · rw [min_eq_left h]
    · rw [min_eq_right h, List.take_length, List.take_of_length_le h]
  rw [h1]
  rcases le_total a l.length with h | h
  · rw [min_eq_left h]
  · rw [min_eq_right h, List.drop_eq_nil_of_le (by simp), List.drop_eq_nil_of_le (by simp; omega)]

/-- `np.argmax` of a boolean array: nothing before the index is true; the entry at the index is, unless none is,
in which case the index is 0. -/
theorem argmaxBool_spec (l : List Bool) :
    (∀ j, j < argmaxBool l → l[j]? = some false) ∧ (true ∈ l → l[argmaxBool l]? = some true) ∧
      (true ∉ l → argmaxBool l = 0) := by
  unfold argmaxBool
  cases h : l.findIdx? id with
  | none =>
    rw [List.findIdx?_eq_none_iff] at h
    exact ⟨fun j hj => absurd hj (Nat.not_lt_zero _), fun ht => absurd (h true ht) (by simp), fun _ => rfl⟩
  | some i =>
    rw [List.findIdx?_eq_some_iff_getElem] at h
    obtain ⟨hi, h1, h2⟩ := h
    refine ⟨fun j hj => ?_, fun _ => ?_, fun hn => ?_⟩
    · have hj : j < i := hj
      rw [List.getElem?_eq_getElem (by omega)]
      simpa using h2 j hj
    · rw [List.getElem?_eq_getElem hi]
      simpa using h1
    · exact absurd (by rw [← (by simpa using h1 : l[i] = true)]; exact List.getElem_mem hi) hn

theorem argmaxBool_map {α : Type} (p : α → Bool) (l : List α) (h : ∃ x ∈ l, p x = true) :
    argmaxBool (l.map p) = l.findIdx p := by
  unfold argmaxBool
  rw [List.findIdx?_map]
  have : l.findIdx? (id ∘ p) = some (l.findIdx p) := by
    rw [List.findIdx?_eq_some_iff_findIdx_eq]
    refine ⟨?_, rfl⟩
    rw [List.findIdx_lt_length]
    exact h
  rw [this]

/-- In a list sorted by `f`, the elements below a bound form a prefix. -/
theorem filter_lt_sorted {α K : Type} [LinearOrder K] (f : α → K) (c : K) (l : List α)
    (h : l.Pairwise fun a b => f a < f b) :
    l.filter (fun x => decide (f x < c)) = l.take (l.findIdx fun x => decide (f x ≥ c)) := by
  induction l with
  | nil => rfl
  | cons x xs ih =>
    rw [List.pairwise_cons] at h
    rw [List.findIdx_cons]
    by_cases hx : f x < c
    · rw [List.filter_cons_of_pos (by simpa using hx)]
      have : decide (f x ≥ c) = false := by simpa using hx
      rw [this]
      simp only [cond_false, List.take_succ_cons, List.cons.injEq, true_and]
      exact ih h.2
    · have h1 : decide (f x ≥ c) = true := by simpa using hx
      rw [h1]
      simp only [cond_true, List.take_zero]
      rw [List.filter_eq_nil_iff]
      intro y hy
      rcases List.mem_cons.mp hy with rfl | hy
      · simpa using hx
      · have := h.1 y hy
        simp only [decide_eq_true_eq, not_lt]
        exact (le_of_not_gt hx).trans this.le

/-- In a list sorted by `f`, the elements from a bound on form a suffix. -/
theorem filter_ge_sorted {α K : Type} [LinearOrder K] (f : α → K) (c : K) (l : List α)
    (h : l.Pairwise fun a b => f a < f b) :
    l.filter (fun x => decide (c ≤ f x)) = l.drop (l.findIdx fun x => decide (f x ≥ c)) := by
  induction l with
  | nil => rfl
  | cons x xs ih =>
    rw [List.pairwise_cons] at h
    rw [List.findIdx_cons]
    by_cases hx : f x < c
    · have h0 : decide (f x ≥ c) = false := by simpa using hx
      rw [List.filter_cons_of_neg (by simpa using hx), h0]
      simp only [cond_false, List.drop_succ_cons]
      exact ih h.2
    · have h1 : decide (f x ≥ c) = true := by simpa using hx
      rw [h1]
      simp only [cond_true, List.drop_zero]
      rw [List.filter_eq_self]
      intro y hy
      rcases List.mem_cons.mp hy with rfl | hy
      · simpa using hx
      · have := h.1 y hy
        simp only [decide_eq_true_eq]
        exact (le_of_not_gt hx).trans this.le

/-- Both bounds at once. -/
theorem filter_between_sorted {α K : Type} [LinearOrder K] (f : α → K) (c d : K) (l : List α)
    (h : l.Pairwise fun a b => f a < f b) :
    l.filter (fun x => decide (c ≤ f x ∧ f x < d)) =
      (l.take (l.findIdx fun x => decide (f x ≥ d))).drop
        (l.findIdx fun x => decide (f x ≥ c)) := by
  rw [← filter_lt_sorted f d l h]
  have h1 : (l.filter fun x => decide (f x < d)).Pairwise fun a b => f a < f b :=
    h.sublist List.filter_sublist
  have h2 := filter_ge_sorted f c _ h1
  rw [List.filter_filter] at h2
  have e : l.filter (fun x => decide (c ≤ f x ∧ f x < d)) =
      l.filter (fun a => decide (c ≤ f a) && decide (f a < d)) := by
    congr 1; funext x; simp
  rw [e, h2]
  -- the first element at or after c has the same index in the prefix, or the prefix is too short
  rw [filter_lt_sorted f d l h]
  by_cases hlt : (l.findIdx fun x => decide (f x ≥ c)) < (l.findIdx fun x => decide (f x ≥ d))
  · rw [List.findIdx_take, min_eq_right hlt.le]
  · rw [List.findIdx_take, min_eq_left (not_lt.mp hlt)]
    rw [List.drop_eq_nil_of_le (by simp), List.drop_eq_nil_of_le (by rw [List.length_take]; omega)]

section

variable {K : Type} [Field K] [LinearOrder K] [IsStrictOrderedRing K]

theorem diff_cons_cons (a b : K) (l : List K) : diff (a :: b :: l) = (b - a) :: diff (b :: l) := rfl

theorem diff_length (ts : List K) : (diff ts).length = ts.length - 1 := by
  cases ts with
  | nil => rfl
  | cons a l => simp [diff]

/-- The differences of consecutive entries telescope. -/
theorem diff_sum (a : K) (l : List K) :
    (diff (a :: l)).sum = (a :: l).getLast (List.cons_ne_nil _ _) - a := by
  induction l generalizing a with
  | nil => simp [diff]
  | cons b l ih =>
    rw [diff_cons_cons, List.sum_cons, ih b, List.getLast_cons (List.cons_ne_nil _ _)]
    ring

theorem getLast_of_getLast? {α : Type} {l : List α} {x : α} (h : l.getLast? = some x) :
    ∃ hne : l ≠ [], l.getLast hne = x := by
  cases l with
  | nil => cases h
  | cons a l => exact ⟨List.cons_ne_nil _ _, by
      rw [List.getLast?_eq_getLast_of_ne_nil (List.cons_ne_nil _ _)] at h
      exact Option.some.inj h⟩

/-- The mean time step is duration divided by number of steps. -/
theorem meanDiff_eq {ts : List K} {a b : K} (ha : ts.head? = some a) (hb : ts.getLast? = some b)
    (hn : 2 ≤ ts.length) : meanDiff ts = some ((b - a) / ((ts.length - 1 : Nat) : K)) := by
  unfold meanDiff
  rw [diff_length, if_neg (by omega)]
  cases ts with
  | nil => simp at hn
  | cons x l =>
    cases ha
    obtain ⟨hne, hl⟩ := getLast_of_getLast? hb
    rw [diff_sum, hl]

theorem sorted_head_lt_last {ts : List K} (h : ts.Pairwise (· < ·)) (hn : 2 ≤ ts.length) {a b : K}
    (ha : ts.head? = some a) (hb : ts.getLast? = some b) : a < b := by
  cases ts with
  | nil => simp at hn
  | cons x l =>
    cases ha
    cases l with
    | nil => simp at hn
    | cons y l =>
      rw [List.pairwise_cons] at h
      apply h.1
      rw [List.getLast?_cons_cons] at hb
      exact List.mem_of_getLast? hb

/-- Strictly increasing times have a positive mean time step. -/
theorem meanDiff_pos {ts : List K} (h : ts.Pairwise (· < ·)) (hn : 2 ≤ ts.length) :
    ∃ dt, meanDiff ts = some dt ∧ 0 < dt := by
  obtain ⟨a, ha⟩ : ∃ a, ts.head? = some a := by
    cases ts with
    | nil => simp at hn
    | cons x l => exact ⟨x, rfl⟩
  obtain ⟨b, hb⟩ : ∃ b, ts.getLast? = some b := by
    cases ts with
    | nil => simp at hn
    | cons x l => exact ⟨_, List.getLast?_eq_getLast_of_ne_nil (List.cons_ne_nil _ _)⟩
  refine ⟨_, meanDiff_eq ha hb hn, div_pos (sub_pos.mpr (sorted_head_lt_last h hn ha hb)) ?_⟩
  exact_mod_cast (by omega : 0 < ts.length - 1)

theorem sorted_le_last {ts : List K} (h : ts.Pairwise (· < ·)) {b : K}
    (hb : ts.getLast? = some b) {x : K} (hx : x ∈ ts) : x ≤ b := by
  obtain ⟨hne, hl⟩ := getLast_of_getLast? hb
  have e := List.dropLast_append_getLast hne
  rw [← e] at h hx
  rw [List.pairwise_append] at h
  rcases List.mem_append.mp hx with hx | hx
  · have := h.2.2 x hx _ (List.mem_singleton.mpr rfl)
    rw [hl] at this
    exact this.le
  · rw [List.mem_singleton.mp hx, hl]

theorem sorted_head_le {ts : List K} (h : ts.Pairwise (· < ·)) {a : K}
    (ha : ts.head? = some a) {x : K} (hx : x ∈ ts) : a ≤ x := by
  cases ts with
  | nil => cases hx
  | cons y l =>
    cases ha
    rcases List.mem_cons.mp hx with rfl | hx
    · exact le_rfl
    · exact ((List.pairwise_cons.mp h).1 x hx).le

/-- Shifting all times keeps them strictly increasing. -/
theorem sorted_shift {ts : List K} (h : ts.Pairwise (· < ·)) (f : K → K)
    (hf : ∀ a b, a < b → f a < f b) : (ts.map f).Pairwise (· < ·) :=
  List.Pairwise.map f (fun a b hab => hf a b hab) h

/-- In a strictly increasing list the first entry that is at least the last entry is the last. -/
theorem findIdx_last {ts : List K} (h : ts.Pairwise (· < ·)) {b : K} (hb : ts.getLast? = some b) :
    ts.findIdx (fun x => decide (x ≥ b)) = ts.length - 1 := by
  obtain ⟨hne, hl⟩ := getLast_of_getLast? hb
  have e := List.dropLast_append_getLast hne
  rw [hl] at e
  rw [← e] at h
  rw [List.pairwise_append] at h
  conv_lhs => rw [← e]
  rw [List.findIdx_append]
  have : ts.dropLast.findIdx (fun x => decide (x ≥ b)) = ts.dropLast.length := by
    rw [List.findIdx_eq_length]
    intro x hx
    simpa using h.2.2 x hx b (List.mem_singleton.mpr rfl)
  rw [this]
  simp

theorem arange_sorted (n : Nat) {dt : K} (h : 0 < dt) :
    ((List.range n).map fun (i : Nat) => (i : K) * dt).Pairwise (· < ·) := by
  refine List.Pairwise.map _ (fun a b hab => ?_) (List.pairwise_lt_range (n := n))
  have : (a : K) < b := by exact_mod_cast hab
  exact mul_lt_mul_of_pos_right this h

theorem arange_head {n : Nat} (hn : n ≠ 0) (dt : K) :
    ((List.range n).map fun (i : Nat) => (i : K) * dt).head? = some 0 := by
  cases n with
  | zero => exact absurd rfl hn
  | succ n => simp [List.range_succ_eq_map]

theorem arange_last {n : Nat} (hn : n ≠ 0) (dt : K) :
    ((List.range n).map fun (i : Nat) => (i : K) * dt).getLast? = some (((n - 1 : Nat) : K) * dt) := by
  cases n with
  | zero => exact absurd rfl hn
  | succ n => simp [List.range_succ]

theorem arange_meanDiff {n : Nat} (hn : 2 ≤ n) (dt : K) :
    meanDiff ((List.range n).map fun (i : Nat) => (i : K) * dt) = some dt := by
  rw [meanDiff_eq (arange_head (by omega) dt) (arange_last (by omega) dt) (by simpa using hn)]
  simp only [List.length_map, List.length_range, sub_zero]
  have : ((n - 1 : Nat) : K) ≠ 0 := by
    have : n - 1 ≠ 0 := by omega
    exact_mod_cast this
  field_simp

end

end Verif
