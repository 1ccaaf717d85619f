import Verif.Spec.FunctionApproximation
import Verif.Proofs.Grid
import Mathlib.Analysis.SpecialFunctions.Pow.Real
import Mathlib.Algebra.BigOperators.Field
import Mathlib.Tactic.FieldSimp
import Mathlib.Tactic.Positivity

/- C31-C33: Gaussian basis functions, their centres and widths. -/

set_option autoImplicit false

namespace Verif

open Spec

noncomputable section

variable {d N : Nat}

/-! ### Activations -/

theorem actFactor_pos {x c w : ℝ} (hw : w ≠ 0) : 0 < actFactor x c w := by
  rw [actFactor, if_neg hw]
  exact Real.exp_pos _

/-- The activation that the normalisation starts from. -/
def rawAct (k : Kernels d) (inputs : Fin N → Fin d → ℝ) (s : Fin N) (b : Fin k.n) : ℝ :=
  ∏ i : Fin d, actFactor (inputs s i) (k.centers b i) (k.widths b i)

theorem rawAct_gaussian (k : Kernels d) (inputs : Fin N → Fin d → ℝ) (s : Fin N) (b : Fin k.n)
    (hw : ∀ i, k.widths b i ≠ 0) :
    rawAct k inputs s b = gaussian (k.centers b) (k.widths b) (inputs s) := by
  unfold rawAct gaussian
  have : ∀ i, actFactor (inputs s i) (k.centers b i) (k.widths b i) =
      Real.exp (-((inputs s i - k.centers b i) / k.widths b i) ^ 2 / 2) := by
    intro i
    have := hw i
    rw [actFactor, if_neg this]
    congr 1
    field_simp
    norm_num
    ring
  simp only [this]
  rw [← Real.exp_sum, ← Finset.sum_div, Finset.sum_neg_distrib]

theorem rawAct_nonneg (k : Kernels d) (inputs : Fin N → Fin d → ℝ) (s : Fin N) (b : Fin k.n) :
    0 ≤ rawAct k inputs s b := by
  refine Finset.prod_nonneg fun i _ => ?_
  unfold actFactor
  split
  · exact le_rfl
  · exact (Real.exp_pos _).le

theorem activations_raw {k : Kernels d} {inputs : Fin N → Fin d → ℝ} {a : Fin N → Fin k.n → ℝ}
    (h : k.activations false inputs = .ok a) : a = rawAct k inputs := by
  unfold Kernels.activations at h
  simp only [Bool.false_eq_true, false_and, if_false] at h
  split at h
  · cases h
  · exact (Except.ok.inj h).symm

theorem activations_raw_ok (k : Kernels d) (inputs : Fin N → Fin d → ℝ)
    (hw : ∀ b i, k.widths b i ≠ 0) : k.activations false inputs = .ok (rawAct k inputs) := by
  unfold Kernels.activations
  simp only [Bool.false_eq_true, false_and, if_false]
  rw [if_neg]
  · rfl
  · rintro ⟨s, b, i, h, _⟩
    exact hw b i h

theorem activations_norm {k : Kernels d} {inputs : Fin N → Fin d → ℝ} {a : Fin N → Fin k.n → ℝ}
    (h : k.activations true inputs = .ok a) :
    (k.n = 1 ∧ a = fun _ _ => 1) ∨ (k.n ≠ 1 ∧ a = fun s b =>
      if ∑ b', rawAct k inputs s b' = 0 then 1 / (k.n : ℝ)
      else rawAct k inputs s b / ∑ b', rawAct k inputs s b') := by
  unfold Kernels.activations at h
  simp only [true_and, if_true] at h
  by_cases h1 : k.n = 1
  · rw [if_pos h1] at h
    exact Or.inl ⟨h1, (Except.ok.inj h).symm⟩
  · rw [if_neg h1] at h
    split at h
    · cases h
    · exact Or.inr ⟨h1, (Except.ok.inj h).symm⟩

theorem activations_norm_ok (k : Kernels d) (inputs : Fin N → Fin d → ℝ)
    (hw : ∀ b i, k.widths b i ≠ 0) : ∃ a, k.activations true inputs = .ok a := by
  unfold Kernels.activations
  simp only [true_and, if_true]
  split
  · exact ⟨_, rfl⟩
  · rw [if_neg]
    · exact ⟨_, rfl⟩
    · rintro ⟨s, b, i, h, _⟩
      exact hw b i h

/-- C31: with non-zero widths, the activations are those of Gaussians, between 0 and 1, and equal to 1
exactly at the centre. -/
theorem C31_activations (k : Kernels d) (inputs : Fin N → Fin d → ℝ) (hw : ∀ b i, k.widths b i ≠ 0) :
    ∃ a, k.activations false inputs = .ok a ∧ ∀ s b,
      a s b = gaussian (k.centers b) (k.widths b) (inputs s) ∧ 0 < a s b ∧ a s b ≤ 1 ∧
      (a s b = 1 ↔ inputs s = k.centers b) := by
  refine ⟨_, activations_raw_ok k inputs hw, fun s b => ?_⟩
  rw [rawAct_gaussian k inputs s b (hw b)]
  have hsum : 0 ≤ ∑ i, ((inputs s i - k.centers b i) / k.widths b i) ^ 2 :=
    Finset.sum_nonneg fun i _ => sq_nonneg _
  refine ⟨rfl, Real.exp_pos _, ?_, ?_⟩
  · rw [gaussian, ← Real.exp_zero]
    exact Real.exp_le_exp.mpr (by linarith)
  · rw [gaussian, Real.exp_eq_one_iff]
    constructor
    · intro h
      have h0 : ∑ i, ((inputs s i - k.centers b i) / k.widths b i) ^ 2 = 0 := by linarith
      rw [Finset.sum_eq_zero_iff_of_nonneg fun i _ => sq_nonneg _] at h0
      funext i
      have := pow_eq_zero_iff (two_ne_zero) |>.mp (h0 i (Finset.mem_univ i))
      rcases div_eq_zero_iff.mp this with h | h
      · linarith
      · exact absurd h (hw b i)
    · intro h
      simp [h]

/-- C31: an activation does not increase if the input moves away from the centre, in one or several
dimensions. -/
theorem C31_decreasing (k : Kernels d) (inputs inputs' : Fin N → Fin d → ℝ)
    (hw : ∀ b i, k.widths b i ≠ 0) (a a' : Fin N → Fin k.n → ℝ)
    (h : k.activations false inputs = .ok a) (h' : k.activations false inputs' = .ok a')
    (s s' : Fin N) (b : Fin k.n)
    (hd : ∀ i, |inputs s i - k.centers b i| ≤ |inputs' s' i - k.centers b i|) : a' s' b ≤ a s b := by
  rw [activations_raw h, activations_raw h', rawAct_gaussian k _ _ _ (hw b),
    rawAct_gaussian k _ _ _ (hw b)]
  refine Real.exp_le_exp.mpr ?_
  have : ∑ i, ((inputs s i - k.centers b i) / k.widths b i) ^ 2 ≤
      ∑ i, ((inputs' s' i - k.centers b i) / k.widths b i) ^ 2 := by
    refine Finset.sum_le_sum fun i _ => ?_
    rw [div_pow, div_pow]
    exact div_le_div_of_nonneg_right (sq_le_sq.mpr (hd i)) (sq_nonneg _)
  linarith

/-- C31: strictly so, if the distance increases. -/
theorem C31_decreasing_strict (k : Kernels d) (inputs inputs' : Fin N → Fin d → ℝ)
    (hw : ∀ b i, k.widths b i ≠ 0) (a a' : Fin N → Fin k.n → ℝ)
    (h : k.activations false inputs = .ok a) (h' : k.activations false inputs' = .ok a')
    (s s' : Fin N) (b : Fin k.n)
    (hd : ∀ i, |inputs s i - k.centers b i| ≤ |inputs' s' i - k.centers b i|)
    (hd' : ∃ i, |inputs s i - k.centers b i| < |inputs' s' i - k.centers b i|) :
    a' s' b < a s b := by
  rw [activations_raw h, activations_raw h', rawAct_gaussian k _ _ _ (hw b),
    rawAct_gaussian k _ _ _ (hw b)]
  refine Real.exp_lt_exp.mpr ?_
  have : ∑ i, ((inputs s i - k.centers b i) / k.widths b i) ^ 2 <
      ∑ i, ((inputs' s' i - k.centers b i) / k.widths b i) ^ 2 := by
    refine Finset.sum_lt_sum (fun i _ => ?_) ?_
    · rw [div_pow, div_pow]
      exact div_le_div_of_nonneg_right (sq_le_sq.mpr (hd i)) (sq_nonneg _)
    · obtain ⟨i, hi⟩ := hd'
      refine ⟨i, Finset.mem_univ i, ?_⟩
      rw [div_pow, div_pow]
      exact div_lt_div_of_pos_right (sq_lt_sq.mpr hi) (by have := hw b i; positivity)
  linarith

/-- C31: normalised activations (for any widths, also zero ones) are non-negative and sum up to 1. -/
theorem C31_normalized (k : Kernels d) (hn : k.n ≠ 0) (inputs : Fin N → Fin d → ℝ)
    (a : Fin N → Fin k.n → ℝ) (h : k.activations true inputs = .ok a) (s : Fin N) :
    (∀ b, 0 ≤ a s b) ∧ ∑ b, a s b = 1 := by
  rcases activations_norm h with ⟨h1, rfl⟩ | ⟨h1, rfl⟩
  · refine ⟨fun _ => zero_le_one, ?_⟩
    simp [h1]
  · by_cases h0 : ∑ b', rawAct k inputs s b' = 0
    · simp only [h0, if_true]
      refine ⟨fun _ => by positivity, ?_⟩
      rw [Finset.sum_const, Finset.card_univ, Fintype.card_fin, nsmul_eq_mul]
      have : (k.n : ℝ) ≠ 0 := by exact_mod_cast hn
      field_simp
    · simp only [h0, if_false]
      refine ⟨fun b => div_nonneg (rawAct_nonneg _ _ _ _)
        (Finset.sum_nonneg fun b _ => rawAct_nonneg _ _ _ _), ?_⟩
      rw [← Finset.sum_div, div_self h0]

/-- C31: normalising succeeds for non-zero widths, and keeps the ratios of the activations. -/
theorem C31_ratio (k : Kernels d) (inputs : Fin N → Fin d → ℝ) (hw : ∀ b i, k.widths b i ≠ 0) :
    ∃ a, k.activations true inputs = .ok a ∧ ∀ s b b',
      a s b * gaussian (k.centers b') (k.widths b') (inputs s) =
        a s b' * gaussian (k.centers b) (k.widths b) (inputs s) := by
  obtain ⟨a, h⟩ := activations_norm_ok k inputs hw
  refine ⟨a, h, fun s b b' => ?_⟩
  rw [← rawAct_gaussian k inputs s b (hw b), ← rawAct_gaussian k inputs s b' (hw b')]
  rcases activations_norm h with ⟨h1, rfl⟩ | ⟨h1, rfl⟩
  · have : b = b' := by
      have := b.2
      have := b'.2
      ext; omega
    rw [this]
  · have h0 : ∑ b', rawAct k inputs s b' ≠ 0 := by
      refine (Finset.sum_pos (fun b _ => ?_) ⟨b, Finset.mem_univ b⟩).ne'
      exact Finset.prod_pos fun i _ => actFactor_pos (hw b i)
    simp only [h0, if_false]
    ring

/-- Hypotheses: three basis functions with different widths. -/
example : ∃ a, (⟨3, fun b _ => b, fun b _ => b + 1⟩ : Kernels 2).activations true
    (fun (s : Fin 5) i => s - (i : ℝ)) = .ok a ∧ ∀ s, ∑ b, a s b = 1 := by
  obtain ⟨a, h, _⟩ := C31_ratio (N := 5) (⟨3, fun b _ => b, fun b _ => b + 1⟩ : Kernels 2)
    (fun (s : Fin 5) i => s - (i : ℝ)) (fun b _ => by positivity)
  exact ⟨a, h, fun s => (C31_normalized _ (by simp) _ a h s).2⟩

/-! ### Centres and widths -/

theorem mapM_ok {A B : Type} {f : A → Except PyErr B} {l : List A} {r : List B} :
    l.mapM f = .ok r ↔ List.Forall₂ (fun a b => f a = .ok b) l r := by
  induction l generalizing r with
  | nil =>
    rw [List.mapM_nil]
    constructor
    · intro h
      rw [← Except.ok.inj h]
      exact .nil
    · rintro ⟨⟩
      rfl
  | cons a l ih =>
    rw [List.mapM_cons]
    cases ha : f a with
    | error e =>
      constructor
      · intro h; cases h
      · rintro (_ | ⟨h, _⟩); rw [ha] at h; cases h
    | ok b =>
      cases hl : l.mapM f with
      | error e =>
        constructor
        · intro h; cases h
        · rintro (_ | ⟨h, h2⟩)
          rw [← ih, hl] at h2
          cases h2
      | ok bs =>
        constructor
        · intro h
          rw [← Except.ok.inj h]
          exact .cons ha (ih.mp hl)
        · rintro (_ | ⟨h, h2⟩)
          rw [← ih, hl] at h2
          rw [ha] at h
          rw [← Except.ok.inj h, ← Except.ok.inj h2]
          rfl

/-- Distance of neighbouring centres. -/
def step (lo hi : ℝ) (n : Nat) : ℝ := (hi - lo) / ((n : ℝ) - 1)

/-- The width of all basis functions of a dimension. -/
def width (height lo hi : ℝ) (n : Nat) : ℝ :=
  if n = 1 then 1 else √(step lo hi n ^ 2 / (-8 * Real.log height))

@[simp] theorem linspace_length (lo hi : ℝ) (n : Nat) : (linspace lo hi n).length = n := by
  simp [linspace]

theorem linspace_getD (lo hi : ℝ) (n k : Nat) (hk : k < n) :
    (linspace lo hi n).getD k 0 = lo + k * step lo hi n := by
  simp [linspace, step, hk]

theorem widthsOf_linspace (height lo hi : ℝ) (n : Nat) (hn : 1 ≤ n) (ws : List ℝ)
    (h : widthsOf height (linspace lo hi n) = .ok ws) :
    ws = List.replicate n (width height lo hi n) ∧ (n ≠ 1 → 0 < height ∧ height < 1) := by
  unfold widthsOf at h
  simp only [linspace_length] at h
  by_cases h1 : n > 1
  · rw [if_pos h1] at h
    split at h
    · rename_i hh
      refine ⟨?_, fun _ => hh⟩
      rw [← Except.ok.inj h]
      have hw : ∀ cc, cc + 1 < n → √(((linspace lo hi n).getD (cc + 1) 0 -
          (linspace lo hi n).getD cc 0) ^ 2 / (-8 * Real.log height)) = width height lo hi n := by
        intro cc hcc
        rw [linspace_getD _ _ _ _ hcc, linspace_getD _ _ _ _ (by omega), width, if_neg (by omega)]
        congr 3
        push_cast
        ring
      rw [hw (n - 2) (by omega)]
      have : (List.range (n - 1)).map (fun cc : Nat => √(((linspace lo hi n).getD (cc + 1) 0 -
          (linspace lo hi n).getD cc 0) ^ 2 / (-8 * Real.log height))) =
          List.replicate (n - 1) (width height lo hi n) := by
        refine List.ext_getElem (by simp) fun i h1 h2 => ?_
        rw [List.getElem_map, List.getElem_range, List.getElem_replicate]
        refine hw i ?_
        rw [List.length_replicate] at h2
        omega
      rw [this, ← List.replicate_succ']
      congr 1
      omega
    · cases h
  · have : n = 1 := by omega
    subst this
    rw [if_neg h1] at h
    refine ⟨?_, fun h => absurd rfl h⟩
    rw [← Except.ok.inj h, width, if_pos rfl]

theorem widthsOf_succeeds (height lo hi : ℝ) (n : Nat) (h : n = 1 ∨ (0 < height ∧ height < 1)) :
    ∃ ws, widthsOf height (linspace lo hi n) = .ok ws := by
  unfold widthsOf
  simp only [linspace_length]
  split
  · rw [if_pos]
    · exact ⟨_, rfl⟩
    · rcases h with h | h
      · omega
      · exact h
  · exact ⟨_, rfl⟩

/-- The numbers of basis functions `nBfs` (as passed to the constructor) mean `ns` per dimension: there
is one for each dimension, or one for all. -/
def PerDim (nBfs : List Nat) (ns : Fin d → Nat) : Prop :=
  nBfs = List.ofFn ns ∨ ∃ n, nBfs = [n] ∧ ns = fun _ => n

theorem bfsPerDim_perDim {nBfs : List Nat} {ns : Fin d → Nat} (h : PerDim nBfs ns) (hd : d ≠ 0) :
    bfsPerDim d nBfs = .ok (List.ofFn ns) := by
  unfold bfsPerDim
  rcases h with rfl | ⟨n, rfl, rfl⟩
  · simp
  · simp only [List.length_singleton]
    by_cases h1 : 1 < d
    · simp [h1, List.ofFn_const]
    · have : d = 1 := by omega
      subst this
      simp

theorem except_bind_ok {A B : Type} {x : Except PyErr A} {f : A → Except PyErr B} {b : B}
    (h : (x >>= f) = .ok b) : ∃ a, x = .ok a ∧ f a = .ok b := by
  cases x with
  | error e => cases h
  | ok a => exact ⟨a, rfl, h⟩

theorem except_throw_bind {A B : Type} (e : PyErr) (f : A → Except PyErr B) :
    ((throw e : Except PyErr A) >>= f) = .error e := rfl

theorem getCenters_ok {inputs : Fin N → Fin d → ℝ} {nBfs : List Nat} {height : ℝ} {k : Kernels d}
    (hk : getCentersAndWidths inputs nBfs height = .ok k) :
    N ≠ 0 ∧ d ≠ 0 ∧ ∃ l ws rows, bfsPerDim d nBfs = .ok l ∧
      (List.ofFn fun i : Fin d => linspace (minInput inputs i) (maxInput inputs i)
        (l.getD i 0)).mapM (widthsOf height) = .ok ws ∧
      gridLoop (List.ofFn fun i : Fin d => linspace (minInput inputs i) (maxInput inputs i)
        (l.getD i 0)) ws l l.prod (List.replicate d 0) = .ok rows ∧ k = Kernels.ofRows d rows := by
  unfold getCentersAndWidths at hk
  by_cases hN : N = 0
  · rw [if_pos hN, except_throw_bind] at hk
    cases hk
  rw [if_neg hN] at hk
  obtain ⟨l, hl, hk⟩ := except_bind_ok hk
  obtain ⟨ws, hws, hk⟩ := except_bind_ok hk
  change (if d = 0 then _ else _) = _ at hk
  by_cases hd : d = 0
  · rw [if_pos hd, except_throw_bind] at hk
    cases hk
  rw [if_neg hd] at hk
  obtain ⟨rows, hrows, hk⟩ := except_bind_ok hk
  exact ⟨hN, hd, l, ws, rows, hl, hws, hrows, (Except.ok.inj hk).symm⟩

theorem getCenters_of {inputs : Fin N → Fin d → ℝ} {nBfs l : List Nat} {height : ℝ}
    {ws : List (List ℝ)} {rows : List (List ℝ × List ℝ)} (hN : N ≠ 0) (hd : d ≠ 0)
    (hl : bfsPerDim d nBfs = .ok l)
    (hws : (List.ofFn fun i : Fin d => linspace (minInput inputs i) (maxInput inputs i)
        (l.getD i 0)).mapM (widthsOf height) = .ok ws)
    (hrows : gridLoop (List.ofFn fun i : Fin d => linspace (minInput inputs i) (maxInput inputs i)
        (l.getD i 0)) ws l l.prod (List.replicate d 0) = .ok rows) :
    getCentersAndWidths inputs nBfs height = .ok (Kernels.ofRows d rows) := by
  unfold getCentersAndWidths
  rw [if_neg hN]
  change (bfsPerDim d nBfs >>= _) = _
  rw [hl]
  change ((List.ofFn fun i : Fin d => linspace (minInput inputs i) (maxInput inputs i)
    (l.getD i 0)).mapM (widthsOf height) >>= _) = _
  rw [hws]
  change (if d = 0 then _ else _) = _
  rw [if_neg hd]
  change (gridLoop _ ws l l.prod (List.replicate d 0) >>= _) = _
  rw [hrows]
  rfl

theorem getD_ofFn_append (ns : Fin d → Nat) (ext : List Nat) (i : Fin d) :
    (List.ofFn ns ++ ext).getD i 0 = ns i := by
  simp [List.getD_eq_getElem?_getD, List.getElem?_append]

/-- The rows of the resulting arrays. -/
def gridRows (height : ℝ) (lo hi : Fin d → ℝ) (ns : Fin d → Nat) (ext : List Nat) :
    List (List ℝ × List ℝ) :=
  (List.range (∏ i, ns i)).map (fun r =>
    (pick (List.ofFn fun i => linspace (lo i) (hi i) (ns i)) (digitsOf (List.ofFn ns) r),
      pick (List.ofFn fun i => List.replicate (ns i) (width height (lo i) (hi i) (ns i)))
        (digitsOf (List.ofFn ns) r))) ++
  List.replicate ((∏ i, ns i) * (ext.prod - 1)) (List.replicate d 0, List.replicate d 0)

theorem gridLoop_rows (height : ℝ) (lo hi : Fin d → ℝ) (ns : Fin d → Nat) (ext : List Nat)
    (hd : d ≠ 0) (h1 : ∀ i, 1 ≤ ns i) (he : 1 ≤ ext.prod) :
    gridLoop (List.ofFn fun i => linspace (lo i) (hi i) (ns i))
      (List.ofFn fun i => List.replicate (ns i) (width height (lo i) (hi i) (ns i)))
      (List.ofFn ns ++ ext) (List.ofFn ns ++ ext).prod (List.replicate d 0) =
    .ok (gridRows height lo hi ns ext) := by
  have hprod : (List.ofFn ns).prod = ∏ i, ns i := by rw [List.prod_ofFn]
  have hpos : 0 < (List.ofFn ns).prod := by
    rw [hprod]
    exact Finset.prod_pos fun i _ => h1 i
  have hg := gridLoop_eq (List.ofFn fun i => linspace (lo i) (hi i) (ns i))
    (List.ofFn fun i => List.replicate (ns i) (width height (lo i) (hi i) (ns i)))
    (List.ofFn ns) ext (by rw [List.map_ofFn]; congr 1; funext i; simp)
    (by rw [List.map_ofFn]; congr 1; funext i; simp)
    (by intro h; exact hd (by simpa using congrArg List.length h)) hpos
    ((List.ofFn ns ++ ext).prod) 0
    (by rw [List.prod_append, Nat.zero_add]; exact Nat.le_mul_of_pos_right _ he) (Nat.zero_le _)
  rw [digitsOf_zero, List.length_ofFn] at hg
  rw [hg, gridRows, Nat.sub_zero, ← List.range_eq_range', hprod, Nat.zero_add, List.prod_append,
    hprod, Nat.mul_sub, Nat.mul_one]

/-- The result in terms of lists. -/
theorem centers_eq (inputs : Fin N → Fin d → ℝ) (nBfs : List Nat) (ns : Fin d → Nat) (ext : List Nat)
    (hns : bfsPerDim d nBfs = .ok (List.ofFn ns ++ ext)) (h1 : ∀ i, 1 ≤ ns i) (he : 1 ≤ ext.prod)
    (height : ℝ) (k : Kernels d) (hk : getCentersAndWidths inputs nBfs height = .ok k) :
    N ≠ 0 ∧ d ≠ 0 ∧ (∀ i, ns i ≠ 1 → 0 < height ∧ height < 1) ∧
    k = Kernels.ofRows d (gridRows height (minInput inputs) (maxInput inputs) ns ext) := by
  obtain ⟨hN, hd, l, ws, rows, hl, hws, hrows, rfl⟩ := getCenters_ok hk
  rw [hns] at hl
  obtain rfl := Except.ok.inj hl
  simp only [getD_ofFn_append] at hws hrows
  have hf := mapM_ok.mp hws
  have hlen := hf.length_eq
  rw [List.length_ofFn] at hlen
  have hel : ∀ i : Fin d, widthsOf height (linspace (minInput inputs i) (maxInput inputs i) (ns i)) =
      .ok (ws[i.1]'(by omega)) := by
    intro i
    have := List.Forall₂.get hf (i := i) (by simp) (by omega)
    simpa using this
  have hw : ws = List.ofFn fun i =>
      List.replicate (ns i) (width height (minInput inputs i) (maxInput inputs i) (ns i)) := by
    refine List.ext_getElem (by simp [hlen]) fun i h2 h3 => ?_
    rw [List.length_ofFn] at h3
    rw [List.getElem_ofFn]
    exact (widthsOf_linspace _ _ _ _ (h1 ⟨i, h3⟩) _ (hel ⟨i, h3⟩)).1
  refine ⟨hN, hd, fun i => (widthsOf_linspace _ _ _ _ (h1 i) _ (hel i)).2, ?_⟩
  rw [hw, gridLoop_rows height _ _ ns ext hd h1 he] at hrows
  rw [Except.ok.inj hrows]

theorem getCenters_succeeds (inputs : Fin N → Fin d → ℝ) (nBfs : List Nat) (ns : Fin d → Nat)
    (hns : PerDim nBfs ns) (h1 : ∀ i, 1 ≤ ns i) (height : ℝ) (hN : N ≠ 0) (hd : d ≠ 0)
    (hh : ∀ i, ns i ≠ 1 → 0 < height ∧ height < 1) :
    ∃ k, getCentersAndWidths inputs nBfs height = .ok k := by
  have hl : bfsPerDim d nBfs = .ok (List.ofFn ns ++ []) := by
    rw [List.append_nil, bfsPerDim_perDim hns hd]
  have hws : (List.ofFn fun i : Fin d => linspace (minInput inputs i) (maxInput inputs i)
      ((List.ofFn ns ++ []).getD i 0)).mapM (widthsOf height) = .ok (List.ofFn fun i =>
      List.replicate (ns i) (width height (minInput inputs i) (maxInput inputs i) (ns i))) := by
    simp only [getD_ofFn_append]
    refine mapM_ok.mpr (List.forall₂_iff_get.mpr ⟨by simp, fun i h2 h3 => ?_⟩)
    rw [List.length_ofFn] at h2
    have h2' : i < d := h2
    obtain ⟨ws, hw⟩ := widthsOf_succeeds height (minInput inputs ⟨i, h2'⟩) (maxInput inputs ⟨i, h2'⟩)
      (ns ⟨i, h2'⟩) (by
        by_cases h : ns ⟨i, h2'⟩ = 1
        · exact Or.inl h
        · exact Or.inr (hh _ h))
    have := (widthsOf_linspace _ _ _ _ (h1 _) _ hw).1
    rw [this] at hw
    simpa using hw
  refine ⟨_, getCenters_of hN hd hl hws
    (rows := gridRows height (minInput inputs) (maxInput inputs) ns []) ?_⟩
  simp only [getD_ofFn_append]
  exact gridLoop_rows height _ _ ns [] hd h1 (by simp)

theorem minInput_isLeast (inputs : Fin N → Fin d → ℝ) (hN : N ≠ 0) (i : Fin d) :
    IsLeast (Set.range fun s => inputs s i) (minInput inputs i) := by
  unfold minInput
  cases h : (List.ofFn fun s => inputs s i).min? with
  | none =>
    rw [List.min?_eq_none_iff] at h
    exact absurd (by simpa using congrArg List.length h) hN
  | some a =>
    rw [List.min?_eq_some_iff] at h
    obtain ⟨h1, h2⟩ := h
    rw [List.mem_ofFn] at h1
    refine ⟨h1, ?_⟩
    rintro _ ⟨s, rfl⟩
    exact h2 _ (List.mem_ofFn.mpr ⟨s, rfl⟩)

theorem maxInput_isGreatest (inputs : Fin N → Fin d → ℝ) (hN : N ≠ 0) (i : Fin d) :
    IsGreatest (Set.range fun s => inputs s i) (maxInput inputs i) := by
  unfold maxInput
  cases h : (List.ofFn fun s => inputs s i).max? with
  | none =>
    rw [List.max?_eq_none_iff] at h
    exact absurd (by simpa using congrArg List.length h) hN
  | some a =>
    rw [List.max?_eq_some_iff] at h
    obtain ⟨h1, h2⟩ := h
    rw [List.mem_ofFn] at h1
    refine ⟨h1, ?_⟩
    rintro _ ⟨s, rfl⟩
    exact h2 _ (List.mem_ofFn.mpr ⟨s, rfl⟩)

theorem position_radix {d : Nat} (ns digits : Fin d → Nat) :
    position ns digits = radix (List.ofFn ns) (List.ofFn digits) := by
  induction d with
  | zero => rfl
  | succ d ih =>
    rw [List.ofFn_succ, List.ofFn_succ, radix, ← ih, position, Fin.sum_univ_succ, Fin.prod_Ioi_zero,
      List.prod_ofFn]
    congr 1
    unfold position
    refine Finset.sum_congr rfl fun i _ => ?_
    rw [Fin.prod_Ioi_succ]

theorem forall₂_ofFn {d : Nat} {ns digits : Fin d → Nat} :
    List.Forall₂ (· < ·) (List.ofFn digits) (List.ofFn ns) ↔ ∀ i, digits i < ns i := by
  rw [List.forall₂_iff_get]
  simp only [List.length_ofFn, List.get_eq_getElem, List.getElem_ofFn, true_and]
  exact ⟨fun h i => h i i.2 i.2, fun h i h1 _ => h ⟨i, h1⟩⟩

theorem gridRows_length (height : ℝ) (lo hi : Fin d → ℝ) (ns : Fin d → Nat) :
    (gridRows height lo hi ns []).length = ∏ i, ns i := by
  simp [gridRows]

theorem ofRows_centers (height : ℝ) (lo hi : Fin d → ℝ) (ns digits : Fin d → Nat) (ext : List Nat)
    (hd : ∀ i, digits i < ns i) (b : Fin (Kernels.ofRows d (gridRows height lo hi ns ext)).n)
    (hb : (b : Nat) = position ns digits) (i : Fin d) :
    (Kernels.ofRows d (gridRows height lo hi ns ext)).centers b i =
      lo i + digits i * step (lo i) (hi i) (ns i) ∧
    (Kernels.ofRows d (gridRows height lo hi ns ext)).widths b i =
      width height (lo i) (hi i) (ns i) := by
  have hlt : position ns digits < ∏ i, ns i := by
    rw [position_radix, ← List.prod_ofFn]
    exact radix_lt _ _ (forall₂_ofFn.mpr hd)
  have hlen : (b : Nat) < (gridRows height lo hi ns ext).length := b.2
  have hget : (gridRows height lo hi ns ext)[(b : Nat)] =
      (pick (List.ofFn fun i => linspace (lo i) (hi i) (ns i)) (List.ofFn digits),
      pick (List.ofFn fun i => List.replicate (ns i) (width height (lo i) (hi i) (ns i)))
        (List.ofFn digits)) := by
    simp only [gridRows]
    rw [List.getElem_append_left (by simp only [List.length_map, List.length_range]; omega),
      List.getElem_map, List.getElem_range, hb, position_radix,
      digitsOf_radix _ _ (forall₂_ofFn.mpr hd)]
  constructor
  · change ((gridRows height lo hi ns ext)[(b : Nat)]).1.getD i 0 = _
    rw [hget, ← linspace_getD _ _ _ _ (hd i)]
    simp [pick]
  · change ((gridRows height lo hi ns ext)[(b : Nat)]).2.getD i 0 = _
    rw [hget]
    simp [pick, hd i]

theorem width_eq (height lo hi : ℝ) (n : Nat) (hn : n ≠ 1) (hlo : lo ≤ hi) (h1 : 1 ≤ n)
    (hh : 0 < height ∧ height < 1) :
    width height lo hi n = (hi - lo) / ((n : ℝ) - 1) / √(-8 * Real.log height) := by
  have hlog : Real.log height < 0 := Real.log_neg hh.1 hh.2
  have hn' : (1 : ℝ) < n := by exact_mod_cast (by omega : 1 < n)
  rw [width, if_neg hn, Real.sqrt_div' _ (by linarith), Real.sqrt_sq]
  · rfl
  · exact div_nonneg (by linarith) (by linarith)

/-- C33: with numbers `ns` of basis functions per dimension there is one row for each combination of
digits, with the centre and the width (C32) of each dimension. The rows are in lexicographic order,
the last dimension running fastest. -/
theorem C33_grid (inputs : Fin N → Fin d → ℝ) (nBfs : List Nat) (ns : Fin d → Nat)
    (hns : PerDim nBfs ns) (h1 : ∀ i, 1 ≤ ns i) (height : ℝ) (k : Kernels d)
    (hk : getCentersAndWidths inputs nBfs height = .ok k) (lo hi : Fin d → ℝ)
    (hlo : ∀ i, IsLeast (Set.range fun s => inputs s i) (lo i))
    (hhi : ∀ i, IsGreatest (Set.range fun s => inputs s i) (hi i)) :
    k.n = ∏ i, ns i ∧ ∀ digits : Fin d → Nat, (∀ i, digits i < ns i) →
      ∃ b : Fin k.n, (b : Nat) = position ns digits ∧ ∀ i,
        k.centers b i =
          (if ns i = 1 then lo i else lo i + digits i * ((hi i - lo i) / ((ns i : ℝ) - 1))) ∧
        k.widths b i =
          (if ns i = 1 then 1 else (hi i - lo i) / ((ns i : ℝ) - 1) / √(-8 * Real.log height)) := by
  have hd : d ≠ 0 := (getCenters_ok hk).2.1
  obtain ⟨hN, _, hh, rfl⟩ := centers_eq inputs nBfs ns [] (by
    rw [List.append_nil, bfsPerDim_perDim hns hd]) h1 (by simp) height k hk
  have elo : minInput inputs = lo := funext fun i => (minInput_isLeast inputs hN i).unique (hlo i)
  have ehi : maxInput inputs = hi := funext fun i => (maxInput_isGreatest inputs hN i).unique (hhi i)
  rw [elo, ehi]
  refine ⟨gridRows_length _ _ _ _, fun digits hdig => ?_⟩
  have hlt : position ns digits < ∏ i, ns i := by
    rw [position_radix, ← List.prod_ofFn]
    exact radix_lt _ _ (forall₂_ofFn.mpr hdig)
  refine ⟨⟨position ns digits, ?_⟩, rfl, fun i => ?_⟩
  · change _ < (gridRows height lo hi ns []).length
    rw [gridRows_length]
    exact hlt
  · obtain ⟨e1, e2⟩ := ofRows_centers height lo hi ns digits [] hdig
      ⟨position ns digits, by
        change _ < (gridRows height lo hi ns []).length
        rw [gridRows_length]
        exact hlt⟩ rfl i
    rw [e1, e2]
    by_cases hn : ns i = 1
    · have : digits i = 0 := by have := hdig i; omega
      rw [if_pos hn, if_pos hn, this, width, if_pos hn]
      simp
    · rw [if_neg hn, if_neg hn, width_eq _ _ _ _ hn ((hlo i).2 (hhi i).1) (h1 i) (hh i hn)]
      exact ⟨rfl, rfl⟩

/-- C33: each row belongs to exactly one combination of digits. -/
theorem C33_once (inputs : Fin N → Fin d → ℝ) (nBfs : List Nat) (ns : Fin d → Nat)
    (hns : PerDim nBfs ns) (h1 : ∀ i, 1 ≤ ns i) (height : ℝ) (k : Kernels d)
    (hk : getCentersAndWidths inputs nBfs height = .ok k) (b : Fin k.n) :
    ∃! digits : Fin d → Nat, (∀ i, digits i < ns i) ∧ position ns digits = b := by
  have hd : d ≠ 0 := (getCenters_ok hk).2.1
  obtain ⟨hN, _, hh, rfl⟩ := centers_eq inputs nBfs ns [] (by
    rw [List.append_nil, bfsPerDim_perDim hns hd]) h1 (by simp) height k hk
  have hb : (b : Nat) < (List.ofFn ns).prod := by
    rw [List.prod_ofFn, ← gridRows_length height (minInput inputs) (maxInput inputs)]
    exact b.2
  have hlen : (digitsOf (List.ofFn ns) b).length = d := by simp
  have hof : List.ofFn (fun i : Fin d => (digitsOf (List.ofFn ns) b)[i.1]'(by omega)) =
      digitsOf (List.ofFn ns) b := by
    refine List.ext_getElem (by simp) fun i _ _ => by simp
  refine ⟨fun i => (digitsOf (List.ofFn ns) b)[i.1]'(by omega), ⟨?_, ?_⟩, ?_⟩
  · rw [← forall₂_ofFn, hof]
    exact digitsOf_lt _ _ hb
  · rw [position_radix, hof, radix_digitsOf _ _ hb]
  · rintro digits ⟨g1, g2⟩
    have := digitsOf_radix _ _ (forall₂_ofFn.mpr g1)
    rw [← position_radix, g2] at this
    rw [← List.ofFn_inj, hof, this]

/-- C33: if there are more numbers of basis functions than dimensions, no exception is raised. There
are then superfluous rows, whose centres and widths are zero. -/
theorem C33_superfluous (inputs : Fin N → Fin d → ℝ) (ns : Fin d → Nat) (ext : List Nat)
    (h1 : ∀ i, 1 ≤ ns i) (he : 1 ≤ ext.prod) (height : ℝ) (k : Kernels d)
    (hk : getCentersAndWidths inputs (List.ofFn ns ++ ext) height = .ok k) :
    k.n = (∏ i, ns i) * ext.prod ∧
    ∀ b : Fin k.n, ∏ i, ns i ≤ b → ∀ i, k.centers b i = 0 ∧ k.widths b i = 0 := by
  have hl : bfsPerDim d (List.ofFn ns ++ ext) = .ok (List.ofFn ns ++ ext) := by
    unfold bfsPerDim
    rw [if_neg (by simp)]
  obtain ⟨hN, _, hh, rfl⟩ := centers_eq inputs _ ns ext hl h1 he height k hk
  have hlen : (gridRows height (minInput inputs) (maxInput inputs) ns ext).length =
      (∏ i, ns i) * ext.prod := by
    simp only [gridRows, List.length_append, List.length_map, List.length_range, List.length_replicate]
    rw [Nat.mul_sub, Nat.mul_one]
    have : ∏ i, ns i ≤ (∏ i, ns i) * ext.prod := Nat.le_mul_of_pos_right _ he
    omega
  refine ⟨hlen, fun b hb i => ?_⟩
  have hb' : (b : Nat) < (gridRows height (minInput inputs) (maxInput inputs) ns ext).length := b.2
  have hget : (gridRows height (minInput inputs) (maxInput inputs) ns ext)[(b : Nat)] =
      (List.replicate d 0, List.replicate d 0) := by
    simp only [gridRows]
    rw [List.getElem_append_right (by simpa using hb), List.getElem_replicate]
  constructor
  · change ((gridRows height (minInput inputs) (maxInput inputs) ns ext)[(b : Nat)]).1.getD i 0 = _
    rw [hget]
    simp
  · change ((gridRows height (minInput inputs) (maxInput inputs) ns ext)[(b : Nat)]).2.getD i 0 = _
    rw [hget]
    simp

/-- C33: the function succeeds if there are inputs, and heights between 0 and 1 where several basis
functions are needed. -/
theorem C33_succeeds (inputs : Fin N → Fin d → ℝ) (nBfs : List Nat) (ns : Fin d → Nat)
    (hns : PerDim nBfs ns) (h1 : ∀ i, 1 ≤ ns i) (height : ℝ) (hN : N ≠ 0) (hd : d ≠ 0)
    (hh : ∀ i, ns i ≠ 1 → 0 < height ∧ height < 1) :
    ∃ k, getCentersAndWidths inputs nBfs height = .ok k :=
  getCenters_succeeds inputs nBfs ns hns h1 height hN hd hh

/-- C32: in each dimension the centres are equidistant from the smallest to the largest input. -/
theorem C32_equidistant (inputs : Fin N → Fin d → ℝ) (nBfs : List Nat) (ns : Fin d → Nat)
    (hns : PerDim nBfs ns) (h1 : ∀ i, 1 ≤ ns i) (height : ℝ) (k : Kernels d)
    (hk : getCentersAndWidths inputs nBfs height = .ok k) (digits : Fin d → Nat)
    (hd : ∀ i, digits i < ns i) (b : Fin k.n) (hb : (b : Nat) = position ns digits) (i : Fin d) :
    (digits i = 0 → IsLeast (Set.range fun s => inputs s i) (k.centers b i)) ∧
    (ns i ≠ 1 → digits i = ns i - 1 → IsGreatest (Set.range fun s => inputs s i) (k.centers b i)) ∧
    ∀ digits' : Fin d → Nat, (∀ i, digits' i < ns i) → ∀ b' : Fin k.n,
      (b' : Nat) = position ns digits' → ∀ lo hi, IsLeast (Set.range fun s => inputs s i) lo →
      IsGreatest (Set.range fun s => inputs s i) hi → digits' i = digits i + 1 →
      ((ns i : ℝ) - 1) * (k.centers b' i - k.centers b i) = hi - lo := by
  have hN : N ≠ 0 := (getCenters_ok hk).1
  have hlo := minInput_isLeast inputs hN
  have hhi := maxInput_isGreatest inputs hN
  obtain ⟨hn, hgrid⟩ := C33_grid inputs nBfs ns hns h1 height k hk _ _ hlo hhi
  obtain ⟨b0, hb0, hrow⟩ := hgrid digits hd
  obtain rfl : b = b0 := Fin.ext (by rw [hb, hb0])
  have hc := (hrow i).1
  have hpos : ns i ≠ 1 → (ns i : ℝ) - 1 ≠ 0 := fun h => by
    have : (ns i : ℝ) ≠ 1 := by exact_mod_cast h
    exact sub_ne_zero.mpr this
  refine ⟨fun h0 => ?_, fun hne h0 => ?_, fun digits' hd' b' hb' lo hi hl hh hnext => ?_⟩
  · have : k.centers b i = minInput inputs i := by
      rw [hc, h0]
      simp
    rw [this]
    exact hlo i
  · have : k.centers b i = maxInput inputs i := by
      have := hpos hne
      rw [hc, if_neg hne, h0, Nat.cast_sub (h1 i), Nat.cast_one]
      field_simp
      ring
    rw [this]
    exact hhi i
  · obtain ⟨b1, hb1, hrow'⟩ := hgrid digits' hd'
    obtain rfl : b' = b1 := Fin.ext (by rw [hb', hb1])
    have hne : ns i ≠ 1 := by
      have := hd' i
      omega
    have := hpos hne
    rw [hc, (hrow' i).1, if_neg hne, if_neg hne, hnext, (hlo i).unique hl, (hhi i).unique hh]
    push_cast
    field_simp
    ring

/-- C32: two neighbouring basis functions (whose digits differ by one in one dimension) both have
the requested height half-way between their centres, whenever this activation is defined. -/
theorem C32_intersection (inputs : Fin N → Fin d → ℝ) (nBfs : List Nat) (ns : Fin d → Nat)
    (hns : PerDim nBfs ns) (h1 : ∀ i, 1 ≤ ns i) (height : ℝ) (k : Kernels d)
    (hk : getCentersAndWidths inputs nBfs height = .ok k) (digits digits' : Fin d → Nat) (j : Fin d)
    (hd' : ∀ i, digits' i < ns i) (hj : digits' = Function.update digits j (digits j + 1))
    (b b' : Fin k.n) (hb : (b : Nat) = position ns digits) (hb' : (b' : Nat) = position ns digits')
    {M : Nat} (queries : Fin M → Fin d → ℝ) (s : Fin M)
    (hs : ∀ i, queries s i = (k.centers b i + k.centers b' i) / 2)
    (a : Fin M → Fin k.n → ℝ) (ha : k.activations false queries = .ok a) :
    a s b = height ∧ a s b' = height := by
  have hN : N ≠ 0 := (getCenters_ok hk).1
  have hd0 : d ≠ 0 := (getCenters_ok hk).2.1
  have hlo := minInput_isLeast inputs hN
  have hhi := maxInput_isGreatest inputs hN
  obtain ⟨hn, hgrid⟩ := C33_grid inputs nBfs ns hns h1 height k hk _ _ hlo hhi
  have hheight := (centers_eq inputs nBfs ns [] (by
    rw [List.append_nil, bfsPerDim_perDim hns hd0]) h1 (by simp) height k hk).2.2.1
  have hsame : ∀ i, i ≠ j → digits' i = digits i := fun i hi => by
    rw [hj, Function.update_of_ne hi]
  have hnext : digits' j = digits j + 1 := by rw [hj, Function.update_self]
  have hd : ∀ i, digits i < ns i := by
    intro i
    by_cases hi : i = j
    · have := hd' i
      subst hi
      omega
    · rw [← hsame i hi]
      exact hd' i
  obtain ⟨b0, hb0, hrow⟩ := hgrid digits hd
  obtain rfl : b = b0 := Fin.ext (by rw [hb, hb0])
  obtain ⟨b1, hb1, hrow'⟩ := hgrid digits' hd'
  obtain rfl : b' = b1 := Fin.ext (by rw [hb', hb1])
  have hne : ns j ≠ 1 := by
    have := hd' j
    omega
  obtain ⟨hh0, hh1⟩ := hheight j hne
  have hlog : Real.log height < 0 := Real.log_neg hh0 hh1
  -- the widths are not zero
  have hdef : ∀ (b : Fin k.n) i, k.widths b i = 0 → queries s i ≠ k.centers b i := by
    intro b i hw hq
    unfold Kernels.activations at ha
    simp only [Bool.false_eq_true, false_and, if_false] at ha
    rw [if_pos ⟨s, b, i, hw, hq⟩] at ha
    cases ha
  have hcs : ∀ i, i ≠ j → k.centers b i = k.centers b' i := fun i hi => by
    rw [(hrow i).1, (hrow' i).1, hsame i hi]
  have hws : ∀ i, k.widths b i = k.widths b' i := fun i => by rw [(hrow i).2, (hrow' i).2]
  have hstep : k.centers b' j - k.centers b j =
      (maxInput inputs j - minInput inputs j) / ((ns j : ℝ) - 1) := by
    rw [(hrow j).1, (hrow' j).1, if_neg hne, if_neg hne, hnext]
    push_cast
    ring
  have hw : k.widths b j = (k.centers b' j - k.centers b j) / √(-8 * Real.log height) := by
    rw [(hrow j).2, if_neg hne, hstep]
  have hsq : √(-8 * Real.log height) ^ 2 = -8 * Real.log height := Real.sq_sqrt (by linarith)
  have hsq0 : √(-8 * Real.log height) ≠ 0 := by
    intro h
    rw [h] at hsq
    linarith
  have hdist : k.centers b' j - k.centers b j ≠ 0 := by
    intro h0
    refine hdef b j (by rw [hw, h0, zero_div]) ?_
    rw [hs]
    linarith
  -- one of the two
  have key : ∀ b0 : Fin k.n, (b0 = b ∨ b0 = b') → a s b0 = height := by
    intro b0 hb0
    have hw0 : ∀ i, k.widths b0 i = k.widths b i := by
      rcases hb0 with rfl | rfl
      · exact fun _ => rfl
      · exact fun i => (hws i).symm
    have hq : ∀ i, i ≠ j → queries s i = k.centers b0 i := by
      intro i hi
      rw [hs]
      rcases hb0 with rfl | rfl
      · rw [← hcs i hi]; ring
      · rw [hcs i hi]; ring
    have hqj : (queries s j - k.centers b0 j) ^ 2 = (k.centers b' j - k.centers b j) ^ 2 / 4 := by
      rw [hs]
      rcases hb0 with rfl | rfl <;> ring
    have hnz : ∀ i, k.widths b0 i ≠ 0 := by
      intro i h0
      by_cases hi : i = j
      · subst hi
        rw [hw0, hw] at h0
        rcases div_eq_zero_iff.mp h0 with h | h
        · exact hdist h
        · exact hsq0 h
      · exact hdef b0 i h0 (hq i hi)
    rw [activations_raw ha, rawAct_gaussian k _ _ _ hnz, gaussian]
    have hsum : ∑ i, ((queries s i - k.centers b0 i) / k.widths b0 i) ^ 2 = -2 * Real.log height := by
      rw [Finset.sum_eq_single j]
      · rw [div_pow, hqj, hw0, hw, div_pow, hsq]
        field_simp
        ring
      · intro i _ hi
        rw [hq i hi, sub_self, zero_div]
        norm_num
      · intro h
        exact absurd (Finset.mem_univ j) h
    rw [hsum]
    have : -(-2 * Real.log height) / 2 = Real.log height := by ring
    rw [this, Real.exp_log hh0]
  exact ⟨key b (Or.inl rfl), key b' (Or.inr rfl)⟩

/-- C32: the activations are defined for all queries if the inputs are not constant in a dimension
with several basis functions. -/
theorem C32_defined (inputs : Fin N → Fin d → ℝ) (nBfs : List Nat) (ns : Fin d → Nat)
    (hns : PerDim nBfs ns) (h1 : ∀ i, 1 ≤ ns i) (height : ℝ) (k : Kernels d)
    (hk : getCentersAndWidths inputs nBfs height = .ok k)
    (hr : ∀ i, ns i ≠ 1 → ∃ s s', inputs s i ≠ inputs s' i) :
    (∀ b i, 0 < k.widths b i) ∧
    ∀ {M : Nat} (queries : Fin M → Fin d → ℝ) (normalized : Bool),
      ∃ a, k.activations normalized queries = .ok a := by
  have hN : N ≠ 0 := (getCenters_ok hk).1
  have hd0 : d ≠ 0 := (getCenters_ok hk).2.1
  have hlo := minInput_isLeast inputs hN
  have hhi := maxInput_isGreatest inputs hN
  obtain ⟨hn, hgrid⟩ := C33_grid inputs nBfs ns hns h1 height k hk _ _ hlo hhi
  have hheight := (centers_eq inputs nBfs ns [] (by
    rw [List.append_nil, bfsPerDim_perDim hns hd0]) h1 (by simp) height k hk).2.2.1
  have hw : ∀ b i, 0 < k.widths b i := by
    intro b i
    obtain ⟨digits, ⟨g1, g2⟩, -⟩ := C33_once inputs nBfs ns hns h1 height k hk b
    obtain ⟨b0, hb0, hrow⟩ := hgrid digits g1
    obtain rfl : b = b0 := Fin.ext (by rw [hb0, g2])
    rw [(hrow i).2]
    split
    · exact one_pos
    · rename_i hne
      obtain ⟨s, s', hss⟩ := hr i hne
      have hlt : minInput inputs i < maxInput inputs i := by
        refine lt_of_le_of_ne ((hlo i).2 (hhi i).1) fun he => hss ?_
        have a1 := (hlo i).2 ⟨s, rfl⟩
        have a2 := (hlo i).2 ⟨s', rfl⟩
        have a3 := (hhi i).2 ⟨s, rfl⟩
        have a4 := (hhi i).2 ⟨s', rfl⟩
        simp only at a1 a2 a3 a4
        linarith
      have hlog := Real.log_neg (hheight i hne).1 (hheight i hne).2
      have hn1 : (1 : ℝ) < ns i := by
        have := h1 i
        exact_mod_cast (by omega : 1 < ns i)
      exact div_pos (div_pos (by linarith) (by linarith)) (Real.sqrt_pos.mpr (by linarith))
  refine ⟨hw, fun {M} queries normalized => ?_⟩
  cases normalized with
  | false => exact ⟨_, activations_raw_ok k queries fun b i => (hw b i).ne'⟩
  | true => exact activations_norm_ok k queries fun b i => (hw b i).ne'

/-- Hypotheses: 3 x 4 basis functions for two-dimensional inputs, and two neighbours. -/
example : ∃ k : Kernels 2, getCentersAndWidths (fun (s : Fin 5) i => s * (i + 1 : ℝ)) [3, 4] 0.7 = .ok k ∧
    k.n = 12 ∧ ∃ b b' : Fin k.n, (b : Nat) = 5 ∧ (b' : Nat) = 9 ∧
      ∀ a, k.activations false (fun (_ : Fin 1) i => (k.centers b i + k.centers b' i) / 2) = .ok a →
        a 0 b = 0.7 ∧ a 0 b' = 0.7 := by
  have hns : PerDim [3, 4] (![3, 4] : Fin 2 → Nat) := Or.inl rfl
  have h1 : ∀ i, 1 ≤ (![3, 4] : Fin 2 → Nat) i := by decide
  obtain ⟨k, hk⟩ := C33_succeeds (fun (s : Fin 5) i => s * (i + 1 : ℝ)) [3, 4] ![3, 4] hns h1 0.7
    (by norm_num) (by norm_num) (fun _ _ => by norm_num)
  have hlo := minInput_isLeast (fun (s : Fin 5) (i : Fin 2) => s * (i + 1 : ℝ)) (by norm_num)
  have hhi := maxInput_isGreatest (fun (s : Fin 5) (i : Fin 2) => s * (i + 1 : ℝ)) (by norm_num)
  obtain ⟨hn, hg⟩ := C33_grid _ _ _ hns h1 _ k hk _ _ hlo hhi
  have hn' : k.n = 12 := by rw [hn]; decide
  obtain ⟨b, hb, -⟩ := hg ![1, 1] (by decide)
  obtain ⟨b', hb', -⟩ := hg ![2, 1] (by decide)
  refine ⟨k, hk, hn', b, b', by rw [hb]; decide, by rw [hb']; decide, fun a ha => ?_⟩
  exact C32_intersection _ _ _ hns h1 _ k hk ![1, 1] ![2, 1] 0 (by decide) (by decide) b b' hb hb' _ 0
    (fun i => rfl) a ha

end

end Verif
