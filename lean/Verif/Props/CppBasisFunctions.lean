import Verif.Model.CppBasisFunctions
import Verif.Props.CppApproximators
import Mathlib.Analysis.Matrix.PosDef
import Mathlib.Topology.Algebra.Monoid
import Mathlib.Topology.Order.OrderClosed

/- C95: the basis functions of C++: asymmetric kernels, Gaussians with covariance matrices, cosines. -/

set_option autoImplicit false

namespace Verif

noncomputable section

/-- Specification: the bell curve with center `c`, width `w` and height 1. -/
def Spec.bell (x c w : ℝ) : ℝ := Real.exp (-(x - c) ^ 2 / (2 * w ^ 2))

namespace Cpp

open Spec

variable {n d N : Nat}

theorem gauss_eq_bell (x c : ℝ) {w : ℝ} (hw : w ≠ 0) : gauss x c w = bell x c w := by
  unfold gauss bell
  rw [if_neg hw]
  congr 1
  field_simp
  ring

theorem kernelActivation_eq (asymmetric : Bool) (centers widths : Fin n → Fin d → ℝ) (x : Fin d → ℝ) (b : Fin n) :
    kernelActivation asymmetric centers widths x b =
      ∏ i, gauss (x i) (centers b i) (kernelWidth asymmetric centers widths b i (x i)) := by
  unfold kernelActivation
  rw [← List.prod_ofFn, List.ofFn_eq_map, List.prod_eq_foldl, List.foldl_map]

theorem kernelWidth_ne {centers widths : Fin n → Fin d → ℝ} (hw : ∀ b i, widths b i ≠ 0) (asymmetric : Bool) (b : Fin n)
    (i : Fin d) (x : ℝ) : kernelWidth asymmetric centers widths b i x ≠ 0 := by
  unfold kernelWidth
  split_ifs
  · exact hw _ _
  · exact hw _ _

theorem kernelActivation_pos {centers widths : Fin n → Fin d → ℝ} (hw : ∀ b i, widths b i ≠ 0) (asymmetric : Bool)
    (x : Fin d → ℝ) (b : Fin n) : 0 < kernelActivation asymmetric centers widths x b := by
  rw [kernelActivation_eq]
  refine Finset.prod_pos fun i _ => ?_
  rw [gauss_eq_bell _ _ (kernelWidth_ne hw _ _ _ _)]
  exact Real.exp_pos _

/-- C95: without asymmetric kernels, the activations are those that the function approximators use (C65). -/
theorem C95_symmetric (centers widths : Fin n → Fin d → ℝ) (inputs : Fin N → Fin d → ℝ) (normalized : Bool) :
    kernelActivations centers widths inputs normalized false = activations centers widths inputs normalized := by
  have e : ∀ s b, kernelActivation false centers widths (inputs s) b = rawActivation (centers b) (widths b) (inputs s) := by
    intro s b
    rw [kernelActivation_eq, rawActivation_eq]
    refine Finset.prod_congr rfl fun i _ => ?_
    unfold kernelWidth
    rw [if_neg (by simp)]
    rfl
  unfold kernelActivations activations
  simp only [e]

/-- C95: an asymmetric kernel is a bell curve with the width of the previous kernel left of its center, and with its
own width right of it. The first kernel has one width only. -/
theorem C95_asymmetric (centers widths : Fin n → Fin d → ℝ) (inputs : Fin N → Fin d → ℝ) (hw : ∀ b i, widths b i ≠ 0) :
    ∃ act, kernelActivations centers widths inputs false true = .ok act ∧
      (∀ s (h : 0 < n), act s ⟨0, h⟩ = ∏ i, bell (inputs s i) (centers ⟨0, h⟩ i) (widths ⟨0, h⟩ i)) ∧
      ∀ s b (h : b + 1 < n), act s ⟨b + 1, h⟩ = ∏ i, bell (inputs s i) (centers ⟨b + 1, h⟩ i)
        (if centers ⟨b + 1, h⟩ i ≤ inputs s i then widths ⟨b + 1, h⟩ i else widths ⟨b, Nat.lt_of_succ_lt h⟩ i) := by
  refine ⟨fun s b => kernelActivation true centers widths (inputs s) b, ?_, fun s h => ?_, fun s b h => ?_⟩
  · unfold kernelActivations
    rw [if_neg (by simp), if_neg (by rintro ⟨s, b, i, h, -⟩; exact hw b i h)]
    rfl
  · simp only [kernelActivation_eq]
    refine Finset.prod_congr rfl fun i _ => ?_
    rw [gauss_eq_bell _ _ (kernelWidth_ne hw _ _ _ _)]
    unfold kernelWidth
    rw [if_neg (by simp)]
  · simp only [kernelActivation_eq]
    refine Finset.prod_congr rfl fun i _ => ?_
    rw [gauss_eq_bell _ _ (kernelWidth_ne hw _ _ _ _)]
    unfold kernelWidth
    by_cases hx : centers ⟨b + 1, h⟩ i ≤ inputs s i
    · rw [if_neg (by simp [not_lt.mpr hx]), if_pos hx]
    · rw [if_pos ⟨rfl, not_le.mp hx, Nat.succ_pos _⟩, if_neg hx]
      rfl

/-- C95: activations are continuous, although the width of an asymmetric kernel jumps at its center. -/
theorem C95_continuous (asymmetric : Bool) (centers widths : Fin n → Fin d → ℝ) (hw : ∀ b i, widths b i ≠ 0) (b : Fin n) :
    Continuous fun x : Fin d → ℝ => kernelActivation asymmetric centers widths x b := by
  simp only [kernelActivation_eq]
  refine continuous_finset_prod _ fun i _ => ?_
  have hc : ∀ c {w : ℝ}, w ≠ 0 → Continuous fun x : ℝ => gauss x c w := by
    intro c w h
    simp only [gauss_eq_bell _ c h]
    unfold bell
    fun_prop
  suffices h : Continuous fun x : ℝ => gauss x (centers b i) (kernelWidth asymmetric centers widths b i x) from
    h.comp (continuous_apply i)
  by_cases h : asymmetric = true ∧ 0 < b.val
  · have e : (fun x : ℝ => gauss x (centers b i) (kernelWidth asymmetric centers widths b i x)) =
        fun x => if centers b i ≤ x then gauss x (centers b i) (widths b i)
          else gauss x (centers b i) (widths ⟨b.val - 1, by omega⟩ i) := by
      funext x
      unfold kernelWidth
      by_cases hx : centers b i ≤ x
      · rw [if_neg (by simp [not_lt.mpr hx]), if_pos hx]
      · rw [if_pos ⟨h.1, not_le.mp hx, h.2⟩, if_neg hx]
    rw [e]
    refine Continuous.if_le (hc _ (hw _ _)) (hc _ (hw _ _)) continuous_const continuous_id fun x hx => ?_
    change centers b i = x at hx
    rw [gauss_eq_bell _ _ (hw _ _), gauss_eq_bell _ _ (hw _ _), hx]
    simp [bell]
  · have e : (fun x : ℝ => gauss x (centers b i) (kernelWidth asymmetric centers widths b i x)) =
        fun x => gauss x (centers b i) (widths b i) := by
      funext x
      unfold kernelWidth
      rw [if_neg (by tauto)]
    rw [e]
    exact hc _ (hw _ _)

/-- C95: normalised activations are positive, sum to 1, and have the ratios of the activations. -/
theorem C95_normalized (centers widths : Fin n → Fin d → ℝ) (inputs : Fin N → Fin d → ℝ) (asymmetric : Bool)
    (hw : ∀ b i, widths b i ≠ 0) (hn : 0 < n) :
    ∃ act nact, kernelActivations centers widths inputs false asymmetric = .ok act ∧
      kernelActivations centers widths inputs true asymmetric = .ok nact ∧ ∀ s, (∑ b, nact s b = 1) ∧
        ∀ b, 0 < nact s b ∧ nact s b * ∑ b', act s b' = act s b := by
  have hnan : ¬ ∃ s b i, widths b i = 0 ∧ inputs s i = centers b i := by
    rintro ⟨s, b, i, h, -⟩
    exact hw b i h
  have hpos : ∀ s, 0 < ∑ b, kernelActivation asymmetric centers widths (inputs s) b := fun s =>
    Finset.sum_pos (fun b _ => kernelActivation_pos hw _ _ _) ⟨⟨0, hn⟩, Finset.mem_univ _⟩
  refine ⟨fun s b => kernelActivation asymmetric centers widths (inputs s) b,
    fun s b => kernelActivation asymmetric centers widths (inputs s) b /
      ∑ b', kernelActivation asymmetric centers widths (inputs s) b', ?_, ?_, fun s => ⟨?_, fun b => ⟨?_, ?_⟩⟩⟩
  · unfold kernelActivations
    rw [if_neg (by simp), if_neg hnan]
    rfl
  · unfold kernelActivations
    by_cases h1 : n = 1
    · subst h1
      rw [if_pos ⟨rfl, rfl⟩]
      congr 1
      funext s b
      obtain rfl := Subsingleton.elim b 0
      rw [Fin.sum_univ_one, div_self]
      exact (kernelActivation_pos hw _ _ _).ne'
    · rw [if_neg (by simp [h1]), if_neg hnan]
      simp only [List.sum_ofFn, if_true, (hpos _).ne', if_false]
  · change ∑ b, _ / _ = 1
    rw [← Finset.sum_div, div_self (hpos s).ne']
  · exact div_pos (kernelActivation_pos hw _ _ _) (hpos s)
  · exact div_mul_cancel₀ _ (hpos s).ne'

/-- C95: if a width is the distance to the next center, scaled for an intersection at height `h`, then asymmetric
kernels intersect their neighbours at this height, also if the centers have different distances. -/
theorem C95_meet (c w : Fin n → ℝ) (h : ℝ) (h0 : 0 < h) (h1 : h < 1)
    (hc : ∀ b (hb : b + 1 < n), c ⟨b, Nat.lt_of_succ_lt hb⟩ < c ⟨b + 1, hb⟩)
    (hw : ∀ b (hb : b + 1 < n), w ⟨b, Nat.lt_of_succ_lt hb⟩ =
      Real.sqrt ((c ⟨b + 1, hb⟩ - c ⟨b, Nat.lt_of_succ_lt hb⟩) ^ 2 / (-8 * Real.log h)))
    (b : Nat) (hb : b + 1 < n) :
    let x : Fin 1 → ℝ := fun _ => (c ⟨b, Nat.lt_of_succ_lt hb⟩ + c ⟨b + 1, hb⟩) / 2
    kernelActivation true (fun b _ => c b) (fun b _ => w b) x ⟨b, Nat.lt_of_succ_lt hb⟩ = h ∧
    kernelActivation true (fun b _ => c b) (fun b _ => w b) x ⟨b + 1, hb⟩ = h := by
  intro x
  have hlog : Real.log h < 0 := Real.log_neg h0 h1
  have hd : 0 < c ⟨b + 1, hb⟩ - c ⟨b, Nat.lt_of_succ_lt hb⟩ := sub_pos.mpr (hc b hb)
  have hsq : w ⟨b, Nat.lt_of_succ_lt hb⟩ ^ 2 =
      (c ⟨b + 1, hb⟩ - c ⟨b, Nat.lt_of_succ_lt hb⟩) ^ 2 / (-8 * Real.log h) := by
    rw [hw b hb, Real.sq_sqrt]
    exact div_nonneg (sq_nonneg _) (by linarith)
  have hwne : w ⟨b, Nat.lt_of_succ_lt hb⟩ ≠ 0 := by
    intro e
    rw [e] at hsq
    have : (0 : ℝ) < (c ⟨b + 1, hb⟩ - c ⟨b, Nat.lt_of_succ_lt hb⟩) ^ 2 / (-8 * Real.log h) :=
      div_pos (by positivity) (by linarith)
    rw [← hsq] at this
    simp at this
  have key : ∀ y z : ℝ, (y - z) ^ 2 = ((c ⟨b + 1, hb⟩ - c ⟨b, Nat.lt_of_succ_lt hb⟩) / 2) ^ 2 →
      bell y z (w ⟨b, Nat.lt_of_succ_lt hb⟩) = h := by
    intro y z e
    unfold bell
    rw [hsq, e]
    have : -((c ⟨b + 1, hb⟩ - c ⟨b, Nat.lt_of_succ_lt hb⟩) / 2) ^ 2 /
        (2 * ((c ⟨b + 1, hb⟩ - c ⟨b, Nat.lt_of_succ_lt hb⟩) ^ 2 / (-8 * Real.log h))) = Real.log h := by
      have := hd.ne'
      have := hlog.ne
      field_simp
      norm_num
    rw [this, Real.exp_log h0]
  rw [kernelActivation_eq, kernelActivation_eq, Fin.prod_univ_one, Fin.prod_univ_one]
  constructor
  · unfold kernelWidth
    rw [if_neg (by
      rintro ⟨-, e, -⟩
      have : (c ⟨b, Nat.lt_of_succ_lt hb⟩ + c ⟨b + 1, hb⟩) / 2 < c ⟨b, Nat.lt_of_succ_lt hb⟩ := e
      linarith), gauss_eq_bell _ _ hwne]
    apply key
    change ((c ⟨b, Nat.lt_of_succ_lt hb⟩ + c ⟨b + 1, hb⟩) / 2 - c ⟨b, Nat.lt_of_succ_lt hb⟩) ^ 2 = _
    ring
  · unfold kernelWidth
    rw [if_pos ⟨rfl, by
      change (c ⟨b, Nat.lt_of_succ_lt hb⟩ + c ⟨b + 1, hb⟩) / 2 < c ⟨b + 1, hb⟩
      linarith, Nat.succ_pos _⟩]
    change gauss _ _ (w ⟨b, Nat.lt_of_succ_lt hb⟩) = h
    rw [gauss_eq_bell _ _ hwne]
    apply key
    change ((c ⟨b, Nat.lt_of_succ_lt hb⟩ + c ⟨b + 1, hb⟩) / 2 - c ⟨b + 1, hb⟩) ^ 2 = _
    ring

/-- C95: a kernel with width zero is NaN at its center. One kernel is normalised without computing it. -/
theorem C95_zero_width (centers widths : Fin n → Fin d → ℝ) (inputs : Fin N → Fin d → ℝ) (asymmetric : Bool) (s : Fin N)
    (b : Fin n) (i : Fin d) (hw : widths b i = 0) (hx : inputs s i = centers b i) :
    kernelActivations centers widths inputs false asymmetric = .error .nan ∧
    kernelActivations centers widths inputs true asymmetric = if n = 1 then .ok fun _ _ => 1 else .error .nan := by
  unfold kernelActivations
  have h : ∃ s b i, widths b i = 0 ∧ inputs s i = centers b i := ⟨s, b, i, hw, hx⟩
  constructor
  · rw [if_neg (by simp), if_pos h]
  · by_cases h1 : n = 1
    · rw [if_pos ⟨rfl, h1⟩, if_pos h1]
    · rw [if_neg (by simp [h1]), if_pos h, if_neg h1]

/-- Three kernels with different distances between their centers. -/
example : ∃ w : Fin 3 → ℝ, let x : Fin 1 → ℝ := fun _ => 3
    kernelActivation true (fun b _ => ![0, 2, 4] b) (fun b _ => w b) x 1 = 0.7 ∧
    kernelActivation true (fun b _ => ![0, 2, 4] b) (fun b _ => w b) x 2 = 0.7 := by
  let c : Fin 3 → ℝ := ![0, 2, 4]
  refine ⟨![Real.sqrt ((c 1 - c 0) ^ 2 / (-8 * Real.log 0.7)), Real.sqrt ((c 2 - c 1) ^ 2 / (-8 * Real.log 0.7)), 1], ?_⟩
  have := C95_meet c ![Real.sqrt ((c 1 - c 0) ^ 2 / (-8 * Real.log 0.7)),
    Real.sqrt ((c 2 - c 1) ^ 2 / (-8 * Real.log 0.7)), 1] 0.7 (by norm_num) (by norm_num)
    (by
      intro b hb
      have hb' : b < 2 := by omega
      interval_cases b
      · change (0 : ℝ) < 2
        norm_num
      · change (2 : ℝ) < 4
        norm_num)
    (by
      intro b hb
      have hb' : b < 2 := by omega
      interval_cases b <;> rfl) 1 (by omega)
  have e : (c 1 + c 2) / 2 = 3 := by
    change ((2 : ℝ) + 4) / 2 = 3
    norm_num
  simp only at this
  change kernelActivation true (fun b _ => c b) _ (fun _ => (c 1 + c 2) / 2) 1 = 0.7 ∧
    kernelActivation true (fun b _ => c b) _ (fun _ => (c 1 + c 2) / 2) 2 = 0.7 at this
  rw [e] at this
  exact this

/-! ### Gaussians with covariance matrices -/

/-- The result, if there is one kernel for each mean and enough priors. -/
theorem covarActivations_eq {mus : List (Fin d → ℝ)} {covars : List (Matrix (Fin d) (Fin d) ℝ)} {priors : List ℝ}
    (hm : mus ≠ []) (hl : covars.length = mus.length) (hp : mus.length ≤ priors.length)
    (hd : ∀ covar ∈ covars, covar.det ≠ 0) (inputs : Fin N → Fin d → ℝ) (normalized : Bool) :
    covarActivations mus covars priors inputs normalized =
      if normalized = true ∧ mus.length = 1 then .ok fun _ _ => 1
      else if normalized then normalizeRows fun s b =>
        covarActivation (mus.get b) (covars.get (b.cast hl.symm)) (priors.get (b.castLE hp)) (inputs s)
      else .ok fun s b =>
        covarActivation (mus.get b) (covars.get (b.cast hl.symm)) (priors.get (b.castLE hp)) (inputs s) := by
  unfold covarActivations
  have h0 : ¬ (0 < N ∧ ∃ covar ∈ covars, covar.det = 0) := by
    rintro ⟨-, c, hc, e⟩
    exact hd c hc e
  rw [if_neg (by simpa using hm), dif_pos hl, dif_pos hp, if_neg h0]

/-- C95: the activation is the prior times the exponential of minus half the squared distance, where the distance is
measured with the inverse of the covariance matrix. -/
theorem C95_covar {mus : List (Fin d → ℝ)} {covars : List (Matrix (Fin d) (Fin d) ℝ)} {priors : List ℝ}
    (hm : mus ≠ []) (hl : covars.length = mus.length) (hp : mus.length ≤ priors.length)
    (hd : ∀ covar ∈ covars, covar.det ≠ 0) (inputs : Fin N → Fin d → ℝ) :
    ∃ act, covarActivations mus covars priors inputs false = .ok act ∧
      ∀ s b (v : Fin d → ℝ), (covars.get (b.cast hl.symm)).mulVec v = inputs s - mus.get b →
        act s b = priors.get (b.castLE hp) * Real.exp (-((inputs s - mus.get b) ⬝ᵥ v) / 2) := by
  refine ⟨_, (covarActivations_eq hm hl hp hd inputs false).trans (by rw [if_neg (by simp)]; rfl), fun s b v hv => ?_⟩
  unfold covarActivation
  have hu : IsUnit (covars.get (b.cast hl.symm)).det := isUnit_iff_ne_zero.mpr (hd _ (List.get_mem _ _))
  have : (covars.get (b.cast hl.symm))⁻¹.mulVec (inputs s - mus.get b) = v := by
    rw [← hv, Matrix.mulVec_mulVec, Matrix.nonsing_inv_mul _ hu, Matrix.one_mulVec]
  simp only [this]
  congr 2
  norm_num
  ring

theorem covarActivation_pos (mu : Fin d → ℝ) (covar : Matrix (Fin d) (Fin d) ℝ) {prior : ℝ} (hp : 0 < prior)
    (x : Fin d → ℝ) : 0 < covarActivation mu covar prior x :=
  mul_pos hp (Real.exp_pos _)

theorem normalizeRows_pos {act : Fin N → Fin n → ℝ} (h : ∀ s, 0 < ∑ b, act s b) :
    normalizeRows act = .ok fun s b => act s b / ∑ b', act s b' := by
  unfold normalizeRows
  have hne : ¬ ∃ s, (List.ofFn (act s)).sum = 0 := by
    rintro ⟨s, e⟩
    rw [List.sum_ofFn] at e
    exact (h s).ne' e
  simp only [if_neg hne]
  simp only [List.sum_ofFn]

/-- C95: with positive priors, normalised activations are positive, sum to 1, and have the ratios of the activations. -/
theorem C95_covar_normalized {mus : List (Fin d → ℝ)} {covars : List (Matrix (Fin d) (Fin d) ℝ)} {priors : List ℝ}
    (hm : mus ≠ []) (hl : covars.length = mus.length) (hp : mus.length ≤ priors.length)
    (hd : ∀ covar ∈ covars, covar.det ≠ 0) (hpos : ∀ p ∈ priors, 0 < p) (inputs : Fin N → Fin d → ℝ) :
    ∃ act nact, covarActivations mus covars priors inputs false = .ok act ∧
      covarActivations mus covars priors inputs true = .ok nact ∧ ∀ s, (∑ b, nact s b = 1) ∧
        ∀ b, 0 < nact s b ∧ nact s b * ∑ b', act s b' = act s b := by
  set act : Fin N → Fin mus.length → ℝ := fun s b =>
    covarActivation (mus.get b) (covars.get (b.cast hl.symm)) (priors.get (b.castLE hp)) (inputs s) with hact
  have h1 : ∀ s b, 0 < act s b := fun s b => covarActivation_pos _ _ (hpos _ (List.get_mem _ _)) _
  have h2 : ∀ s, 0 < ∑ b, act s b := fun s =>
    Finset.sum_pos (fun b _ => h1 s b) ⟨⟨0, List.length_pos_iff.mpr hm⟩, Finset.mem_univ _⟩
  refine ⟨act, fun s b => act s b / ∑ b', act s b', ?_, ?_, fun s => ⟨?_, fun b => ⟨?_, ?_⟩⟩⟩
  · rw [covarActivations_eq hm hl hp hd, if_neg (by simp)]
    rfl
  · rw [covarActivations_eq hm hl hp hd]
    by_cases h : mus.length = 1
    · rw [if_pos ⟨rfl, h⟩]
      congr 1
      funext s b
      have hb : ∀ b' : Fin mus.length, b' = b := fun b' => Fin.ext (by omega)
      rw [Finset.sum_eq_single b (fun b' _ hne => absurd (hb b') hne) (fun h => absurd (Finset.mem_univ _) h),
        div_self (h1 s b).ne']
    · rw [if_neg (by simp [h]), if_pos rfl]
      exact normalizeRows_pos h2
  · change ∑ b, _ / _ = 1
    rw [← Finset.sum_div, div_self (h2 s).ne']
  · exact div_pos (h1 s b) (h2 s)
  · exact div_mul_cancel₀ _ (h2 s).ne'

/-- C95: with a positive definite covariance matrix, an activation is largest at the mean, where it is the prior. -/
theorem C95_covar_peak {mus : List (Fin d → ℝ)} {covars : List (Matrix (Fin d) (Fin d) ℝ)} {priors : List ℝ}
    (hm : mus ≠ []) (hl : covars.length = mus.length) (hp : mus.length ≤ priors.length)
    (hd : ∀ covar ∈ covars, covar.PosDef) (hpos : ∀ p ∈ priors, 0 < p) (inputs : Fin N → Fin d → ℝ) :
    ∃ act, covarActivations mus covars priors inputs false = .ok act ∧ ∀ s b,
      act s b ≤ priors.get (b.castLE hp) ∧ (act s b = priors.get (b.castLE hp) ↔ inputs s = mus.get b) := by
  refine ⟨_, (covarActivations_eq hm hl hp (fun c hc => (hd c hc).det_pos.ne') inputs false).trans
    (by rw [if_neg (by simp)]; rfl), fun s b => ?_⟩
  unfold covarActivation
  have hpr := hpos _ (List.get_mem priors (b.castLE hp))
  have hq := (hd _ (List.get_mem covars (b.cast hl.symm))).inv
  set q := (inputs s - mus.get b) ⬝ᵥ (covars.get (b.cast hl.symm))⁻¹.mulVec (inputs s - mus.get b) with hqdef
  have h0 : 0 ≤ q := hq.posSemidef.dotProduct_mulVec_nonneg (inputs s - mus.get b)
  have h1 : q = 0 ↔ inputs s = mus.get b := by
    constructor
    · intro e
      by_contra hne
      have := hq.dotProduct_mulVec_pos (sub_ne_zero.mpr hne)
      simp only [star_trivial] at this
      rw [← hqdef, e] at this
      exact lt_irrefl _ this
    · intro e
      rw [hqdef, e]
      simp
  simp only [← hqdef]
  constructor
  · exact mul_le_of_le_one_right hpr.le (Real.exp_le_one_iff.mpr (by linarith))
  · rw [← h1]
    constructor
    · intro e
      have : Real.exp (-0.5 * q) = 1 := mul_left_cancel₀ hpr.ne' (e.trans (mul_one _).symm)
      rw [Real.exp_eq_one_iff] at this
      linarith
    · intro e
      rw [e]
      simp

theorem normalizeRows_cast {m : Nat} (h : n = m) (act : Fin N → Fin m → ℝ) :
    normalizeRows (fun s (b : Fin n) => act s (b.cast h)) =
      (normalizeRows act).map fun r s b => r s (b.cast h) := by
  subst h
  cases e : normalizeRows act with
  | ok r => exact e
  | error r => exact e

/-- C95: activations do not depend on the coordinates: if means, covariance matrices and inputs are transformed by an
invertible affine map, they do not change. -/
theorem C95_covar_affine {mus : List (Fin d → ℝ)} {covars : List (Matrix (Fin d) (Fin d) ℝ)} {priors : List ℝ}
    (hm : mus ≠ []) (hl : covars.length = mus.length) (hp : mus.length ≤ priors.length)
    (hd : ∀ covar ∈ covars, covar.det ≠ 0) (inputs : Fin N → Fin d → ℝ) (normalized : Bool)
    (A : Matrix (Fin d) (Fin d) ℝ) (hA : A.det ≠ 0) (t : Fin d → ℝ) :
    covarActivations (mus.map fun m => A.mulVec m + t) (covars.map fun c => A * c * A.transpose) priors
        (fun s => A.mulVec (inputs s) + t) normalized =
      (covarActivations mus covars priors inputs normalized).map
        fun r s b => r s (b.cast (List.length_map _)) := by
  have hu : IsUnit A.det := isUnit_iff_ne_zero.mpr hA
  rw [covarActivations_eq hm hl hp hd, covarActivations_eq (by simpa using hm) (by simpa using hl) (by simpa using hp)]
  · have key : (fun s (b : Fin (mus.map fun m => A.mulVec m + t).length) =>
        covarActivation ((mus.map fun m => A.mulVec m + t).get b)
          ((covars.map fun c => A * c * A.transpose).get (b.cast (by simp [hl])))
          (priors.get (b.castLE (by simpa using hp))) (A.mulVec (inputs s) + t)) =
        fun s b => (fun s b => covarActivation (mus.get b) (covars.get (b.cast hl.symm)) (priors.get (b.castLE hp))
          (inputs s)) s (b.cast (List.length_map _)) := by
      funext s b
      simp only [List.get_eq_getElem, List.getElem_map, Fin.val_cast, Fin.val_castLE]
      unfold covarActivation
      set c := covars[(b : Nat)]'(by have := b.2; simp at this; omega) with hc
      have hcu : IsUnit c.det := isUnit_iff_ne_zero.mpr (hd _ (List.getElem_mem _))
      set m := mus[(b : Nat)]'(by have := b.2; simp at this; omega)
      have e1 : A.mulVec (inputs s) + t - (A.mulVec m + t) = A.mulVec (inputs s - m) := by
        rw [Matrix.mulVec_sub]
        abel
      have e2 : (A * c * A.transpose)⁻¹ = A.transpose⁻¹ * c⁻¹ * A⁻¹ := by
        rw [Matrix.mul_inv_rev, Matrix.mul_inv_rev, Matrix.mul_assoc]
      have e3 : A.mulVec (inputs s - m) ⬝ᵥ (A * c * A.transpose)⁻¹.mulVec (A.mulVec (inputs s - m)) =
          (inputs s - m) ⬝ᵥ c⁻¹.mulVec (inputs s - m) := by
        rw [e2, Matrix.mulVec_mulVec, Matrix.mul_assoc, Matrix.nonsing_inv_mul _ hu, Matrix.mul_one,
          ← Matrix.mulVec_mulVec, Matrix.dotProduct_mulVec, ← Matrix.mulVec_transpose, Matrix.mulVec_mulVec,
          ← Matrix.transpose_nonsing_inv, Matrix.transpose_transpose, Matrix.nonsing_inv_mul _ hu, Matrix.one_mulVec]
      simp only [e1, e3]
    cases normalized with
    | false =>
      rw [if_neg (by simp), if_neg (by simp)]
      simp only [Bool.false_eq_true, if_false]
      rw [key]
      rfl
    | true =>
      by_cases h1 : mus.length = 1
      · rw [if_pos (⟨rfl, by simpa using h1⟩ : true = true ∧ (mus.map fun m => A.mulVec m + t).length = 1),
          if_pos ⟨rfl, h1⟩]
        rfl
      · rw [if_neg (fun h => h1 (by simpa using h.2) : ¬ (true = true ∧ (mus.map fun m => A.mulVec m + t).length = 1)),
          if_neg (fun h => h1 h.2 : ¬ (true = true ∧ mus.length = 1))]
        simp only [if_true]
        rw [key]
        exact normalizeRows_cast (List.length_map _) fun s b =>
          covarActivation (mus.get b) (covars.get (b.cast hl.symm)) (priors.get (b.castLE hp)) (inputs s)
  · intro c' hc'
    obtain ⟨c, hc, rfl⟩ := List.mem_map.mp hc'
    rw [Matrix.det_mul, Matrix.det_mul, Matrix.det_transpose]
    exact mul_ne_zero (mul_ne_zero hA (hd c hc)) hA

/-- C95: with a diagonal covariance matrix and priors 1, the activations are those of the function approximators (C65):
the variances are the squares of the widths. -/
theorem C95_covar_diagonal (centers widths : Fin n → Fin d → ℝ) (hn : 0 < n) (hw : ∀ b i, widths b i ≠ 0)
    (inputs : Fin N → Fin d → ℝ) (normalized : Bool) :
    covarActivations (List.ofFn centers) (List.ofFn fun b => Matrix.diagonal fun i => widths b i ^ 2)
        (List.replicate n 1) inputs normalized =
      (activations centers widths inputs normalized).map fun r s b => r s (b.cast List.length_ofFn) := by
  have hd : ∀ c ∈ List.ofFn fun b => Matrix.diagonal fun i => widths b i ^ 2, c.det ≠ 0 := by
    intro c hc
    obtain ⟨b, rfl⟩ := (List.mem_ofFn' _ _).mp hc
    rw [Matrix.det_diagonal]
    exact Finset.prod_ne_zero_iff.mpr fun i _ => pow_ne_zero _ (hw b i)
  have hnan : ¬ ∃ s b i, widths b i = 0 ∧ inputs s i = centers b i := by
    rintro ⟨s, b, i, h, -⟩
    exact hw b i h
  have hm : List.ofFn centers ≠ [] := by
    intro e
    have := congrArg List.length e
    simp at this
    omega
  rw [covarActivations_eq hm (by simp) (by simp) hd]
  have key : (fun s (b : Fin (List.ofFn centers).length) => covarActivation ((List.ofFn centers).get b)
        ((List.ofFn fun b => Matrix.diagonal fun i => widths b i ^ 2).get (b.cast (by simp)))
        ((List.replicate n (1 : ℝ)).get (b.castLE (by simp))) (inputs s)) =
      fun s b => (fun s b => rawActivation (centers b) (widths b) (inputs s)) s (b.cast List.length_ofFn) := by
    funext s b
    simp only [List.get_eq_getElem, List.getElem_ofFn, List.getElem_replicate, Fin.val_cast, Fin.val_castLE]
    rw [rawActivation_eq]
    unfold covarActivation
    rw [one_mul]
    have e : ∀ i, actFactor (inputs s i) (centers (b.cast List.length_ofFn) i) (widths (b.cast List.length_ofFn) i) =
        bell (inputs s i) (centers (b.cast List.length_ofFn) i) (widths (b.cast List.length_ofFn) i) := fun i =>
      gauss_eq_bell _ _ (hw _ _)
    simp only [e]
    unfold bell
    rw [← Real.exp_sum, Matrix.inv_diagonal]
    congr 1
    rw [dotProduct, Finset.mul_sum]
    refine Finset.sum_congr rfl fun i _ => ?_
    rw [Matrix.mulVec_diagonal]
    have hi : Ring.inverse (fun i => widths (b.cast List.length_ofFn) i ^ 2) i =
        (widths (b.cast List.length_ofFn) i ^ 2)⁻¹ := by
      have hu : IsUnit (fun i => widths (b.cast List.length_ofFn) i ^ 2) :=
        isUnit_iff_exists_inv.mpr ⟨fun i => (widths (b.cast List.length_ofFn) i ^ 2)⁻¹,
          funext fun i => mul_inv_cancel₀ (pow_ne_zero _ (hw _ _))⟩
      have h1 := congrFun (Ring.mul_inverse_cancel _ hu) i
      simp only [Pi.mul_apply, Pi.one_apply] at h1
      exact eq_inv_of_mul_eq_one_right h1
    have hi' : Ring.inverse (fun i => widths ⟨(b : Nat), by have := b.2; simpa using this⟩ i ^ 2) i =
        (widths (b.cast List.length_ofFn) i ^ 2)⁻¹ := hi
    rw [hi']
    change -0.5 * ((inputs s i - centers (b.cast List.length_ofFn) i) * (_ * (inputs s i - centers (b.cast List.length_ofFn) i))) = _
    have := hw (b.cast List.length_ofFn) i
    field_simp
    ring
  unfold activations
  cases normalized with
  | false =>
    rw [if_neg (by simp), if_neg (by simp), if_neg hnan]
    simp only [Bool.false_eq_true, if_false]
    rw [key]
    rfl
  | true =>
    by_cases h1 : n = 1
    · rw [if_pos ⟨rfl, by simpa using h1⟩, if_pos ⟨rfl, h1⟩]
      rfl
    · have hpos : ∀ s, 0 < ∑ b, rawActivation (centers b) (widths b) (inputs s) := by
        intro s
        refine Finset.sum_pos (fun b _ => ?_) ⟨⟨0, hn⟩, Finset.mem_univ _⟩
        rw [rawActivation_eq]
        refine Finset.prod_pos fun i _ => ?_
        have : actFactor (inputs s i) (centers b i) (widths b i) = bell (inputs s i) (centers b i) (widths b i) :=
          gauss_eq_bell _ _ (hw _ _)
        rw [this]
        exact Real.exp_pos _
      rw [if_neg (fun h => h1 (by simpa using h.2) : ¬ (true = true ∧ (List.ofFn centers).length = 1)),
        if_neg (fun h => h1 h.2 : ¬ (true = true ∧ n = 1)), if_neg hnan]
      simp only [if_true]
      rw [key]
      refine (normalizeRows_cast List.length_ofFn fun s b => rawActivation (centers b) (widths b) (inputs s)).trans ?_
      rw [normalizeRows_pos hpos]
      simp only [List.sum_ofFn, (hpos _).ne', if_false]

/-- The property as one would expect it: a row is normalised if its sum is not zero. -/
def C95_covar_rows_statement : Prop :=
  ∀ (d N : Nat) (mus : List (Fin d → ℝ)) (covars : List (Matrix (Fin d) (Fin d) ℝ)) (priors : List ℝ)
    (inputs : Fin N → Fin d → ℝ) (act nact : Fin N → Fin mus.length → ℝ),
    covarActivations mus covars priors inputs false = .ok act →
    covarActivations mus covars priors inputs true = .ok nact → ∀ s, (∑ b, act s b ≠ 0) → ∑ b, nact s b = 1

/-- C95: it does not hold: if no basis function is active for one sample, a number is added to the sums for all
samples, whose activations do not sum to 1 any more. With exact numbers this needs priors that are not positive; with
floating point numbers it suffices that one sample is far from all means, so that exp returns 0. -/
theorem C95_covar_rows_refuted : ¬ C95_covar_rows_statement := by
  intro h
  have hd : ∀ c ∈ [(1 : Matrix (Fin 1) (Fin 1) ℝ), 1], c.det ≠ 0 := by simp
  have ef := covarActivations_eq (mus := [fun _ : Fin 1 => 0, fun _ => 1]) (covars := [1, 1]) (priors := [1, -1])
    (by simp) rfl le_rfl hd (fun (s : Fin 2) _ => if s = 0 then 1 / 2 else 0)
  have hE : Real.exp (-0.5) < 1 := Real.exp_lt_one_iff.mpr (by norm_num)
  set act : Fin 2 → Fin 2 → ℝ := fun s b => covarActivation ([fun _ : Fin 1 => 0, fun _ => 1].get b)
    ([(1 : Matrix (Fin 1) (Fin 1) ℝ), 1].get b) ([(1 : ℝ), -1].get b) (fun _ => if s = 0 then 1 / 2 else 0) with hact
  have a00 : act 0 0 + act 0 1 = 0 := by
    simp [hact, covarActivation, dotProduct, Matrix.mulVec]
    norm_num
  have a1 : act 1 0 + act 1 1 = 1 - Real.exp (-0.5) := by
    simp [hact, covarActivation, dotProduct, Matrix.mulVec]
    norm_num
    ring
  have s0 : (List.ofFn (act 0)).sum = 0 := by
    rw [List.sum_ofFn, Fin.sum_univ_two, a00]
  have s1 : (List.ofFn (act 1)).sum = 1 - Real.exp (-0.5) := by
    rw [List.sum_ofFn, Fin.sum_univ_two, a1]
  have hsup : (⨆ t, (List.ofFn (act t)).sum) = 1 - Real.exp (-0.5) := by
    apply le_antisymm
    · refine ciSup_le fun t => ?_
      fin_cases t
      · change (List.ofFn (act 0)).sum ≤ _
        rw [s0]
        linarith
      · exact s1.le
    · rw [← s1]
      exact le_ciSup (f := fun t => (List.ofFn (act t)).sum) (Set.finite_range _).bddAbove 1
  have hz : ∃ s, (List.ofFn (act s)).sum = 0 := ⟨0, s0⟩
  have hn : normalizeRows act = .ok fun s b => act s b / ((List.ofFn (act s)).sum + (1 - Real.exp (-0.5)) / 100000) := by
    unfold normalizeRows
    simp only [if_pos hz, hsup]
    rw [if_neg]
    rintro ⟨s, e⟩
    fin_cases s
    · change (List.ofFn (act 0)).sum + _ = 0 at e
      rw [s0] at e
      linarith
    · change (List.ofFn (act 1)).sum + _ = 0 at e
      rw [s1] at e
      linarith
  have := h 1 2 [fun _ : Fin 1 => 0, fun _ => 1] _ _ _ act _ ((ef false).trans (by rw [if_neg (by simp)]; rfl))
    ((ef true).trans ((if_neg (by simp)).trans ((if_pos rfl).trans hn))) 1 (by
      refine ((Fin.sum_univ_two (act 1)).trans a1).trans_ne ?_
      linarith)
  have e := (Fin.sum_univ_two fun b => act 1 b / ((List.ofFn (act 1)).sum + (1 - Real.exp (-0.5)) / 100000)).symm.trans this
  rw [← add_div, a1, s1] at e
  have h1 : 1 - Real.exp (-0.5) ≠ 0 := by linarith
  field_simp at e
  linarith

/-- C95: what the function asserts. -/
theorem C95_covar_errors (mus : List (Fin d → ℝ)) (covars : List (Matrix (Fin d) (Fin d) ℝ)) (priors : List ℝ)
    (inputs : Fin N → Fin d → ℝ) (normalized : Bool) :
    (mus = [] → covarActivations mus covars priors inputs normalized = .error .assertion) ∧
    (covars.length ≠ mus.length → covarActivations mus covars priors inputs normalized = .error .assertion) ∧
    (covars.length = mus.length → priors.length < mus.length → (normalized = true → mus.length ≠ 1) →
      covarActivations mus covars priors inputs normalized = .error .null) ∧
    (mus ≠ [] → covars.length = mus.length → mus.length ≤ priors.length → 0 < N → (∃ c ∈ covars, c.det = 0) →
      (normalized = true → mus.length ≠ 1) → covarActivations mus covars priors inputs normalized = .error .nan) := by
  unfold covarActivations
  refine ⟨fun h => if_pos (by simp [h]), fun h => ?_, fun h1 h2 h3 => ?_, fun h0 h1 h2 hN hc h3 => ?_⟩
  · by_cases hm : mus.length = 0
    · rw [if_pos hm]
    · rw [if_neg hm, dif_neg h]
  · rw [if_neg (by omega), dif_pos h1, if_neg (by tauto), dif_neg (by omega)]
  · rw [if_neg (by simpa using h0), dif_pos h1, if_neg (by tauto), dif_pos h2, if_pos ⟨hN, hc⟩]

/-! ### Cosines -/

/-- C95: both functions for cosines compute the cosine of the phase plus the product of frequencies and input. -/
theorem C95_cosine (frequencies : Fin n → Fin d → ℝ) (phases : Fin n → ℝ) (hn : 0 < n) (inputs : Fin N → Fin d → ℝ) :
    ∃ act, cosineActivations (List.ofFn frequencies) (List.ofFn phases) inputs = .ok act ∧
      cosineMatrix (Matrix.of frequencies) phases (Matrix.of inputs) =
        .ok (Matrix.of fun s b => act s (b.cast List.length_ofFn.symm)) ∧
      ∀ s b, act s (b.cast List.length_ofFn.symm) = Real.cos (∑ i, frequencies b i * inputs s i + phases b) := by
  refine ⟨fun s b => Real.cos (frequencies (b.cast List.length_ofFn) ⬝ᵥ inputs s + phases (b.cast List.length_ofFn)), ?_, ?_,
    fun s b => rfl⟩
  · unfold cosineActivations
    rw [if_neg (by simp; omega), dif_pos (by simp)]
    congr 1
    funext s b
    simp only [List.get_eq_getElem, List.getElem_ofFn, Fin.val_cast]
    rfl
  · unfold cosineMatrix
    rw [dif_pos rfl]
    congr 1
    funext s b
    change Real.cos (inputs s ⬝ᵥ frequencies b + phases b) = Real.cos (frequencies b ⬝ᵥ inputs s + phases b)
    rw [dotProduct_comm]

/-- C95: cosines do not change if the product of the frequencies and the input changes by whole periods. -/
theorem C95_cosine_period (frequencies : Fin n → Fin d → ℝ) (phases : Fin n → ℝ) (inputs inputs' : Fin N → Fin d → ℝ)
    (k : Fin N → Fin n → ℤ) (h : ∀ s b, ∑ i, frequencies b i * (inputs' s i - inputs s i) = k s b * (2 * Real.pi)) :
    cosineMatrix (Matrix.of frequencies) phases (Matrix.of inputs') =
      cosineMatrix (Matrix.of frequencies) phases (Matrix.of inputs) := by
  unfold cosineMatrix
  rw [dif_pos rfl, dif_pos rfl]
  congr 1
  funext s b
  change Real.cos (∑ i, inputs' s i * frequencies b i + phases b) = Real.cos (∑ i, inputs s i * frequencies b i + phases b)
  have e : ∑ i, inputs' s i * frequencies b i + phases b =
      ∑ i, inputs s i * frequencies b i + phases b + k s b * (2 * Real.pi) := by
    rw [← h s b, add_right_comm, ← Finset.sum_add_distrib]
    congr 1
    refine Finset.sum_congr rfl fun i _ => ?_
    ring
  rw [e, Real.cos_add_int_mul_two_pi]

/-- C95: what the functions for cosines assert. -/
theorem C95_cosine_errors {m : Nat} (frequencies : Fin n → Fin d → ℝ) (phases : Fin m → ℝ) (inputs : Fin N → Fin d → ℝ)
    (h : m ≠ n) :
    cosineActivations (List.ofFn frequencies) (List.ofFn phases) inputs = .error .assertion ∧
    cosineMatrix (Matrix.of frequencies) phases (Matrix.of inputs) = .error .assertion ∧
    cosineActivations ([] : List (Fin d → ℝ)) [] inputs = .error .assertion := by
  refine ⟨?_, dif_neg h, rfl⟩
  unfold cosineActivations
  by_cases hn : (List.ofFn frequencies).length = 0
  · rw [if_pos hn]
  · rw [if_neg hn, dif_neg (by simpa using h)]

/-- The hypotheses can be met: two kernels in the plane, one of them with correlated dimensions. -/
example : ∀ c ∈ [!![2, 1; 1, 2], (1 : Matrix (Fin 2) (Fin 2) ℝ)], c.det ≠ 0 := by
  intro c hc
  simp only [List.mem_cons, List.not_mem_nil, or_false] at hc
  rcases hc with rfl | rfl
  · rw [Matrix.det_fin_two_of]
    norm_num
  · simp

end Cpp

end

end Verif
