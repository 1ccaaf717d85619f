import Verif.Model.Exploration
import Verif.Spec.Exploration
import Verif.Props.SessionUpdates
import Verif.Props.SessionCurve
import Verif.Props.Updates
import Mathlib.Analysis.Matrix.Spectrum
import Mathlib.Analysis.Matrix.PosDef

/- C91: max_eigen_value and the exploration curve. -/

set_option autoImplicit false

namespace Verif

open Spec

variable {n : Nat} {D : Type}

/-! ### The largest eigenvalue -/

theorem foldl_max_mem (l : List ℝ) (x : ℝ) : l.foldl max x ∈ x :: l ∧ ∀ y ∈ x :: l, y ≤ l.foldl max x := by
  induction l generalizing x with
  | nil => simp
  | cons a l ih =>
    obtain ⟨h1, h2⟩ := ih (max x a)
    rw [List.foldl_cons]
    refine ⟨?_, fun y hy => ?_⟩
    · rw [List.mem_cons] at h1
      rcases h1 with h | h
      · rw [h]
        rcases max_choice x a with e | e <;> rw [e] <;> simp
      · exact List.mem_cons_of_mem _ (List.mem_cons_of_mem _ h)
    · have hm := h2 _ (List.mem_cons_self ..)
      rcases List.mem_cons.mp hy with rfl | hy
      · exact (le_max_left _ _).trans hm
      rcases List.mem_cons.mp hy with rfl | hy
      · exact (le_max_right _ _).trans hm
      · exact h2 y (List.mem_cons_of_mem _ hy)

theorem pyMax_some {l : List ℝ} {x : ℝ} (h : pyMax l = some x) : x ∈ l ∧ ∀ y ∈ l, y ≤ x := by
  cases l with
  | nil => cases h
  | cons a l =>
    cases h
    exact foldl_max_mem l a

theorem isHermitian {c : Matrix (Fin n) (Fin n) ℝ} (h : c.IsSymm) : c.IsHermitian := by
  rw [Matrix.IsHermitian, Matrix.conjTranspose_eq_transpose_of_trivial]
  exact h

/-- C91: the eigenvalues. -/
theorem C91_eigenvalues (c : Matrix (Fin n) (Fin n) ℝ) (x : ℝ) :
    x ∈ eigvals c ↔ ∃ v : Fin n → ℝ, v ≠ 0 ∧ ∀ i, ∑ j, c i j * v j = x * v i := by
  unfold eigvals
  rw [Multiset.mem_toList, Polynomial.mem_roots (Matrix.charpoly_monic c).ne_zero, Polynomial.IsRoot,
    Matrix.eval_charpoly, ← Matrix.exists_mulVec_eq_zero_iff]
  refine exists_congr fun v => and_congr_right fun _ => ?_
  rw [Matrix.sub_mulVec, sub_eq_zero, funext_iff]
  refine forall_congr' fun i => ?_
  rw [Matrix.scalar_apply, Matrix.mulVec_diagonal, eq_comm]
  rfl

theorem varianceIn_eq (c : Matrix (Fin n) (Fin n) ℝ) (v : Fin n → ℝ) : varianceIn c v = v ⬝ᵥ c.mulVec v := by
  unfold varianceIn dotProduct Matrix.mulVec dotProduct
  refine Finset.sum_congr rfl fun i _ => ?_
  rw [Finset.mul_sum]
  exact Finset.sum_congr rfl fun j _ => by ring

theorem isDirection_eq (v : Fin n → ℝ) : IsDirection v ↔ v ⬝ᵥ v = 1 := by
  unfold IsDirection dotProduct
  simp only [pow_two]

theorem largest_of_symm {c : Matrix (Fin n) (Fin n) ℝ} (h : c.IsSymm) {x : ℝ} (hx : pyMax (eigvals c) = some x) :
    LargestVariance c x := by
  obtain ⟨h1, h2⟩ := pyMax_some hx
  constructor
  · obtain ⟨v, hv, he⟩ := (C91_eigenvalues c x).mp h1
    have hpos : 0 < v ⬝ᵥ v := by
      obtain ⟨i, hi⟩ := Function.ne_iff.mp hv
      refine Finset.sum_pos' (fun j _ => mul_self_nonneg _) ⟨i, Finset.mem_univ _, ?_⟩
      exact mul_self_pos.mpr hi
    have hc : c.mulVec v = x • v := funext he
    refine ⟨(√(v ⬝ᵥ v))⁻¹ • v, ?_, ?_⟩
    · rw [isDirection_eq, smul_dotProduct, dotProduct_smul, smul_eq_mul, smul_eq_mul, ← mul_assoc, ← mul_inv,
        Real.mul_self_sqrt hpos.le, inv_mul_cancel₀ hpos.ne']
    · rw [varianceIn_eq, Matrix.mulVec_smul, smul_dotProduct, dotProduct_smul, hc, dotProduct_smul, smul_eq_mul,
        smul_eq_mul, smul_eq_mul, ← mul_assoc, ← mul_inv, Real.mul_self_sqrt hpos.le, mul_comm x, ← mul_assoc,
        inv_mul_cancel₀ hpos.ne', one_mul]
  · intro v hv
    have hh : (x • (1 : Matrix (Fin n) (Fin n) ℝ) - c).IsHermitian := isHermitian ((Matrix.isSymm_one.smul x).sub h)
    have hp : (x • (1 : Matrix (Fin n) (Fin n) ℝ) - c).PosSemidef := by
      rw [hh.posSemidef_iff_eigenvalues_nonneg]
      intro i
      have hm := hh.mulVec_eigenvectorBasis i
      have hne : WithLp.ofLp (hh.eigenvectorBasis i) ≠ 0 := by
        rw [Ne, WithLp.ofLp_eq_zero]
        exact hh.eigenvectorBasis.orthonormal.ne_zero i
      have : x - hh.eigenvalues i ∈ eigvals c := by
        rw [C91_eigenvalues]
        refine ⟨_, hne, fun k => ?_⟩
        have hk := congrFun hm k
        rw [Matrix.sub_mulVec, Matrix.smul_mulVec, Matrix.one_mulVec] at hk
        simp only [Pi.sub_apply, Pi.smul_apply, smul_eq_mul] at hk
        have : c.mulVec (WithLp.ofLp (hh.eigenvectorBasis i)) k = ∑ j, c k j * WithLp.ofLp (hh.eigenvectorBasis i) j :=
          rfl
        rw [← this, sub_mul]
        linarith
      have := h2 _ this
      show (0 : ℝ) ≤ _
      linarith
    have := hp.dotProduct_mulVec_nonneg v
    rw [star_trivial, Matrix.sub_mulVec, Matrix.smul_mulVec, Matrix.one_mulVec, dotProduct_sub, dotProduct_smul,
      (isDirection_eq v).mp hv, ← varianceIn_eq, smul_eq_mul, mul_one] at this
    linarith

theorem Spec.LargestVariance.unique {c : Matrix (Fin n) (Fin n) ℝ} {x y : ℝ} (hx : LargestVariance c x)
    (hy : LargestVariance c y) : x = y := by
  obtain ⟨v, h1, h2⟩ := hx.attained
  obtain ⟨w, h3, h4⟩ := hy.attained
  exact le_antisymm (h2 ▸ hy.bound v h1) (h4 ▸ hx.bound w h3)

/-- C91: max_eigen_value is the largest variance among all directions. -/
theorem C91_max (d : Dist n) (h : d.covar.IsSymm) (x : ℝ) :
    d.maxEigenValue = .ok x ↔ LargestVariance d.covar x := by
  unfold Dist.maxEigenValue
  cases hx : pyMax (eigvals d.covar) with
  | some y =>
    have hy := largest_of_symm h hx
    constructor
    · intro e; cases e; exact hy
    · intro e; rw [hy.unique e]
  | none =>
    simp only [reduceCtorEq, false_iff]
    rintro ⟨⟨v, hv, -⟩, -⟩
    have hn : n ≠ 0 := by
      rintro rfl
      simp [IsDirection] at hv
    have : eigvals d.covar = [] := by
      cases hl : eigvals d.covar with
      | nil => rfl
      | cons a l => rw [hl] at hx; cases hx
    have hc := congrArg List.length this
    unfold eigvals at hc
    rw [Multiset.length_toList, (isHermitian h).roots_charpoly_eq_eigenvalues] at hc
    simp at hc
    exact hn hc

theorem varianceIn_single (c : Matrix (Fin n) (Fin n) ℝ) (a : Fin n) : varianceIn c (Pi.single a 1) = c a a := by
  rw [varianceIn_eq, Matrix.mulVec_single_one, single_one_dotProduct]
  rfl

theorem isDirection_single (a : Fin n) : IsDirection (Pi.single a (1 : ℝ)) := by
  rw [isDirection_eq, single_one_dotProduct, Pi.single_eq_same]

/-- The largest variance of a diagonal matrix is its largest entry. -/
theorem largest_diagonal {c : Matrix (Fin n) (Fin n) ℝ} (h : ∀ a b, a ≠ b → c a b = 0) (x : ℝ) :
    LargestVariance c x ↔ (∃ a, c a a = x) ∧ ∀ a, c a a ≤ x := by
  have hv (v : Fin n → ℝ) : varianceIn c v = ∑ a, v a ^ 2 * c a a := by
    unfold varianceIn
    refine Finset.sum_congr rfl fun a _ => ?_
    rw [Finset.sum_eq_single a]
    · ring
    · intro b _ hb
      rw [h a b (Ne.symm hb)]
      ring
    · simp
  constructor
  · intro hx
    have hb (a : Fin n) : c a a ≤ x := by
      rw [← varianceIn_single c a]
      exact hx.bound _ (isDirection_single a)
    refine ⟨?_, hb⟩
    by_contra hne
    push Not at hne
    obtain ⟨v, hd, e⟩ := hx.attained
    have hlt (a : Fin n) : c a a < x := lt_of_le_of_ne (hb a) (hne a)
    have : ∑ a, v a ^ 2 * c a a < ∑ a, v a ^ 2 * x := by
      apply Finset.sum_lt_sum
      · exact fun a _ => mul_le_mul_of_nonneg_left (hb a) (sq_nonneg _)
      · have : ∃ a ∈ Finset.univ, v a ^ 2 ≠ 0 := by
          apply Finset.exists_ne_zero_of_sum_ne_zero
          rw [hd]
          exact one_ne_zero
        obtain ⟨a, ha, hne⟩ := this
        exact ⟨a, ha, mul_lt_mul_of_pos_left (hlt a) (lt_of_le_of_ne (sq_nonneg _) (Ne.symm hne))⟩
    rw [← hv, e, ← Finset.sum_mul, hd, one_mul] at this
    exact lt_irrefl _ this
  · rintro ⟨⟨a, rfl⟩, hb⟩
    refine ⟨⟨_, isDirection_single a, varianceIn_single c a⟩, fun v hd => ?_⟩
    rw [hv]
    calc ∑ b, v b ^ 2 * c b b ≤ ∑ b, v b ^ 2 * c a a :=
          Finset.sum_le_sum fun b _ => mul_le_mul_of_nonneg_left (hb b) (sq_nonneg _)
      _ = c a a := by rw [← Finset.sum_mul, hd, one_mul]

/-- Hypotheses: a covariance matrix with entries off the diagonal. -/
example : (⟨fun _ => 0, !![2, 1; 1, 2], none⟩ : Dist 2).maxEigenValue = .ok 3 := by
  rw [C91_max _ (by ext i j; fin_cases i <;> fin_cases j <;> rfl)]
  constructor
  · refine ⟨fun _ => √(1 / 2), ?_, ?_⟩
    · norm_num [IsDirection, Real.sq_sqrt]
    · have h := Real.mul_self_sqrt (show (0 : ℝ) ≤ 1 / 2 by norm_num)
      simp only [varianceIn, Fin.sum_univ_two, Matrix.of_apply, Matrix.cons_val]
      linear_combination 6 * h
  · intro v hv
    simp only [IsDirection, varianceIn, Fin.sum_univ_two, Matrix.of_apply, Matrix.cons_val] at hv ⊢
    nlinarith [sq_nonneg (v 0 - v 1)]

/-- C91: it is defined for all distributions with at least one parameter. -/
theorem C91_defined (d : Dist n) (h : d.covar.IsSymm) :
    (n = 0 → d.maxEigenValue = .error .valueError) ∧ (0 < n → ∃ x, d.maxEigenValue = .ok x) := by
  have hl : (eigvals d.covar).length = n := by
    unfold eigvals
    rw [Multiset.length_toList, (isHermitian h).roots_charpoly_eq_eigenvalues]
    simp
  unfold Dist.maxEigenValue
  constructor
  · intro hn
    rw [List.length_eq_zero_iff.mp (hl.trans hn)]
    rfl
  · intro hn
    cases hx : eigvals d.covar with
    | nil => rw [hx] at hl; simp at hl; omega
    | cons a l => exact ⟨_, rfl⟩

/-! ### Exploration -/

/-- C91: the values of the exploration curve. -/
theorem C91_exploration (d : Dist n) (h : d.covar.IsSymm) (x : ℝ) :
    (d.maxEigenValue >>= npSqrt) = .ok x ↔ Exploration d.covar x := by
  constructor
  · intro e
    cases hm : d.maxEigenValue with
    | error e' => rw [hm] at e; cases e
    | ok y =>
      rw [hm] at e
      change npSqrt y = _ at e
      unfold npSqrt at e
      split at e
      · cases e
      · rename_i hy
        cases e
        refine ⟨Real.sqrt_nonneg _, ?_⟩
        rw [Real.sq_sqrt (not_lt.mp hy)]
        exact (C91_max d h y).mp hm
  · rintro ⟨h0, hl⟩
    rw [(C91_max d h _).mpr hl]
    change npSqrt _ = _
    unfold npSqrt
    rw [if_neg (not_lt.mpr (sq_nonneg x)), Real.sqrt_sq h0]

/-- C91: with the covariance matrices that the updaters keep (C51, C52) it is always defined. -/
theorem C91_exploration_defined (d : Dist n) (h : d.covar.PosSemidef) (hn : 0 < n) :
    ∃ x, Exploration d.covar x := by
  have hs : d.covar.IsSymm := by
    have := h.isHermitian
    rwa [Matrix.IsHermitian, Matrix.conjTranspose_eq_transpose_of_trivial] at this
  obtain ⟨y, hy⟩ := (C91_defined d hs).2 hn
  have hl := (C91_max d hs y).mp hy
  obtain ⟨v, -, e⟩ := hl.attained
  have h0 : 0 ≤ y := by
    have := h.dotProduct_mulVec_nonneg v
    rwa [star_trivial, ← varianceIn_eq, e] at this
  exact ⟨√y, Real.sqrt_nonneg _, by rwa [Real.sq_sqrt h0]⟩

/-- C91: if the variance is negative in all directions, there is no standard deviation. -/
theorem C91_exploration_nan (d : Dist n) (h : d.covar.IsSymm) (x : ℝ) (hx : LargestVariance d.covar x) (h0 : x < 0) :
    (d.maxEigenValue >>= npSqrt) = .error .nanResult := by
  rw [(C91_max d h x).mpr hx]
  exact if_pos h0

/-- C91: the initial distribution of the demos, whose covariance is sigma squared times the unit matrix. -/
theorem C91_initial (mean : Fin n → ℝ) (sigma : ℝ) (hn : 0 < n) (b) :
    ((⟨mean, (sigma ^ 2) • 1, b⟩ : Dist n).maxEigenValue >>= npSqrt) = .ok |sigma| := by
  rw [C91_exploration _ (Matrix.isSymm_one.smul _)]
  refine ⟨abs_nonneg _, ?_⟩
  rw [largest_diagonal (fun a b hab => by simp [Matrix.one_apply_ne hab])]
  simp only [sq_abs, Matrix.smul_apply, Matrix.one_apply_eq, smul_eq_mul, mul_one]
  exact ⟨⟨⟨0, hn⟩, trivial⟩, fun _ => le_refl _⟩

theorem Spec.Exploration.smul {c : Matrix (Fin n) (Fin n) ℝ} {x : ℝ} (h : Exploration c x) (r : ℝ) :
    Exploration ((r ^ 2) • c) (|r| * x) := by
  have e (v : Fin n → ℝ) : varianceIn ((r ^ 2) • c) v = r ^ 2 * varianceIn c v := by
    rw [varianceIn_eq, varianceIn_eq, Matrix.smul_mulVec, dotProduct_smul, smul_eq_mul]
  obtain ⟨h0, ⟨v, h1, h2⟩, h3⟩ := h
  refine ⟨mul_nonneg (abs_nonneg _) h0, ⟨v, h1, ?_⟩, fun w hw => ?_⟩
  · rw [e, h2, mul_pow, sq_abs]
  · rw [e, mul_pow, sq_abs]
    exact mul_le_mul_of_nonneg_left (h3 w hw) (sq_nonneg _)

/-- C91: with covariance decay, exploration is multiplied with the decay factor in each update. -/
theorem C91_decay (e : Elite) (method : String) (factor : ℝ) (k : Nat) (d d' : Dist n) (x : ℝ)
    (h : Updates ⟨e, method, .decay factor⟩ k d d') (hx : Exploration d.covar x) :
    Exploration d'.covar (|factor| ^ k * x) := by
  rw [(C51_decay e method factor k d d' h).1, mul_comm 2 k, pow_mul, ← abs_pow]
  exact hx.smul _

theorem exploration_diag {c : Matrix (Fin n) (Fin n) ℝ} {x : ℝ} (h : Exploration c x) {l : ℝ} (a : Fin n)
    (hl : l ^ 2 ≤ c a a) : |l| ≤ x := by
  rw [← abs_of_nonneg h.1]
  apply sq_le_sq.mp
  refine hl.trans ?_
  rw [← varianceIn_single c a]
  exact h.2.bound _ (isDirection_single a)

/-- The entry of a limit for a dimension. -/
def Limit.at : Limit → Nat → Option ℝ
  | .scalar x, _ => some x
  | .vector v, i => v[i]?

theorem limitSq_at (l : Limit) (i : Nat) : limitSq (some l) i = (l.at i).map fun x => x ^ 2 := by
  cases l <;> rfl

/-- C91: with covariance adaptation exploration is never less than a lower limit of the diagonal, and with
`diag_only` not more than all upper limits. -/
theorem C91_adaptation (e : Elite) (method : String) (u : Adaptation) (k : Nat) (d d' : Dist n) (x : ℝ)
    (h0 : 0 ≤ u.learningRate) (hlr : u.learningRate ≤ 1) (hmax : LimitFits n u.diagonalMax)
    (hmin : LimitFits n u.diagonalMin) (h : Updates ⟨e, method, .adapt u⟩ (k + 1) d d')
    (hx : Exploration d'.covar x) :
    (∀ l (a : Fin n) y, u.diagonalMin = some l → l.at a = some y → |y| ≤ x) ∧
    (∀ l m, u.diagOnly = true → (∀ a b, a ≠ b → d.covar a b = 0) → d.covar.PosSemidef → u.diagonalMax = some l →
      (∀ (a : Fin n) y, l.at a = some y → |y| ≤ m ∧ ∀ l' z, u.diagonalMin = some l' → l'.at a = some z → |z| ≤ |y|) →
      x ≤ m) := by
  have hk := h
  cases h with
  | succ _ _ d1 d0 _ argsort samples costs w h1 h2 =>
    obtain ⟨c1, c2, -, -⟩ := C53_limits argsort e method u samples costs d1 d0 d' w hlr hmax hmin h2
    refine ⟨fun l a y hl hy => exploration_diag hx a (c1 a _ ?_), fun l m hd hz hp hl hm => ?_⟩
    · rw [hl, limitSq_at, hy]
      rfl
    · have hdiag := (C52_diagonal_partial e method u (k + 1) d d' h0 hlr hmax hmin hd hp hz hk).2
      obtain ⟨⟨a, ha⟩, -⟩ := (largest_diagonal hdiag _).mp hx.2
      have : ∃ y, l.at a = some y := by
        rw [hl] at hmax
        cases l with
        | scalar y => exact ⟨y, rfl⟩
        | vector v => exact ⟨v[(a : Nat)]'(a.2.trans_le hmax), List.getElem?_eq_getElem _⟩
      obtain ⟨y, hy⟩ := this
      obtain ⟨m1, m2⟩ := hm a y hy
      have hle : x ^ 2 ≤ y ^ 2 := by
        rw [← ha]
        refine c2 a _ (by rw [hl, limitSq_at, hy]; rfl) fun z hz => ?_
        cases hn : u.diagonalMin with
        | none => rw [hn] at hz; cases hz
        | some l' =>
          rw [hn, limitSq_at] at hz
          obtain ⟨z', hz', rfl⟩ := Option.map_eq_some_iff.mp hz
          exact sq_le_sq.mpr (m2 l' z' hn hz')
      have := sq_le_sq.mp hle
      rw [abs_of_nonneg hx.1] at this
      exact this.trans m1

/-- Hypotheses: limits as in demos/robot/step4_prepare_optimization.py. -/
example : ∃ d' : Dist 2, Updates ⟨.float 10, "PI-BB", .adapt ⟨some (.scalar 20), some (.scalar (1 / 10)), true, 1 / 2⟩⟩
    1 ⟨fun _ => 0, 1, none⟩ d' ∧ ∀ x, Exploration d'.covar x → 1 / 10 ≤ x ∧ x ≤ 20 := by
  obtain ⟨d', w, h⟩ := C50_succeeds (n := 2) (fun _ => [])
    ⟨.float 10, "PI-BB", .adapt ⟨some (.scalar 20), some (.scalar (1 / 10)), true, 1 / 2⟩⟩ [fun _ => 1, fun _ => 2]
    [[1], [2]] ⟨fun _ => 0, 1, none⟩ (by simp) (by simp) (by simp) (by simp) (by simp)
    (fun w => (adaptation_ok _ _ w _ (by norm_num) (by trivial) (by trivial)).imp fun c hc => hc.1)
  have hu := Updates.succ 0 _ _ _ _ _ _ _ _ (Updates.zero _) h
  refine ⟨d', hu, fun x hx => ?_⟩
  obtain ⟨h1, h2⟩ := C91_adaptation _ _ _ 0 _ _ x (by norm_num) (by norm_num) (by trivial) (by trivial) hu hx
  constructor
  · have := h1 _ 0 _ rfl rfl
    rwa [abs_of_nonneg (by norm_num)] at this
  · refine h2 _ 20 rfl (fun a b hab => Matrix.one_apply_ne hab) Matrix.PosSemidef.one rfl fun a y hy => ?_
    cases hy
    refine ⟨by norm_num, fun l' z hl hz => ?_⟩
    cases hl
    cases hz
    norm_num [abs_of_nonneg]

/-! ### The curve -/

/-- C91: row `i` of the exploration curve contains the number of samples before update `i`, and the largest
standard deviation of distribution `i`. The number of rows is the one returned by get_n_updates. -/
theorem C91_rows (w : World (Obj n D)) (hw : w.CacheOk) (N : Nat) (hN : w.getNUpdates = .ok (some (N : Int)))
    (d : Nat → Dist n) (x : Nat → ℝ) (h : ∀ i : Nat, i < N → w.asks "distribution" (some i) none = .ok (.dist (d i)) ∧
      (d i).covar.IsSymm ∧ Exploration (d i).covar (x i)) :
    ∃ w', World.explorationCurve w = (.ok ((List.range N).map fun (i : Nat) => ((i : ℝ) * w.nSamples, x i)), w') ∧
      SameAnswers w w' := by
  unfold World.explorationCurve
  refine PureRun.self ?_
  rw [hN]
  refine PureRun.bind ⟨w, rfl, SameAnswers.refl hw⟩ fun w1 h1 => ?_
  simp only [Nat.not_lt_zero, Int.toNat_natCast, if_neg (show ¬ ((N : Int) < 0) by omega)]
  refine PureRun.mapM _ h1.cacheOk fun i hi w2 h2 => ?_
  obtain ⟨ha, hs, he⟩ := h i (List.mem_range.mp hi)
  have h12 := h1.trans h2
  refine PureRun.bind (a := .dist (d i)) ?_ fun w3 h3 => ?_
  · have := PureRun.askValue h2.cacheOk "distribution" (some (i : Int)) none
    rwa [h12.answer, ← asks_eq hw, ha] at this
  · dsimp only
    rw [(C91_exploration (d i) hs _).mpr he]
    refine PureRun.bind ⟨w3, rfl, SameAnswers.refl h3.cacheOk⟩ fun w4 h4 => ?_
    refine PureRun.self ?_
    rw [((h12.trans h3).trans h4).nSamples]
    exact PureRun.pure h4.cacheOk _

/-- C91: without updates there is no curve. -/
theorem C91_no_updates (w : World (Obj n D)) :
    (w.getNUpdates = .ok none → World.explorationCurve w = (.error .typeError, w)) ∧
    (∀ e, w.getNUpdates = .error e → World.explorationCurve w = (.error e, w)) := by
  unfold World.explorationCurve
  constructor
  · intro h
    rw [PyM.self_bind, h]
    rfl
  · intro e h
    rw [PyM.self_bind, h]
    rfl

/-- C91: the curve is not drawn if the number of updates is negative, if the first distribution cannot be
loaded, or if what is loaded is not a distribution. -/
theorem C91_curve_errors (w : World (Obj n D)) (hw : w.CacheOk) (N : Int) (hN : w.getNUpdates = .ok (some N)) :
    (N < 0 → World.explorationCurve w = (.error .valueError, w)) ∧
    (0 < N → ∀ e, w.asks "distribution" (some 0) none = .error e → (World.explorationCurve w).1 = .error e) ∧
    (0 < N → ∀ v, w.asks "distribution" (some 0) none = .ok v → (∀ d, v ≠ .dist d) →
      (World.explorationCurve w).1 = .error .attributeError) := by
  have key (hp : 0 < N) (r) (hr : w.asks "distribution" (some 0) none = r) :
      ∃ w', World.askValue "distribution" (some 0) none w = (r, w') := by
    obtain ⟨w', h, _⟩ := PureRun.askValue hw "distribution" (some 0) none
    rw [← asks_eq hw, hr] at h
    exact ⟨w', h⟩
  unfold World.explorationCurve
  rw [PyM.self_bind, hN, PyM.lift_ok_bind]
  refine ⟨fun h => ?_, fun h e he => ?_, fun h v hv hd => ?_⟩
  · dsimp only
    rw [if_pos h]
    rfl
  all_goals
    obtain ⟨m, hm⟩ : ∃ m, N.toNat = m + 1 := ⟨N.toNat - 1, by omega⟩
    dsimp only
    rw [if_neg (by omega), hm, List.range_succ_eq_map, List.mapM_cons]
  · obtain ⟨w', h'⟩ := key h _ he
    rw [PyM.bind_error (e := e) (s' := w')]
    rw [PyM.bind_error (e := e) (s' := w') (by simpa using h')]
  · obtain ⟨w', h'⟩ := key h _ hv
    rw [PyM.bind_error (e := .attributeError) (s' := w')]
    rw [PyM.bind_ok (a := v) (s' := w') (by simpa using h')]
    cases v <;> first | rfl | exact absurd rfl (hd _)

theorem history_updates {u : Updater} {argsort : List ℝ → List Nat} {N : Nat} {d : Nat → Dist n}
    {samples : Nat → List (Fin n → ℝ)} {costs : Nat → List (List ℝ)} {weights : Nat → List ℝ}
    (h : ∀ i, i < N → u.update argsort (samples i) (costs i) (d i) = (.ok (d (i + 1), weights i), d i)) :
    ∀ i, i ≤ N → Updates u i (d 0) (d i) := by
  intro i hi
  induction i with
  | zero => exact .zero _
  | succ i ih => exact .succ _ _ _ _ _ _ _ _ _ (ih (by omega)) (h i (by omega))

/-- C91 for run_optimization: the curve has one row less than there are updates (see C59), row `i` contains
`i * n_samples_per_update` and the exploration of distribution `i`. -/
theorem C91_run {nSamples : Nat} (f : (Fin n → ℝ) → List ℝ)
    (argsort : List ℝ → List Nat) (u : Updater) (d0 dN : Dist n) (N : Nat) (hasDir : Bool)
    (draws : Nat → Fin nSamples → Fin n → ℝ) (w0 w : World (Obj n D)) (hf : w0.files = [])
    (h0 : 0 < N) (hN : hasDir = true → N ≤ 100000)
    (h : runOptimization f argsort u d0 N hasDir draws w0 = (.ok dN, w)) :
    ∃ d : Nat → Dist n, d 0 = d0 ∧ (∀ i : Nat, i < N → w.asks "distribution" (some i) none = .ok (.dist (d i))) ∧
      (∀ i, i ≤ N → Updates u i d0 (d i)) ∧
      ∀ x : Nat → ℝ, (∀ i, i < N - 1 → (d i).covar.IsSymm ∧ Exploration (d i).covar (x i)) →
        (World.explorationCurve w).1 = .ok ((List.range (N - 1)).map fun (i : Nat) => ((i : ℝ) * nSamples, x i)) := by
  have hnu := (C59_run_partial f argsort u d0 dN N hasDir draws w0 w hf h).1 h0 hN
  obtain ⟨d, samples, weights, hd0, -, hstep, -⟩ := C55_history f argsort u d0 dN N hasDir draws w0 w h
  obtain ⟨d', s', w'', -, -, hw⟩ := runOptimization_ok h
  have hok : w.CacheOk := by
    rw [hw]; exact afterAll_cacheOk (blank_ok _ _ _ _) _
  have hns : w.nSamples = nSamples := by
    rw [hw]; exact (afterAll_fields _ _).2.2.1
  refine ⟨d, hd0, fun i hi => (hstep i hi).2.2.1, ?_, fun x hx => ?_⟩
  · rw [← hd0]
    exact history_updates fun i hi => (hstep i hi).2.1
  · obtain ⟨w', h1, -⟩ := C91_rows w hok (N - 1) hnu d x fun i hi => ⟨(hstep i (by omega)).2.2.1, hx i hi⟩
    rw [h1, hns]

/-- C91 for run_optimization with covariance decay: the whole curve. -/
theorem C91_decay_curve {nSamples : Nat} (f : (Fin n → ℝ) → List ℝ)
    (argsort : List ℝ → List Nat) (e : Elite) (method : String) (factor : ℝ) (d0 dN : Dist n) (N : Nat) (hasDir : Bool)
    (draws : Nat → Fin nSamples → Fin n → ℝ) (w0 w : World (Obj n D)) (hf : w0.files = [])
    (h0 : 0 < N) (hN : hasDir = true → N ≤ 100000) (hs : d0.covar.IsSymm) (x : ℝ) (hx : Exploration d0.covar x)
    (h : runOptimization f argsort ⟨e, method, .decay factor⟩ d0 N hasDir draws w0 = (.ok dN, w)) :
    (World.explorationCurve w).1 =
      .ok ((List.range (N - 1)).map fun (i : Nat) => ((i : ℝ) * nSamples, |factor| ^ i * x)) := by
  obtain ⟨d, -, -, hu, hc⟩ := C91_run f argsort _ d0 dN N hasDir draws w0 w hf h0 hN h
  refine hc _ fun i hi => ⟨?_, ?_⟩
  · exact (C51_decay _ _ _ _ _ _ (hu i (by omega))).2.2 hs
  · exact C91_decay _ _ _ _ _ _ x (hu i (by omega)) hx

/-- C91 for run_optimization with UpdaterMean: exploration does not change. -/
theorem C91_mean_curve {nSamples : Nat} (f : (Fin n → ℝ) → List ℝ)
    (argsort : List ℝ → List Nat) (e : Elite) (method : String) (d0 dN : Dist n) (N : Nat) (hasDir : Bool)
    (draws : Nat → Fin nSamples → Fin n → ℝ) (w0 w : World (Obj n D)) (hf : w0.files = [])
    (h0 : 0 < N) (hN : hasDir = true → N ≤ 100000) (hs : d0.covar.IsSymm) (x : ℝ) (hx : Exploration d0.covar x)
    (h : runOptimization f argsort ⟨e, method, .mean⟩ d0 N hasDir draws w0 = (.ok dN, w)) :
    (World.explorationCurve w).1 = .ok ((List.range (N - 1)).map fun (i : Nat) => ((i : ℝ) * nSamples, x)) := by
  obtain ⟨d, -, -, hu, hc⟩ := C91_run f argsort _ d0 dN N hasDir draws w0 w hf h0 hN h
  have key (k : Nat) (d d' : Dist n) (h : Updates ⟨e, method, .mean⟩ k d d') : d'.covar = d.covar := by
    generalize hu : (⟨e, method, .mean⟩ : Updater) = u at h
    induction h with
    | zero d => rfl
    | succ k d d1 d0 d2 argsort samples costs w h1 h2 ih =>
      obtain ⟨-, -, -, h3, -⟩ := update_ok h2
      rw [← hu] at h3
      rw [← Except.ok.inj h3, ih]
  refine hc _ fun i hi => ?_
  rw [key _ _ _ (hu i (by omega))]
  exact ⟨hs, hx⟩

/-- Hypotheses: four updates with three samples in two dimensions, with exploration 5 in the beginning. -/
example (w0 : World (Obj 2 Unit)) (hf : w0.files = []) (draws : Nat → Fin 3 → Fin 2 → ℝ) : ∃ dN w,
    runOptimization (fun x => [x 0 ^ 2 + x 1 ^ 2]) (fun _ => []) ⟨.float 10, "PI-BB", .decay (1 / 2)⟩
      ⟨fun _ => 5, (5 ^ 2 : ℝ) • 1, none⟩ 4 true draws w0 = (.ok dN, w) ∧
    (World.explorationCurve w).1 = .ok [(0, 5), (3, 5 / 2), (6, 5 / 4)] := by
  obtain ⟨dN, w, h⟩ := C55_succeeds (fun x : Fin 2 → ℝ => [x 0 ^ 2 + x 1 ^ 2]) (fun _ => [])
    ⟨.float 10, "PI-BB", .decay (1 / 2)⟩ ⟨fun _ => 5, (5 ^ 2 : ℝ) • 1, none⟩ 4 true draws w0 (by norm_num)
    (by simp) (by simp) (by simp) (by simp) (fun samples w d => ⟨_, rfl⟩)
  refine ⟨dN, w, h, ?_⟩
  rw [C91_decay_curve _ _ _ _ _ _ dN 4 true draws w0 w hf (by norm_num) (by norm_num)
    (Matrix.isSymm_one.smul _) 5 ?_ h]
  · simp [List.range_succ]
    norm_num
  · rw [← C91_exploration _ (Matrix.isSymm_one.smul _), C91_initial _ _ (by norm_num)]
    norm_num

/-- The claim for all optimisations: the curve shows the exploration of every update. -/
def C91_statement : Prop := ∀ (nSamples : Nat) (f : (Fin 1 → ℝ) → List ℝ) (argsort : List ℝ → List Nat) (u : Updater)
  (d0 dN : Dist 1) (N : Nat) (draws : Nat → Fin nSamples → Fin 1 → ℝ) (w0 w : World (Obj 1 Unit)),
  w0.files = [] → d0.covar.PosSemidef → 0 < N →
  runOptimization f argsort u d0 N false draws w0 = (.ok dN, w) →
  ∃ curve, (World.explorationCurve w).1 = .ok curve ∧ curve.length = N

/-- C91: the claim is false, as the last update is missing. -/
theorem C91_refuted : ¬ C91_statement := by
  intro H
  obtain ⟨dN, w, h⟩ := C55_succeeds (D := Unit) (fun x : Fin 1 → ℝ => [x 0]) (fun _ => [])
    ⟨.float 10, "PI-BB", .decay 1⟩ ⟨fun _ => 5, (1 ^ 2 : ℝ) • 1, none⟩ 2 false (fun _ (_ : Fin 1) _ => 0)
    ⟨0, false, false, [], none, [], []⟩ (by norm_num)
    (by simp) (by simp) (by simp) (by simp) (fun samples w d => ⟨_, rfl⟩)
  obtain ⟨curve, h1, h2⟩ := H _ _ _ _ _ _ _ _ _ _ rfl
    (by simpa using Matrix.PosSemidef.one) (by norm_num) h
  rw [C91_decay_curve _ _ _ _ _ _ dN 2 false _ _ w rfl (by norm_num) (by simp)
    (Matrix.isSymm_one.smul _) 1 ?_ h] at h1
  · cases h1
    simp at h2
  · rw [← C91_exploration _ (Matrix.isSymm_one.smul _), C91_initial _ _ (by norm_num)]
    norm_num

end Verif
