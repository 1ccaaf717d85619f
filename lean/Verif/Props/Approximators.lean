import Verif.Props.Regression

/- C35-C39: RBFN, LWR and GPR. -/

set_option autoImplicit false

namespace Verif

open Spec Matrix

noncomputable section

variable {d N M : Nat}

/-! ### RBFN -/

theorem rbfnTrain_ok {nBfs : List Nat} {height reg : ℝ} {x : Fin N → Fin d → ℝ} {t : Fin N → ℝ}
    {m : RbfnModel d} (h : rbfnTrain nBfs height reg x t = .ok m) :
    ∃ act wls, getCentersAndWidths x nBfs height = .ok m.kernels ∧
      m.kernels.activations false x = .ok act ∧ wlsTrain false reg act t none = .ok wls ∧
      nBfs.prod ≠ 0 ∧ m.kernels.n % nBfs.prod = 0 ∧ m.rows = nBfs.prod ∧
      m.cols = m.kernels.n / nBfs.prod ∧
      ∀ i j, m.weights i j = (List.ofFn wls.slope).getD (i * m.cols + j) 0 := by
  unfold rbfnTrain at h
  obtain ⟨k, hk, h⟩ := except_bind_ok h
  obtain ⟨act, ha, h⟩ := except_bind_ok h
  obtain ⟨wls, hw, h⟩ := except_bind_ok h
  change (if _ then _ else _) = _ at h
  split at h
  · cases h
  · rename_i hc
    rw [not_or, not_not] at hc
    obtain rfl := Except.ok.inj h
    exact ⟨act, wls, hk, ha, hw, hc.1, hc.2, rfl, rfl, fun i j => rfl⟩

/-- One weight for each basis function. -/
def RbfnModel.Fits (m : RbfnModel d) : Prop := m.cols = 1 ∧ m.rows = m.kernels.n

theorem rbfnTrain_fits {nBfs : List Nat} {ns : Fin d → Nat} (hns : nBfs = List.ofFn ns)
    (h1 : ∀ i, 1 ≤ ns i) {height reg : ℝ} {x : Fin N → Fin d → ℝ} {t : Fin N → ℝ}
    {m : RbfnModel d} (h : rbfnTrain nBfs height reg x t = .ok m) : m.Fits := by
  obtain ⟨act, wls, hk, _, _, h0, _, hr, hc, _⟩ := rbfnTrain_ok h
  have hN : N ≠ 0 := (getCenters_ok hk).1
  have hn := (C33_grid x nBfs ns (Or.inl hns) h1 height _ hk _ _ (minInput_isLeast x hN)
    (maxInput_isGreatest x hN)).1
  have hp : nBfs.prod = ∏ i, ns i := by rw [hns, List.prod_ofFn]
  refine ⟨?_, by rw [hr, hn, hp]⟩
  rw [hc, hn, ← hp]
  exact Nat.div_self (Nat.pos_of_ne_zero h0)

theorem rbfn_predict {m : RbfnModel d} (hf : m.Fits) {q : Fin N → Fin d → ℝ}
    {act : Fin N → Fin m.kernels.n → ℝ} (h : m.kernels.activations false q = .ok act) :
    m.predict q = .ok fun s => ∑ b, act s b * m.weights (Fin.cast hf.2.symm b) (Fin.cast hf.1.symm 0) := by
  unfold RbfnModel.predict
  rw [h]
  change (if h : _ then _ else _) = _
  rw [dif_pos ⟨hf.1, hf.2⟩]
  rfl

/-- Sum over the weights, which form one column. -/
theorem sum_column {n rows cols : Nat} (hc : cols = 1) (hr : rows = n) (w : Fin rows → Fin cols → ℝ)
    (f : ℝ → ℝ) :
    ∑ i, ∑ j, f (w i j) = ∑ b : Fin n, f (w (Fin.cast hr.symm b) (Fin.cast hc.symm 0)) := by
  subst hc hr
  simp

theorem column_ext {n rows cols : Nat} (hc : cols = 1) (hr : rows = n)
    (w w' : Fin rows → Fin cols → ℝ)
    (h : ∀ b : Fin n, w (Fin.cast hr.symm b) (Fin.cast hc.symm 0) =
      w' (Fin.cast hr.symm b) (Fin.cast hc.symm 0)) : w = w' := by
  subst hc hr
  funext i j
  rw [Subsingleton.elim j 0]
  exact h i

/-- The trained weights are the result of the regression. -/
theorem rbfnTrain_weights {nBfs : List Nat} {height reg : ℝ} {x : Fin N → Fin d → ℝ} {t : Fin N → ℝ}
    {m : RbfnModel d} (h : rbfnTrain nBfs height reg x t = .ok m) (hf : m.Fits) :
    ∃ act, m.kernels.activations false x = .ok act ∧
      solveWls (of act) (fun _ => 1) reg t = .ok
        fun b => m.weights (Fin.cast hf.2.symm b) (Fin.cast hf.1.symm 0) := by
  obtain ⟨act, wls, hk, ha, hw, h0, _, hr, hc, hwt⟩ := rbfnTrain_ok h
  refine ⟨act, ha, ?_⟩
  have := (wlsTrain_false reg act t none hw).1
  rw [show weightsOf (none : Option (Fin N → ℝ)) = fun _ => 1 from rfl] at this
  rw [this]
  congr 1
  funext b
  rw [hwt]
  have e : ((Fin.cast hf.2.symm b : Fin m.rows) : Nat) * m.cols + ((Fin.cast hf.1.symm 0 : Fin m.cols) : Nat) =
      b.1 := by
    change b.1 * m.cols + 0 = b.1
    rw [hf.1]
    simp
  refine Eq.symm (Eq.trans (congrArg (fun i => (List.ofFn wls.slope).getD i 0) e) ?_)
  simp

/-- C35: training yields the weights with the smallest squared error of the predictions at the
training inputs plus the regularisation term, and no other weights do. -/
theorem C35_minimises (nBfs : List Nat) (ns : Fin d → Nat) (hns : nBfs = List.ofFn ns)
    (h1 : ∀ i, 1 ≤ ns i) (height reg : ℝ) (hreg : 0 ≤ reg) (x : Fin N → Fin d → ℝ) (t : Fin N → ℝ)
    (m : RbfnModel d) (h : rbfnTrain nBfs height reg x t = .ok m) :
    ∃ p, m.predict x = .ok p ∧ ∀ weights : Fin m.rows → Fin m.cols → ℝ,
      ∃ p', ({ m with weights := weights } : RbfnModel d).predict x = .ok p' ∧
        ∑ s, (p s - t s) ^ 2 + reg * ∑ i, ∑ j, m.weights i j ^ 2 ≤
          ∑ s, (p' s - t s) ^ 2 + reg * ∑ i, ∑ j, weights i j ^ 2 ∧
        (∑ s, (p' s - t s) ^ 2 + reg * ∑ i, ∑ j, weights i j ^ 2 ≤
          ∑ s, (p s - t s) ^ 2 + reg * ∑ i, ∑ j, m.weights i j ^ 2 → weights = m.weights) := by
  have hf := rbfnTrain_fits hns h1 h
  obtain ⟨act, ha, hs⟩ := rbfnTrain_weights h hf
  refine ⟨_, rbfn_predict hf ha, fun weights => ?_⟩
  have hf' : ({ m with weights := weights } : RbfnModel d).Fits := hf
  refine ⟨_, rbfn_predict hf' ha, ?_⟩
  have hmin := solveWls_minimises hs (fun _ => zero_le_one) hreg
    (fun b => weights (Fin.cast hf.2.symm b) (Fin.cast hf.1.symm 0))
  simp only [squaredError, one_mul, of_apply] at hmin
  rw [sum_column hf.1 hf.2 m.weights (· ^ 2), sum_column hf.1 hf.2 weights (· ^ 2)]
  refine ⟨hmin.1, fun hle => ?_⟩
  exact column_ext hf.1 hf.2 _ _ fun b => congrFun (hmin.2 hle) b

/-- C35: without regularisation, targets that are predictions for some weights (with the centres and
widths of the trained model) are reproduced exactly. -/
theorem C35_reproduces (nBfs : List Nat) (ns : Fin d → Nat) (hns : nBfs = List.ofFn ns)
    (h1 : ∀ i, 1 ≤ ns i) (height : ℝ) (x : Fin N → Fin d → ℝ) (t : Fin N → ℝ)
    (m : RbfnModel d) (h : rbfnTrain nBfs height 0 x t = .ok m)
    (weights : Fin m.rows → Fin m.cols → ℝ)
    (ht : ({ m with weights := weights } : RbfnModel d).predict x = .ok t) :
    m.weights = weights ∧ m.predict x = .ok t := by
  obtain ⟨p, hp, hmin⟩ := C35_minimises nBfs ns hns h1 height 0 le_rfl x t m h
  obtain ⟨p', hp', -, hle⟩ := hmin weights
  rw [ht] at hp'
  obtain rfl := Except.ok.inj hp'
  have hw := hle (by
    simp only [zero_mul, add_zero, sub_self]
    refine le_trans (le_of_eq ?_) (Finset.sum_nonneg fun s _ => sq_nonneg (p s - t s))
    simp)
  refine ⟨hw.symm, ?_⟩
  have hm : m = { m with weights := weights } := by rw [hw]
  rw [hm, ht]

/-- C35: predictions are linear in the weights. -/
theorem C35_linear (m : RbfnModel d) (w w' : Fin m.rows → Fin m.cols → ℝ) (q : Fin N → Fin d → ℝ)
    (p p' : Fin N → ℝ) (h : ({ m with weights := w } : RbfnModel d).predict q = .ok p)
    (h' : ({ m with weights := w' } : RbfnModel d).predict q = .ok p') (a a' : ℝ) :
    ({ m with weights := fun i j => a * w i j + a' * w' i j } : RbfnModel d).predict q =
      .ok fun s => a * p s + a' * p' s := by
  unfold RbfnModel.predict at h h' ⊢
  cases ha : m.kernels.activations false q with
  | error e => rw [ha] at h; cases h
  | ok act =>
    rw [ha] at h h'
    change (if h : _ then _ else _) = _ at h
    change (if h : _ then _ else _) = _ at h'
    change (if h : _ then _ else _) = _
    by_cases hc : m.cols = 1 ∧ m.rows = m.kernels.n
    · rw [dif_pos hc] at h h' ⊢
      obtain rfl := Except.ok.inj h
      obtain rfl := Except.ok.inj h'
      refine congrArg Except.ok (funext fun s => ?_)
      simp only [Finset.mul_sum]
      rw [← Finset.sum_add_distrib]
      exact Finset.sum_congr rfl fun b _ => by ring
    · rw [dif_neg hc] at h
      split at h <;> cases h

/-! ### LWR -/

theorem lwrLines_ok {k : Kernels d} {act : Fin N → Fin k.n → ℝ} {x : Fin N → Fin d → ℝ}
    {t : Fin N → ℝ} {n : Nat} {r : (Fin n → Fin d → ℝ) × (Fin n → ℝ)}
    (h : lwrLines k act x t n = .ok r) :
    n ≤ k.n ∧ ∀ (l : Fin n) (hl : l.1 < k.n), ∃ wls,
      wlsTrain true 0 x t (some fun s => act s ⟨l, hl⟩) = .ok wls ∧ r.1 l = wls.slope ∧
      wls.offset = some (r.2 l) := by
  induction n with
  | zero => exact ⟨Nat.zero_le _, fun l => l.elim0⟩
  | succ n ih =>
    rw [lwrLines] at h
    obtain ⟨⟨sl, off⟩, h1, h⟩ := except_bind_ok h
    by_cases hn : n < k.n
    · change (if h : n < k.n then _ else _) = _ at h
      rw [dif_pos hn] at h
      obtain ⟨wls, hw, h⟩ := except_bind_ok h
      obtain rfl := Except.ok.inj h
      obtain ⟨_, _, _, ho⟩ := wlsTrain_true 0 x t _ hw
      refine ⟨hn, fun l hl => ?_⟩
      rcases Fin.eq_castSucc_or_eq_last l with ⟨l, rfl⟩ | rfl
      · obtain ⟨w', g1, g2, g3⟩ := (ih h1).2 l hl
        refine ⟨w', g1, ?_, ?_⟩
        · rw [← g2]
          exact Fin.snoc_castSucc (α := fun _ => Fin d → ℝ) _ _ _
        · rw [g3]
          exact congrArg some (Fin.snoc_castSucc (α := fun _ => ℝ) _ _ _).symm
      · refine ⟨wls, hw, ?_, ?_⟩
        · exact Fin.snoc_last (α := fun _ => Fin d → ℝ) _ _
        · refine ho.trans (congrArg some ?_)
          refine Eq.trans ?_ (Fin.snoc_last (α := fun _ => ℝ) _ _).symm
          rw [ho, Option.getD_some]
    · change (if h : n < k.n then _ else _) = _ at h
      rw [dif_neg hn] at h
      cases h

theorem lwrTrain_ok {nBfs : List Nat} {height reg : ℝ} {x : Fin N → Fin d → ℝ} {t : Fin N → ℝ}
    {m : LwrModel d} (h : lwrTrain nBfs height reg x t = .ok m) :
    ∃ act, getCentersAndWidths x nBfs height = .ok m.kernels ∧
      m.kernels.activations true x = .ok act ∧ m.lines = nBfs.prod ∧ m.lines ≤ m.kernels.n ∧
      ∀ (l : Fin m.lines) (hl : l.1 < m.kernels.n), ∃ wls,
        wlsTrain true 0 x t (some fun s => act s ⟨l, hl⟩) = .ok wls ∧ m.slopes l = wls.slope ∧
        wls.offset = some (m.offsets l) := by
  unfold lwrTrain at h
  obtain ⟨k, hk, h⟩ := except_bind_ok h
  obtain ⟨act, ha, h⟩ := except_bind_ok h
  obtain ⟨⟨sl, off⟩, hl, h⟩ := except_bind_ok h
  obtain rfl := Except.ok.inj h
  obtain ⟨g1, g2⟩ := lwrLines_ok hl
  exact ⟨act, hk, ha, rfl, g1, g2⟩

theorem lwrTrain_fits {nBfs : List Nat} {ns : Fin d → Nat} (hns : nBfs = List.ofFn ns)
    (h1 : ∀ i, 1 ≤ ns i) {height reg : ℝ} {x : Fin N → Fin d → ℝ} {t : Fin N → ℝ}
    {m : LwrModel d} (h : lwrTrain nBfs height reg x t = .ok m) :
    m.lines = m.kernels.n ∧ m.kernels.n ≠ 0 := by
  obtain ⟨act, hk, _, hr, _⟩ := lwrTrain_ok h
  have hN : N ≠ 0 := (getCenters_ok hk).1
  have hn := (C33_grid x nBfs ns (Or.inl hns) h1 height _ hk _ _ (minInput_isLeast x hN)
    (maxInput_isGreatest x hN)).1
  refine ⟨by rw [hr, hn, hns, List.prod_ofFn], ?_⟩
  rw [hn]
  exact (Finset.prod_pos fun i _ => h1 i).ne'

theorem lwr_predict {m : LwrModel d} {q : Fin N → Fin d → ℝ} {p : Fin N → ℝ}
    (h : m.predict q = .ok p) :
    ∃ (hl : m.lines = m.kernels.n) (act : _), m.kernels.activations true q = .ok act ∧
      ∀ s, p s = ∑ l, m.getLines q s l * act s (Fin.cast hl l) := by
  unfold LwrModel.predict at h
  obtain ⟨act, ha, h⟩ := except_bind_ok h
  split at h
  · rename_i hl
    obtain rfl := Except.ok.inj h
    exact ⟨hl, act, ha, fun s => rfl⟩
  · cases h

theorem sum_cast {n n' : Nat} (h : n = n') (f : Fin n' → ℝ) : ∑ l : Fin n, f (Fin.cast h l) = ∑ b, f b := by
  subst h
  rfl

/-- C36: each prediction is a convex combination of the values of the local lines; thus it lies
between the smallest and the largest of these values. -/
theorem C36_between (m : LwrModel d) (hn : m.lines ≠ 0) (q : Fin N → Fin d → ℝ) (p : Fin N → ℝ)
    (h : m.predict q = .ok p) (s : Fin N) :
    (∃ c : Fin m.lines → ℝ, (∀ l, 0 ≤ c l) ∧ ∑ l, c l = 1 ∧
      p s = ∑ l, c l * (∑ i, q s i * m.slopes l i + m.offsets l)) ∧
    (∃ l, ∑ i, q s i * m.slopes l i + m.offsets l ≤ p s) ∧
    ∃ l, p s ≤ ∑ i, q s i * m.slopes l i + m.offsets l := by
  obtain ⟨hl, act, ha, hp⟩ := lwr_predict h
  obtain ⟨h0, h1⟩ := C31_normalized m.kernels (by omega) q act ha s
  have hsum : ∑ l, act s (Fin.cast hl l) = 1 := by rw [sum_cast hl (act s), h1]
  have hp' : p s = ∑ l, act s (Fin.cast hl l) * (∑ i, q s i * m.slopes l i + m.offsets l) := by
    rw [hp]
    exact Finset.sum_congr rfl fun l _ => mul_comm _ _
  refine ⟨⟨fun l => act s (Fin.cast hl l), fun l => h0 _, hsum, hp'⟩, ?_, ?_⟩
  · by_contra hc
    simp only [not_exists, not_le] at hc
    have hne : (Finset.univ : Finset (Fin m.lines)).Nonempty := ⟨⟨0, by omega⟩, Finset.mem_univ _⟩
    obtain ⟨l0, _, hl0⟩ := Finset.exists_min_image Finset.univ
      (fun l => ∑ i, q s i * m.slopes l i + m.offsets l) hne
    have : ∑ l, act s (Fin.cast hl l) * (∑ i, q s i * m.slopes l0 i + m.offsets l0) ≤ p s := by
      rw [hp']
      exact Finset.sum_le_sum fun l _ => mul_le_mul_of_nonneg_left (hl0 l (Finset.mem_univ l)) (h0 _)
    rw [← Finset.sum_mul, hsum, one_mul] at this
    exact absurd (hc l0) (not_lt.mpr this)
  · by_contra hc
    simp only [not_exists, not_le] at hc
    have hne : (Finset.univ : Finset (Fin m.lines)).Nonempty := ⟨⟨0, by omega⟩, Finset.mem_univ _⟩
    obtain ⟨l0, _, hl0⟩ := Finset.exists_max_image Finset.univ
      (fun l => ∑ i, q s i * m.slopes l i + m.offsets l) hne
    have : p s ≤ ∑ l, act s (Fin.cast hl l) * (∑ i, q s i * m.slopes l0 i + m.offsets l0) := by
      rw [hp']
      exact Finset.sum_le_sum fun l _ => mul_le_mul_of_nonneg_left (hl0 l (Finset.mem_univ l)) (h0 _)
    rw [← Finset.sum_mul, hsum, one_mul] at this
    exact absurd (hc l0) (not_lt.mpr this)

/-- C36: affine training data are reproduced everywhere. -/
theorem C36_affine (nBfs : List Nat) (ns : Fin d → Nat) (hns : nBfs = List.ofFn ns)
    (h1 : ∀ i, 1 ≤ ns i) (height reg : ℝ) (x : Fin N → Fin d → ℝ) (a : Fin d → ℝ) (c : ℝ)
    (m : LwrModel d) (h : lwrTrain nBfs height reg x (fun s => ∑ i, x s i * a i + c) = .ok m)
    (q : Fin M → Fin d → ℝ) (p : Fin M → ℝ) (hp : m.predict q = .ok p) (s : Fin M) :
    p s = ∑ i, q s i * a i + c := by
  obtain ⟨act, hk, ha, _, hle, hlines⟩ := lwrTrain_ok h
  obtain ⟨_, hn0⟩ := lwrTrain_fits hns h1 h
  have hline : ∀ l : Fin m.lines, m.slopes l = a ∧ m.offsets l = c := by
    intro l
    obtain ⟨wls, hw, e1, e2⟩ := hlines l (by omega)
    obtain ⟨r1, r2, _⟩ := C34_recovers_affine x a c _ (by
      rintro w hw' s
      rw [← Option.some.inj hw']
      exact (C31_normalized m.kernels hn0 x act ha s).1 _) wls hw
    refine ⟨by rw [e1, r1], ?_⟩
    rw [e2] at r2
    exact Option.some.inj r2
  obtain ⟨hl, actq, haq, hpq⟩ := lwr_predict hp
  rw [hpq]
  have : ∀ l, m.getLines q s l * actq s (Fin.cast hl l) =
      (∑ i, q s i * a i + c) * actq s (Fin.cast hl l) := by
    intro l
    rw [LwrModel.getLines, (hline l).1, (hline l).2]
  simp only [this]
  rw [← Finset.mul_sum, sum_cast hl (actq s), (C31_normalized m.kernels hn0 q actq haq s).2, mul_one]

/-- Statement C37: each local line minimises the weighted squared error with regularisation. -/
def C37_statement : Prop :=
  ∀ (d N : Nat) (nBfs : List Nat) (ns : Fin d → Nat), nBfs = List.ofFn ns → (∀ i, 1 ≤ ns i) →
    ∀ (height reg : ℝ), 0 ≤ reg → ∀ (x : Fin N → Fin d → ℝ) (t : Fin N → ℝ) (m : LwrModel d),
    lwrTrain nBfs height reg x t = .ok m →
    ∃ act, m.kernels.activations true x = .ok act ∧
      ∀ (l : Fin m.lines) (b : Fin m.kernels.n), l.1 = b.1 → ∀ slope offset,
        squaredErrorAffine x t (fun s => act s b) reg (m.slopes l) (m.offsets l) ≤
          squaredErrorAffine x t (fun s => act s b) reg slope offset

/-- C37, partial: each local line is the only minimiser of the weighted squared error *without*
regularisation, whatever the regularisation parameter. Missing: the regularisation, see
`C37_refuted`. -/
theorem C37_partial (nBfs : List Nat) (ns : Fin d → Nat) (hns : nBfs = List.ofFn ns)
    (h1 : ∀ i, 1 ≤ ns i) (height reg : ℝ) (x : Fin N → Fin d → ℝ) (t : Fin N → ℝ)
    (m : LwrModel d) (h : lwrTrain nBfs height reg x t = .ok m) :
    m.lines = m.kernels.n ∧ ∃ act, m.kernels.activations true x = .ok act ∧
      ∀ (l : Fin m.lines) (b : Fin m.kernels.n), l.1 = b.1 → ∀ slope offset,
        squaredErrorAffine x t (fun s => act s b) 0 (m.slopes l) (m.offsets l) ≤
          squaredErrorAffine x t (fun s => act s b) 0 slope offset ∧
        (squaredErrorAffine x t (fun s => act s b) 0 slope offset ≤
          squaredErrorAffine x t (fun s => act s b) 0 (m.slopes l) (m.offsets l) →
          slope = m.slopes l ∧ offset = m.offsets l) := by
  obtain ⟨act, hk, ha, _, hle, hlines⟩ := lwrTrain_ok h
  obtain ⟨hl, hn0⟩ := lwrTrain_fits hns h1 h
  refine ⟨hl, act, ha, fun l b hb slope offset => ?_⟩
  obtain ⟨wls, hw, e1, e2⟩ := hlines l (by omega)
  have hb' : (⟨l.1, by omega⟩ : Fin m.kernels.n) = b := Fin.ext hb
  rw [hb'] at hw
  obtain ⟨o, ho, hmin, _⟩ := C34_affine 0 le_rfl x t (some fun s => act s b) (by
    rintro w hw' s
    rw [← Option.some.inj hw']
    exact (C31_normalized m.kernels hn0 x act ha s).1 _) wls hw
  rw [e2] at ho
  obtain rfl := Option.some.inj ho
  rw [e1]
  exact hmin slope offset

/-- Training with one basis function, two samples and equal targets. -/
theorem lwr_two (reg : ℝ) : ∃ m : LwrModel 1,
    lwrTrain [1] 0.5 reg (fun (s : Fin 2) _ => (s : ℝ)) (fun s => ∑ i : Fin 1, (s : ℝ) * 0 + 1) = .ok m := by
  have hns : PerDim [1] (fun _ : Fin 1 => 1) := Or.inr ⟨1, rfl, rfl⟩
  obtain ⟨k, hk⟩ := C33_succeeds (fun (s : Fin 2) (_ : Fin 1) => (s : ℝ)) [1] _ hns (fun _ => le_rfl)
    0.5 (by norm_num) (by norm_num) (fun _ h => absurd rfl h)
  have hn : k.n = 1 := by
    rw [(C33_grid _ _ _ hns (fun _ => le_rfl) _ k hk _ _ (minInput_isLeast _ (by norm_num))
      (maxInput_isGreatest _ (by norm_num))).1]
    simp
  have ha : k.activations true (fun (s : Fin 2) (_ : Fin 1) => (s : ℝ)) = .ok fun _ _ => 1 := by
    unfold Kernels.activations
    rw [if_pos ⟨rfl, hn⟩]
  have hw : ∃ wls, wlsTrain true 0 (fun (s : Fin 2) (_ : Fin 1) => (s : ℝ))
      (fun s => ∑ i : Fin 1, (s : ℝ) * 0 + 1) (some fun _ => 1) = .ok wls := by
    obtain ⟨b, hb⟩ := (C34_succeeds (of fun (s : Fin 2) => (Fin.snoc (fun _ : Fin 1 => (s : ℝ)) 1 :
      Fin 2 → ℝ)) (fun s => 1) (fun s => ∑ i : Fin 1, (s : ℝ) * 0 + 1) 0 (fun s => zero_le_one)
      le_rfl).mpr (by
        intro beta hb
        simp [squaredError, Fin.sum_univ_succ, Fin.snoc] at hb
        have h1 : beta 1 ^ 2 = 0 := by nlinarith [sq_nonneg (beta 1), sq_nonneg (beta 0 + beta 1)]
        have h2 : (beta 0 + beta 1) ^ 2 = 0 := by
          nlinarith [sq_nonneg (beta 1), sq_nonneg (beta 0 + beta 1)]
        rw [pow_eq_zero_iff two_ne_zero] at h1 h2
        funext i
        fin_cases i
        · simpa [h1] using h2
        · exact h1)
    unfold wlsTrain
    simp only [if_true]
    rw [hb]
    exact ⟨_, rfl⟩
  obtain ⟨wls, hw⟩ := hw
  unfold lwrTrain
  rw [hk]
  change ∃ m, (k.activations true _ >>= _) = _
  rw [ha]
  change ∃ m, (lwrLines k (fun _ _ => 1) _ _ 1 >>= _) = _
  have hl : ∃ r, lwrLines k (fun _ _ => 1) (fun (s : Fin 2) (_ : Fin 1) => (s : ℝ))
      (fun s => ∑ i : Fin 1, (s : ℝ) * 0 + 1) 1 = .ok r := by
    rw [lwrLines, lwrLines]
    change ∃ r, (if h : 0 < k.n then _ else _) = _
    rw [dif_pos (by omega)]
    rw [hw]
    exact ⟨_, rfl⟩
  obtain ⟨r, hr⟩ := hl
  rw [hr]
  exact ⟨_, rfl⟩

/-- C37 is false: FunctionApproximatorLWR.py:61 passes the regularisation as part of the argument
`use_offset`, so that it is ignored. With two samples whose targets are 1, the line is constant 1 also
for regularisation 1, where the constant 0.9 has a smaller error. -/
theorem C37_refuted : ¬ C37_statement := by
  intro hC
  obtain ⟨m, hm⟩ := lwr_two 1
  have hns : ([1] : List Nat) = List.ofFn (fun _ : Fin 1 => 1) := rfl
  obtain ⟨act, hk, ha, hlin, hle, hlines⟩ := lwrTrain_ok hm
  obtain ⟨hl, hn0⟩ := lwrTrain_fits hns (fun _ => le_rfl) hm
  have hl1 : m.lines = 1 := by rw [hlin]; rfl
  have hk1 : m.kernels.n = 1 := by rw [← hl, hl1]
  have hact : act = fun _ _ => 1 := by
    rcases activations_norm ha with ⟨_, h⟩ | ⟨h, _⟩
    · exact h
    · exact absurd hk1 h
  obtain ⟨act', ha', hmin⟩ := hC 1 2 [1] _ hns (fun _ => le_rfl) 0.5 1 zero_le_one _ _ m hm
  rw [ha] at ha'
  obtain rfl := Except.ok.inj ha'
  have hline : m.slopes ⟨0, by omega⟩ = (fun _ => 0) ∧ m.offsets ⟨0, by omega⟩ = 1 := by
    obtain ⟨wls, hw, e1, e2⟩ := hlines ⟨0, by omega⟩ (by simp [hk1])
    obtain ⟨r1, r2, _⟩ := C34_recovers_affine (fun (s : Fin 2) (_ : Fin 1) => (s : ℝ)) (fun _ => 0) 1 _ (by
      rintro w hw' s
      rw [← Option.some.inj hw']
      exact (C31_normalized m.kernels hn0 _ act ha s).1 _) wls hw
    refine ⟨by rw [e1, r1], ?_⟩
    rw [e2] at r2
    exact Option.some.inj r2
  have := hmin ⟨0, by omega⟩ ⟨0, by omega⟩ rfl (fun _ => 0) 0.9
  rw [hline.1, hline.2, hact] at this
  simp only [squaredErrorAffine, Fin.sum_univ_succ, Fin.sum_univ_zero] at this
  norm_num at this

/-- Hypotheses of C36 and C37. -/
example : ∃ m : LwrModel 1,
    lwrTrain [1] 0.5 3 (fun (s : Fin 2) _ => (s : ℝ)) (fun s => ∑ i : Fin 1, (s : ℝ) * 0 + 1) = .ok m ∧
    ∃ p, m.predict (fun (s : Fin 7) _ => (s : ℝ)) = .ok p := by
  obtain ⟨m, hm⟩ := lwr_two 3
  refine ⟨m, hm, ?_⟩
  obtain ⟨_, hk, _, hlin, _⟩ := lwrTrain_ok hm
  obtain ⟨hl, hn0⟩ := lwrTrain_fits (ns := fun _ => 1) rfl (fun _ => le_rfl) hm
  unfold LwrModel.predict
  have ha : m.kernels.activations true (fun (s : Fin 7) _ => (s : ℝ)) = .ok fun _ _ => 1 := by
    unfold Kernels.activations
    rw [if_pos ⟨rfl, by rw [← hl, hlin]; rfl⟩]
  rw [ha]
  change ∃ p, (if h : m.lines = m.kernels.n then _ else _) = _
  rw [dif_pos hl]
  exact ⟨_, rfl⟩

/-! ### GPR -/

theorem gprActivations_ok {k : Kernels d} {c : ℝ} {q : Fin N → Fin d → ℝ}
    {g : Fin N → Fin k.n → ℝ} (h : gprActivations k c q = .ok g) :
    ∃ act, k.activations false q = .ok act ∧ g = fun s b => c * act s b := by
  unfold gprActivations at h
  obtain ⟨act, ha, h⟩ := except_bind_ok h
  exact ⟨act, ha, (Except.ok.inj h).symm⟩

/-- The kernels of a trained GPR. -/
def gprKernels (lengths : List ℝ) (x : Fin N → Fin d → ℝ) : Kernels d where
  n := N
  centers := x
  widths := fun _ i => if lengths.length = 1 then lengths.getD 0 0 else lengths.getD i 0

/-- The weights computed from the Gram matrix. -/
def gprWeights (gram : Fin N → Fin N → ℝ) (t : Fin N → ℝ) : Fin N → ℝ := (of gram)⁻¹ *ᵥ t

theorem gprTrain_ok {c : ℝ} {lengths : List ℝ} {x : Fin N → Fin d → ℝ} {t : Fin N → ℝ}
    {m : GprModel d} (h : gprTrain c lengths x t = .ok m) :
    ∃ gram : Fin N → Fin N → ℝ, gprActivations (gprKernels lengths x) c x = .ok gram ∧
      (of gram).det ≠ 0 ∧ m = ⟨gprKernels lengths x, c, gprWeights gram t⟩ ∧
      (lengths.length = 1 ∨ lengths.length = d) := by
  unfold gprTrain at h
  change (if lengths.length ≠ 1 ∧ lengths.length ≠ d then _ else _) = _ at h
  split at h
  · cases h
  · rename_i hl
    obtain ⟨gram, hg, h⟩ := except_bind_ok h
    replace h : (if (of (gram : Fin N → Fin N → ℝ)).det = 0 then _ else _) = _ := h
    split at h
    · cases h
    · rename_i hdet
      refine ⟨gram, hg, hdet, (Except.ok.inj h).symm, ?_⟩
      by_contra hc
      exact hl (not_or.mp hc)

theorem gprTrain_of {c : ℝ} {lengths : List ℝ} {x : Fin N → Fin d → ℝ} (t : Fin N → ℝ)
    {gram : Fin N → Fin N → ℝ} (hg : gprActivations (gprKernels lengths x) c x = .ok gram)
    (hdet : (of gram).det ≠ 0) (hl : lengths.length = 1 ∨ lengths.length = d) :
    gprTrain c lengths x t = .ok ⟨gprKernels lengths x, c, gprWeights gram t⟩ := by
  unfold gprTrain
  rw [if_neg (fun h => by rcases hl with h' | h'; exacts [h.1 h', h.2 h'])]
  change (gprActivations (gprKernels lengths x) c x >>= _) = _
  rw [hg]
  change (if (of gram).det = 0 then _ else _) = _
  rw [if_neg hdet]
  rfl

theorem gpr_predict {m : GprModel d} {q : Fin M → Fin d → ℝ} {p : Fin M → ℝ}
    (h : m.predict q = .ok p) :
    ∃ g, gprActivations m.kernels m.maxCovariance q = .ok g ∧ p = fun s => ∑ b, g s b * m.weights b := by
  unfold GprModel.predict at h
  obtain ⟨g, hg, h⟩ := except_bind_ok h
  exact ⟨g, hg, (Except.ok.inj h).symm⟩

theorem gpr_predict_of {m : GprModel d} {q : Fin M → Fin d → ℝ} {g : Fin M → Fin m.kernels.n → ℝ}
    (h : gprActivations m.kernels m.maxCovariance q = .ok g) :
    m.predict q = .ok fun s => ∑ b, g s b * m.weights b := by
  unfold GprModel.predict
  rw [h]
  rfl

theorem gprWeights_linear (gram : Fin N → Fin N → ℝ) (t t' : Fin N → ℝ) (a a' : ℝ) (b : Fin N) :
    gprWeights gram (fun s => a * t s + a' * t' s) b =
      a * gprWeights gram t b + a' * gprWeights gram t' b := by
  have : (fun s => a * t s + a' * t' s) = a • t + a' • t' := rfl
  rw [gprWeights, this, Matrix.mulVec_add, Matrix.mulVec_smul, Matrix.mulVec_smul]
  rfl

/-- C38: at the training inputs the targets are predicted exactly. -/
theorem C38_interpolates (c : ℝ) (lengths : List ℝ) (x : Fin N → Fin d → ℝ) (t : Fin N → ℝ)
    (m : GprModel d) (h : gprTrain c lengths x t = .ok m) : m.predict x = .ok t := by
  obtain ⟨gram, hg, hdet, rfl, _⟩ := gprTrain_ok h
  refine (gpr_predict_of hg).trans (congrArg Except.ok ?_)
  have : (of gram) *ᵥ ((of gram)⁻¹ *ᵥ t) = t := by
    rw [mulVec_mulVec, Matrix.mul_nonsing_inv _ (isUnit_iff_ne_zero.mpr hdet), Matrix.one_mulVec]
  exact this

/-- C38: predictions are linear in the targets. -/
theorem C38_linear (c : ℝ) (lengths : List ℝ) (x : Fin N → Fin d → ℝ) (t t' : Fin N → ℝ)
    (m m' : GprModel d) (h : gprTrain c lengths x t = .ok m) (h' : gprTrain c lengths x t' = .ok m')
    (q : Fin M → Fin d → ℝ) (p p' : Fin M → ℝ) (hp : m.predict q = .ok p) (hp' : m'.predict q = .ok p')
    (a a' : ℝ) :
    ∃ m2, gprTrain c lengths x (fun s => a * t s + a' * t' s) = .ok m2 ∧
      m2.predict q = .ok fun s => a * p s + a' * p' s := by
  obtain ⟨gram, hg, hdet, rfl, hl⟩ := gprTrain_ok h
  obtain ⟨gram', hg', _, rfl, _⟩ := gprTrain_ok h'
  rw [hg] at hg'
  obtain rfl := Except.ok.inj hg'
  obtain ⟨g, hq, rfl⟩ := gpr_predict hp
  obtain ⟨g', hq', rfl⟩ := gpr_predict hp'
  have hgg : g = g' := Except.ok.inj (hq.symm.trans hq')
  subst hgg
  refine ⟨_, gprTrain_of _ hg hdet hl, ?_⟩
  refine (gpr_predict_of (m := ⟨gprKernels lengths x, c, gprWeights gram fun s => a * t s + a' * t' s⟩) (g := g) hq).trans (congrArg Except.ok (funext fun s => ?_))
  simp only [Finset.mul_sum]
  rw [← Finset.sum_add_distrib]
  refine Finset.sum_congr rfl fun b _ => ?_
  refine (congrArg (g s b * ·) (gprWeights_linear gram t t' a a' b)).trans ?_
  change g s b * (a * gprWeights gram t b + a' * gprWeights gram t' b) =
    a * (g s b * gprWeights gram t b) + a' * (g s b * gprWeights gram t' b)
  ring

/-- C38: the prediction is a combination of Gaussians around the training inputs, with heights
`maxCovariance` and the lengths as widths. The weights solve the equations for the training inputs. -/
theorem C38_gaussians (c : ℝ) (lengths : List ℝ) (x : Fin N → Fin d → ℝ) (t : Fin N → ℝ)
    (m : GprModel d) (h : gprTrain c lengths x t = .ok m) (len : Fin d → ℝ)
    (hlen : (∃ l, lengths = [l] ∧ len = fun _ => l) ∨ lengths = List.ofFn len) (h0 : ∀ i, len i ≠ 0) :
    ∃ w : Fin N → ℝ, (∀ s, ∑ b, c * gaussian (x b) len (x s) * w b = t s) ∧
      ∀ (M : Nat) (q : Fin M → Fin d → ℝ),
        m.predict q = .ok fun s => ∑ b, c * gaussian (x b) len (q s) * w b := by
  obtain ⟨gram, hg, hdet, rfl, _⟩ := gprTrain_ok h
  have hwid : ∀ b i, (gprKernels lengths x).widths b i = len i := by
    intro b i
    change (if lengths.length = 1 then lengths.getD 0 0 else lengths.getD i 0) = len i
    rcases hlen with ⟨l, rfl, rfl⟩ | rfl
    · simp
    · by_cases hd : d = 1
      · subst hd
        have : i = 0 := Subsingleton.elim _ _
        simp [this]
      · simp [hd]
  have hw0 : ∀ b i, (gprKernels lengths x).widths b i ≠ 0 := fun b i => by rw [hwid]; exact h0 i
  have hpred : ∀ (M : Nat) (q : Fin M → Fin d → ℝ),
      (⟨gprKernels lengths x, c, gprWeights gram t⟩ : GprModel d).predict q =
        .ok fun s => ∑ b : Fin N, c * gaussian (x b) len (q s) * gprWeights gram t b := by
    intro M q
    have hact : gprActivations (gprKernels lengths x) c q =
        .ok fun s b => c * rawAct (gprKernels lengths x) q s b := by
      unfold gprActivations
      rw [activations_raw_ok _ _ hw0]
      rfl
    refine (gpr_predict_of hact).trans (congrArg Except.ok (funext fun s => ?_))
    refine Finset.sum_congr rfl fun b _ => ?_
    rw [rawAct_gaussian _ _ _ _ (hw0 b), funext (hwid b)]
    rfl
  refine ⟨gprWeights gram t, fun s => ?_, hpred⟩
  have := C38_interpolates c lengths x t _ h
  rw [hpred] at this
  exact congrFun (Except.ok.inj this) s

/-- Hypotheses of C38: training succeeds for two samples. -/
example : ∃ m : GprModel 1, gprTrain 2 [1] (fun (s : Fin 2) _ => (s : ℝ)) (fun s => 3 + s) = .ok m := by
  have hact : gprActivations (gprKernels [1] fun (s : Fin 2) (_ : Fin 1) => (s : ℝ)) 2
      (fun (s : Fin 2) (_ : Fin 1) => (s : ℝ)) =
      .ok fun s b => 2 * rawAct (gprKernels [1] fun (s : Fin 2) (_ : Fin 1) => (s : ℝ)) (fun s _ => (s : ℝ)) s b := by
    unfold gprActivations
    rw [activations_raw_ok _ _ (fun b i => by simp [gprKernels])]
    rfl
  refine ⟨_, gprTrain_of _ hact ?_ (Or.inl rfl)⟩
  rw [Matrix.det_fin_two]
  have e : Real.exp (-1) < 1 := by rw [Real.exp_lt_one_iff]; norm_num
  have e2 : Real.exp (-1 / 2) * Real.exp (-1 / 2) = Real.exp (-1) := by rw [← Real.exp_add]; norm_num
  simp [rawAct, gprKernels, actFactor]
  norm_num
  nlinarith

end

end Verif
