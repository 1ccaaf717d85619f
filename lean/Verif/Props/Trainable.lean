import Verif.Spec.Trainable
import Verif.Proofs.Gaussians
import Verif.Props.Predictions

/-
C102: training function approximators succeeds exactly if the data determine the parameters.
-/

set_option autoImplicit false

namespace Verif

noncomputable section

open Matrix Spec

variable {N d : Nat}

/-! ### Training in general -/

/-- The outcome of train is that of the method _train of the subclass, except without inputs. -/
theorem train_outcome (x : Fin N → Fin d → ℝ) (t : Fin N → ℝ) (w : Option (Fin N → ℝ)) (fa : Fa) :
    (Fa.train x t w fa).1 = if N = 0 then .error .valueError else (fa.params.train x t w).map fun _ => () := by
  unfold Fa.train
  by_cases hN : N = 0
  · rw [if_pos hN, if_pos hN, PyM.raise_apply]
  · rw [if_neg hN, if_neg hN, PyM.self_bind]
    cases fa.params.train x t w with
    | error e => rfl
    | ok m => rfl

/-- Regression without regularisation succeeds exactly if no other combination than 0 of the columns is zero. -/
theorem solveWls_outcome {p : Nat} (X : Matrix (Fin N) (Fin p) ℝ) (w t : Fin N → ℝ) (hw : ∀ s, 0 < w s) :
    ((∀ beta : Fin p → ℝ, (∀ s, ∑ i, X s i * beta i = 0) → beta = 0) → ∃ beta, solveWls X w 0 t = .ok beta) ∧
    ((∃ beta : Fin p → ℝ, beta ≠ 0 ∧ ∀ s, ∑ i, X s i * beta i = 0) → solveWls X w 0 t = .error .linAlgError) := by
  have key := C34_succeeds X w t 0 (fun s => (hw s).le) le_rfl
  have zero : ∀ beta : Fin p → ℝ, squaredError X (fun _ => 0) w 0 beta = 0 ↔ ∀ s, ∑ i, X s i * beta i = 0 := by
    intro beta
    unfold squaredError
    rw [zero_mul, add_zero, Finset.sum_eq_zero_iff_of_nonneg fun s _ => mul_nonneg (hw s).le (sq_nonneg _)]
    constructor
    · intro h s
      have := h s (Finset.mem_univ s)
      rw [sub_zero] at this
      exact pow_eq_zero_iff two_ne_zero |>.mp ((mul_eq_zero.mp this).resolve_left (hw s).ne')
    · intro h s _
      rw [h s]
      simp
  refine ⟨fun h => key.mpr fun beta hb => h beta ((zero beta).mp hb), ?_⟩
  rintro ⟨beta, h0, hb⟩
  cases e : solveWls X w 0 t with
  | error er => rw [solveWls_error e]
  | ok b => exact absurd (key.mp ⟨b, e⟩ beta ((zero beta).mpr hb)) h0

/-- Regression with regularisation always succeeds. -/
theorem solveWls_regularised {p : Nat} (X : Matrix (Fin N) (Fin p) ℝ) (w t : Fin N → ℝ) (hw : ∀ s, 0 ≤ w s) {reg : ℝ}
    (hr : 0 < reg) : ∃ beta, solveWls X w reg t = .ok beta := by
  refine (C34_succeeds X w t reg hw hr.le).mpr fun beta hb => ?_
  unfold squaredError at hb
  have e1 : 0 ≤ ∑ s, w s * (∑ i, X s i * beta i - 0) ^ 2 :=
    Finset.sum_nonneg fun s _ => mul_nonneg (hw s) (sq_nonneg _)
  have e2 : 0 ≤ ∑ i, beta i ^ 2 := Finset.sum_nonneg fun i _ => sq_nonneg _
  have e3 : reg * ∑ i, beta i ^ 2 = 0 := by
    have := mul_nonneg hr.le e2
    linarith
  have e4 := (mul_eq_zero.mp e3).resolve_left hr.ne'
  rw [Finset.sum_eq_zero_iff_of_nonneg fun i _ => sq_nonneg _] at e4
  funext i
  exact pow_eq_zero_iff two_ne_zero |>.mp (e4 i (Finset.mem_univ i))

/-! ### Regression -/

theorem sum_snoc (x : Fin d → ℝ) (beta : Fin (d + 1) → ℝ) :
    ∑ i, (Fin.snoc x 1 : Fin (d + 1) → ℝ) i * beta i = ∑ i, x i * beta i.castSucc + beta (Fin.last d) := by
  rw [Fin.sum_univ_castSucc]
  simp

/-- Regression with offset, without regularisation and with positive weights. -/
theorem wlsTrain_spanning (x : Fin N → Fin d → ℝ) (t : Fin N → ℝ) (w : Option (Fin N → ℝ))
    (hw : ∀ s, 0 < weightsOf w s) :
    (Spanning x → ∃ m, wlsTrain true 0 x t w = .ok m) ∧
    (¬ Spanning x → wlsTrain true 0 x t w = .error .linAlgError) := by
  obtain ⟨k1, k2⟩ := solveWls_outcome (of fun s => (Fin.snoc (x s) 1 : Fin (d + 1) → ℝ)) (weightsOf w) t hw
  have hrun : wlsTrain true 0 x t w = (solveWls (of fun s => (Fin.snoc (x s) 1 : Fin (d + 1) → ℝ)) (weightsOf w) 0 t >>=
      fun beta => .ok ⟨fun i => beta i.castSucc, some (beta (Fin.last d))⟩) := by
    cases w <;> rfl
  constructor
  · intro h
    obtain ⟨beta, hb⟩ := k1 fun beta hb => by
      simp only [of_apply, sum_snoc] at hb
      obtain ⟨e1, e2⟩ := h _ _ hb
      funext i
      rcases Fin.eq_castSucc_or_eq_last i with ⟨i, rfl⟩ | rfl
      · exact congrFun e1 i
      · exact e2
    rw [hrun, hb]
    exact ⟨_, rfl⟩
  · intro h
    unfold Spanning at h
    push Not at h
    obtain ⟨slope, offset, h1, h2⟩ := h
    rw [hrun, k2 ⟨(Fin.snoc slope offset : Fin (d + 1) → ℝ), fun e => ?_, fun s => ?_⟩]
    · rfl
    · refine h2 (funext fun i => ?_) ?_
      · have := congrFun e i.castSucc
        simpa using this
      · have := congrFun e (Fin.last d)
        simpa using this
    · simp only [of_apply, sum_snoc]
      simpa using h1 s

/-- C102, weighted least squares: training succeeds exactly if the inputs do not lie in a hyperplane (with
offset), or not in one through zero (without offset); with regularisation always. -/
theorem C102_wls (fa : Fa) (useOffset : Bool) (reg : ℝ) (hfa : fa.params = .wls useOffset reg)
    (x : Fin N → Fin d → ℝ) (hN : N ≠ 0) (t : Fin N → ℝ) (w : Option (Fin N → ℝ))
    (hw : ∀ w', w = some w' → ∀ s, 0 < w' s) :
    (0 < reg → (Fa.train x t w fa).1 = .ok ()) ∧
    (reg = 0 → (if useOffset then Spanning x else SpanningLinear x) → (Fa.train x t w fa).1 = .ok ()) ∧
    (reg = 0 → ¬ (if useOffset then Spanning x else SpanningLinear x) →
      (Fa.train x t w fa).1 = .error .linAlgError) := by
  have hw' : ∀ s, 0 < weightsOf w s := by
    intro s
    cases w with
    | none => exact one_pos
    | some w => exact hw w rfl s
  rw [train_outcome, if_neg hN, hfa]
  have hrun : (FaMeta.wls useOffset reg).train x t w = (wlsTrain useOffset reg x t w >>= fun m => .ok (.wls m)) := rfl
  rw [hrun]
  cases useOffset with
  | true =>
    refine ⟨fun h => ?_, ?_, ?_⟩
    · obtain ⟨beta, hb⟩ := solveWls_regularised (of fun s => (Fin.snoc (x s) 1 : Fin (d + 1) → ℝ)) (weightsOf w) t
        (fun s => (hw' s).le) h
      have e : wlsTrain true reg x t w = .ok ⟨fun i => beta i.castSucc, some (beta (Fin.last d))⟩ := by
        have : wlsTrain true reg x t w = (solveWls (of fun s => (Fin.snoc (x s) 1 : Fin (d + 1) → ℝ)) (weightsOf w) reg t >>=
          fun beta => .ok ⟨fun i => beta i.castSucc, some (beta (Fin.last d))⟩) := by cases w <;> rfl
        rw [this, hb]
        rfl
      rw [e]
      rfl
    · rintro rfl h
      obtain ⟨m, e⟩ := (wlsTrain_spanning x t w hw').1 h
      rw [e]
      rfl
    · rintro rfl h
      rw [(wlsTrain_spanning x t w hw').2 h]
      rfl
  | false =>
    have hlin : ∀ reg, wlsTrain false reg x t w = (solveWls (of x) (weightsOf w) reg t >>=
        fun beta => .ok ⟨beta, none⟩) := by intro reg; cases w <;> rfl
    obtain ⟨k1, k2⟩ := solveWls_outcome (of x) (weightsOf w) t hw'
    refine ⟨fun h => ?_, ?_, ?_⟩
    · obtain ⟨beta, hb⟩ := solveWls_regularised (of x) (weightsOf w) t (fun s => (hw' s).le) h
      rw [hlin, hb]
      rfl
    · rintro rfl h
      obtain ⟨beta, hb⟩ := k1 fun beta hb => h beta hb
      rw [hlin, hb]
      rfl
    · rintro rfl h
      have h : ¬ SpanningLinear x := h
      unfold SpanningLinear at h
      push Not at h
      obtain ⟨beta, h1, h2⟩ := h
      rw [hlin, k2 ⟨beta, h2, h1⟩]
      rfl

/-! ### Kernels -/

/-- The kernels of a grid have one width per dimension, which is zero exactly if there are several basis functions
for constant inputs. -/
theorem grid_widths {x : Fin N → Fin d → ℝ} {ns : Fin d → Nat} (h1 : ∀ i, 1 ≤ ns i) {height : ℝ} {k : Kernels d}
    (hk : getCentersAndWidths x (List.ofFn ns) height = .ok k) :
    ((∀ i, ns i ≠ 1 → ¬ Constant x i) → ∀ b i, 0 < k.widths b i) ∧
    (∀ i, ns i ≠ 1 → Constant x i → ∀ b s, k.widths b i = 0 ∧ x s i = k.centers b i) := by
  have hN : N ≠ 0 := (getCenters_ok hk).1
  constructor
  · intro h
    refine (C32_defined x _ ns (Or.inl rfl) h1 height k hk fun i hi => ?_).1
    have := h i hi
    unfold Constant at this
    push Not at this
    exact this
  · intro i hi hc b s
    obtain ⟨hn, hgrid⟩ := C33_grid x _ ns (Or.inl rfl) h1 height k hk _ _ (minInput_isLeast x hN)
      (maxInput_isGreatest x hN)
    obtain ⟨digits, ⟨g1, g2⟩, -⟩ := C33_once x _ ns (Or.inl rfl) h1 height k hk b
    obtain ⟨b0, hb0, hrow⟩ := hgrid digits g1
    obtain rfl : b = b0 := Fin.ext (by rw [hb0, g2])
    obtain ⟨s1, e1⟩ := (minInput_isLeast x hN i).1
    obtain ⟨s2, e2⟩ := (maxInput_isGreatest x hN i).1
    have e : maxInput x i = minInput x i := by rw [← e1, ← e2]; exact hc _ _
    rw [(hrow i).1, (hrow i).2, if_neg hi, if_neg hi, e]
    refine ⟨by simp, ?_⟩
    rw [sub_self, zero_div, mul_zero, add_zero, ← e1]
    exact hc _ _

/-- Constant inputs in a dimension with several basis functions: the activations are not defined. -/
theorem activations_nan {x : Fin N → Fin d → ℝ} {ns : Fin d → Nat} (h1 : ∀ i, 1 ≤ ns i) {height : ℝ} {k : Kernels d}
    (hk : getCentersAndWidths x (List.ofFn ns) height = .ok k) {i : Fin d} (hi : ns i ≠ 1) (hc : Constant x i)
    (normalized : Bool) : k.activations normalized x = .error .nanResult := by
  have hN : N ≠ 0 := (getCenters_ok hk).1
  have hn := (C33_grid x _ ns (Or.inl rfl) h1 height k hk _ _ (minInput_isLeast x hN)
      (maxInput_isGreatest x hN)).1
  have hn2 : 2 ≤ k.n := by
    rw [hn]
    calc 2 ≤ ns i := by have := h1 i; omega
      _ ≤ ∏ j, ns j := Finset.single_le_prod' (fun j _ => h1 j) (Finset.mem_univ i)
  unfold Kernels.activations
  rw [if_neg (by omega)]
  simp only
  rw [if_pos]
  exact ⟨⟨0, by omega⟩, ⟨0, by omega⟩, i, (grid_widths h1 hk).2 i hi hc _ _⟩

/-- With several basis functions, RBFNs and LWRs need a height between 0 and 1. -/
def HeightOk (ns : Fin d → Nat) (height : ℝ) : Prop := ∀ i, ns i ≠ 1 → 0 < height ∧ height < 1

/-! ### LWR -/

theorem lwrLines_of {k : Kernels d} {act : Fin N → Fin k.n → ℝ} {x : Fin N → Fin d → ℝ} {t : Fin N → ℝ}
    (h : ∀ b : Fin k.n, ∃ m, wlsTrain true 0 x t (some fun s => act s b) = .ok m) :
    ∀ n ≤ k.n, ∃ r, lwrLines k act x t n = .ok r := by
  intro n
  induction n with
  | zero => exact fun _ => ⟨_, rfl⟩
  | succ n ih =>
    intro hn
    obtain ⟨r, hr⟩ := ih (by omega)
    obtain ⟨m, hm⟩ := h ⟨n, by omega⟩
    rw [lwrLines, hr]
    change ∃ r, (if h : n < k.n then _ else _) = _
    rw [dif_pos (by omega), hm]
    exact ⟨_, rfl⟩

theorem lwrLines_fails {k : Kernels d} {act : Fin N → Fin k.n → ℝ} {x : Fin N → Fin d → ℝ} {t : Fin N → ℝ} {e : PyErr}
    (h : ∀ b : Fin k.n, wlsTrain true 0 x t (some fun s => act s b) = .error e) (h0 : 0 < k.n) :
    ∀ n, lwrLines k act x t (n + 1) = .error e := by
  intro n
  induction n with
  | zero =>
    rw [lwrLines]
    change (if h : 0 < k.n then _ else _) = _
    rw [dif_pos h0, h]
    rfl
  | succ n ih =>
    rw [lwrLines, ih]
    rfl

/-- C102, locally weighted regression with one number of basis functions per dimension: training succeeds exactly
if the inputs do not lie in a hyperplane. Otherwise it raises LinAlgError, or returns nan if the inputs are
constant in a dimension with several basis functions. -/
theorem C102_lwr (fa : Fa) (ns : Fin d → Nat) (h1 : ∀ i, 1 ≤ ns i) (height reg : ℝ) (hh : HeightOk ns height)
    (hfa : fa.params = .lwr (List.ofFn ns) height reg) (x : Fin N → Fin d → ℝ) (hN : N ≠ 0) (hd : d ≠ 0)
    (t : Fin N → ℝ) (w : Option (Fin N → ℝ)) :
    (Spanning x → (Fa.train x t w fa).1 = .ok ()) ∧
    ((∃ i, ns i ≠ 1 ∧ Constant x i) → ¬ Spanning x ∧ (Fa.train x t w fa).1 = .error .nanResult) ∧
    ((∀ i, ns i ≠ 1 → ¬ Constant x i) → ¬ Spanning x → (Fa.train x t w fa).1 = .error .linAlgError) := by
  obtain ⟨k, hk⟩ := C33_succeeds x _ ns (Or.inl rfl) h1 height hN hd hh
  have hn := (C33_grid x _ ns (Or.inl rfl) h1 height k hk _ _ (minInput_isLeast x hN)
      (maxInput_isGreatest x hN)).1
  have hprod : (List.ofFn ns).prod = k.n := by rw [hn, List.prod_ofFn]
  have hn0 : 0 < k.n := by rw [hn]; exact Finset.prod_pos fun i _ => h1 i
  have flat : ∀ i, Spanning x → ¬ Constant x i := by
    intro i hs hc
    obtain ⟨e, -⟩ := hs (Pi.single i 1) (-x ⟨0, by omega⟩ i) fun s => by
      rw [Finset.sum_eq_single i (fun j _ hj => by rw [Pi.single_eq_of_ne hj, mul_zero])
        (fun h => absurd (Finset.mem_univ i) h), Pi.single_eq_same, hc s ⟨0, by omega⟩]
      ring
    have := congrFun e i
    rw [Pi.single_eq_same] at this
    exact one_ne_zero this
  have run : lwrTrain (List.ofFn ns) height reg x t = (k.activations true x >>= fun act =>
      lwrLines k act x t (List.ofFn ns).prod >>= fun r => .ok ⟨k, _, r.1, r.2⟩) := by
    unfold lwrTrain
    rw [hk]
    rfl
  have outcome : (Fa.train x t w fa).1 = (lwrTrain (List.ofFn ns) height reg x t).map fun _ => () := by
    rw [train_outcome, if_neg hN, hfa]
    change Except.map _ (lwrTrain (List.ofFn ns) height reg x t >>= fun m => .ok (FaModel.lwr m)) = _
    cases lwrTrain (List.ofFn ns) height reg x t <;> rfl
  have positive : (∀ i, ns i ≠ 1 → ¬ Constant x i) → ∃ act, k.activations true x = .ok act ∧ ∀ s b, 0 < act s b := by
    intro h
    have hpos := (grid_widths h1 hk).1 h
    obtain ⟨act, ha⟩ := activations_norm_ok k x fun b i => (hpos b i).ne'
    refine ⟨act, ha, fun s b => ?_⟩
    rcases activations_norm ha with ⟨-, rfl⟩ | ⟨-, rfl⟩
    · exact one_pos
    · have hr : ∀ b, 0 < rawAct k x s b := fun b => Finset.prod_pos fun i _ => actFactor_pos (hpos b i).ne'
      have hs : 0 < ∑ b', rawAct k x s b' := Finset.sum_pos (fun b _ => hr b) ⟨b, Finset.mem_univ b⟩
      simp only [if_neg hs.ne']
      exact div_pos (hr b) hs
  refine ⟨fun hs => ?_, ?_, fun h hs => ?_⟩
  · obtain ⟨act, ha, hpos⟩ := positive fun i _ => flat i hs
    obtain ⟨r, hr⟩ := lwrLines_of (k := k) (act := act) (x := x) (t := t)
      (fun b => (wlsTrain_spanning x t (some fun s => act s b) (fun s => hpos s b)).1 hs) (List.ofFn ns).prod hprod.le
    rw [outcome, run, ha]
    change Except.map _ (lwrLines k act x t (List.ofFn ns).prod >>= _) = _
    rw [hr]
    rfl
  · rintro ⟨i, hi, hc⟩
    refine ⟨fun hs => flat i hs hc, ?_⟩
    rw [outcome, run, activations_nan h1 hk hi hc]
    rfl
  · obtain ⟨act, ha, hpos⟩ := positive h
    have hl := lwrLines_fails (k := k) (act := act) (x := x) (t := t) (e := .linAlgError)
      (fun b => (wlsTrain_spanning x t (some fun s => act s b) (fun s => hpos s b)).2 hs) hn0 (k.n - 1)
    rw [outcome, run, ha]
    change Except.map _ (lwrLines k act x t (List.ofFn ns).prod >>= _) = _
    rw [hprod, ← Nat.sub_add_cancel hn0, hl]
    rfl

/-! ### RBFN -/

theorem rbfnTrain_run {nBfs : List Nat} {height reg : ℝ} {x : Fin N → Fin d → ℝ} (t : Fin N → ℝ) {k : Kernels d}
    (hk : getCentersAndWidths x nBfs height = .ok k) (hn : nBfs.prod = k.n) (h0 : k.n ≠ 0) :
    (rbfnTrain nBfs height reg x t).map (fun _ => ()) = (k.activations false x >>= fun act =>
      (solveWls (of act) (fun _ => 1) reg t).map fun _ => ()) := by
  unfold rbfnTrain
  rw [hk]
  change Except.map _ (k.activations false x >>= _) = _
  cases e : k.activations false x with
  | error er => rfl
  | ok act =>
    have hrun : wlsTrain false reg act t none = (solveWls (of act) (fun _ => 1) reg t >>=
        fun beta => .ok ⟨beta, none⟩) := rfl
    change Except.map _ (wlsTrain false reg act t none >>= _) = Except.map _ _
    rw [hrun]
    cases e2 : solveWls (of act) (fun _ => 1) reg t with
    | error er => rfl
    | ok beta =>
      change Except.map _ (if nBfs.prod = 0 ∨ k.n % nBfs.prod ≠ 0 then _ else _) = _
      rw [hn, if_neg (by simp [h0])]
      rfl

theorem rbfn_outcome {fa : Fa} {nBfs : List Nat} {height reg : ℝ} (hfa : fa.params = .rbfn nBfs height reg)
    (x : Fin N → Fin d → ℝ) (hN : N ≠ 0) (t : Fin N → ℝ) (w : Option (Fin N → ℝ)) :
    (Fa.train x t w fa).1 = (rbfnTrain nBfs height reg x t).map fun _ => () := by
  rw [train_outcome, if_neg hN, hfa]
  change Except.map _ (rbfnTrain nBfs height reg x t >>= fun m => .ok (FaModel.rbfn m)) = _
  cases rbfnTrain nBfs height reg x t <;> rfl

/-- C102, radial basis function networks with regularisation and one number of basis functions per dimension:
training succeeds, unless the inputs are constant in a dimension with several basis functions. -/
theorem C102_rbfn_regularised (fa : Fa) (ns : Fin d → Nat) (h1 : ∀ i, 1 ≤ ns i) (height reg : ℝ)
    (hh : HeightOk ns height) (hreg : 0 < reg) (hfa : fa.params = .rbfn (List.ofFn ns) height reg)
    (x : Fin N → Fin d → ℝ) (hN : N ≠ 0) (hd : d ≠ 0) (t : Fin N → ℝ) (w : Option (Fin N → ℝ)) :
    ((∀ i, ns i ≠ 1 → ¬ Constant x i) → (Fa.train x t w fa).1 = .ok ()) ∧
    ((∃ i, ns i ≠ 1 ∧ Constant x i) → (Fa.train x t w fa).1 = .error .nanResult) := by
  obtain ⟨k, hk⟩ := C33_succeeds x _ ns (Or.inl rfl) h1 height hN hd hh
  have hn := (C33_grid x _ ns (Or.inl rfl) h1 height k hk _ _ (minInput_isLeast x hN)
      (maxInput_isGreatest x hN)).1
  rw [rbfn_outcome hfa x hN t w, rbfnTrain_run t hk (by rw [hn, List.prod_ofFn])
    (by rw [hn]; exact (Finset.prod_pos fun i _ => h1 i).ne')]
  constructor
  · intro h
    rw [activations_raw_ok k x fun b i => ((grid_widths h1 hk).1 h b i).ne']
    obtain ⟨beta, hb⟩ := solveWls_regularised (of (rawAct k x)) (fun _ => 1) t (fun _ => zero_le_one) hreg
    change Except.map _ (solveWls (of (rawAct k x)) (fun _ => 1) reg t) = _
    rw [hb]
    rfl
  · rintro ⟨i, hi, hc⟩
    rw [activations_nan h1 hk hi hc]
    rfl

theorem distinct_pos {x : Fin N → Fin 1 → ℝ} : distinct x = 0 ↔ N = 0 := by
  classical
  unfold distinct
  rw [Finset.card_eq_zero, Finset.image_eq_empty, Finset.univ_eq_empty_iff]
  constructor
  · intro h
    by_contra h0
    exact h.false ⟨0, by omega⟩
  · rintro rfl
    infer_instance

theorem distinct_two {x : Fin N → Fin 1 → ℝ} : 2 ≤ distinct x ↔ ¬ Constant x 0 := by
  classical
  unfold distinct Constant
  rw [show (2 ≤ (Finset.univ.image fun s => x s 0).card) ↔ 1 < (Finset.univ.image fun s => x s 0).card from Iff.rfl,
    Finset.one_lt_card]
  push Not
  constructor
  · rintro ⟨a, ha, b, hb, hab⟩
    obtain ⟨s, -, rfl⟩ := Finset.mem_image.mp ha
    obtain ⟨s', -, rfl⟩ := Finset.mem_image.mp hb
    exact ⟨s, s', hab⟩
  · rintro ⟨s, s', h⟩
    exact ⟨_, Finset.mem_image_of_mem _ (Finset.mem_univ s), _, Finset.mem_image_of_mem _ (Finset.mem_univ s'), h⟩

/-- C102: one-dimensional inputs do not lie in a "hyperplane" if at least two of them differ. -/
theorem C102_line (x : Fin N → Fin 1 → ℝ) (hN : N ≠ 0) : Spanning x ↔ 2 ≤ distinct x := by
  rw [distinct_two]
  constructor
  · intro hs hc
    obtain ⟨e, -⟩ := hs (fun _ => 1) (-x ⟨0, by omega⟩ 0) fun s => by
      rw [Fin.sum_univ_one, hc s ⟨0, by omega⟩]
      ring
    exact one_ne_zero (congrFun e 0)
  · intro h a c hz
    unfold Constant at h
    push Not at h
    obtain ⟨s, s', hss⟩ := h
    have e1 := hz s
    have e2 := hz s'
    rw [Fin.sum_univ_one] at e1 e2
    have e3 : (x s 0 - x s' 0) * a 0 = 0 := by linarith
    have e4 : a 0 = 0 := (mul_eq_zero.mp e3).resolve_left (sub_ne_zero.mpr hss)
    refine ⟨funext fun i => by rw [Subsingleton.elim i 0, e4]; rfl, ?_⟩
    rw [e4] at e1
    linarith

/-- The kernels for one-dimensional inputs: equidistant, with one width. -/
theorem line_kernels {x : Fin N → Fin 1 → ℝ} {n : Nat} (h1 : 1 ≤ n) {height : ℝ} {k : Kernels 1}
    (hk : getCentersAndWidths x [n] height = .ok k) (h : n = 1 ∨ ¬ Constant x 0) :
    k.n = n ∧ ∃ c δ w : ℝ, δ ≠ 0 ∧ w ≠ 0 ∧ ∀ s b, rawAct k x s b = Real.exp (-((x s 0 - (c + (b : ℕ) * δ)) / w) ^ 2 / 2) := by
  have hN : N ≠ 0 := (getCenters_ok hk).1
  have hk' : getCentersAndWidths x (List.ofFn fun _ : Fin 1 => n) height = .ok k := by simpa using hk
  obtain ⟨hn, hgrid⟩ := C33_grid x _ (fun _ => n) (Or.inl rfl) (fun _ => h1) height k hk' _ _ (minInput_isLeast x hN)
    (maxInput_isGreatest x hN)
  have hn : k.n = n := by simpa using hn
  have hpos := (grid_widths (fun _ => h1) hk').1 fun i hi => by
    rw [Subsingleton.elim i 0]
    exact h.resolve_left hi
  have row : ∀ b : Fin k.n, k.centers b 0 =
        (if n = 1 then minInput x 0 else minInput x 0 + (b : ℕ) * ((maxInput x 0 - minInput x 0) / ((n : ℝ) - 1))) ∧
      k.widths b 0 = (if n = 1 then 1 else (maxInput x 0 - minInput x 0) / ((n : ℝ) - 1) / √(-8 * Real.log height)) := by
    intro b
    obtain ⟨b0, hb0, hrow⟩ := hgrid (fun _ => b) (fun _ => by have := b.2; omega)
    have : b = b0 := Fin.ext (by rw [hb0, position]; simp)
    subst this
    exact hrow 0
  refine ⟨hn, ?_⟩
  have hraw : ∀ s b, rawAct k x s b = Real.exp (-((x s 0 - k.centers b 0) / k.widths b 0) ^ 2 / 2) := by
    intro s b
    rw [rawAct_gaussian k x s b fun i => (hpos b i).ne', gaussian, Fin.sum_univ_one]
  by_cases h2 : n = 1
  · refine ⟨minInput x 0, 1, 1, one_ne_zero, one_ne_zero, fun s b => ?_⟩
    have hb : (b : ℕ) = 0 := by have := b.2; omega
    rw [hraw, (row b).1, (row b).2, if_pos h2, if_pos h2, hb]
    simp
  · have hw := hpos ⟨0, by omega⟩ 0
    rw [(row _).2, if_neg h2] at hw
    refine ⟨minInput x 0, (maxInput x 0 - minInput x 0) / ((n : ℝ) - 1), _, fun e => ?_, hw.ne', fun s b => ?_⟩
    · rw [e, zero_div] at hw
      exact lt_irrefl _ hw
    · rw [hraw, (row b).1, (row b).2, if_neg h2, if_neg h2]

/-- With at least as many different inputs as kernels, the kernels are linearly independent. -/
theorem kernels_independent {x : Fin N → Fin 1 → ℝ} {n : Nat} (hle : n ≤ distinct x) {c δ wd : ℝ} (hδ : δ ≠ 0)
    (hwd : wd ≠ 0) (beta : Fin n → ℝ)
    (hb : ∀ s, ∑ b : Fin n, Real.exp (-((x s 0 - (c + (b : ℕ) * δ)) / wd) ^ 2 / 2) * beta b = 0) : beta = 0 := by
  classical
  let S : Finset ℝ := Finset.univ.image fun s => x s 0
  have hle' : n ≤ S.card := hle
  refine gaussians_zero hδ hwd (fun b => S.orderEmbOfFin rfl (Fin.castLE hle' b)) (fun b b' e => ?_) beta
    (c := c) fun b => ?_
  · exact Fin.castLE_injective hle' ((S.orderEmbOfFin rfl).injective e)
  · obtain ⟨s, -, hs⟩ := Finset.mem_image.mp (S.orderEmbOfFin_mem rfl (Fin.castLE hle' b))
    have := hb s
    rw [hs] at this
    exact this

/-- C102, radial basis function networks without regularisation, for one-dimensional inputs: training succeeds
exactly if there are at least as many different inputs as basis functions. Otherwise it raises LinAlgError, or
ValueError without inputs, or returns nan if all inputs are equal. -/
theorem C102_rbfn (fa : Fa) (n : Nat) (h1 : 1 ≤ n) (height : ℝ) (hh : n ≠ 1 → 0 < height ∧ height < 1)
    (hfa : fa.params = .rbfn [n] height 0) (x : Fin N → Fin 1 → ℝ) (t : Fin N → ℝ) (w : Option (Fin N → ℝ)) :
    (Fa.train x t w fa).1 =
      if n ≤ distinct x then .ok ()
      else if distinct x = 0 then .error .valueError
      else if distinct x = 1 then .error .nanResult
      else .error .linAlgError := by
  classical
  by_cases hN : N = 0
  · have e := (distinct_pos (x := x)).mpr hN
    rw [train_outcome, if_pos hN, if_neg (by rw [e]; omega), if_pos (e : distinct x = 0)]
  have hd0 : distinct x ≠ 0 := fun e => hN (distinct_pos.mp e)
  obtain ⟨k, hk⟩ := C33_succeeds x [n] (fun _ => n) (Or.inl (by simp)) (fun _ => h1) height hN one_ne_zero
    (fun _ => hh)
  have hk' : getCentersAndWidths x (List.ofFn fun _ : Fin 1 => n) height = .ok k := by simpa using hk
  have hn : k.n = n := by
    have := (C33_grid x _ (fun _ => n) (Or.inl rfl) (fun _ => h1) height k hk' _ _ (minInput_isLeast x hN)
      (maxInput_isGreatest x hN)).1
    simpa using this
  rw [rbfn_outcome hfa x hN t w, rbfnTrain_run t hk (by simp [hn]) (by omega), if_neg hd0]
  by_cases hc : n ≠ 1 ∧ Constant x 0
  · have hd1 : ¬ 2 ≤ distinct x := fun h => distinct_two.mp h hc.2
    rw [activations_nan (fun _ => h1) hk' (i := 0) hc.1 hc.2, if_neg (by omega), if_pos (by omega)]
    rfl
  have hc' : n = 1 ∨ ¬ Constant x 0 := by
    by_cases h : n = 1
    · exact .inl h
    · exact .inr fun h' => hc ⟨h, h'⟩
  obtain ⟨-, c, δ, wd, hδ, hwd, hraw⟩ := line_kernels h1 hk hc'
  have hpos := (grid_widths (fun _ => h1) hk').1 fun i hi => by
    rw [Subsingleton.elim i 0]
    exact hc'.resolve_left hi
  rw [activations_raw_ok k x fun b i => (hpos b i).ne']
  change Except.map _ (solveWls (of (rawAct k x)) (fun _ => 1) 0 t) = _
  obtain ⟨k1, k2⟩ := solveWls_outcome (of (rawAct k x)) (fun _ => 1) t fun _ => one_pos
  simp only [of_apply, hraw] at k1 k2
  by_cases hle : n ≤ distinct x
  · rw [if_pos hle]
    obtain ⟨beta, hb⟩ := k1 fun beta hb => kernels_independent (by rw [hn]; exact hle) hδ hwd beta hb
    rw [hb]
    rfl
  · have hlt : (Finset.univ.image fun s => x s 0).card < k.n := by
      rw [hn]
      unfold distinct at hle
      convert! not_le.mp hle
    obtain ⟨beta, h0, hz⟩ := combination_zero (Finset.univ.image fun s => x s 0)
      (fun (b : Fin k.n) a => Real.exp (-((a - (c + (b : ℕ) * δ)) / wd) ^ 2 / 2)) hlt
    rw [k2 ⟨beta, h0, fun s => hz _ (Finset.mem_image_of_mem _ (Finset.mem_univ s))⟩, if_neg hle, if_neg (fun e => ?_)]
    · rfl
    · refine hc ⟨by omega, ?_⟩
      by_contra h'
      have := distinct_two.mpr h'
      omega

theorem distinct_injective {x : Fin N → Fin 1 → ℝ} (hx : Function.Injective x) : distinct x = N := by
  classical
  unfold distinct
  have e : (Finset.univ.image fun s => x s 0).card = N := by
    rw [Finset.card_image_of_injective _ fun s s' h => hx (funext fun i => by rw [Subsingleton.elim i 0]; exact h),
      Finset.card_univ, Fintype.card_fin]
  convert! e

/-- C102: with as many basis functions as (different) inputs, the network passes through all targets. -/
theorem C102_interpolates (fa : Fa) (hN : N ≠ 0) (height : ℝ) (hh : N ≠ 1 → 0 < height ∧ height < 1)
    (hfa : fa.params = .rbfn [N] height 0) (x : Fin N → Fin 1 → ℝ) (hx : Function.Injective x) (t : Fin N → ℝ)
    (w : Option (Fin N → ℝ)) :
    (Fa.train x t w fa).1 = .ok () ∧ (Fa.train x t w fa).2.predict x = .ok t := by
  have h1 : 1 ≤ N := Nat.pos_of_ne_zero hN
  have hok : (Fa.train x t w fa).1 = .ok () := by
    rw [C102_rbfn fa N h1 height hh hfa, distinct_injective hx, if_pos le_rfl]
  refine ⟨hok, ?_⟩
  obtain ⟨k, weights, act, hk, -, hpred, hact, hmin⟩ := C35_object [N] (fun _ : Fin 1 => N) (by simp) (fun _ => h1)
    height 0 le_rfl x t w fa _ hfa (Prod.ext hok rfl)
  rw [hpred N hN x act hact]
  have hc : N = 1 ∨ ¬ Constant x 0 := by
    by_cases h2 : N = 1
    · exact .inl h2
    · exact .inr (distinct_two.mp (by rw [distinct_injective hx]; omega))
  obtain ⟨hn, c, δ, wd, hδ, hwd, hraw⟩ := line_kernels h1 hk hc
  have hk' : getCentersAndWidths x (List.ofFn fun _ : Fin 1 => N) height = .ok k := by simpa using hk
  have hpos := (grid_widths (fun _ => h1) hk').1 fun i hi => by
    rw [Subsingleton.elim i 0]
    exact hc.resolve_left hi
  rw [activations_raw_ok k x fun b i => (hpos b i).ne'] at hact
  obtain rfl := Except.ok.inj hact
  let A : Matrix (Fin N) (Fin k.n) ℝ := of (rawAct k x)
  have hinj : Function.Injective A.mulVecLin := by
    rw [injective_iff_map_eq_zero]
    intro beta hb
    refine kernels_independent (x := x) (c := c) (by rw [distinct_injective hx, hn]) hδ hwd beta fun s => ?_
    have e := congrFun hb s
    simp only [← hraw]
    exact e
  have hsurj : Function.Surjective A.mulVecLin :=
    (LinearMap.injective_iff_surjective_of_finrank_eq_finrank (by simp [hn])).mp hinj
  obtain ⟨beta, hb⟩ := hsurj t
  have hb : ∀ s, ∑ b, rawAct k x s b * beta b = t s := fun s => congrFun hb s
  have hz : squaredError (rawAct k x) t (fun _ => 1) 0 beta = 0 := by
    simp [squaredError, hb]
  have hw : beta = weights := (hmin beta).2 (by
    rw [hz]
    unfold squaredError
    rw [zero_mul, add_zero]
    exact Finset.sum_nonneg fun s _ => mul_nonneg zero_le_one (sq_nonneg _))
  rw [← hw]
  exact congrArg _ (funext hb)

/-! ### GPR -/

/-- C102, Gaussian process regression with lengths and covariance other than zero: training succeeds exactly if
no two inputs are equal. -/
theorem C102_gpr (fa : Fa) (c : ℝ) (lengths : List ℝ) (hc : c ≠ 0)
    (hl : lengths.length = 1 ∨ lengths.length = d) (h0 : ∀ l ∈ lengths, l ≠ 0)
    (hfa : fa.params = .gpr c lengths) (x : Fin N → Fin d → ℝ) (hN : N ≠ 0) (t : Fin N → ℝ)
    (w : Option (Fin N → ℝ)) :
    (Function.Injective x → (Fa.train x t w fa).1 = .ok ()) ∧
    (¬ Function.Injective x → (Fa.train x t w fa).1 = .error .linAlgError) := by
  have hwid : ∀ b i, (gprKernels lengths x).widths b i ≠ 0 := by
    intro b i
    change (if lengths.length = 1 then lengths.getD 0 0 else lengths.getD i 0) ≠ 0
    split
    · rename_i h
      rw [List.getD_eq_getElem?_getD, List.getElem?_eq_getElem (by omega)]
      exact h0 _ (List.getElem_mem _)
    · rename_i h
      rw [List.getD_eq_getElem?_getD, List.getElem?_eq_getElem (by have := i.2; omega)]
      exact h0 _ (List.getElem_mem _)
  have hact : gprActivations (gprKernels lengths x) c x =
      .ok fun s b => c * rawAct (gprKernels lengths x) x s b := by
    unfold gprActivations
    rw [activations_raw_ok _ _ hwid]
    rfl
  have hraw : ∀ (s b : Fin N), rawAct (gprKernels lengths x) x s b =
      gaussian (x b) (fun i => if lengths.length = 1 then lengths.getD 0 0 else lengths.getD i 0) (x s) :=
    fun s b => rawAct_gaussian _ _ _ _ (hwid b)
  have outcome : (Fa.train x t w fa).1 = (gprTrain c lengths x t).map fun _ => () := by
    rw [train_outcome, if_neg hN, hfa]
    change Except.map _ (gprTrain c lengths x t >>= fun m => .ok (FaModel.gpr m)) = _
    cases gprTrain c lengths x t <;> rfl
  constructor
  · intro hx
    rw [outcome, gprTrain_of t hact (fun hdet => ?_) hl]
    · rfl
    · obtain ⟨v, hv, hz⟩ := Matrix.exists_mulVec_eq_zero_iff.mpr hdet
      refine hv (gaussian_definite x (fun i => if lengths.length = 1 then lengths.getD 0 0 else lengths.getD i 0) (fun i => hwid (⟨0, Nat.pos_of_ne_zero hN⟩ : Fin N) i) hx v fun s => ?_)
      have e := congrFun hz s
      have e : ∑ b : Fin N, c * rawAct (gprKernels lengths x) x s b * v b = 0 := e
      simp only [hraw] at e
      have e1 : ∀ b : Fin N, c * gaussian (x b) (fun i => if lengths.length = 1 then lengths.getD 0 0 else lengths.getD i 0) (x s) * v b
          = c * (gaussian (x b) (fun i => if lengths.length = 1 then lengths.getD 0 0 else lengths.getD i 0) (x s) * v b) :=
        fun b => mul_assoc _ _ _
      simp only [e1] at e
      rw [← Finset.mul_sum] at e
      exact (mul_eq_zero.mp e).resolve_left hc
  · intro hx
    rw [Function.Injective] at hx
    push Not at hx
    obtain ⟨s, s', e, hne⟩ := hx
    have hdet : (of fun s b => c * rawAct (gprKernels lengths x) x s b : Matrix (Fin N) (Fin N) ℝ).det = 0 := by
      refine Matrix.det_zero_of_row_eq hne (funext fun b => ?_)
      simp only [of_apply, hraw, e]
    rw [outcome]
    unfold gprTrain
    rw [if_neg (fun h => by rcases hl with h' | h'; exacts [h.1 h', h.2 h'])]
    change Except.map _ (gprActivations (gprKernels lengths x) c x >>= _) = _
    rw [hact]
    exact congrArg _ (if_pos hdet)

/-! ### Examples -/

/-- Three different inputs, one of them twice. -/
private def four : Fin 4 → Fin 1 → ℝ := fun s _ => ![0, 1, 1, 2] s

private theorem four_distinct : distinct four = 3 := by
  classical
  unfold distinct
  have : (Finset.univ.image fun s => four s 0) = ({0, 1, 2} : Finset ℝ) := by
    ext a
    simp [four, Fin.exists_fin_succ, eq_comm]
  have e : (Finset.univ.image fun s => four s 0).card = 3 := by
    rw [this, Finset.card_eq_three]
    exact ⟨0, 1, 2, by norm_num, by norm_num, by norm_num, rfl⟩
  convert! e

/-- Three basis functions (with the default height) can be trained on three different inputs, four can not. -/
example (t : Fin 4 → ℝ) (w : Option (Fin 4 → ℝ)) :
    (Fa.train four t w ⟨.rbfn [3] 0.7 0, none, none⟩).1 = .ok () ∧
    (Fa.train four t w ⟨.rbfn [4] 0.7 0, none, none⟩).1 = .error .linAlgError := by
  constructor
  · rw [C102_rbfn _ 3 (by norm_num) 0.7 (fun _ => by norm_num) rfl, four_distinct]
    rfl
  · rw [C102_rbfn _ 4 (by norm_num) 0.7 (fun _ => by norm_num) rfl, four_distinct]
    rfl

/-- Without a constant column, one input other than zero suffices; with it, two different inputs are needed. -/
example : (Fa.train (fun (_ : Fin 2) (_ : Fin 1) => (2 : ℝ)) ![1, 3] none ⟨.wls false 0, none, none⟩).1 = .ok () ∧
    (Fa.train (fun (_ : Fin 2) (_ : Fin 1) => (2 : ℝ)) ![1, 3] none ⟨.wls true 0, none, none⟩).1 =
      .error .linAlgError ∧
    (Fa.train (fun (_ : Fin 2) (_ : Fin 1) => (2 : ℝ)) ![1, 3] none ⟨.wls true 0.1, none, none⟩).1 = .ok () := by
  refine ⟨(C102_wls _ false 0 rfl _ (by norm_num) _ none (fun _ h => nomatch h)).2.1 rfl ?_,
    (C102_wls _ true 0 rfl _ (by norm_num) _ none (fun _ h => nomatch h)).2.2 rfl ?_,
    (C102_wls _ true 0.1 rfl _ (by norm_num) _ none (fun _ h => nomatch h)).1 (by norm_num)⟩
  · intro slope h
    have := h 0
    rw [Fin.sum_univ_one] at this
    funext i
    rw [Subsingleton.elim i 0]
    simpa using this
  · change ¬ Spanning _
    rw [C102_line _ (by norm_num), distinct_two]
    exact not_not.mpr fun _ _ => rfl

/-- Lines can be trained on three different inputs with any number of kernels, but not on equal inputs. -/
example (t : Fin 4 → ℝ) (n : Nat) (h1 : 2 ≤ n) :
    (Fa.train four t none ⟨.lwr [n] 0.5 0, none, none⟩).1 = .ok () ∧
    (Fa.train (fun (_ : Fin 4) (_ : Fin 1) => (2 : ℝ)) t none ⟨.lwr [n] 0.5 0, none, none⟩).1 = .error .nanResult ∧
    (Fa.train (fun (_ : Fin 4) (_ : Fin 1) => (2 : ℝ)) t none ⟨.lwr [1] 0.5 0, none, none⟩).1 =
      .error .linAlgError := by
  have l := fun (n : Nat) (h1 : 1 ≤ n) (x : Fin 4 → Fin 1 → ℝ) => C102_lwr ⟨.lwr [n] 0.5 0, none, none⟩ (fun _ => n)
    (fun _ => h1) 0.5 0 (fun _ _ => by norm_num) (by simp) x (by norm_num) one_ne_zero t none
  refine ⟨(l n (by omega) _).1 ?_, ((l n (by omega) _).2.1 ⟨0, by omega, fun _ _ => rfl⟩).2, (l 1 le_rfl _).2.2
    (fun i h => absurd rfl h) ?_⟩
  · rw [C102_line _ (by norm_num), four_distinct]
    norm_num
  · rw [C102_line _ (by norm_num), distinct_two]
    exact not_not.mpr fun _ _ => rfl

/-- With regularisation, more kernels than inputs can be trained. -/
example (t : Fin 4 → ℝ) : (Fa.train four t none ⟨.rbfn [9] 0.7 0.01, none, none⟩).1 = .ok () :=
  (C102_rbfn_regularised _ (fun _ => 9) (fun _ => by norm_num) 0.7 0.01 (fun _ _ => by norm_num) (by norm_num)
    (by simp) four (by norm_num) one_ne_zero t none).1 fun i _ => by
      rw [Subsingleton.elim i 0]
      exact distinct_two.mp (by rw [four_distinct]; norm_num)

/-- A Gaussian process can be trained on different inputs, but not on `four`, where one input appears twice. -/
example : (Fa.train (fun (s : Fin 3) (_ : Fin 1) => (s : ℝ)) ![1, 3, 2] none ⟨.gpr 1 [0.5], none, none⟩).1 = .ok () ∧
    (Fa.train four ![1, 3, 2, 4] none ⟨.gpr 1 [0.5], none, none⟩).1 = .error .linAlgError := by
  constructor
  · refine (C102_gpr _ 1 [0.5] one_ne_zero (Or.inl rfl) (by norm_num) rfl _ (by norm_num) _ none).1 fun s s' h => ?_
    have := congrFun h 0
    simp only [Nat.cast_inj] at this
    exact Fin.ext this
  · refine (C102_gpr _ 1 [0.5] one_ne_zero (Or.inl rfl) (by norm_num) rfl _ (by norm_num) _ none).2 fun h => ?_
    have : (1 : Fin 4) = 2 := h (funext fun _ => rfl)
    exact absurd this (by decide)

/-- Three basis functions pass through three targets. -/
example : (Fa.train (fun (s : Fin 3) (_ : Fin 1) => (s : ℝ)) ![1, 3, 2] none ⟨.rbfn [3] 0.7 0, none, none⟩).2.predict
    (fun (s : Fin 3) (_ : Fin 1) => (s : ℝ)) = .ok ![1, 3, 2] :=
  (C102_interpolates _ (by norm_num) 0.7 (fun _ => by norm_num) rfl _ (fun s s' h => by
    have := congrFun h 0
    simp only [Nat.cast_inj] at this
    exact Fin.ext this) _ none).2

end

end Verif
