import Verif.Props.Approximators

/- C39, C67: predictions of function approximators as objects. -/

set_option autoImplicit false

namespace Verif

open Spec Matrix

noncomputable section

variable {d N M : Nat}

/-! ### Batches -/

theorem activations_batch (k : Kernels d) (nz : Bool) (q : Fin N → Fin d → ℝ) (a : Fin N → Fin k.n → ℝ) :
    k.activations nz q = .ok a ↔ ∀ s, k.activations nz (fun _ : Fin 1 => q s) = .ok fun _ => a s := by
  unfold Kernels.activations
  by_cases h1 : nz = true ∧ k.n = 1
  · rw [if_pos h1]
    simp only [if_pos h1, Except.ok.injEq]
    constructor
    · rintro rfl s
      rfl
    · intro h
      funext s
      exact congrFun (h s) 0
  · rw [if_neg h1]
    simp only [if_neg h1]
    by_cases h2 : ∃ s b i, k.widths b i = 0 ∧ q s i = k.centers b i
    · rw [if_pos h2]
      constructor
      · intro h
        cases h
      · obtain ⟨s, b, i, h3⟩ := h2
        intro h
        have := h s
        rw [if_pos ⟨0, b, i, h3⟩] at this
        cases this
    · rw [if_neg h2]
      have h3 : ∀ s, ¬∃ (_ : Fin 1) (b : Fin k.n) (i : Fin d), k.widths b i = 0 ∧ q s i = k.centers b i :=
        fun s ⟨_, b, i, h⟩ => h2 ⟨s, b, i, h⟩
      cases nz
      · simp only [Bool.false_eq_true, if_false, Except.ok.injEq]
        constructor
        · rintro rfl s
          rw [if_neg (h3 s)]
        · intro h
          funext s
          have := h s
          rw [if_neg (h3 s)] at this
          exact congrFun (Except.ok.inj this) 0
      · simp only [if_true, Except.ok.injEq]
        constructor
        · rintro rfl s
          rw [if_neg (h3 s)]
        · intro h
          funext s
          have := h s
          rw [if_neg (h3 s)] at this
          exact congrFun (Except.ok.inj this) 0

/-- Results for all samples, from results for each of them. -/
theorem ok_batch {B : Type} {F : Fin N → Except PyErr (Fin 1 → B)} {p : Fin N → B}
    (h : ∀ s, ∃ v, F s = .ok v) : (∀ s, F s = .ok fun _ => p s) ↔ ∀ s v, F s = .ok v → v 0 = p s := by
  constructor
  · intro h s v hv
    rw [h s] at hv
    rw [← Except.ok.inj hv]
  · intro h' s
    obtain ⟨v, hv⟩ := h s
    rw [hv]
    refine congrArg Except.ok (funext fun i => ?_)
    rw [Subsingleton.elim i 0]
    exact h' s v hv

theorem model_batch {k : Kernels d} {nz : Bool} {q : Fin N → Fin d → ℝ} (f : Fin N → (Fin k.n → ℝ) → ℝ)
    (p : Fin N → ℝ) :
    (k.activations nz q >>= fun a => (.ok fun s => f s (a s) : Except PyErr _)) = .ok p ↔
      ∀ s, (k.activations nz (fun _ : Fin 1 => q s) >>=
        fun a => (.ok fun t => f s (a t) : Except PyErr _)) = .ok fun _ => p s := by
  constructor
  · intro h s
    obtain ⟨a, ha, h⟩ := except_bind_ok h
    obtain rfl := Except.ok.inj h
    rw [(activations_batch k nz q a).mp ha s]
    rfl
  · intro h
    have : ∀ s, ∃ a, k.activations nz (fun _ : Fin 1 => q s) = .ok a ∧ f s (a 0) = p s := by
      intro s
      obtain ⟨a, ha, h⟩ := except_bind_ok (h s)
      exact ⟨a, ha, congrFun (Except.ok.inj h) 0⟩
    choose a ha hp using this
    have : k.activations nz q = .ok fun s => a s 0 := by
      rw [activations_batch]
      intro s
      rw [ha s]
      refine congrArg Except.ok (funext fun t => ?_)
      rw [Subsingleton.elim t 0]
    rw [this]
    exact congrArg Except.ok (funext fun s => hp s)

theorem bind_congr_ok {A B : Type} {x : Except PyErr A} {f g : A → Except PyErr B} (h : ∀ a, f a = g a) :
    (x >>= f) = (x >>= g) := by
  rw [funext h]

theorem bind_ne_ok {A B : Type} {x : Except PyErr A} {f : A → Except PyErr B} {b : B}
    (h : ∀ a b, f a ≠ .ok b) : (x >>= f) ≠ .ok b := by
  intro he
  obtain ⟨a, _, ha⟩ := except_bind_ok he
  exact h a b ha

theorem FaModel.predict_batch (m : FaModel d) (hN : N ≠ 0) (q : Fin N → Fin d → ℝ) (p : Fin N → ℝ) :
    m.predict q = .ok p ↔ ∀ s, m.predict (fun _ : Fin 1 => q s) = .ok fun _ => p s := by
  cases m with
  | rbfn m =>
    by_cases hf : m.cols = 1 ∧ m.rows = m.kernels.n
    · have e : ∀ {N : Nat} (q : Fin N → Fin d → ℝ), m.predict q =
          m.kernels.activations false q >>= fun a => (.ok fun s =>
            ∑ b, a s b * m.weights (Fin.cast hf.2.symm b) (Fin.cast hf.1.symm 0) : Except PyErr _) := by
        intro N q
        unfold RbfnModel.predict
        refine bind_congr_ok fun a => ?_
        rw [dif_pos hf]
        rfl
      simp only [FaModel.predict, e]
      exact model_batch (fun _ a => ∑ b, a b * m.weights (Fin.cast hf.2.symm b) (Fin.cast hf.1.symm 0)) p
    · have e : ∀ {N : Nat} (q : Fin N → Fin d → ℝ) (p : Fin N → ℝ), m.predict q ≠ .ok p := by
        intro N q p
        unfold RbfnModel.predict
        refine bind_ne_ok fun a b => ?_
        rw [dif_neg hf]
        split <;> exact fun h => by cases h
      simp only [FaModel.predict]
      exact ⟨fun h => absurd h (e q p), fun h => absurd (h ⟨0, Nat.pos_of_ne_zero hN⟩) (e _ _)⟩
  | lwr m =>
    by_cases hf : m.lines = m.kernels.n
    · have e : ∀ {N : Nat} (q : Fin N → Fin d → ℝ), m.predict q =
          m.kernels.activations true q >>= fun a => (.ok fun s =>
            ∑ l, m.getLines q s l * a s (Fin.cast hf l) : Except PyErr _) := by
        intro N q
        unfold LwrModel.predict
        refine bind_congr_ok fun a => ?_
        rw [dif_pos hf]
        rfl
      simp only [FaModel.predict, e]
      exact model_batch (fun s a => ∑ l, m.getLines q s l * a (Fin.cast hf l)) p
    · have e : ∀ {N : Nat} (q : Fin N → Fin d → ℝ) (p : Fin N → ℝ), m.predict q ≠ .ok p := by
        intro N q p
        unfold LwrModel.predict
        refine bind_ne_ok fun a b => ?_
        rw [dif_neg hf]
        exact fun h => by cases h
      simp only [FaModel.predict]
      exact ⟨fun h => absurd h (e q p), fun h => absurd (h ⟨0, Nat.pos_of_ne_zero hN⟩) (e _ _)⟩
  | wls m =>
    simp only [FaModel.predict, Except.ok.injEq]
    constructor
    · rintro rfl s
      rfl
    · intro h
      funext s
      exact congrFun (h s) 0
  | gpr m =>
    have e : ∀ {N : Nat} (q : Fin N → Fin d → ℝ), m.predict q =
        m.kernels.activations false q >>= fun a => (.ok fun s =>
          ∑ b, (m.maxCovariance * a s b) * m.weights b : Except PyErr _) := by
      intro N q
      unfold GprModel.predict gprActivations
      cases m.kernels.activations false q <;> rfl
    simp only [FaModel.predict, e]
    exact model_batch (fun _ a => ∑ b, (m.maxCovariance * a b) * m.weights b) p

/-- C39: predicting a batch gives the predictions of the single inputs, and succeeds if and only if
all of these do. -/
theorem C39_batch (fa : Fa) (hN : N ≠ 0) (q : Fin N → Fin d → ℝ) (p : Fin N → ℝ) :
    fa.predict q = .ok p ↔ ∀ s, fa.predict (fun _ : Fin 1 => q s) = .ok fun _ => p s := by
  have s0 : Fin N := ⟨0, Nat.pos_of_ne_zero hN⟩
  unfold Fa.predict
  cases fa.model with
  | none => exact ⟨(fun h => nomatch h), (fun h => nomatch h s0)⟩
  | some dm =>
    obtain ⟨dim, m⟩ := dm
    simp only [if_neg hN, one_ne_zero, if_false]
    by_cases hd : d = dim
    · subst hd
      simp only [dif_pos]
      exact m.predict_batch hN q p
    · simp only [dif_neg hd]
      exact ⟨(fun h => nomatch h), (fun h => nomatch h s0)⟩

/-- C39: before training, with no inputs, and with inputs of another dimension, `predict` raises
ValueError. Training sets the dimension (see `train_ok`). -/
theorem C39_errors (fa : Fa) (q : Fin N → Fin d → ℝ)
    (h : fa.model = none ∨ N = 0 ∨ ∃ dim m, fa.model = some ⟨dim, m⟩ ∧ d ≠ dim) :
    fa.predict q = .error .valueError := by
  unfold Fa.predict
  cases hm : fa.model with
  | none => rfl
  | some dm =>
    obtain ⟨dim, m⟩ := dm
    simp only
    by_cases hN : N = 0
    · rw [if_pos hN]
    · rw [if_neg hN]
      rcases h with h | h | ⟨dim', m', h, hd⟩
      · rw [hm] at h; cases h
      · exact absurd h hN
      · rw [hm] at h
        have : dim = dim' := congrArg Sigma.fst (Option.some.inj h)
        rw [dif_neg (this ▸ hd)]

/-- Successful training: what it sets. -/
theorem train_ok {fa fa' : Fa} {x : Fin N → Fin d → ℝ} {t : Fin N → ℝ} {w : Option (Fin N → ℝ)}
    (h : Fa.train x t w fa = (.ok (), fa')) :
    N ≠ 0 ∧ ∃ m, fa.params.train x t w = .ok m ∧ fa' = { fa with model := some ⟨d, m⟩ } := by
  unfold Fa.train at h
  by_cases hN : N = 0
  · rw [if_pos hN, PyM.raise_apply] at h
    cases h
  · rw [if_neg hN] at h
    refine ⟨hN, ?_⟩
    rw [PyM.self_bind] at h
    cases hm : fa.params.train x t w with
    | error e =>
      rw [hm, PyM.lift_error_bind] at h
      cases h
    | ok m =>
      rw [hm, PyM.lift_ok_bind, PyM.modify_apply] at h
      exact ⟨m, rfl, (congrArg Prod.snd h).symm⟩

theorem train_of {fa : Fa} {x : Fin N → Fin d → ℝ} {t : Fin N → ℝ} {w : Option (Fin N → ℝ)}
    (hN : N ≠ 0) {m : FaModel d} (h : fa.params.train x t w = .ok m) :
    Fa.train x t w fa = (.ok (), { fa with model := some ⟨d, m⟩ }) := by
  unfold Fa.train
  rw [if_neg hN, PyM.self_bind, h, PyM.lift_ok_bind, PyM.modify_apply]

theorem predict_model {fa : Fa} {m : FaModel d} (h : fa.model = some ⟨d, m⟩) (hN : N ≠ 0)
    (q : Fin N → Fin d → ℝ) : fa.predict q = m.predict q := by
  unfold Fa.predict
  rw [h]
  simp only [if_neg hN, dif_pos]
  rfl

/-- C39: an object that was trained raises ValueError for inputs of another dimension; if training
raises an exception, the object is unchanged. -/
theorem C39_train (fa : Fa) (x : Fin N → Fin d → ℝ) (t : Fin N → ℝ) (w : Option (Fin N → ℝ)) :
    ((Fa.train x t w fa).1 = .ok () → ∀ (M dim : Nat) (q : Fin M → Fin dim → ℝ), dim ≠ d →
      (Fa.train x t w fa).2.predict q = .error .valueError) ∧
    ((Fa.train x t w fa).1 ≠ .ok () → (Fa.train x t w fa).2 = fa) := by
  constructor
  · intro h M dim q hd
    obtain ⟨_, m, _, e⟩ := train_ok (Prod.ext h rfl)
    refine (congrArg (fun f : Fa => f.predict q) e).trans ?_
    exact C39_errors _ q (Or.inr (Or.inr ⟨d, m, rfl, hd⟩))
  · intro h
    unfold Fa.train at h ⊢
    by_cases hN : N = 0
    · rw [if_pos hN]; rfl
    · rw [if_neg hN] at h ⊢
      rw [PyM.self_bind] at h ⊢
      cases hm : fa.params.train x t w with
      | error e => rfl
      | ok m =>
        rw [hm, PyM.lift_ok_bind, PyM.modify_apply] at h
        exact absurd rfl h

/-! ### Objects -/

/-- C34 for objects: a WLS with offset and without regularisation that was trained with an affine
function predicts this function. -/
theorem C34_object (x : Fin N → Fin d → ℝ) (a : Fin d → ℝ) (c : ℝ) (w : Option (Fin N → ℝ))
    (hw : ∀ w', w = some w' → ∀ s, 0 ≤ w' s) (fa fa' : Fa) (hfa : fa.params = .wls true 0)
    (h : Fa.train x (fun s => ∑ i, x s i * a i + c) w fa = (.ok (), fa'))
    (hM : M ≠ 0) (q : Fin M → Fin d → ℝ) : fa'.predict q = .ok fun s => ∑ i, q s i * a i + c := by
  obtain ⟨_, m, hm, rfl⟩ := train_ok h
  rw [hfa] at hm
  obtain ⟨m', hm', h'⟩ := except_bind_ok hm
  obtain rfl := Except.ok.inj h'
  rw [predict_model rfl hM]
  obtain ⟨r1, r2, _⟩ := C34_recovers_affine x a c w hw m' hm'
  refine congrArg Except.ok (funext fun s => ?_)
  rw [WlsModel.predict, r1, r2]
  rfl

/-- C35 for objects: without regularisation, no RBFN with the same centres and widths has a smaller
squared error than the one trained. The parameters are the entries of the array `weights`. -/
theorem C35_object (nBfs : List Nat) (ns : Fin d → Nat) (hns : nBfs = List.ofFn ns)
    (h1 : ∀ i, 1 ≤ ns i) (height reg : ℝ) (hreg : 0 ≤ reg) (x : Fin N → Fin d → ℝ) (t : Fin N → ℝ)
    (w : Option (Fin N → ℝ)) (fa fa' : Fa) (hfa : fa.params = .rbfn nBfs height reg)
    (h : Fa.train x t w fa = (.ok (), fa')) :
    ∃ (k : Kernels d) (weights : Fin k.n → ℝ) (act : _), getCentersAndWidths x nBfs height = .ok k ∧
      fa'.param "weights" = some (.array [k.n, 1] (List.ofFn weights)) ∧
      (∀ (M : Nat), M ≠ 0 → ∀ (q : Fin M → Fin d → ℝ) act', k.activations false q = .ok act' →
        fa'.predict q = .ok fun s => ∑ b, act' s b * weights b) ∧
      k.activations false x = .ok act ∧
      ∀ weights', squaredError act t (fun _ => 1) reg weights ≤ squaredError act t (fun _ => 1) reg weights' ∧
        (squaredError act t (fun _ => 1) reg weights' ≤ squaredError act t (fun _ => 1) reg weights →
          weights' = weights) := by
  obtain ⟨_, m, hm, rfl⟩ := train_ok h
  rw [hfa] at hm
  obtain ⟨m', hm', h'⟩ := except_bind_ok hm
  obtain rfl := Except.ok.inj h'
  have hf := rbfnTrain_fits hns h1 hm'
  obtain ⟨act, ha, hs⟩ := rbfnTrain_weights hm' hf
  refine ⟨m'.kernels, fun b => m'.weights (Fin.cast hf.2.symm b) (Fin.cast hf.1.symm 0), act,
    ?_, ?_, ?_, ha, ?_⟩
  · obtain ⟨_, _, hk, _⟩ := rbfnTrain_ok hm'
    exact hk
  · obtain ⟨k, rows, cols, wt⟩ := m'
    obtain ⟨hc, hr⟩ := hf
    simp only at hc hr
    subst hc hr
    refine congrArg (fun v => some (Param.array _ v)) ?_
    have e : ∀ (l : List ℝ), (l.map fun v => [v]).flatten = l := by
      intro l
      induction l with
      | nil => rfl
      | cons v l ih => simp [ih]
    have e2 : (List.ofFn fun i => List.ofFn (wt i)) = (List.ofFn fun i => wt i 0).map fun v => [v] := by
      rw [List.map_ofFn]
      refine congrArg List.ofFn (funext fun i => ?_)
      simp
    change (List.ofFn fun i => List.ofFn (wt i)).flatten = List.ofFn fun i => wt i 0
    rw [e2, e]
  · intro M hM q act' hact
    rw [predict_model rfl hM]
    exact rbfn_predict hf hact
  · exact solveWls_minimises hs (fun _ => zero_le_one) hreg

/-- C36 for objects: an LWR trained with an affine function predicts this function. -/
theorem C36_object (nBfs : List Nat) (ns : Fin d → Nat) (hns : nBfs = List.ofFn ns)
    (h1 : ∀ i, 1 ≤ ns i) (height reg : ℝ) (x : Fin N → Fin d → ℝ) (a : Fin d → ℝ) (c : ℝ)
    (w : Option (Fin N → ℝ)) (fa fa' : Fa) (hfa : fa.params = .lwr nBfs height reg)
    (h : Fa.train x (fun s => ∑ i, x s i * a i + c) w fa = (.ok (), fa'))
    (hM : M ≠ 0) (q : Fin M → Fin d → ℝ) (p : Fin M → ℝ) (hp : fa'.predict q = .ok p) :
    p = fun s => ∑ i, q s i * a i + c := by
  obtain ⟨_, m, hm, rfl⟩ := train_ok h
  rw [hfa] at hm
  obtain ⟨m', hm', h'⟩ := except_bind_ok hm
  obtain rfl := Except.ok.inj h'
  rw [predict_model rfl hM] at hp
  exact funext fun s => C36_affine nBfs ns hns h1 height reg x a c m' hm' q p hp s

/-- C38 for objects. -/
theorem C38_object (c : ℝ) (lengths : List ℝ) (x : Fin N → Fin d → ℝ) (t : Fin N → ℝ)
    (w : Option (Fin N → ℝ)) (fa fa' : Fa) (hfa : fa.params = .gpr c lengths)
    (h : Fa.train x t w fa = (.ok (), fa')) : fa'.predict x = .ok t := by
  obtain ⟨hN, m, hm, rfl⟩ := train_ok h
  rw [hfa] at hm
  obtain ⟨m', hm', h'⟩ := except_bind_ok hm
  obtain rfl := Except.ok.inj h'
  rw [predict_model rfl hN]
  exact C38_interpolates c lengths x t m' hm'

/-! ### One number of basis functions for several dimensions -/

/-- Statement C67: an RBFN or LWR that was trained successfully can predict its training inputs. -/
def C67_statement : Prop :=
  ∀ (d N : Nat) (nBfs : List Nat) (height reg : ℝ) (x : Fin N → Fin d → ℝ) (t : Fin N → ℝ)
    (fa fa' : Fa), fa.params = .rbfn nBfs height reg ∨ fa.params = .lwr nBfs height reg →
    Fa.train x t none fa = (.ok (), fa') → ∃ p, fa'.predict x = .ok p

/-- C67, partial: it holds if there is one number of basis functions for each dimension. Missing: a
single number for several dimensions, see `C67_refuted`, and superfluous numbers. -/
theorem C67_partial (nBfs : List Nat) (ns : Fin d → Nat) (hns : nBfs = List.ofFn ns)
    (h1 : ∀ i, 1 ≤ ns i) (height reg : ℝ) (x : Fin N → Fin d → ℝ) (t : Fin N → ℝ) (fa fa' : Fa)
    (hfa : fa.params = .rbfn nBfs height reg ∨ fa.params = .lwr nBfs height reg)
    (h : Fa.train x t none fa = (.ok (), fa')) : ∃ p, fa'.predict x = .ok p := by
  obtain ⟨hN, m, hm, rfl⟩ := train_ok h
  rcases hfa with hfa | hfa
  · rw [hfa] at hm
    obtain ⟨m', hm', h'⟩ := except_bind_ok hm
    obtain rfl := Except.ok.inj h'
    rw [predict_model rfl hN]
    have hf := rbfnTrain_fits hns h1 hm'
    obtain ⟨act, ha, _⟩ := rbfnTrain_weights hm' hf
    exact ⟨_, rbfn_predict hf ha⟩
  · rw [hfa] at hm
    obtain ⟨m', hm', h'⟩ := except_bind_ok hm
    obtain rfl := Except.ok.inj h'
    rw [predict_model rfl hN]
    obtain ⟨act, _, ha, _⟩ := lwrTrain_ok hm'
    have hl := (lwrTrain_fits hns h1 hm').1
    change ∃ p, m'.predict x = .ok p
    unfold LwrModel.predict
    rw [ha]
    change ∃ p, (if h : m'.lines = m'.kernels.n then _ else _) = _
    rw [dif_pos hl]
    exact ⟨_, rfl⟩

theorem kernels_scalar {n : Nat} (hn : 1 ≤ n) {height : ℝ} {x : Fin N → Fin d → ℝ} {k : Kernels d}
    (hk : getCentersAndWidths x [n] height = .ok k) : k.n = n ^ d := by
  have hN : N ≠ 0 := (getCenters_ok hk).1
  rw [(C33_grid x [n] (fun _ => n) (Or.inr ⟨n, rfl, rfl⟩) (fun _ => hn) height _ hk _ _ (minInput_isLeast x hN)
    (maxInput_isGreatest x hN)).1]
  simp

/-- C67: with one number of basis functions (at least 2) for several dimensions, an RBFN or LWR that
was trained cannot predict at all. -/
theorem C67_scalar (n : Nat) (hn : 2 ≤ n) (hd : 2 ≤ d) (height reg : ℝ) (x : Fin N → Fin d → ℝ)
    (t : Fin N → ℝ) (fa fa' : Fa)
    (hfa : fa.params = .rbfn [n] height reg ∨ fa.params = .lwr [n] height reg)
    (h : Fa.train x t none fa = (.ok (), fa')) (q : Fin M → Fin d → ℝ) (p : Fin M → ℝ) :
    fa'.predict q ≠ .ok p := by
  obtain ⟨hN, m, hm, rfl⟩ := train_ok h
  have hlt : n < n ^ d := by
    calc n = n ^ 1 := (pow_one n).symm
      _ < n ^ d := Nat.pow_lt_pow_right (by omega) (by omega)
  by_cases hM : M = 0
  · rw [C39_errors _ q (Or.inr (Or.inl hM))]
    exact fun h => by cases h
  rcases hfa with hfa | hfa
  · rw [hfa] at hm
    obtain ⟨m', hm', h'⟩ := except_bind_ok hm
    obtain rfl := Except.ok.inj h'
    rw [predict_model rfl hM]
    obtain ⟨act, wls, hk, _, _, _, _, hr, _⟩ := rbfnTrain_ok hm'
    have hkn := kernels_scalar (by omega) hk
    change m'.predict q ≠ .ok p
    unfold RbfnModel.predict
    refine bind_ne_ok fun a b => ?_
    rw [dif_neg]
    · split <;> exact fun h => by cases h
    · rintro ⟨_, e⟩
      rw [hr, hkn] at e
      simp only [List.prod_cons, List.prod_nil, mul_one] at e
      omega
  · rw [hfa] at hm
    obtain ⟨m', hm', h'⟩ := except_bind_ok hm
    obtain rfl := Except.ok.inj h'
    rw [predict_model rfl hM]
    obtain ⟨act, hk, _, hr, _⟩ := lwrTrain_ok hm'
    have hkn := kernels_scalar (by omega) hk
    change m'.predict q ≠ .ok p
    unfold LwrModel.predict
    refine bind_ne_ok fun a b => ?_
    rw [dif_neg]
    · exact fun h => by cases h
    · intro e
      rw [hr, hkn] at e
      simp only [List.prod_cons, List.prod_nil, mul_one] at e
      omega

/-- With positive regularisation, training an RBFN succeeds whenever the activations are defined. -/
theorem rbfnTrain_succeeds {nBfs : List Nat} {height reg : ℝ} (hreg : 0 < reg)
    {x : Fin N → Fin d → ℝ} (t : Fin N → ℝ) {k : Kernels d} {act : Fin N → Fin k.n → ℝ}
    (hk : getCentersAndWidths x nBfs height = .ok k) (ha : k.activations false x = .ok act)
    (h0 : nBfs.prod ≠ 0) (hdiv : k.n % nBfs.prod = 0) :
    ∃ m, rbfnTrain nBfs height reg x t = .ok m := by
  obtain ⟨beta, hb⟩ := (C34_succeeds (of act) (fun _ => 1) t reg (fun _ => zero_le_one) hreg.le).mpr (by
    intro beta hb
    unfold squaredError at hb
    have e1 : 0 ≤ ∑ s, (1 : ℝ) * (∑ i, of act s i * beta i - 0) ^ 2 :=
      Finset.sum_nonneg fun s _ => by positivity
    have e2 : 0 ≤ ∑ i, beta i ^ 2 := Finset.sum_nonneg fun i _ => sq_nonneg _
    have e3 : ∑ i, beta i ^ 2 = 0 := by
      have : reg * ∑ i, beta i ^ 2 = 0 := by
        have := mul_nonneg hreg.le e2
        linarith
      rcases mul_eq_zero.mp this with h | h
      · exact absurd h hreg.ne'
      · exact h
    rw [Finset.sum_eq_zero_iff_of_nonneg fun i _ => sq_nonneg _] at e3
    funext i
    exact pow_eq_zero_iff two_ne_zero |>.mp (e3 i (Finset.mem_univ i)))
  have hw : wlsTrain false reg act t none = .ok ⟨beta, none⟩ := by
    unfold wlsTrain
    simp only [Bool.false_eq_true, if_false]
    rw [hb]
    rfl
  unfold rbfnTrain
  rw [hk]
  change ∃ m, (k.activations false x >>= _) = _
  rw [ha]
  change ∃ m, (wlsTrain false reg act t none >>= _) = _
  rw [hw]
  change ∃ m, (if nBfs.prod = 0 ∨ k.n % nBfs.prod ≠ 0 then _ else _) = _
  rw [if_neg (by tauto)]
  exact ⟨_, rfl⟩

/-- Widths of a grid over inputs that are not constant in any dimension. -/
theorem widths_ne_zero {nBfs : List Nat} {ns : Fin d → Nat} (hns : PerDim nBfs ns)
    (h1 : ∀ i, 1 ≤ ns i) {height : ℝ} (hh : 0 < height ∧ height < 1) {x : Fin N → Fin d → ℝ}
    {k : Kernels d} (hk : getCentersAndWidths x nBfs height = .ok k)
    (hx : ∀ i, ∃ s s', x s i ≠ x s' i) (b : Fin k.n) (i : Fin d) : k.widths b i ≠ 0 := by
  have hN : N ≠ 0 := (getCenters_ok hk).1
  obtain ⟨digits, ⟨g1, g2⟩, _⟩ := C33_once x nBfs ns hns h1 height k hk b
  obtain ⟨b', hb', e⟩ := (C33_grid x nBfs ns hns h1 height k hk _ _ (minInput_isLeast x hN)
    (maxInput_isGreatest x hN)).2 digits g1
  have : b' = b := Fin.ext (by rw [hb', g2])
  subst this
  rw [(e i).2]
  split
  · exact one_ne_zero
  · rename_i hn
    have hns1 : (1 : ℝ) < ns i := by
      have := h1 i
      exact_mod_cast (by omega : 1 < ns i)
    obtain ⟨s, s', hs⟩ := hx i
    have hlt : minInput x i < maxInput x i := by
      have l1 := (minInput_isLeast x hN i).2 ⟨s, rfl⟩
      have l2 := (minInput_isLeast x hN i).2 ⟨s', rfl⟩
      have u1 := (maxInput_isGreatest x hN i).2 ⟨s, rfl⟩
      have u2 := (maxInput_isGreatest x hN i).2 ⟨s', rfl⟩
      simp only at l1 l2 u1 u2
      rcases lt_or_gt_of_ne hs with h | h <;> linarith
    have hlog : Real.log height < 0 := Real.log_neg hh.1 hh.2
    have : 0 < √(-8 * Real.log height) := Real.sqrt_pos.mpr (by linarith)
    have : 0 < (maxInput x i - minInput x i) / ((ns i : ℝ) - 1) / √(-8 * Real.log height) :=
      div_pos (div_pos (by linarith) (by linarith)) this
    exact this.ne'

/-- The witness: two samples in two dimensions, two basis functions per dimension. -/
theorem rbfn_scalar_example : ∃ fa', Fa.train (fun (s : Fin 2) (_ : Fin 2) => (s : ℝ)) (fun _ => 1) none
    (Fa.new (.rbfn [2] 0.5 1)) = (.ok (), fa') := by
  have hns : PerDim [2] (fun _ : Fin 2 => 2) := Or.inr ⟨2, rfl, rfl⟩
  obtain ⟨k, hk⟩ := C33_succeeds (fun (s : Fin 2) (_ : Fin 2) => (s : ℝ)) [2] _ hns (fun _ => by norm_num)
    0.5 (by norm_num) (by norm_num) (fun _ _ => by norm_num)
  have hw := widths_ne_zero hns (fun _ => by norm_num) (by norm_num) hk (fun i => ⟨0, 1, by norm_num⟩)
  obtain ⟨m, hm⟩ := rbfnTrain_succeeds (reg := 1) one_pos (fun _ => 1) hk (activations_raw_ok k _ hw)
    (by norm_num) (by rw [kernels_scalar (by norm_num) hk]; norm_num)
  refine ⟨_, train_of (by norm_num) (m := .rbfn m) ?_⟩
  change (rbfnTrain [2] 0.5 1 _ _ >>= _) = _
  rw [hm]
  rfl

/-- C67 is false: the weights of the RBFN are given a shape with as many rows as the meta parameter
has, FunctionApproximatorRBFN.py:51-75. -/
theorem C67_refuted : ¬ C67_statement := by
  intro h
  obtain ⟨fa', hfa⟩ := rbfn_scalar_example
  obtain ⟨p, hp⟩ := h 2 2 [2] 0.5 1 _ _ _ _ (Or.inl rfl) hfa
  exact C67_scalar 2 le_rfl le_rfl 0.5 1 _ _ _ _ (Or.inl rfl) hfa _ p hp

/-- Hypotheses of C35 and C67_partial. -/
example : ∃ fa', Fa.train (fun (s : Fin 3) (_ : Fin 1) => (s : ℝ)) (fun s => s ^ 2) none
    (Fa.new (.rbfn [2] 0.5 1)) = (.ok (), fa') := by
  have hns : PerDim [2] (fun _ : Fin 1 => 2) := Or.inr ⟨2, rfl, rfl⟩
  obtain ⟨k, hk⟩ := C33_succeeds (fun (s : Fin 3) (_ : Fin 1) => (s : ℝ)) [2] _ hns (fun _ => by norm_num)
    0.5 (by norm_num) (by norm_num) (fun _ _ => by norm_num)
  have hw := widths_ne_zero hns (fun _ => by norm_num) (by norm_num) hk (fun i => ⟨0, 1, by norm_num⟩)
  obtain ⟨m, hm⟩ := rbfnTrain_succeeds (reg := 1) one_pos (fun s : Fin 3 => ((s : ℝ)) ^ 2) hk
    (activations_raw_ok k _ hw) (by norm_num) (by rw [kernels_scalar (by norm_num) hk]; norm_num)
  refine ⟨_, train_of (by norm_num) (m := .rbfn m) ?_⟩
  change (rbfnTrain [2] 0.5 1 _ _ >>= _) = _
  rw [hm]
  rfl

/-- C39: two-sample batch of a WLS. -/
example : ∃ p, (⟨.wls true 0, some ⟨1, .wls ⟨fun _ => 2, some 1⟩⟩, none⟩ : Fa).predict
    (fun (s : Fin 2) (_ : Fin 1) => (s : ℝ)) = .ok p := ⟨_, rfl⟩

end

end Verif
