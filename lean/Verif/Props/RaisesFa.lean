import Verif.Spec.Raises
import Verif.Props.Predictions

/-
C88 for the function approximators: which exceptions training, and the parameter vectors, raise.
-/

noncomputable section

set_option autoImplicit false

namespace Verif

open Spec Matrix

/-! ### Parameter vectors -/

/-- The value can be flattened: it is an array or a numpy scalar. -/
def Param.Flat : Param → Prop
  | .array _ _ => True
  | .scalar _ => True
  | _ => False

theorem ok_then {α β : Type} (a : α) (f : α → Except PyErr β) : ((Except.ok a : Except PyErr α) >>= f) = f a := rfl

theorem mapM_first {α β : Type} {f : α → Except PyErr β} {before after : List α} {bad : α} {e : PyErr}
    (hb : ∀ a ∈ before, ∃ b, f a = .ok b) (h : f bad = .error e) :
    (before ++ bad :: after).mapM f = .error e := by
  induction before with
  | nil =>
    rw [List.nil_append, List.mapM_cons, h]
    rfl
  | cons a l ih =>
    obtain ⟨b, hb1⟩ := hb a (List.mem_cons_self ..)
    rw [List.cons_append, List.mapM_cons, hb1, ih fun c hc => hb c (List.mem_cons_of_mem _ hc)]
    rfl

/-- C88: get_param_vector of a function approximator: no vector if no names are selected; ValueError before
training; KeyError if the first name that has no array is not a model parameter, AttributeError if its value
is a Python float or None. -/
theorem C88_get_params (fa : Fa) :
    (fa.selected = none → fa.getParamVector = .ok none) ∧
    (∀ names, fa.selected = some names → fa.model = none → fa.getParamVector = .error .valueError) ∧
    (∀ before label after, fa.selected = some (before ++ label :: after) → fa.model ≠ none →
      (∀ l ∈ before, ∃ p, fa.param l = some p ∧ p.Flat) →
      (fa.param label = none → fa.getParamVector = .error .keyError) ∧
      (∀ p, fa.param label = some p → ¬ p.Flat → fa.getParamVector = .error .attributeError)) := by
  have hflat : ∀ l p, fa.param l = some p → p.Flat → ∃ b, fa.flatten l = .ok b := by
    intro l p h hp
    unfold Fa.flatten
    rw [h]
    cases p with
    | array sh v => exact ⟨v, rfl⟩
    | scalar x => exact ⟨[x], rfl⟩
    | float x => exact hp.elim
    | none => exact hp.elim
  refine ⟨fun h => ?_, fun names h hm => ?_, fun before label after h hm hb => ?_⟩
  · unfold Fa.getParamVector; rw [h]
  · unfold Fa.getParamVector; rw [h]; simp only; rw [hm]
  · obtain ⟨m, hm⟩ := Option.ne_none_iff_exists'.mp hm
    have key : ∀ e, fa.flatten label = .error e → fa.getParamVector = .error e := by
      intro e he
      unfold Fa.getParamVector
      rw [h]
      simp only
      rw [hm]
      simp only
      rw [mapM_first (fun l hl => by obtain ⟨p, h1, h2⟩ := hb l hl; exact hflat l p h1 h2) he]
      rfl
    refine ⟨fun hp => key _ ?_, fun p hp hf => key _ ?_⟩
    · unfold Fa.flatten; rw [hp]
    · unfold Fa.flatten
      rw [hp]
      cases p with
      | array sh v => exact absurd trivial hf
      | scalar x => exact absurd trivial hf
      | float x => rfl
      | none => rfl

/-- C88: get_param_vector_size: 0 if no names are selected; names that are not model parameters do not count;
AttributeError for a value that is a Python float or None. -/
theorem C88_size (fa : Fa) :
    (fa.selected = none → fa.paramVectorSize = .ok 0) ∧
    (∀ before label after p, fa.selected = some (before ++ label :: after) →
      (∀ l ∈ before, ∀ q, fa.param l = some q → q.Flat) → fa.param label = some p → ¬ p.Flat →
      fa.paramVectorSize = .error .attributeError) := by
  refine ⟨fun h => by unfold Fa.paramVectorSize; rw [h], fun before label after p h hb hp hf => ?_⟩
  unfold Fa.paramVectorSize
  rw [h]
  simp only
  rw [mapM_first (e := .attributeError)]
  · rfl
  · intro l hl
    cases hq : fa.param l with
    | none => exact ⟨0, rfl⟩
    | some q =>
      have := hb l hl q hq
      cases q with
      | array sh v => exact ⟨_, rfl⟩
      | scalar x => exact ⟨_, rfl⟩
      | float x => exact this.elim
      | none => exact this.elim
  · rw [hp]
    cases p with
    | array sh v => exact absurd trivial hf
    | scalar x => exact absurd trivial hf
    | float x => rfl
    | none => rfl

/-- C88: set_param_vector before training, and with a vector of the wrong size, raises ValueError; without
selected names, the empty vector raises TypeError; the function approximator is not changed. -/
theorem C88_set_params (fa : Fa) (values : List ℝ) :
    (fa.model = none → Raises (Fa.setParamVector values) .valueError fa) ∧
    (∀ n, fa.model ≠ none → fa.paramVectorSize = .ok n → values.length ≠ n →
      Raises (Fa.setParamVector values) .valueError fa) ∧
    (∀ e, fa.model ≠ none → fa.paramVectorSize = .error e → Raises (Fa.setParamVector values) e fa) ∧
    (fa.model ≠ none → fa.selected = none → Raises (Fa.setParamVector []) .typeError fa) := by
  have hn : fa.model ≠ none → ¬ fa.model.isNone = true := fun h => by simpa using h
  refine ⟨fun h => ?_, fun n h hs hl => ?_, fun e h hs => ?_, fun h hs => ?_⟩
  · unfold Raises Fa.setParamVector
    rw [PyM.self_bind, if_pos (by simp [h])]
    rfl
  · unfold Raises Fa.setParamVector
    rw [PyM.self_bind, if_neg (hn h), hs, PyM.lift_ok_bind, if_pos hl]
    rfl
  · unfold Raises Fa.setParamVector
    rw [PyM.self_bind, if_neg (hn h), hs, PyM.lift_error_bind]
    rfl
  · unfold Raises Fa.setParamVector
    rw [PyM.self_bind, if_neg (hn h), (C88_size fa).1 hs, PyM.lift_ok_bind, if_neg (by simp), hs]
    rfl

/-- C88: the first of the selected names decides how the loop of set_param_vector fails: KeyError for a name
that is not a model parameter, TypeError for a numpy scalar (the offset of WLS). -/
theorem C88_set_first (fa : Fa) (values : List ℝ) (label : String) (names : List String)
    (hm : fa.model ≠ none) (hsel : fa.selected = some (label :: names))
    (hs : fa.paramVectorSize = .ok values.length) :
    (fa.param label = none → Raises (Fa.setParamVector values) .keyError fa) ∧
    (∀ x, fa.param label = some (.scalar x) → Raises (Fa.setParamVector values) .typeError fa) := by
  have key : Fa.setParamVector values fa = Fa.setLoop values (label :: names) fa := by
    unfold Fa.setParamVector
    rw [PyM.self_bind, if_neg (by simpa using hm), hs, PyM.lift_ok_bind, if_neg (by simp), hsel]
  refine ⟨fun hp => ?_, fun x hp => ?_⟩
  · unfold Raises
    rw [key]
    unfold Fa.setLoop
    rw [PyM.self_bind, hp]
    rfl
  · unfold Raises
    rw [key]
    unfold Fa.setLoop
    rw [PyM.self_bind, hp]
    rfl

/-- C88: the covariance of a trained GPR is a Python float, which cannot be part of parameter vectors. -/
theorem C88_gpr_covariance (params : FaMeta) {d : Nat} (m : GprModel d) (values : List ℝ) :
    (⟨params, some ⟨d, .gpr m⟩, some ["max_covariance"]⟩ : Fa).getParamVector = .error .attributeError ∧
    Raises (Fa.setParamVector values) .attributeError ⟨params, some ⟨d, .gpr m⟩, some ["max_covariance"]⟩ := by
  obtain ⟨fa, hfa⟩ : ∃ fa : Fa, fa = ⟨params, some ⟨d, .gpr m⟩, some ["max_covariance"]⟩ := ⟨_, rfl⟩
  have hp : fa.param "max_covariance" = some (.float m.maxCovariance) := by
    rw [hfa]
    simp [Fa.param, FaModel.param]
  have hm : fa.model ≠ none := by rw [hfa]; simp
  rw [← hfa]
  refine ⟨((C88_get_params fa).2.2 [] "max_covariance" [] (by rw [hfa]; rfl) hm (by simp)).2 _ hp id,
    (C88_set_params fa values).2.2.1 _ hm ((C88_size fa).2 [] "max_covariance" [] _ (by rw [hfa]; rfl) (by simp)
      hp id)⟩

/-- C88 for set_param_vector: a call that is rejected leaves the function approximator as it was. -/
def C88_set_statement : Prop :=
  ∀ (fa : Fa) (values : List ℝ) (e : PyErr), fa.model ≠ none → (Fa.setParamVector values fa).1 = .error e →
    (Fa.setParamVector values fa).2 = fa

/-- C88 is false for set_param_vector: for WLS with the names slope and offset, the slope is already set when
the offset raises TypeError (FunctionApproximator.py:142-147). -/
theorem C88_set_refuted : ¬ C88_set_statement := by
  intro H
  let fa : Fa := ⟨.wls true 0, some ⟨1, .wls ⟨fun _ => 2, some 3⟩⟩, some ["slope", "offset"]⟩
  have p1 : fa.param "slope" = some (.array [1] [2]) := by simp [fa, Fa.param, FaModel.param]
  have p2 : fa.param "offset" = some (.scalar 3) := by simp [fa, Fa.param, FaModel.param]
  have hs : fa.paramVectorSize = .ok 2 := by
    change (do
      return (← ["slope", "offset"].mapM fun label =>
        match fa.param label with
        | none => .ok 0
        | some (.array shape _) => .ok shape.prod
        | some (.scalar _) => .ok 1
        | some (.float _) => .error PyErr.attributeError
        | some .none => .error .attributeError).sum : Except PyErr Nat) = _
    simp only [List.mapM_cons, List.mapM_nil, p1, p2]
    rfl
  let fb : Fa := ⟨.wls true 0, some ⟨1, .wls ⟨fun _ => 5, some 3⟩⟩, some ["slope", "offset"]⟩
  have hset : Fa.setParam [5] "slope" fa = fb := by
    have e : (FaModel.wls ⟨fun _ => 2, some 3⟩ : FaModel 1).setParam [5] "slope" = .wls ⟨fun _ => 5, some 3⟩ := by
      simp [FaModel.setParam]
    change (⟨.wls true 0, some ⟨1, (FaModel.wls ⟨fun _ => 2, some 3⟩ : FaModel 1).setParam [5] "slope"⟩,
      some ["slope", "offset"]⟩ : Fa) = fb
    rw [e]
  have p3 : fb.param "offset" = some (.scalar 3) := by simp [fb, Fa.param, FaModel.param]
  have h : Fa.setParamVector [5, 7] fa = (.error .typeError, fb) := by
    have key : Fa.setParamVector [5, 7] fa = Fa.setLoop [5, 7] ["slope", "offset"] fa := by
      unfold Fa.setParamVector
      rw [PyM.self_bind, if_neg (by simp [fa]), hs, PyM.lift_ok_bind, if_neg (by simp)]
    rw [key]
    unfold Fa.setLoop
    rw [PyM.self_bind, p1]
    simp only [PyM.modify_bind, List.prod_cons, List.prod_nil, mul_one, List.take_succ_cons, List.take_zero,
      List.drop_succ_cons, List.drop_zero]
    rw [hset]
    unfold Fa.setLoop
    rw [PyM.self_bind, p3]
    rfl
  have h2 := H fa [5, 7] .typeError (by simp [fa]) (by rw [h])
  rw [h] at h2
  have h3 : fb.model = fa.model := congrArg Fa.model h2
  have h4 : (⟨1, .wls ⟨fun _ => 5, some 3⟩⟩ : Σ d, FaModel d) = ⟨1, .wls ⟨fun _ => 2, some 3⟩⟩ := Option.some.inj h3
  have h5 : (FaModel.wls ⟨fun _ => 5, some 3⟩ : FaModel 1) = .wls ⟨fun _ => 2, some 3⟩ := eq_of_heq (Sigma.mk.inj h4).2
  have h6 := congrFun (congrArg WlsModel.slope (FaModel.wls.inj h5)) 0
  norm_num at h6

/-! ### Training -/

/-- The matrix of the normal equations is singular if some combination of the columns is zero at all samples
and there is no regularisation. -/
theorem solveWls_singular {N p : Nat} (X : Matrix (Fin N) (Fin p) ℝ) (w t : Fin N → ℝ) (v : Fin p → ℝ)
    (hv : v ≠ 0) (h : X *ᵥ v = 0) : solveWls X w 0 t = .error .linAlgError := by
  unfold solveWls
  simp only [zero_smul, add_zero]
  rw [if_pos]
  refine exists_mulVec_eq_zero_iff.mp ⟨v, hv, ?_⟩
  rw [← mulVec_mulVec, h, mulVec_zero]

/-- C88: weighted least squares without regularisation raises LinAlgError if some combination of the inputs
(with offset: of the inputs and the constant one) is zero at all samples, for instance if there are more
parameters than samples. -/
theorem C88_wls {N d : Nat} (x : Fin N → Fin d → ℝ) (t : Fin N → ℝ) (w : Option (Fin N → ℝ)) :
    (∀ v : Fin d → ℝ, v ≠ 0 → (∀ s, ∑ i, x s i * v i = 0) → wlsTrain false 0 x t w = .error .linAlgError) ∧
    (∀ (v : Fin d → ℝ) (c : ℝ), (v ≠ 0 ∨ c ≠ 0) → (∀ s, ∑ i, x s i * v i + c = 0) →
      wlsTrain true 0 x t w = .error .linAlgError) ∧
    (N < d → wlsTrain false 0 x t w = .error .linAlgError) ∧
    (N < d + 1 → wlsTrain true 0 x t w = .error .linAlgError) := by
  have a1 : ∀ v : Fin d → ℝ, v ≠ 0 → of x *ᵥ v = 0 → wlsTrain false 0 x t w = .error .linAlgError := by
    intro v hv h
    unfold wlsTrain
    simp only [Bool.false_eq_true, if_false]
    rw [solveWls_singular _ _ _ v hv h]
    rfl
  have a2 : ∀ v : Fin (d + 1) → ℝ, v ≠ 0 → (of fun s => (Fin.snoc (x s) 1 : Fin (d + 1) → ℝ)) *ᵥ v = 0 →
      wlsTrain true 0 x t w = .error .linAlgError := by
    intro v hv h
    unfold wlsTrain
    simp only [if_true]
    rw [solveWls_singular _ _ _ v hv h]
    rfl
  have small : ∀ {p : Nat} (X : Matrix (Fin N) (Fin p) ℝ), N < p → ∃ v, v ≠ 0 ∧ X *ᵥ v = 0 := by
    intro p X hp
    have : ¬ Function.Injective X.mulVecLin := by
      intro hi
      have := LinearMap.finrank_le_finrank_of_injective hi
      simp at this
      omega
    rw [← LinearMap.ker_eq_bot, Submodule.eq_bot_iff] at this
    push Not at this
    obtain ⟨v, h1, h2⟩ := this
    exact ⟨v, h2, h1⟩
  refine ⟨fun v hv h => a1 v hv (funext h), fun v c hv h => a2 (Fin.snoc v c) ?_ (funext fun s => ?_), fun h => ?_,
    fun h => ?_⟩
  · intro h0
    rcases hv with hv | hv
    · refine hv (funext fun i => ?_)
      have := congrFun h0 i.castSucc
      simpa using this
    · have := congrFun h0 (Fin.last d)
      simp at this
      exact hv this
  · change ∑ i, (Fin.snoc (x s) 1 : Fin (d + 1) → ℝ) i * (Fin.snoc v c : Fin (d + 1) → ℝ) i = 0
    rw [Fin.sum_univ_castSucc]
    simpa using h s
  · obtain ⟨v, h1, h2⟩ := small (of x) h
    exact a1 v h1 h2
  · obtain ⟨v, h1, h2⟩ := small (of fun s => (Fin.snoc (x s) 1 : Fin (d + 1) → ℝ)) h
    exact a2 v h1 h2

/-- C88: training of GPR raises ValueError if the number of lengths is neither one nor that of the
dimensions, and LinAlgError if a sample occurs twice. -/
theorem C88_gpr {N d : Nat} (c : ℝ) (lengths : List ℝ) (x : Fin N → Fin d → ℝ) (t : Fin N → ℝ) :
    (lengths.length ≠ 1 → lengths.length ≠ d → gprTrain c lengths x t = .error .valueError) ∧
    ((lengths.length = 1 ∨ lengths.length = d) → (∀ l ∈ lengths, l ≠ 0) →
      (∃ s s' : Fin N, s ≠ s' ∧ x s = x s') → gprTrain c lengths x t = .error .linAlgError) := by
  constructor
  · intro h1 h2
    unfold gprTrain
    rw [if_pos ⟨h1, h2⟩]
    rfl
  · rintro hl h0 ⟨s, s', hne, hx⟩
    unfold gprTrain
    rw [if_neg (by tauto)]
    obtain ⟨kernels, hk⟩ : ∃ k : Kernels d, k = ⟨N, x,
        fun _ i => if lengths.length = 1 then lengths.getD 0 0 else lengths.getD i 0⟩ := ⟨_, rfl⟩
    have hw : ∀ b i, kernels.widths b i ≠ 0 := by
      subst hk
      intro b i
      simp only
      split
      · rename_i h
        match lengths, h, h0 with
        | [a], _, h0 => exact h0 a (by simp)
      · have : (i : Nat) < lengths.length := by have := i.2; omega
        rw [List.getD_eq_getElem?_getD, List.getElem?_eq_getElem this]
        exact h0 _ (List.getElem_mem this)
    have hact : gprActivations kernels c x = .ok fun s b =>
        c * ∏ i : Fin d, actFactor (x s i) (kernels.centers b i) (kernels.widths b i) := by
      unfold gprActivations Kernels.activations
      rw [if_neg (by simp), if_neg (by rintro ⟨s, b, i, h, -⟩; exact hw b i h)]
      rfl
    subst hk
    simp only [pure_bind]
    rw [hact]
    simp only [ok_then]
    rw [if_pos]
    · rfl
    · refine det_zero_of_row_eq hne (funext fun b => ?_)
      simp only [of_apply, hx]

/-- C88: too few numbers of basis functions (but not one), and no samples, raise ValueError; inputs without
columns raise IndexError. Training of RBFN and LWR passes these on. -/
theorem C88_basis {N d : Nat} (x : Fin N → Fin d → ℝ) (t : Fin N → ℝ) (nBfs : List Nat) (height reg : ℝ) :
    (∀ e, getCentersAndWidths x nBfs height = .error e →
      rbfnTrain nBfs height reg x t = .error e ∧ lwrTrain nBfs height reg x t = .error e) ∧
    (N = 0 → getCentersAndWidths x nBfs height = .error .valueError) ∧
    (N ≠ 0 → nBfs.length < d → nBfs.length ≠ 1 → getCentersAndWidths x nBfs height = .error .valueError) ∧
    (N ≠ 0 → d = 0 → getCentersAndWidths x nBfs height = .error .indexError) ∧
    (N ≠ 0 → nBfs.length = d → (height ≤ 0 ∨ 1 ≤ height) → (∃ n ∈ nBfs, 1 < n) →
      getCentersAndWidths x nBfs height = .error .nanResult) := by
  refine ⟨fun e h => ⟨?_, ?_⟩, fun h => ?_, fun h h1 h2 => ?_, fun h h1 => ?_, fun h h1 h2 h3 => ?_⟩
  · unfold rbfnTrain
    rw [h]
    rfl
  · unfold lwrTrain
    rw [h]
    rfl
  · unfold getCentersAndWidths
    rw [if_pos h]
    rfl
  · unfold getCentersAndWidths bfsPerDim
    rw [if_neg h, if_pos h1, if_neg h2]
    rfl
  · subst h1
    unfold getCentersAndWidths bfsPerDim
    rw [if_neg h, if_neg (by omega)]
    rfl
  · unfold getCentersAndWidths bfsPerDim
    rw [if_neg h, if_neg (by omega)]
    have hlen : ∀ n lo hi, (linspace lo hi n).length = n := fun n lo hi => by simp [linspace]
    have hbad : ∀ l : List ℝ, 1 < l.length → widthsOf height l = .error .nanResult := by
      intro l hl
      unfold widthsOf
      simp only
      rw [if_pos hl, if_neg (by rintro ⟨a, b⟩; rcases h2 with h2 | h2 <;> linarith)]
    have hcases : ∀ l : List ℝ, (∃ w, widthsOf height l = .ok w) ∨ widthsOf height l = .error .nanResult := by
      intro l
      by_cases hl : 1 < l.length
      · exact Or.inr (hbad l hl)
      · left
        unfold widthsOf
        simp only
        rw [if_neg hl]
        exact ⟨_, rfl⟩
    have hmap : ∀ ls : List (List ℝ), (∃ l ∈ ls, 1 < l.length) → ls.mapM (widthsOf height) = .error .nanResult := by
      intro ls
      induction ls with
      | nil => rintro ⟨l, hl, -⟩; cases hl
      | cons a ls ih =>
        rintro ⟨l, hl, h1⟩
        rw [List.mapM_cons]
        rcases hcases a with ⟨w, hw⟩ | hw
        · rw [hw]
          rcases List.mem_cons.mp hl with rfl | hl
          · rw [hbad _ h1] at hw; cases hw
          · rw [ih ⟨l, hl, h1⟩]; rfl
        · rw [hw]; rfl
    simp only [pure_bind, ok_then]
    rw [hmap]
    · rfl
    · obtain ⟨n, hn, h4⟩ := h3
      obtain ⟨k, hk, rfl⟩ := List.getElem_of_mem hn
      refine ⟨linspace (minInput x ⟨k, by omega⟩) (maxInput x ⟨k, by omega⟩) (nBfs.getD k 0),
        List.mem_ofFn.mpr ⟨⟨k, by omega⟩, rfl⟩, ?_⟩
      rw [hlen, List.getD_eq_getElem?_getD, List.getElem?_eq_getElem hk]
      exact h4

/-- C88: one number of basis functions for inputs with several dimensions is accepted in training, but the
trained function approximator cannot predict: the weights of RBFN have several columns, LWR has fewer lines
than basis functions. -/
theorem C88_one_number {N d M : Nat} (k : Nat) (hk : 2 ≤ k) (hd : 2 ≤ d) (height reg : ℝ)
    (x : Fin N → Fin d → ℝ) (t : Fin N → ℝ) (q : Fin M → Fin d → ℝ) :
    (∀ m act, rbfnTrain [k] height reg x t = .ok m → m.kernels.activations false q = .ok act →
      (M = k ^ (d - 1) → m.predict q = .error .indexError) ∧
      (M ≠ k ^ (d - 1) → m.predict q = .error .valueError)) ∧
    (∀ m act, lwrTrain [k] height reg x t = .ok m → m.kernels.activations true q = .ok act →
      m.predict q = .error .valueError) := by
  have hn : ∀ ker, getCentersAndWidths x [k] height = .ok ker → ker.n = k ^ d := by
    intro ker hker
    have hN : N ≠ 0 := (getCenters_ok hker).1
    have := (C33_grid x [k] (fun _ => k) (Or.inr ⟨k, rfl, rfl⟩) (fun _ => by omega) height _ hker _ _
      (minInput_isLeast x hN) (maxInput_isGreatest x hN)).1
    simpa using this
  have hpow : k ^ d = k * k ^ (d - 1) := by
    obtain ⟨e, rfl⟩ : ∃ e, d = e + 1 := ⟨d - 1, by omega⟩
    rw [Nat.add_sub_cancel, pow_succ]; ring
  have hgt : 1 < k ^ (d - 1) := Nat.one_lt_pow (by omega) (by omega)
  refine ⟨fun m act h ha => ?_, fun m act h ha => ?_⟩
  · obtain ⟨act', wls, h1, -, -, -, -, hr, hc, -⟩ := rbfnTrain_ok h
    have hc' : m.cols = k ^ (d - 1) := by
      rw [hc, hn _ h1, hpow]
      simp
      exact Nat.mul_div_cancel_left _ (by omega)
    have hno : ¬ (m.cols = 1 ∧ m.rows = m.kernels.n) := by rintro ⟨e, -⟩; omega
    refine ⟨fun hM => ?_, fun hM => ?_⟩
    · unfold RbfnModel.predict
      rw [ha, ok_then, dif_neg hno, if_pos (Or.inr (hc'.trans hM.symm))]
      rfl
    · unfold RbfnModel.predict
      rw [ha, ok_then, dif_neg hno, if_neg (by rintro (e | e) <;> omega)]
      rfl
  · obtain ⟨act', h1, -, hl, -⟩ := lwrTrain_ok h
    have hno : ¬ m.lines = m.kernels.n := by
      rw [hn _ h1, hl, hpow]
      simp
      intro e
      have : k * 1 < k * k ^ (d - 1) := Nat.mul_lt_mul_of_pos_left hgt (by omega)
      omega
    unfold LwrModel.predict
    rw [ha]
    simp only [ok_then]
    rw [dif_neg hno]
    rfl

/-- C88: a dimension without basis functions: RBFN raises ValueError if it is the first one, and IndexError if
there are basis functions for the first one. -/
theorem C88_no_basis {N d : Nat} (x : Fin N → Fin d → ℝ) (t : Fin N → ℝ) (nBfs : List Nat) (height reg : ℝ)
    (hN : N ≠ 0) (hd : d ≠ 0) (hl : nBfs.length = d) (hh : 0 < height) (hh' : height < 1) (h0 : 0 ∈ nBfs) :
    (nBfs.getD 0 0 = 0 → rbfnTrain nBfs height reg x t = .error .valueError) ∧
    (nBfs.getD 0 0 ≠ 0 → rbfnTrain nBfs height reg x t = .error .indexError) := by
  have hw : ∀ ls : List (List ℝ), ∃ ws, ls.mapM (widthsOf height) = .ok ws := by
    intro ls
    induction ls with
    | nil => exact ⟨[], rfl⟩
    | cons a ls ih =>
      obtain ⟨ws, ih⟩ := ih
      obtain ⟨w, hw⟩ : ∃ w, widthsOf height a = .ok w := by
        unfold widthsOf
        simp only
        split
        · rw [if_pos ⟨hh, hh'⟩]; exact ⟨_, rfl⟩
        · exact ⟨_, rfl⟩
      exact ⟨w :: ws, by rw [List.mapM_cons, hw, ih]; rfl⟩
  have hp : nBfs.prod = 0 := List.prod_eq_zero h0
  have hg : ∃ c ws, getCentersAndWidths x nBfs height = (gridLoop c ws nBfs 0 (List.replicate d 0)).bind fun rows =>
      .ok (Kernels.ofRows d rows) := by
    obtain ⟨ws, hws⟩ := hw (List.ofFn fun i : Fin d => linspace (minInput x i) (maxInput x i) (nBfs.getD i 0))
    refine ⟨(List.ofFn fun i : Fin d => linspace (minInput x i) (maxInput x i) (nBfs.getD i 0)), ws, ?_⟩
    unfold getCentersAndWidths bfsPerDim
    rw [if_neg hN, if_neg (by omega)]
    simp only [pure_bind, ok_then]
    rw [hws]
    simp only [ok_then]
    rw [if_neg hd, hp]
    rfl
  obtain ⟨c, ws, hg⟩ := hg
  have hz : (List.replicate d 0).getD 0 0 = 0 := by cases d <;> rfl
  constructor
  · intro h
    have e : gridLoop c ws nBfs 0 (List.replicate d 0) = .ok [] := by
      unfold gridLoop
      rw [if_neg (by omega)]
    rw [e] at hg
    unfold rbfnTrain
    simp only
    rw [hg]
    change ((Kernels.ofRows d []).activations false x).bind _ = _
    have ha : (Kernels.ofRows d []).activations false x = .ok fun s b =>
        ∏ i : Fin d, actFactor (x s i) ((Kernels.ofRows d []).centers b i) ((Kernels.ofRows d []).widths b i) := by
      unfold Kernels.activations
      rw [if_neg (by simp), if_neg (by rintro ⟨s, b, -⟩; exact b.elim0)]
      rfl
    rw [ha]
    simp only [Except.bind]
    obtain ⟨m, hm⟩ : ∃ m, wlsTrain false reg (fun s b => ∏ i : Fin d, actFactor (x s i)
        ((Kernels.ofRows d []).centers b i) ((Kernels.ofRows d []).widths b i)) t none = .ok m := by
      unfold wlsTrain solveWls
      simp only [Bool.false_eq_true, if_false]
      rw [if_neg]
      · exact ⟨_, rfl⟩
      · have : IsEmpty (Fin (Kernels.ofRows d []).n) := inferInstanceAs (IsEmpty (Fin 0))
        rw [det_isEmpty]
        exact one_ne_zero
    rw [hm]
    simp only [ok_then]
    rw [if_pos (Or.inl hp)]
    rfl
  · intro h
    have e : gridLoop c ws nBfs 0 (List.replicate d 0) = .error .indexError := by
      unfold gridLoop
      rw [if_pos (by omega)]
    rw [e] at hg
    exact ((C88_basis x t nBfs height reg).1 _ hg).1

/-- The hypotheses of the theorems on training hold: one sample and two inputs; the same sample twice; one
number of basis functions for two dimensions is accepted, two for three are not. -/
example : (1 < 2) ∧ (∃ s s' : Fin 2, s ≠ s' ∧ (fun _ _ => 3 : Fin 2 → Fin 1 → ℝ) s = (fun _ _ => 3 : Fin 2 → Fin 1 → ℝ) s') ∧
    ([2, 2] : List Nat).length < 3 ∧ ([2, 2] : List Nat).length ≠ 1 :=
  ⟨by decide, ⟨0, 1, by decide, rfl⟩, by decide, by decide⟩

/-- A trained function approximator with an unknown name among the selected ones. -/
example : (⟨.wls false 0, some ⟨1, .wls ⟨fun _ => 2, none⟩⟩, some ["slope", "offset"]⟩ : Fa).getParamVector =
    .error .keyError :=
  ((C88_get_params _).2.2 ["slope"] "offset" [] rfl (by simp) (fun l hl => by
    obtain rfl := List.mem_singleton.mp hl
    exact ⟨.array [1] [2], by simp [Fa.param, FaModel.param], trivial⟩)).1 (by simp [Fa.param, FaModel.param])

end Verif
