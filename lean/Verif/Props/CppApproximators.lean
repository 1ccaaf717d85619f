import Verif.Model.CppApproximators
import Verif.Props.Predictions

/- C65: the function approximators of C++ and Python. -/

set_option autoImplicit false

namespace Verif

namespace Cpp

variable {N d : Nat}

/-- Both programs succeed with the same result, or both fail. -/
def SameOk {α : Type} (a : CppResult α) (b : Except PyErr α) : Prop := ∀ r, a = .ok r ↔ b = .ok r

theorem rawActivation_eq (center width x : Fin d → ℝ) :
    rawActivation center width x = ∏ i, actFactor (x i) (center i) (width i) := by
  unfold rawActivation
  rw [← List.prod_ofFn, List.ofFn_eq_map, List.prod_eq_foldl, List.foldl_map]
  rfl

/-- C65: activations of the basis functions. NaNs are computed in both or in none of the programs. -/
theorem C65_activations (k : Kernels d) (normalized : Bool) (inputs : Fin N → Fin d → ℝ) :
    SameOk (activations k.centers k.widths inputs normalized) (k.activations normalized inputs) ∧
    (activations k.centers k.widths inputs normalized = .error .nan ↔
      k.activations normalized inputs = .error .nanResult) := by
  unfold activations Kernels.activations
  by_cases h1 : normalized = true ∧ k.n = 1
  · simp only [if_pos h1]
    exact ⟨fun r => ⟨fun h => by injection h with h; rw [h], fun h => by injection h with h; rw [h]⟩,
      ⟨(fun h => nomatch h), (fun h => nomatch h)⟩⟩
  simp only [if_neg h1]
  by_cases h2 : ∃ s b i, k.widths b i = 0 ∧ inputs s i = k.centers b i
  · simp only [if_pos h2]
    exact ⟨fun r => ⟨(fun h => nomatch h), (fun h => nomatch h)⟩, by simp⟩
  simp only [if_neg h2]
  have e : ∀ s b, rawActivation (k.centers b) (k.widths b) (inputs s) =
      ∏ i, actFactor (inputs s i) (k.centers b i) (k.widths b i) := fun s b => rawActivation_eq _ _ _
  cases normalized with
  | false =>
    simp only [Bool.false_eq_true, if_false, e]
    exact ⟨fun r => ⟨fun h => by injection h with h; rw [h], fun h => by injection h with h; rw [h]⟩,
      ⟨(fun h => nomatch h), (fun h => nomatch h)⟩⟩
  | true =>
    simp only [if_true, e, List.sum_ofFn]
    exact ⟨fun r => ⟨fun h => by injection h with h; rw [h], fun h => by injection h with h; rw [h]⟩,
      ⟨(fun h => nomatch h), (fun h => nomatch h)⟩⟩

theorem SameOk.bind {α β : Type} {a : CppResult α} {b : Except PyErr α} (h : SameOk a b) (f : α → β) :
    SameOk (a >>= fun r => pure (f r)) (b >>= fun r => pure (f r)) := by
  intro r
  cases ha : a with
  | ok x =>
    have hb := (h x).mp ha
    rw [hb]
    exact ⟨fun h => by injection h with h; exact congrArg Except.ok h,
      fun h => by injection h with h; exact congrArg Except.ok h⟩
  | error e =>
    cases hb : b with
    | ok x => rw [(h x).mpr hb] at ha; cases ha
    | error e' => exact ⟨(fun h => nomatch h), (fun h => nomatch h)⟩

theorem rbfn_predict {m : RbfnModel d} {c : Rbfn} (hc : readRbfn m = .ok c) :
    ∃ h : c.d = d, ∀ (N : Nat) (inputs : Fin N → Fin d → ℝ),
      SameOk (c.predict fun s => inputs s ∘ Fin.cast h) (m.predict inputs) := by
  unfold readRbfn at hc
  by_cases h0 : m.kernels.n = 0 ∨ m.rows = 0
  · rw [if_pos h0] at hc; cases hc
  rw [if_neg h0] at hc
  by_cases h1 : m.rows = m.kernels.n ∧ m.cols = 1
  · rw [dif_pos h1] at hc
    cases hc
    refine ⟨rfl, ?_⟩
    intro N inputs
    unfold Rbfn.predict RbfnModel.predict
    simp only [dif_pos (And.intro h1.2 h1.1), List.sum_ofFn]
    exact (C65_activations m.kernels false inputs).1.bind _
  · rw [dif_neg h1] at hc; cases hc

theorem lwr_predict {m : LwrModel d} {c : Lwr} (hc : readLwr m = .ok c) :
    ∃ h : c.d = d, ∀ (N : Nat) (inputs : Fin N → Fin d → ℝ),
      SameOk (c.predict fun s => inputs s ∘ Fin.cast h) (m.predict inputs) := by
  unfold readLwr at hc
  by_cases h0 : m.kernels.n = 0 ∨ m.lines = 0
  · rw [if_pos h0] at hc; cases hc
  rw [if_neg h0] at hc
  by_cases h1 : m.lines = m.kernels.n
  · rw [dif_pos h1] at hc
    cases hc
    refine ⟨rfl, ?_⟩
    intro N inputs
    unfold Lwr.predict LwrModel.predict
    simp only [dif_pos h1, List.sum_ofFn, Lwr.getLines, LwrModel.getLines]
    have e : ∀ (act : Fin N → Fin m.kernels.n → ℝ) (s : Fin N),
        ∑ l, (∑ i, inputs s i * m.slopes l i + m.offsets l) * act s (Fin.cast h1 l) =
        ∑ b, (∑ i, inputs s i * m.slopes (Fin.cast h1.symm b) i + m.offsets (Fin.cast h1.symm b)) *
          act s b := by
      intro act s
      exact Fintype.sum_equiv (finCongr h1) _ _ fun l => rfl
    simp only [e]
    exact (C65_activations m.kernels true inputs).1.bind _
  · rw [dif_neg h1] at hc; cases hc

/-- C65: predictions of a function approximator that was read in C++. -/
theorem C65_predict {fa : Fa} {c : AnyFa} (hc : readFa fa = .ok (some c)) (hN : N ≠ 0)
    (inputs : Fin N → Fin d → ℝ) : SameOk (c.predict inputs) (fa.predict inputs) := by
  unfold readFa at hc
  split at hc
  · rename_i dim m hm
    obtain ⟨a, h1, h2⟩ : ∃ a, readRbfn m = .ok a ∧ AnyFa.rbfn a = c := by
      cases h : readRbfn m with
      | error e => rw [h] at hc; cases hc
      | ok a => rw [h] at hc; cases hc; exact ⟨a, rfl, rfl⟩
    subst h2
    obtain ⟨hd, hp⟩ := rbfn_predict h1
    unfold AnyFa.predict Fa.predict
    rw [hm]
    simp only [if_neg hN]
    by_cases h : d = dim
    · subst h
      rw [dif_pos hd, dif_pos rfl]
      exact hp N inputs
    · rw [dif_neg (by rw [hd]; exact fun h' => h h'.symm), dif_neg h]
      exact fun r => ⟨(fun h => nomatch h), (fun h => nomatch h)⟩
  · rename_i dim m hm
    obtain ⟨a, h1, h2⟩ : ∃ a, readLwr m = .ok a ∧ AnyFa.lwr a = c := by
      cases h : readLwr m with
      | error e => rw [h] at hc; cases hc
      | ok a => rw [h] at hc; cases hc; exact ⟨a, rfl, rfl⟩
    subst h2
    obtain ⟨hd, hp⟩ := lwr_predict h1
    unfold AnyFa.predict Fa.predict
    rw [hm]
    simp only [if_neg hN]
    by_cases h : d = dim
    · subst h
      rw [dif_pos hd, dif_pos rfl]
      exact hp N inputs
    · rw [dif_neg (by rw [hd]; exact fun h' => h h'.symm), dif_neg h]
      exact fun r => ⟨(fun h => nomatch h), (fun h => nomatch h)⟩
  · cases hc
  · cases hc
  · split at hc <;> cases hc

theorem realTime_eq (c : AnyFa) (x : Fin d → ℝ) :
    c.predictRealTime x = (c.predict fun _ : Fin 1 => x).map fun p => p 0 := by
  cases c with
  | rbfn m =>
    unfold AnyFa.predictRealTime AnyFa.predict
    by_cases h : m.d = d
    · simp only [dif_pos h, Rbfn.predictRealTime, Rbfn.predict]
      cases activations m.centers m.widths (fun _ : Fin 1 => x ∘ Fin.cast h) false <;> rfl
    · simp only [dif_neg h]; rfl
  | lwr m =>
    unfold AnyFa.predictRealTime AnyFa.predict
    by_cases h : m.d = d
    · simp only [dif_pos h, Lwr.predictRealTime, Lwr.predict]
      cases activations m.centers m.widths (fun _ : Fin 1 => x ∘ Fin.cast h) true <;> rfl
    · simp only [dif_neg h]; rfl

/-- C65: predictions with predictRealTime. -/
theorem C65_predictRealTime {fa : Fa} {c : AnyFa} (hc : readFa fa = .ok (some c)) (x : Fin d → ℝ) (y : ℝ) :
    c.predictRealTime x = .ok y ↔ fa.predict (fun _ : Fin 1 => x) = .ok fun _ => y := by
  rw [realTime_eq, ← C65_predict hc one_ne_zero]
  cases h : c.predict fun _ : Fin 1 => x with
  | error e => exact ⟨(fun h => nomatch h), (fun h => nomatch h)⟩
  | ok p =>
    refine ⟨fun h => ?_, fun h => ?_⟩
    · injection h with h
      congr 1
      funext i
      rw [← h, Subsingleton.elim i 0]
    · injection h with h
      rw [h]
      rfl

/-- Which function approximators can be read: radial basis function networks and locally weighted
regression, once they have been trained such that they can predict. -/
theorem C65_read_fa (fa : Fa) (inputs : Fin N → Fin d → ℝ) :
    (∀ p, fa.predict inputs = .ok p →
      match fa.model with
      | some ⟨_, .rbfn m⟩ => m.kernels.n ≠ 0 → ∃ c, readFa fa = .ok (some c)
      | some ⟨_, .lwr m⟩ => m.kernels.n ≠ 0 → ∃ c, readFa fa = .ok (some c)
      | _ => readFa fa = .ok none) ∧
    (fa.model = none → ∀ c, readFa fa ≠ .ok (some c)) := by
  constructor
  · intro p hp
    unfold Fa.predict at hp
    split at hp
    · cases hp
    · rename_i dim m hm
      by_cases hN : N = 0
      · rw [if_pos hN] at hp; cases hp
      rw [if_neg hN] at hp
      by_cases h : d = dim
      · rw [dif_pos h] at hp
        cases m with
        | rbfn m =>
          simp only [hm]
          intro hn
          obtain ⟨act, h1, h2⟩ := except_bind_ok hp
          by_cases h3 : m.cols = 1 ∧ m.rows = m.kernels.n
          · obtain ⟨c, h4⟩ : ∃ c, readRbfn m = .ok c := by
              rw [readRbfn, if_neg (by rw [h3.2]; simpa using hn), dif_pos ⟨h3.2, h3.1⟩]
              exact ⟨_, rfl⟩
            refine ⟨.rbfn c, ?_⟩
            unfold readFa
            simp only [hm, h4]
            rfl
          · rw [dif_neg h3] at h2
            split at h2 <;> cases h2
        | lwr m =>
          simp only [hm]
          intro hn
          obtain ⟨act, h1, h2⟩ := except_bind_ok hp
          by_cases h3 : m.lines = m.kernels.n
          · obtain ⟨c, h4⟩ : ∃ c, readLwr m = .ok c := by
              rw [readLwr, if_neg (by rw [h3]; simpa using hn), dif_pos h3]
              exact ⟨_, rfl⟩
            refine ⟨.lwr c, ?_⟩
            unfold readFa
            simp only [hm, h4]
            rfl
          · rw [dif_neg h3] at h2
            cases h2
        | wls m => simp only [hm, readFa]; rfl
        | gpr m => simp only [hm, readFa]; rfl
      · rw [dif_neg h] at hp; cases hp
  · intro hm c hc
    unfold readFa at hc
    rw [hm] at hc
    simp only at hc
    split at hc <;> cases hc

/-- A network with two basis functions, and lines over inputs with two dimensions, are read and
predict. -/
example : (∃ c, readFa ⟨.rbfn [2] 0.5 0, some ⟨1, .rbfn
      ⟨⟨2, fun b _ => b, fun _ _ => 1⟩, 2, 1, fun b _ => 3 * b⟩⟩, none⟩ = .ok (some c)) ∧
    ∃ c, readFa ⟨.lwr [1, 2] 0.5 0, some ⟨2, .lwr
      ⟨⟨2, fun b i => b + i, fun _ _ => 1⟩, 2, fun b i => b - i, fun b => 3 * b⟩⟩, none⟩ = .ok (some c) ∧
      ∃ p, c.predict (fun (s : Fin 3) (_ : Fin 2) => (s : ℝ)) = .ok p := by
  refine ⟨⟨_, rfl⟩, _, rfl, ?_⟩
  unfold AnyFa.predict Lwr.predict activations
  simp only
  rw [dif_pos trivial, if_neg (by norm_num), if_neg (by norm_num), if_pos trivial]
  exact ⟨_, rfl⟩

end Cpp

end Verif
