import Verif.Props.Predictions
import Verif.Model.Dmp
import Verif.Proofs.Vec

/- Outputs of function approximators are bounded on bounded inputs. -/

set_option autoImplicit false

namespace Verif

open Finset

variable {N d : Nat}

theorem rawAct_le_one (k : Kernels d) (inputs : Fin N → Fin d → ℝ) (s : Fin N) (b : Fin k.n) :
    rawAct k inputs s b ≤ 1 := by
  refine Finset.prod_le_one (fun i _ => ?_) fun i _ => ?_
  · unfold actFactor
    split
    · exact le_rfl
    · exact (Real.exp_pos _).le
  · unfold actFactor
    split
    · exact zero_le_one
    · rw [Real.exp_le_one_iff]
      refine div_nonpos_of_nonpos_of_nonneg ?_ (mul_self_nonneg _)
      nlinarith [sq_nonneg (inputs s i - k.centers b i)]

theorem activations_bound {k : Kernels d} {n : Bool} {inputs : Fin N → Fin d → ℝ}
    {a : Fin N → Fin k.n → ℝ} (h : k.activations n inputs = .ok a) (s : Fin N) (b : Fin k.n) :
    |a s b| ≤ 1 := by
  have raw : ∀ b, 0 ≤ rawAct k inputs s b := fun b => rawAct_nonneg k inputs s b
  cases n with
  | false =>
    rw [activations_raw h, abs_of_nonneg (raw b)]
    exact rawAct_le_one k inputs s b
  | true =>
    rcases activations_norm h with ⟨-, rfl⟩ | ⟨-, rfl⟩
    · simp
    · simp only
      split
      · have : 0 < k.n := b.pos
        have : (1 : ℝ) ≤ k.n := by exact_mod_cast this
        rw [abs_of_nonneg (by positivity), div_le_one (by positivity)]
        exact this
      · have h1 : rawAct k inputs s b ≤ ∑ b', rawAct k inputs s b' :=
          single_le_sum (fun b _ => raw b) (mem_univ b)
        have h2 : 0 ≤ ∑ b', rawAct k inputs s b' := (raw b).trans h1
        rw [abs_of_nonneg (div_nonneg (raw b) h2)]
        exact div_le_one_of_le₀ h1 h2

theorem sum_bound {ι : Type} [Fintype ι] (f g : ι → ℝ) (h : ∀ i, |f i| ≤ |g i|) :
    |∑ i, f i| ≤ ∑ i, |g i| :=
  (abs_sum_le_sum_abs _ _).trans (sum_le_sum fun i _ => h i)

/-- On bounded inputs, the outputs of a model are bounded. -/
theorem FaModel.bounded (m : FaModel d) (R : ℝ) : ∃ B : ℝ, ∀ {N : Nat} (inputs : Fin N → Fin d → ℝ)
    (out : Fin N → ℝ), (∀ s i, |inputs s i| ≤ R) → m.predict inputs = .ok out → ∀ s, |out s| ≤ B := by
  have scale : ∀ {a b c : ℝ}, |a| ≤ c → |a * b| ≤ |c * b| := fun {a b c} h => by
    rw [abs_mul, abs_mul]
    exact mul_le_mul_of_nonneg_right (h.trans (le_abs_self c)) (abs_nonneg b)
  cases m with
  | rbfn m =>
    by_cases h : m.cols = 1 ∧ m.rows = m.kernels.n
    · refine ⟨∑ b, |1 * m.weights (Fin.cast h.2.symm b) (Fin.cast h.1.symm 0)|, fun inputs out _ ho s => ?_⟩
      change m.predict inputs = .ok out at ho
      unfold RbfnModel.predict at ho
      obtain ⟨act, h1, ho⟩ := except_bind_ok ho
      rw [dif_pos h] at ho
      cases ho
      exact sum_bound _ _ fun b => scale (activations_bound h1 s b)
    · refine ⟨0, fun {N} inputs out _ ho s => ?_⟩
      change m.predict inputs = .ok out at ho
      unfold RbfnModel.predict at ho
      obtain ⟨act, h1, ho⟩ := except_bind_ok ho
      rw [dif_neg h] at ho
      split at ho <;> cases ho
  | lwr m =>
    refine ⟨∑ l, |(∑ i, |R * m.slopes l i| + |m.offsets l|) * 1|, fun inputs out hi ho s => ?_⟩
    change m.predict inputs = .ok out at ho
    unfold LwrModel.predict at ho
    obtain ⟨act, h1, ho⟩ := except_bind_ok ho
    by_cases h : m.lines = m.kernels.n
    · rw [dif_pos h] at ho
      cases ho
      refine sum_bound _ _ fun l => ?_
      rw [abs_mul, abs_mul]
      refine mul_le_mul ?_ ?_ (abs_nonneg _) (abs_nonneg _)
      · refine le_trans ?_ (le_abs_self _)
        refine (abs_add_le _ _).trans (add_le_add ?_ le_rfl)
        exact sum_bound _ _ fun i => scale (hi s i)
      · rw [abs_one]
        exact activations_bound h1 s _
    · rw [dif_neg h] at ho
      cases ho
  | wls m =>
    refine ⟨∑ i, |R * m.slope i| + |m.offset.getD 0|, fun inputs out hi ho s => ?_⟩
    cases ho
    refine (abs_add_le _ _).trans (add_le_add ?_ le_rfl)
    exact sum_bound _ _ fun i => scale (hi s i)
  | gpr m =>
    refine ⟨∑ b, |m.maxCovariance * m.weights b|, fun inputs out _ ho s => ?_⟩
    change m.predict inputs = .ok out at ho
    unfold GprModel.predict gprActivations at ho
    obtain ⟨act', h0, ho⟩ := except_bind_ok ho
    obtain ⟨act, h1, h2⟩ := except_bind_ok h0
    cases h2
    cases ho
    refine sum_bound _ _ fun b => ?_
    rw [abs_mul, abs_mul, abs_mul]
    refine mul_le_mul_of_nonneg_right ?_ (abs_nonneg _)
    exact mul_le_of_le_one_right (abs_nonneg _) (activations_bound h1 s b)

/-- On bounded phases, the outputs of the function approximators of a Dmp are bounded. -/
theorem Dmp.predictions_bounded (s : Dmp) (R : ℝ) : ∃ B : ℝ, ∀ phases : List ℝ,
    (∀ p ∈ phases, |p| ≤ R) → ∀ rows, s.predictions phases = .ok rows →
    ∀ row ∈ rows, ∀ v ∈ row, |v| ≤ B := by
  have zero : ∀ (n : Nat) (rows : List (List ℝ)), Except.ok (ε := PyErr) (List.replicate n (vzeros s.dimY)) = .ok rows →
      ∀ row ∈ rows, ∀ v ∈ row, |v| ≤ 0 := by
    intro n rows h row hrow v hv
    cases h
    have := List.eq_of_mem_replicate hrow
    subst this
    have := List.eq_of_mem_replicate hv
    rw [this, abs_zero]
  rcases e : s.fas with _ | fas
  · exact ⟨0, fun phases _ rows h => zero phases.length rows (by unfold predictions at h; rw [e] at h; exact h)⟩
  rcases e2 : fas with _ | ⟨fa0, rest⟩
  · refine ⟨0, fun phases _ rows h => zero phases.length rows ?_⟩
    unfold predictions at h
    rw [e, e2] at h
    exact h
  -- a bound for each column
  have col : ∀ i, ∃ B : ℝ, ∀ phases : List ℝ, (∀ p ∈ phases, |p| ≤ R) → ∀ c, faColumn fas phases i = .ok c →
      ∀ v ∈ c, |v| ≤ B := by
    intro i
    rcases ei : fas[i]? with _ | fa
    · refine ⟨0, fun phases _ c h => ?_⟩
      unfold faColumn at h
      rw [ei] at h
      cases h
    rcases em : fa.model with _ | ⟨dim, m⟩
    · refine ⟨0, fun phases _ c h v hv => ?_⟩
      unfold faColumn at h
      rw [ei] at h
      simp only [em, Option.isSome_none, Bool.false_eq_true, if_false] at h
      cases h
      have := List.eq_of_mem_replicate hv
      rw [this, abs_zero]
    · obtain ⟨B, hB⟩ := m.bounded R
      refine ⟨B, fun phases hp c h v hv => ?_⟩
      unfold faColumn at h
      rw [ei] at h
      simp only [em, Option.isSome_some, if_true] at h
      obtain ⟨out, h1, h⟩ := except_bind_ok h
      cases h
      obtain ⟨t, rfl⟩ := List.mem_ofFn.mp hv
      unfold Fa.predict at h1
      rw [em] at h1
      simp only at h1
      split at h1
      · cases h1
      split at h1
      · exact hB _ out (fun s _ => hp _ (List.getElem_mem _)) h1 t
      · cases h1
  choose Bs hBs using col
  refine ⟨∑ i ∈ range s.dimY, |Bs i|, fun phases hp rows h row hrow v hv => ?_⟩
  unfold predictions at h
  rw [e, e2] at h
  simp only at h
  rw [← e2] at h
  obtain ⟨cols, h1, h⟩ := except_bind_ok h
  cases h
  obtain ⟨t, ht, rfl⟩ := List.mem_map.mp hrow
  obtain ⟨c, hc, rfl⟩ := List.mem_map.mp hv
  have h2 := mapM_ok.mp h1
  obtain ⟨i, hi, hci⟩ : ∃ i, i < s.dimY ∧ faColumn fas phases i = .ok c := by
    obtain ⟨n, hn, rfl⟩ := List.getElem_of_mem hc
    have hl := h2.length_eq
    have hn' : n < s.dimY := by
      rw [List.length_range] at hl
      omega
    refine ⟨n, hn', ?_⟩
    have := h2.get (by simpa using hn') hn
    simpa using this
  have hb := hBs i phases hp c hci
  have hB0 : |Bs i| ≤ ∑ i ∈ range s.dimY, |Bs i| :=
    single_le_sum (f := fun i => |Bs i|) (fun i _ => abs_nonneg _) (mem_range.mpr hi)
  by_cases htc : t < c.length
  · rw [getD_lt htc]
    exact ((hb _ (List.getElem_mem _)).trans (le_abs_self _)).trans hB0
  · rw [List.getD_eq_default _ _ (by omega), abs_zero]
    exact sum_nonneg fun i _ => abs_nonneg _

end Verif
