import Mathlib.Analysis.SpecialFunctions.ExpDeriv
import Mathlib.Analysis.Calculus.ContDiff.Operations
import Verif.Proofs.FaBound

/- Outputs of function approximators are smooth functions of the inputs. -/

set_option autoImplicit false

namespace Verif

open Finset

variable {d : Nat}

theorem actFactor_smooth (c w : ℝ) (i : Fin d) : ContDiff ℝ 1 fun x : Fin d → ℝ => actFactor (x i) c w := by
  unfold actFactor
  split
  · exact contDiff_const
  · exact ((contDiff_const.mul (((contDiff_apply ℝ ℝ i).sub contDiff_const).pow 2)).div_const _).exp

/-- The raw activation of basis function `b` as a function of the input. -/
noncomputable def actAt (k : Kernels d) (b : Fin k.n) (x : Fin d → ℝ) : ℝ :=
  ∏ i, actFactor (x i) (k.centers b i) (k.widths b i)

theorem actAt_smooth (k : Kernels d) (b : Fin k.n) : ContDiff ℝ 1 (actAt k b) :=
  contDiff_prod fun i _ => actFactor_smooth _ _ i

theorem actAt_pos {k : Kernels d} {b : Fin k.n} (h : ∀ i, k.widths b i ≠ 0) (x : Fin d → ℝ) : 0 < actAt k b x := by
  refine prod_pos fun i _ => ?_
  rw [actFactor, if_neg (h i)]
  exact Real.exp_pos _

theorem actAt_zero {k : Kernels d} {b : Fin k.n} {i : Fin d} (h : k.widths b i = 0) (x : Fin d → ℝ) :
    actAt k b x = 0 :=
  prod_eq_zero (mem_univ i) (by rw [actFactor, if_pos h])

theorem actAt_nonneg (k : Kernels d) (b : Fin k.n) (x : Fin d → ℝ) : 0 ≤ actAt k b x :=
  rawAct_nonneg k (fun _ : Fin 1 => x) 0 b

/-- Activations are smooth functions of the input. -/
theorem activations_smooth (k : Kernels d) (n : Bool) : ∃ g : Fin k.n → (Fin d → ℝ) → ℝ,
    (∀ b, ContDiff ℝ 1 (g b)) ∧ ∀ {N : Nat} (inputs : Fin N → Fin d → ℝ) (a : Fin N → Fin k.n → ℝ),
      k.activations n inputs = .ok a → ∀ s b, a s b = g b (inputs s) := by
  cases n with
  | false => exact ⟨actAt k, actAt_smooth k, fun inputs a h s b => by rw [activations_raw h]; rfl⟩
  | true =>
    by_cases h1 : k.n = 1
    · refine ⟨fun _ _ => 1, fun _ => contDiff_const, fun inputs a h s b => ?_⟩
      rcases activations_norm h with ⟨-, rfl⟩ | ⟨h2, -⟩
      · rfl
      · exact absurd h1 h2
    by_cases h2 : ∃ b, ∀ i, k.widths b i ≠ 0
    · obtain ⟨b0, hb0⟩ := h2
      have pos : ∀ x, 0 < ∑ b', actAt k b' x := fun x =>
        sum_pos' (fun b _ => actAt_nonneg k b x) ⟨b0, mem_univ _, actAt_pos hb0 x⟩
      refine ⟨fun b x => actAt k b x / ∑ b', actAt k b' x, fun b => (actAt_smooth k b).div
        (ContDiff.sum fun b' _ => actAt_smooth k b') fun x => (pos x).ne', fun inputs a h s b => ?_⟩
      rcases activations_norm h with ⟨h3, -⟩ | ⟨-, rfl⟩
      · exact absurd h3 h1
      · exact if_neg (pos (inputs s)).ne'
    · push Not at h2
      refine ⟨fun _ _ => 1 / (k.n : ℝ), fun _ => contDiff_const, fun inputs a h s b => ?_⟩
      rcases activations_norm h with ⟨h3, -⟩ | ⟨-, rfl⟩
      · exact absurd h3 h1
      · exact if_pos (sum_eq_zero fun b' _ => by
          obtain ⟨i, hi⟩ := h2 b'
          exact actAt_zero hi (inputs s))

/-- The outputs of a model are a smooth function of the input. -/
theorem FaModel.smooth (m : FaModel d) : ∃ g : (Fin d → ℝ) → ℝ, ContDiff ℝ 1 g ∧
    ∀ {N : Nat} (inputs : Fin N → Fin d → ℝ) (out : Fin N → ℝ), m.predict inputs = .ok out →
      ∀ s, out s = g (inputs s) := by
  have coord : ∀ i : Fin d, ContDiff ℝ 1 fun x : Fin d → ℝ => x i := fun i => contDiff_apply ℝ ℝ i
  cases m with
  | rbfn m =>
    obtain ⟨g, hg, hg2⟩ := activations_smooth m.kernels false
    by_cases h : m.cols = 1 ∧ m.rows = m.kernels.n
    · refine ⟨fun x => ∑ b, g b x * m.weights (Fin.cast h.2.symm b) (Fin.cast h.1.symm 0),
        ContDiff.sum fun b _ => (hg b).mul contDiff_const, fun inputs out ho s => ?_⟩
      change m.predict inputs = .ok out at ho
      unfold RbfnModel.predict at ho
      obtain ⟨act, h1, ho⟩ := except_bind_ok ho
      rw [dif_pos h] at ho
      cases ho
      exact sum_congr rfl fun b _ => by rw [hg2 _ _ h1]
    · refine ⟨fun _ => 0, contDiff_const, fun {N} inputs out ho s => ?_⟩
      change m.predict inputs = .ok out at ho
      unfold RbfnModel.predict at ho
      obtain ⟨act, h1, ho⟩ := except_bind_ok ho
      rw [dif_neg h] at ho
      split at ho <;> cases ho
  | lwr m =>
    obtain ⟨g, hg, hg2⟩ := activations_smooth m.kernels true
    by_cases h : m.lines = m.kernels.n
    · refine ⟨fun x => ∑ l, (∑ i, x i * m.slopes l i + m.offsets l) * g (Fin.cast h l) x,
        ContDiff.sum fun l _ => ((ContDiff.sum fun i _ => (coord i).mul contDiff_const).add contDiff_const).mul
          (hg _), fun inputs out ho s => ?_⟩
      change m.predict inputs = .ok out at ho
      unfold LwrModel.predict at ho
      obtain ⟨act, h1, ho⟩ := except_bind_ok ho
      rw [dif_pos h] at ho
      cases ho
      exact sum_congr rfl fun l _ => by rw [hg2 _ _ h1]; rfl
    · refine ⟨fun _ => 0, contDiff_const, fun {N} inputs out ho s => ?_⟩
      change m.predict inputs = .ok out at ho
      unfold LwrModel.predict at ho
      obtain ⟨act, h1, ho⟩ := except_bind_ok ho
      rw [dif_neg h] at ho
      cases ho
  | wls m =>
    refine ⟨fun x => ∑ i, x i * m.slope i + m.offset.getD 0,
      (ContDiff.sum fun i _ => (coord i).mul contDiff_const).add contDiff_const, fun inputs out ho s => ?_⟩
    cases ho
    rfl
  | gpr m =>
    obtain ⟨g, hg, hg2⟩ := activations_smooth m.kernels false
    refine ⟨fun x => ∑ b, m.maxCovariance * g b x * m.weights b,
      ContDiff.sum fun b _ => (contDiff_const.mul (hg b)).mul contDiff_const, fun inputs out ho s => ?_⟩
    change m.predict inputs = .ok out at ho
    unfold GprModel.predict gprActivations at ho
    obtain ⟨act', h0, ho⟩ := except_bind_ok ho
    obtain ⟨act, h1, h2⟩ := except_bind_ok h0
    cases h2
    cases ho
    exact sum_congr rfl fun b _ => by simp only [hg2 _ _ h1]

/-- The outputs of the function approximators of a Dmp are smooth functions of the phase. -/
theorem Dmp.predictions_smooth (s : Dmp) : ∃ g : Nat → ℝ → ℝ, (∀ i, ContDiff ℝ 1 (g i)) ∧ ∀ (phases : List ℝ)
    (rows : List (List ℝ)), s.predictions phases = .ok rows → ∀ t, t < phases.length → ∀ i, i < s.dimY →
      (rows.getD t []).getD i 0 = g i (phases.getD t 0) := by
  have zero : ∀ {phases : List ℝ} {rows : List (List ℝ)},
      Except.ok (ε := PyErr) (List.replicate phases.length (vzeros s.dimY)) = .ok rows →
      ∀ t, t < phases.length → ∀ i, i < s.dimY → (rows.getD t []).getD i 0 = 0 := by
    intro phases rows h t ht i hi
    cases h
    have e : (List.replicate phases.length (vzeros (K := ℝ) s.dimY)).getD t [] = vzeros s.dimY := by
      rw [getD_lt (by simpa using ht), List.getElem_replicate]
    rw [e, getD_lt (by simpa [vzeros] using hi)]
    exact List.getElem_replicate _
  rcases e : s.fas with _ | fas
  · exact ⟨fun _ _ => 0, fun _ => contDiff_const, fun phases rows h => zero (by
      unfold predictions at h; rw [e] at h; exact h)⟩
  rcases e2 : fas with _ | ⟨fa0, rest⟩
  · exact ⟨fun _ _ => 0, fun _ => contDiff_const, fun phases rows h => zero (by
      unfold predictions at h; rw [e, e2] at h; exact h)⟩
  have col : ∀ i, ∃ g : ℝ → ℝ, ContDiff ℝ 1 g ∧ ∀ (phases : List ℝ) c, faColumn fas phases i = .ok c →
      ∀ t, t < phases.length → c.getD t 0 = g (phases.getD t 0) := by
    intro i
    rcases ei : fas[i]? with _ | fa
    · refine ⟨fun _ => 0, contDiff_const, fun phases c h => ?_⟩
      unfold faColumn at h
      rw [ei] at h
      cases h
    rcases em : fa.model with _ | ⟨dim, m⟩
    · refine ⟨fun _ => 0, contDiff_const, fun phases c h t ht => ?_⟩
      unfold faColumn at h
      rw [ei] at h
      simp only [em, Option.isSome_none, Bool.false_eq_true, if_false] at h
      cases h
      rw [getD_lt (by simpa [vzeros] using ht)]
      exact List.getElem_replicate _
    · by_cases hd : 1 = dim
      · subst hd
        obtain ⟨g, hg, hg2⟩ := m.smooth
        refine ⟨fun p => g fun _ => p, hg.comp (contDiff_pi.mpr fun _ => contDiff_id), fun phases c h t ht => ?_⟩
        unfold faColumn at h
        rw [ei] at h
        simp only [em, Option.isSome_some, if_true] at h
        obtain ⟨out, h1, h⟩ := except_bind_ok h
        cases h
        unfold Fa.predict at h1
        rw [em] at h1
        simp only at h1
        split at h1
        · cases h1
        rw [dif_pos trivial] at h1
        rw [getD_lt (by simpa using ht), List.getElem_ofFn, hg2 _ _ h1, getD_lt ht]
        rfl
      · refine ⟨fun _ => 0, contDiff_const, fun phases c h t ht => ?_⟩
        unfold faColumn at h
        rw [ei] at h
        simp only [em, Option.isSome_some, if_true] at h
        obtain ⟨out, h1, h⟩ := except_bind_ok h
        unfold Fa.predict at h1
        rw [em] at h1
        simp only at h1
        split at h1
        · cases h1
        cases h1
  choose g hg hg2 using col
  refine ⟨g, hg, fun phases rows h t ht i hi => ?_⟩
  unfold predictions at h
  rw [e, e2] at h
  simp only at h
  rw [← e2] at h
  obtain ⟨cols, h1, h⟩ := except_bind_ok h
  cases h
  have h2 := mapM_ok.mp h1
  have hl := h2.length_eq
  rw [List.length_range] at hl
  have h3 := h2.get (i := i) (by simpa using hi) (by omega)
  simp only [List.get_eq_getElem, List.getElem_range] at h3
  have e3 : ((List.range phases.length).map fun t => cols.map fun c => c.getD t 0).getD t [] =
      cols.map fun c => c.getD t 0 := by
    rw [getD_lt (by simpa using ht), List.getElem_map, List.getElem_range]
  rw [e3, getD_lt (by simpa using hl ▸ hi), List.getElem_map]
  exact hg2 i phases _ h3 t ht

end Verif
