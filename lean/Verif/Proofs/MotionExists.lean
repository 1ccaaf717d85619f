import Mathlib.Analysis.ODE.ExistUnique
import Verif.Proofs.SubMotion

/- Existence of motions: differential equations in two dimensions that grow at most linearly. -/

set_option autoImplicit false

namespace Verif

open Filter Topology Set
open scoped NNReal

/-- `x`, moved into the interval from `-r` to `r`. -/
noncomputable def clampTo (r : ℝ) (x : ℝ) : ℝ := max (-r) (min r x)

theorem clampTo_eq {r x : ℝ} (h : |x| ≤ r) : clampTo r x = x := by
  obtain ⟨h1, h2⟩ := abs_le.mp h
  rw [clampTo, min_eq_right h2, max_eq_right h1]

theorem clampTo_le {r : ℝ} (hr : 0 ≤ r) (x : ℝ) : |clampTo r x| ≤ r := by
  rw [abs_le]
  exact ⟨le_max_left _ _, max_le (by linarith) (min_le_left _ _)⟩

theorem clampTo_abs {r : ℝ} (hr : 0 ≤ r) (x : ℝ) : |clampTo r x| ≤ |x| := by
  rcases le_total |x| r with h | h
  · rw [clampTo_eq h]
  · exact (clampTo_le hr x).trans h

theorem clampTo_lipschitz (r : ℝ) : LipschitzWith 1 (clampTo r) :=
  (LipschitzWith.id.const_min r).const_max (-r)

/-- Both coordinates, moved into that interval. -/
noncomputable def clampPair (r : ℝ) (x : ℝ × ℝ) : ℝ × ℝ := (clampTo r x.1, clampTo r x.2)

theorem clampPair_eq {r : ℝ} {x : ℝ × ℝ} (h : ‖x‖ ≤ r) : clampPair r x = x :=
  Prod.ext (clampTo_eq ((norm_fst_le x).trans h)) (clampTo_eq ((norm_snd_le x).trans h))

theorem clampPair_le {r : ℝ} (hr : 0 ≤ r) (x : ℝ × ℝ) : ‖clampPair r x‖ ≤ r :=
  norm_prod_le_iff.mpr ⟨clampTo_le hr _, clampTo_le hr _⟩

theorem clampPair_norm {r : ℝ} (hr : 0 ≤ r) (x : ℝ × ℝ) : ‖clampPair r x‖ ≤ ‖x‖ :=
  norm_prod_le_iff.mpr ⟨(clampTo_abs hr _).trans (norm_fst_le x), (clampTo_abs hr _).trans (norm_snd_le x)⟩

theorem clampPair_lipschitz (r : ℝ) : LipschitzWith 1 (clampPair r) := by
  have h1 : LipschitzWith (1 * 1) fun x : ℝ × ℝ => clampTo r x.1 := (clampTo_lipschitz r).comp LipschitzWith.prod_fst
  have h2 : LipschitzWith (1 * 1) fun x : ℝ × ℝ => clampTo r x.2 := (clampTo_lipschitz r).comp LipschitzWith.prod_snd
  have := h1.prodMk h2
  rw [one_mul, max_self] at this
  exact this

/-- Motions up to a time. -/
theorem exists_upto {F : ℝ → ℝ × ℝ → ℝ × ℝ} {T : ℝ} (hT : 0 ≤ T) {K : ℝ≥0} {M : ℝ}
    (hK : ∀ t ∈ Icc 0 T, LipschitzWith K (F t)) (hc : ∀ x, ContinuousOn (fun t => F t x) (Icc 0 T))
    (hM : ∀ t ∈ Icc 0 T, ‖F t 0‖ ≤ M) (x0 : ℝ × ℝ) :
    ∃ f : ℝ → ℝ × ℝ, f 0 = x0 ∧ ∀ t ∈ Icc 0 T, HasDerivWithinAt f (F t (f t)) (Icc 0 T) t := by
  have M0 : 0 ≤ M := (norm_nonneg _).trans (hM 0 ⟨le_rfl, hT⟩)
  have grow : ∀ t ∈ Icc 0 T, ∀ x, ‖F t x‖ ≤ K * ‖x‖ + M := fun t ht x => by
    have h1 := (hK t ht).dist_le_mul x 0
    rw [dist_eq_norm, dist_eq_norm, sub_zero] at h1
    have h2 := norm_le_norm_add_norm_sub' (F t x) (F t 0)
    have := hM t ht
    linarith
  set R := gronwallBound ‖x0‖ K M T with hR
  have mono := gronwallBound_mono (norm_nonneg x0) M0 K.2
  have R0 : 0 ≤ R := by
    have := mono hT
    rw [gronwallBound_x0] at this
    exact (norm_nonneg _).trans this
  have clK : ∀ t ∈ Icc 0 T, LipschitzWith K fun x => F t (clampPair R x) := fun t ht => by
    have := (hK t ht).comp (clampPair_lipschitz R)
    rw [mul_one] at this
    exact this
  let L : ℝ≥0 := ⟨K * R + M, by positivity⟩
  have pl : IsPicardLindelof (fun t x => F t (clampPair R x)) (⟨0, le_rfl, hT⟩ : Icc 0 T) x0 (L * Real.toNNReal T) 0 L K :=
    { lipschitzOnWith := fun t ht => (clK t ht).lipschitzOnWith
      continuousOn := fun x _ => hc _
      norm_le := fun t ht x _ => by
        refine (grow t ht _).trans ?_
        change _ ≤ K * R + M
        have := mul_le_mul_of_nonneg_left (clampPair_le R0 x) K.2
        change (K : ℝ) * _ ≤ K * R at this
        linarith
      mul_max_le := by
        rw [sub_zero, sub_zero, max_eq_left hT, NNReal.coe_zero, sub_zero, NNReal.coe_mul,
          Real.coe_toNNReal T hT] }
  obtain ⟨f, h0, hf⟩ := pl.exists_eq_forall_mem_Icc_hasDerivWithinAt₀
  refine ⟨f, h0, fun t ht => ?_⟩
  have bound : ∀ t ∈ Icc 0 T, ‖f t‖ ≤ R := fun t ht => by
    have := norm_le_gronwallBound_of_norm_deriv_right_le (f := f) (f' := fun t => F t (clampPair R (f t)))
      (δ := ‖x0‖) (K := K) (ε := M) (a := 0) (b := T) (fun t ht => (hf t ht).continuousWithinAt)
      (fun t ht => (hf t ⟨ht.1, ht.2.le⟩).mono_of_mem_nhdsWithin (Icc_mem_nhdsGE_of_mem ht))
      (by rw [h0]) (fun t ht => by
        refine (grow t ⟨ht.1, ht.2.le⟩ _).trans ?_
        have := mul_le_mul_of_nonneg_left (clampPair_norm R0 (f t)) K.2
        change (K : ℝ) * _ ≤ K * _ at this
        linarith) t ht
    rw [sub_zero] at this
    exact this.trans (mono ht.2)
  have := hf t ht
  rwa [clampPair_eq (bound t ht)] at this

/-- Motions up to a time are determined by their start. -/
theorem unique_upto {E : Type} [NormedAddCommGroup E] [NormedSpace ℝ E] {F : ℝ → E → E} {T : ℝ} {K : ℝ≥0}
    (hK : ∀ t ∈ Icc 0 T, LipschitzWith K (F t)) {f g : ℝ → E} (cf : ContinuousOn f (Icc 0 T))
    (hf : ∀ t ∈ Ico 0 T, HasDerivWithinAt f (F t (f t)) (Ici t) t) (cg : ContinuousOn g (Icc 0 T))
    (hg : ∀ t ∈ Ico 0 T, HasDerivWithinAt g (F t (g t)) (Ici t) t) (h0 : f 0 = g 0) : EqOn f g (Icc 0 T) :=
  ODE_solution_unique_of_mem_Icc_right (s := fun _ => univ)
    (fun t ht => (hK t ⟨ht.1, ht.2.le⟩).lipschitzOnWith) cf hf (fun _ _ => mem_univ _) cg hg
    (fun _ _ => mem_univ _) h0

/-- Motions from time 0 on. -/
theorem exists_forever {F : ℝ → ℝ × ℝ → ℝ × ℝ}
    (hF : ∀ T, 0 ≤ T → ∃ (K : ℝ≥0) (M : ℝ), ∀ t ∈ Icc 0 T, LipschitzWith K (F t) ∧ ‖F t 0‖ ≤ M)
    (hc : ∀ x, ContinuousOn (fun t => F t x) (Ici 0)) (x0 : ℝ × ℝ) :
    ∃ f : ℝ → ℝ × ℝ, f 0 = x0 ∧ ContinuousOn f (Ici 0) ∧
      ∀ t, 0 ≤ t → HasDerivWithinAt f (F t (f t)) (Ici t) t := by
  have ex : ∀ n : ℕ, ∃ f : ℝ → ℝ × ℝ, f 0 = x0 ∧
      ∀ t ∈ Icc (0 : ℝ) n, HasDerivWithinAt f (F t (f t)) (Icc 0 n) t := fun n => by
    obtain ⟨K, M, h⟩ := hF n n.cast_nonneg
    exact exists_upto n.cast_nonneg (fun t ht => (h t ht).1) (fun x => (hc x).mono fun t h => h.1)
      (fun t ht => (h t ht).2) x0
  choose f f0 hf using ex
  have right : ∀ n : ℕ, ∀ t ∈ Ico (0 : ℝ) n, HasDerivWithinAt (f n) (F t (f n t)) (Ici t) t := fun n t ht =>
    (hf n t ⟨ht.1, ht.2.le⟩).mono_of_mem_nhdsWithin (Icc_mem_nhdsGE_of_mem ht)
  -- they agree with each other
  have agree : ∀ {m n : ℕ}, m ≤ n → EqOn (f m) (f n) (Icc 0 m) := fun {m n} hmn => by
    obtain ⟨K, M, h⟩ := hF m m.cast_nonneg
    have c : (m : ℝ) ≤ n := by exact_mod_cast hmn
    refine unique_upto (fun t ht => (h t ht).1) (fun t ht => (hf m t ht).continuousWithinAt) (right m)
      (fun t ht => ((hf n t ⟨ht.1, ht.2.trans c⟩).mono (Icc_subset_Icc le_rfl c)).continuousWithinAt)
      (fun t ht => right n t ⟨ht.1, ht.2.trans_le c⟩) ?_
    rw [f0, f0]
  let g : ℝ → ℝ × ℝ := fun t => f ⌈t⌉₊ t
  have eq : ∀ (n : ℕ) t, t ∈ Icc (0 : ℝ) n → g t = f n t := fun n t ht =>
    agree (Nat.ceil_le.mpr ht.2) ⟨ht.1, Nat.le_ceil t⟩
  refine ⟨g, by simp [g, f0], fun t ht => ?_, fun t ht => ?_⟩
  · obtain ⟨n, hn⟩ := exists_nat_gt t
    have h1 := (hf n t ⟨ht, hn.le⟩).continuousWithinAt
    have h2 : ContinuousWithinAt g (Icc 0 (n : ℝ)) t := h1.congr (fun u hu => eq n u hu) (eq n t ⟨ht, hn.le⟩)
    refine h2.mono_of_mem_nhdsWithin ?_
    have : Icc (0 : ℝ) n = Ici 0 ∩ Iic (n : ℝ) := by ext; simp
    rw [this]
    exact inter_mem_nhdsWithin _ (Iic_mem_nhds hn)
  · obtain ⟨n, hn⟩ := exists_nat_gt t
    have h1 := right n t ⟨ht, hn⟩
    rw [← eq n t ⟨ht, hn.le⟩] at h1
    refine h1.congr_of_eventuallyEq ?_ (eq n t ⟨ht, hn.le⟩)
    filter_upwards [Icc_mem_nhdsGE hn] with u hu
    exact eq n u ⟨ht.trans hu.1, hu.2⟩

end Verif
