import Mathlib.Analysis.SpecialFunctions.Pow.NNReal
import Verif.Proofs.Sub
import Verif.Proofs.DmpKept
import Verif.Proofs.Converge
import Verif.Props.Exponential
import Verif.Spec.Motion

/- Limits of motions of the subsystems of a Dmp. -/

set_option autoImplicit false

namespace Verif

open Filter Topology Set Spec

theorem exp_decays {r tau : ℝ} (hr : 0 < r) (hτ : 0 < tau) :
    Tendsto (fun t : ℝ => Real.exp (-r * t / tau)) atTop (𝓝 0) := by
  apply Real.tendsto_exp_atBot.comp
  have h5 : Tendsto (fun t : ℝ => (r / tau) * t) atTop atTop :=
    tendsto_id.const_mul_atTop (div_pos hr hτ)
  exact (tendsto_neg_atTop_atBot.comp h5).congr fun t => by
    simp only [Function.comp]; ring

/-- Motions of `x' = r (a - x) / tau` tend to `a`. -/
theorem linear_limit {f : ℝ → ℝ} {r a tau : ℝ} (hr : 0 < r) (hτ : 0 < tau)
    (cf : ContinuousOn f (Ici 0)) (hf : ∀ t, 0 ≤ t → HasDerivWithinAt f (r * (a - f t) / tau) (Ici t) t) :
    Tendsto f atTop (𝓝 a) := by
  have key := motion_unique (F := fun x => r * (a - x) / tau) (f := f)
    (g := fun t => (f 0 - a) * Real.exp (-r * t / tau) + a)
    (by fun_prop) cf hf (by fun_prop) (fun t _ => by
      have h1 : HasDerivAt (fun u : ℝ => -r * u / tau) (-(r / tau)) t :=
        (((hasDerivAt_id t).const_mul (-r)).div_const tau).congr_deriv (by simp; ring)
      refine (((h1.exp.const_mul (f 0 - a)).add_const a).congr_deriv ?_).hasDerivWithinAt
      ring) (by simp)
  have h := ((exp_decays hr hτ).const_mul (f 0 - a)).add_const a
  rw [mul_zero, zero_add] at h
  refine h.congr' ?_
  filter_upwards [eventually_ge_atTop (0 : ℝ)] with t ht
  exact (key t ht).symm

/-- A clock that stops at 1 stays between its start and 1 (or its start). -/
theorem clock_bounded {f : ℝ → ℝ} {c : ℝ} (hc : 0 < c) (cf : ContinuousOn f (Ici 0))
    (hf : ∀ t, 0 ≤ t → HasDerivWithinAt f (if f t < 1 then c else 0) (Ici t) t) :
    ∀ t, 0 ≤ t → f 0 ≤ f t ∧ f t ≤ max (f 0) 1 := by
  intro T hT
  have cf : ContinuousOn f (Icc 0 T) := cf.mono fun _ h => h.1
  constructor
  · refine image_le_of_deriv_right_le_deriv_boundary (f := fun _ => f 0) (f' := fun _ => 0) continuousOn_const
      (fun t _ => hasDerivWithinAt_const _ _ _) le_rfl cf (fun t ht => hf t ht.1) (fun t ht => ?_)
      (right_mem_Icc.mpr hT)
    split
    · exact hc.le
    · exact le_rfl
  · refine le_of_forall_pos_le_add fun ε hε => ?_
    have hB : ∀ t, HasDerivAt (fun t => max (f 0) 1 + ε / (T + 1) * t) (ε / (T + 1)) t := fun t => by
      simpa using ((hasDerivAt_id t).const_mul (ε / (T + 1))).const_add (max (f 0) 1)
    have h1 := image_le_of_deriv_right_lt_deriv_boundary cf (fun t ht => hf t ht.1)
      (B := fun t => max (f 0) 1 + ε / (T + 1) * t) (by simp) hB (fun t ht he => by
        have h1 : 1 ≤ f t := by
          rw [he]
          have h2 : 0 ≤ ε / (T + 1) * t := mul_nonneg (by positivity) ht.1
          have := le_max_right (f 0) 1
          linarith
        rw [if_neg (not_lt.mpr h1)]
        positivity) (right_mem_Icc.mpr hT)
    refine h1.trans (by
      gcongr
      rw [div_mul_eq_mul_div, div_le_iff₀ (by positivity)]
      nlinarith)

/-- What is continuous and converges is bounded. -/
theorem bounded_of_tendsto {f : ℝ → ℝ} {a : ℝ} (cf : ContinuousOn f (Ici 0)) (h : Tendsto f atTop (𝓝 a)) :
    ∃ R : ℝ, ∀ t, 0 ≤ t → |f t| ≤ R := by
  have h1 : ∀ᶠ t in atTop, |f t| < |a| + 1 := h.abs.eventually (gt_mem_nhds (by linarith))
  obtain ⟨T, hT⟩ := eventually_atTop.mp h1
  obtain ⟨R, hR⟩ := isCompact_Icc.exists_bound_of_continuousOn (cf.mono fun t (h : t ∈ Icc 0 T) => h.1)
  refine ⟨max R (|a| + 1), fun t ht => ?_⟩
  rcases le_total t T with h | h
  · exact (hR t ⟨ht, h⟩).trans (le_max_left _ _)
  · exact (hT t h).le.trans (le_max_right _ _)

namespace Sub

/-- Systems in `d` dimensions whose motions from the initial state tend to `a`: the kinds of systems that the constructor
of a Dmp makes. -/
def Tends (d : Nat) (a : Nat → ℝ) : Sub → Prop
  | .time _ => False
  | .exponential s => 0 < s.tau ∧ ∀ i, i < d → 0 < s.alpha.at' i ∧ s.xAttr.getD i 0 = a i
  | .sigmoid s => ∀ i, i < d → 0 < s.xInit.getD i 0 ∧ s.maxRate.at' i < 0 ∧ a i = 0
  | .richards s => s.leftAsymp = none ∧ 0 < s.tau ∧ ∀ i, i < d →
      0 ≤ s.tInflRatio.at' i ∧ 0 < s.alpha.at' i ∧ s.xInit.getD i 0 ≠ s.rightAsymp.at' i ∧
      s.rightAsymp.at' i = a i ∧ ∃ n : ℕ, s.clipped.v.at' i = n

theorem limit {s : Sub} (w : s.Wf) {d : Nat} (hd : s.base.dimX = d) {a : Nat → ℝ} (h : s.Tends d a)
    {f : ℝ → List ℝ} (hf : Motion d (fun x xd => xd = s.rate x) f) (h0 : f 0 = s.base.xInit)
    {i : Nat} (hi : i < d) : Tendsto (fun t => (f t).getD i 0) atTop (𝓝 (a i)) := by
  -- equality with the analytical solution, where the rate of entry `i` is a smooth function of it
  have key : ∀ {F : ℝ → ℝ} (_ : ContDiff ℝ 1 F) (x xd : ℝ → List ℝ) (G : List ℝ → List ℝ),
      (∀ y, s.rate y = G y) →
      Solves G s.base.xInit x xd → (∀ t, (x t).length = d) →
      (∀ y, y.length = d → (G y).length = d ∧ (G y).getD i 0 = F (y.getD i 0)) →
      ∀ t, 0 ≤ t → (f t).getD i 0 = (x t).getD i 0 := by
    intro F hF x xd G hG hs hl hi'
    have hder2 : ∀ t : ℝ, HasDerivAt (fun u => (x u).getD i 0) (F ((x t).getD i 0)) t := by
      intro t
      have h1 := hs.deriv t (mem_univ t)
      have h2 := hs.ode t (mem_univ t)
      rw [h2] at h1
      have h3 := h1.2 i (by rw [(hi' _ (hl t)).1]; exact hi)
      exact h3.congr_deriv (hi' _ (hl t)).2
    refine motion_unique hF (hf.cont i hi) ?_ (fun t _ => (hder2 t).continuousAt.continuousWithinAt)
      (fun t _ => (hder2 t).hasDerivWithinAt) ?_
    · intro t ht
      obtain ⟨r, hr, hder⟩ := hf.ode t ht
      refine (hder i hi).congr_deriv ?_
      rw [hr, hG]
      exact (hi' _ (hf.len t ht)).2
    · rw [h0, hs.start]
  cases s with
  | time s => exact h.elim
  | exponential s =>
    have w : s.Wf := w
    have hd : s.dimX = d := hd
    have hy : s.dimY = d := w.dim ▸ hd
    obtain ⟨hτ, h1⟩ := h
    rw [← (h1 i hi).2]
    refine linear_limit (h1 i hi).1 hτ (hf.cont i hi) fun t ht => ?_
    obtain ⟨r, hr, hder⟩ := hf.ode t ht
    refine (hder i hi).congr_deriv ?_
    rw [hr]
    exact Exponential.diffEq_getD w ((hf.len t ht).trans hy.symm) (hy ▸ hi)
  | sigmoid s =>
    obtain ⟨w, hc⟩ := w
    have hd : s.dimX = d := hd
    obtain ⟨p1, p2, p3⟩ := h i hi
    have hsol := Sigmoid.solves w (fun j hj => (h j (hd ▸ hj)).1)
    have e := key (F := fun x => s.maxRate.at' i * x * (1 - x / s.kComp i)) (by fun_prop) s.xAt s.xdAt _
      (fun y => rfl) hsol (fun t => by simp [Sigmoid.xAt, hd])
      (fun y hy => ⟨(Sigmoid.rate_length w (hy.trans hd.symm)).trans hd,
        Sigmoid.rate_getD w (hy.trans hd.symm) (hd ▸ hi)⟩)
    rw [p3]
    have h2 : Tendsto (fun t : ℝ => s.kComp i /
        (1 + Real.exp (s.maxRate.at' i * (s.tau * s.inflRatio.at' i - t)))) atTop (𝓝 0) := by
      refine Tendsto.div_atTop tendsto_const_nhds (tendsto_atTop_add_const_left _ _ ?_)
      apply Real.tendsto_exp_atTop.comp
      have h3 : Tendsto (fun t : ℝ => (-s.maxRate.at' i) * t + s.maxRate.at' i * (s.tau * s.inflRatio.at' i))
          atTop atTop :=
        tendsto_atTop_add_const_right _ _ (tendsto_id.const_mul_atTop (by linarith))
      exact h3.congr fun t => by ring
    refine h2.congr' ?_
    filter_upwards [eventually_ge_atTop (0 : ℝ)] with t ht
    rw [e t ht, Sigmoid.xAt_getD w (hd ▸ hi) p1]
  | richards s =>
    have w : s.Wf := w
    have hd : s.dimX = d := hd
    obtain ⟨h1, h2, h3⟩ := h
    obtain ⟨p1, p2, p3, p4, n, hn⟩ := h3 i hi
    have hreg : Richards.Regular s := ⟨w, h1, h2, fun j hj => (h3 j (hd ▸ hj)).2.1,
      fun j hj => (h3 j (hd ▸ hj)).1, fun j hj => (h3 j (hd ▸ hj)).2.2.1⟩
    have hsol : Solves s.rhs s.xInit s.xAt s.xdAt :=
      Richards.solvesOn w (fun j hj => hreg.vpos hj) (fun j hj => (hreg.key hj).2.1)
        (fun j hj t _ => hreg.den_pos hj t)
    have e := key (F := fun x => s.alpha.at' i * (1 - ((x - s.left.at' i) /
        (s.rightAsymp.at' i - s.left.at' i)) ^ n) * (x - s.left.at' i) / s.tau) (by fun_prop) s.xAt s.xdAt _
      (fun y => rfl) hsol (fun t => by simp [Richards.xAt, hd])
      (fun y hy => by
        refine ⟨(length_rate (s := .richards s) w (hy.trans hd.symm)).trans hd, ?_⟩
        change (s.rhs y).getD i 0 = _
        rw [Richards.rhs_getD s (by omega), hn, Real.rpow_natCast])
    have h5 := Richards.pos1_tendsto (a := s.left.at' i) (k := s.rightAsymp.at' i)
      (q := s.clipped.qComp s.left i) (hreg.vpos (hd ▸ hi)) p2 h2
    rw [p4] at h5
    refine h5.congr' ?_
    filter_upwards [eventually_ge_atTop (0 : ℝ)] with t ht
    rw [e t ht, Richards.xAt_getD s (by omega), p4]

/-- One-dimensional systems whose motions from the initial state stay bounded. -/
def Stays : Sub → Prop
  | .time s => 0 < s.tau
  | s => ∃ a, s.Tends 1 a

theorem bounded {s : Sub} (w : s.Wf) (hd : s.base.dimX = 1) (h : s.Stays)
    {f : ℝ → List ℝ} (hf : Motion 1 (fun x xd => xd = s.rate x) f) (h0 : f 0 = s.base.xInit) :
    ∃ R : ℝ, ∀ t, 0 ≤ t → ∀ p ∈ f t, |p| ≤ R := by
  have fin : (∃ R : ℝ, ∀ t, 0 ≤ t → |(f t).getD 0 0| ≤ R) → ∃ R : ℝ, ∀ t, 0 ≤ t → ∀ p ∈ f t, |p| ≤ R := by
    rintro ⟨R, hR⟩
    refine ⟨R, fun t ht p hp => ?_⟩
    have hl := hf.len t ht
    have hR := hR t ht
    match e : f t, hl with
    | [x], _ =>
      rw [e] at hp hR
      simp only [List.mem_singleton] at hp
      rw [hp]
      exact hR
  have conv : (∃ a, s.Tends 1 a) → ∃ R : ℝ, ∀ t, 0 ≤ t → ∀ p ∈ f t, |p| ≤ R := by
    rintro ⟨a, h⟩
    exact fin (bounded_of_tendsto (hf.cont 0 one_pos) (limit w hd h hf h0 one_pos))
  cases s with
  | exponential s => exact conv h
  | sigmoid s => exact conv h
  | richards s => exact conv h
  | time s =>
    have h : 0 < s.tau := h
    refine fin ?_
    have one : ∀ t, 0 ≤ t → ∃ x, f t = [x] := fun t ht => List.length_eq_one_iff.mp (hf.len t ht)
    by_cases hcd : s.countDown = true
    · have key := clock_bounded (f := fun t => 1 - (f t).getD 0 0) (c := 1 / s.tau) (by positivity)
        (continuousOn_const.sub (hf.cont 0 one_pos)) (fun t ht => by
          obtain ⟨xd, hr, hder⟩ := hf.ode t ht
          refine ((hder 0 one_pos).const_sub 1).congr_deriv ?_
          obtain ⟨x, e⟩ := one t ht
          rw [hr, e]
          unfold rate
          simp only [TimeSystem.diffEq, hcd, if_true, List.getD_cons_zero]
          by_cases hx : x > 0
          · rw [if_pos hx, if_pos (by linarith)]
            change -(-1 / s.tau) = _
            ring
          · rw [if_neg hx, if_neg (by linarith)]
            exact neg_zero)
      refine ⟨|(f 0).getD 0 0| + 1, fun t ht => ?_⟩
      obtain ⟨k1, k2⟩ := key t ht
      have a1 := le_abs_self ((f 0).getD 0 0)
      have a2 := neg_abs_le ((f 0).getD 0 0)
      rw [abs_le]
      rcases le_total (1 - (f 0).getD 0 0) 1 with hm | hm
      · rw [max_eq_right hm] at k2
        constructor <;> linarith
      · rw [max_eq_left hm] at k2
        constructor <;> linarith
    · have key := clock_bounded (f := fun t => (f t).getD 0 0) (c := 1 / s.tau) (by positivity)
        (hf.cont 0 one_pos) (fun t ht => by
          obtain ⟨xd, hr, hder⟩ := hf.ode t ht
          refine (hder 0 one_pos).congr_deriv ?_
          obtain ⟨x, e⟩ := one t ht
          rw [hr, e]
          unfold rate
          simp only [TimeSystem.diffEq, if_neg hcd, List.getD_cons_zero]
          by_cases hx : x < 1
          · rw [if_pos hx, if_pos hx]
            rfl
          · rw [if_neg hx, if_neg hx]
            rfl)
      refine ⟨|(f 0).getD 0 0| + 1, fun t ht => ?_⟩
      obtain ⟨k1, k2⟩ := key t ht
      have a1 := le_abs_self ((f 0).getD 0 0)
      have a2 := neg_abs_le ((f 0).getD 0 0)
      rw [abs_le]
      rcases le_total ((f 0).getD 0 0) 1 with hm | hm
      · rw [max_eq_right hm] at k2
        constructor <;> linarith
      · rw [max_eq_left hm] at k2
        constructor <;> linarith

variable {d : Nat} {a : Nat → ℝ}

theorem tends_touch {s : Sub} : s.touch.Tends d a ↔ s.Tends d a := by
  cases s with
  | time _ => exact Iff.rfl
  | exponential _ => exact Iff.rfl
  | sigmoid _ => exact Iff.rfl
  | richards s =>
    simp only [touch, Tends, Richards.clipped_clipped]
    exact Iff.rfl

theorem tends_withTau {s : Sub} {t : ℝ} (h : s.Tends d a) (ht : 0 < s.base.tau → 0 < t) :
    (s.withTau t).Tends d a := by
  cases s with
  | time _ => exact h
  | exponential s => exact ⟨ht h.1, h.2⟩
  | sigmoid _ => exact h
  | richards s => exact ⟨h.1, ht h.2.1, h.2.2⟩

theorem stays_touch {s : Sub} : s.touch.Stays ↔ s.Stays := by
  cases s with
  | time _ => exact Iff.rfl
  | exponential s => exact exists_congr fun _ => tends_touch (s := .exponential s)
  | sigmoid s => exact exists_congr fun _ => tends_touch (s := .sigmoid s)
  | richards s => exact exists_congr fun _ => tends_touch (s := .richards s)

theorem stays_withTau {s : Sub} {t : ℝ} (h : s.Stays) (ht : 0 < s.base.tau → 0 < t) :
    (s.withTau t).Stays := by
  cases s with
  | time _ => exact ht h
  | exponential s =>
    obtain ⟨a, h⟩ := h
    exact ⟨a, tends_withTau h ht⟩
  | sigmoid _ =>
    obtain ⟨a, h⟩ := h
    exact ⟨a, tends_withTau h ht⟩
  | richards s =>
    obtain ⟨a, h⟩ := h
    exact ⟨a, tends_withTau h ht⟩

theorem tends_decoupled {s : Sub} (hd : s.base.dimX = d) (w : s.Wf) (h : s.Tends d a) :
    s.decoupled.Tends d a := by
  cases s with
  | time _ => exact h
  | exponential s =>
    have hd : s.dimX = d := hd
    refine ⟨h.1, fun i hi => ?_⟩
    have := h.2 i hi
    rw [← Par.at'_decouple s.alpha (n := s.dimX) (by omega)] at this
    exact this
  | sigmoid s =>
    have hd : s.dimX = d := hd
    intro i hi
    have := h i hi
    rw [← Par.at'_decouple s.maxRate (n := s.dimX) (by omega)] at this
    exact this
  | richards s =>
    have hd : s.dimX = d := hd
    have w : s.Wf := w
    refine ⟨h.1, h.2.1, fun i hi => ?_⟩
    have h1 := h.2.2 i hi
    have hv : s.clipped.v.at' i = max (s.v.at' i) 0.5 := by
      rw [show s.clipped.v = Richards.clipMin 0.5 s.v by simp [Richards.clipped, h.1]]
      exact Richards.at'_clipMin _ _ w.v (by omega)
    have w2 : s.decouple.v.Fits s.decouple.dimX := Par.fits_decouple w.v
    have hv2 : s.decouple.clipped.v.at' i = max (s.v.at' i) 0.5 := by
      rw [show s.decouple.clipped.v = Richards.clipMin 0.5 s.decouple.v by
          simp [Richards.clipped, Richards.decouple, h.1],
        Richards.at'_clipMin _ _ w2 (by change i < s.dimX; omega)]
      exact congrArg (max · _) (Par.at'_decouple _ (by omega))
    rw [← Par.at'_decouple s.alpha (n := s.dimX) (by omega),
      ← Par.at'_decouple s.tInflRatio (n := s.dimX) (by omega), hv, ← hv2] at h1
    exact h1

end Sub

end Verif
