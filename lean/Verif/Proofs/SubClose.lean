import Mathlib.Analysis.Calculus.ContDiff.RCLike
import Verif.Proofs.StepsConverge
import Verif.Proofs.SubSteps

/- Numerical integration of the subsystems of a Dmp with small steps stays close to the exact motion. -/

set_option autoImplicit false

namespace Verif

open Filter Topology Set Spec
open DynSys (Method)

/-- Steps on `x' = F(x)`. -/
theorem scalar_close {F : ℝ → ℝ} (hF : ContDiff ℝ 1 F) {f : ℝ → ℝ} (cf : ContinuousOn f (Ici 0))
    (hf : ∀ t, 0 ≤ t → HasDerivWithinAt f (F (f t)) (Ici t) t) {T : ℝ} (hT : 0 ≤ T) (m : Method) {ε : ℝ}
    (hε : 0 < ε) : ∃ δ : ℝ, 0 < δ ∧ ∀ (N : Nat) (t X : Nat → ℝ) (u k : Nat → Fin 4 → ℝ), Grid T δ N t →
      (∀ n, n < N → MethodStep m (t (n + 1) - t n) (X n) (X (n + 1)) (u n) (k n)) →
      (∀ n, n < N → ∀ j, k n j = F (u n j)) → X 0 = f 0 →
      (∀ n, n ≤ N → |X n - f (t n)| ≤ ε) ∧ ∀ n, n < N → ∀ j, |u n j - f (t n)| ≤ ε := by
  obtain ⟨δ, δ0, hδ⟩ := steps_converge (F := fun a : ℝ × ℝ => F a.1) (p := fun _ => 0)
    (hF.comp contDiff_fst).locallyLipschitz hT (cf.mono fun t h => h.1) continuousOn_const
    (fun t ht => hf t ht.1) m hε
  exact ⟨δ, δ0, fun N t X u k grid hs hk h0 => hδ N t X u k (fun _ _ => 0) grid h0
    (fun _ _ _ => by simp [δ0.le]) hk hs⟩

/-- A clock that stops at 1: before, it has run with constant speed. -/
theorem clock_motion {f : ℝ → ℝ} {c : ℝ} (hc : 0 < c) (cf : ContinuousOn f (Ici 0))
    (hf : ∀ t, 0 ≤ t → HasDerivWithinAt f (if f t < 1 then c else 0) (Ici t) t) {T : ℝ} (hT : 0 ≤ T) :
    f T ≤ f 0 + c * T ∧ (1 ≤ f T ∨ f T = f 0 + c * T) := by
  have cf' : ContinuousOn f (Icc 0 T) := cf.mono fun _ h => h.1
  have line : ∀ t, HasDerivAt (fun t => f 0 + c * t) c t := fun t => by
    simpa using ((hasDerivAt_id t).const_mul c).const_add (f 0)
  have up : f T ≤ f 0 + c * T := by
    refine image_le_of_deriv_right_le_deriv_boundary (f := f) (B := fun t => f 0 + c * t) (B' := fun _ => c) cf'
      (fun t ht => hf t ht.1) (by simp) (by fun_prop) (fun t _ => (line t).hasDerivWithinAt) (fun t _ => ?_)
      (right_mem_Icc.mpr hT)
    split
    · exact le_rfl
    · exact hc.le
  refine ⟨up, ?_⟩
  rcases le_or_gt 1 (f T) with h | h
  · exact .inl h
  · refine .inr (le_antisymm up ?_)
    -- the clock has not stopped before `T`
    have below : ∀ t ∈ Icc 0 T, f t ≤ f T := fun t ht => by
      refine image_le_of_deriv_right_le_deriv_boundary (f := fun _ => f t) (f' := fun _ => 0) (a := t) (b := T)
        continuousOn_const (fun t _ => hasDerivWithinAt_const _ _ _) le_rfl
        (cf.mono fun u hu => ht.1.trans hu.1) (fun u hu => hf u (ht.1.trans hu.1)) (fun u _ => ?_)
        (right_mem_Icc.mpr ht.2)
      split
      · exact hc.le
      · exact le_rfl
    refine image_le_of_deriv_right_le_deriv_boundary (f := fun t => f 0 + c * t) (f' := fun _ => c)
      (B := f) (by fun_prop) (fun t _ => (line t).hasDerivWithinAt) (by simp) cf' (fun t ht => hf t ht.1)
      (fun t ht => ?_) (right_mem_Icc.mpr hT)
    rw [if_pos ((below t ⟨ht.1, ht.2.le⟩).trans_lt h)]

/-- Steps of a clock that stops at 1. -/
theorem clock_close {f : ℝ → ℝ} {c : ℝ} (hc : 0 < c) (cf : ContinuousOn f (Ici 0))
    (hf : ∀ t, 0 ≤ t → HasDerivWithinAt f (if f t < 1 then c else 0) (Ici t) t) {m : Method} {T δ : ℝ} (hδ : 0 ≤ δ)
    {N : Nat} {t X : Nat → ℝ} (grid : Grid T δ N t) {u k : Nat → Fin 4 → ℝ}
    (hs : ∀ n, n < N → MethodStep m (t (n + 1) - t n) (X n) (X (n + 1)) (u n) (k n))
    (hk : ∀ n, n < N → ∀ j, k n j = if u n j < 1 then c else 0) (h0 : X 0 = f 0) :
    (∀ n, n ≤ N → |X n - f (t n)| ≤ δ * c) ∧ ∀ n, n < N → ∀ j, |u n j - f (t n)| ≤ 2 * (δ * c) := by
  have dc : 0 ≤ δ * c := mul_nonneg hδ hc.le
  -- stages and states move by at most `h c` in a step of length `h`
  have one : ∀ n, n < N → (∀ j, X n ≤ u n j ∧ u n j ≤ X n + (t (n + 1) - t n) * c) ∧
      X n ≤ X (n + 1) ∧ X (n + 1) ≤ X n + (t (n + 1) - t n) * c ∧
      (X n + (t (n + 1) - t n) * c < 1 → X (n + 1) = X n + (t (n + 1) - t n) * c) ∧
      (1 ≤ X n → X (n + 1) = X n) := by
    intro n hn
    have s := hs n hn
    have kk := hk n hn
    have hdt : 0 ≤ t (n + 1) - t n := by linarith [grid.forward n hn]
    generalize t (n + 1) - t n = h at s hdt ⊢
    have kb : ∀ j, 0 ≤ k n j ∧ k n j ≤ c := fun j => by
      rw [kk]; split
      · exact ⟨hc.le, le_rfl⟩
      · exact ⟨le_rfl, hc.le⟩
    have kd : ∀ j, 0 ≤ h * k n j ∧ h * k n j ≤ h * c := fun j =>
      ⟨mul_nonneg hdt (kb j).1, mul_le_mul_of_nonneg_left (kb j).2 hdt⟩
    have hc0 : 0 ≤ h * c := mul_nonneg hdt hc.le
    have stage : ∀ j, X n ≤ u n j ∧ u n j ≤ X n + h * c := by
      cases m with
      | euler =>
        obtain ⟨e0, e1, e2, e3, e4⟩ := s
        refine Fin.four ?_ ?_ ?_ ?_
        all_goals
          first
            | rw [e0]
            | rw [e1]
            | rw [e2]
            | rw [e3]
          constructor <;> linarith
      | rungeKutta =>
        obtain ⟨e0, e1, e2, e3, e4⟩ := s
        simp only [smul_eq_mul] at e1 e2 e3
        refine Fin.four ?_ ?_ ?_ ?_
        · rw [e0]; constructor <;> linarith
        · rw [e1]; constructor <;> linarith [kd 0]
        · rw [e2]; constructor <;> linarith [kd 1]
        · rw [e3]; constructor <;> linarith [kd 2]
    have run : X n + h * c < 1 → ∀ j, k n j = c := fun h j => by
      rw [kk, if_pos (lt_of_le_of_lt (stage j).2 h)]
    have stop : 1 ≤ X n → ∀ j, k n j = 0 := fun h j => by
      rw [kk, if_neg (not_lt.mpr (h.trans (stage j).1))]
    refine ⟨stage, ?_⟩
    cases m with
    | euler =>
      obtain ⟨e0, e1, e2, e3, e4⟩ := s
      simp only [smul_eq_mul] at e4
      rw [e4]
      exact ⟨by linarith [kd 0], by linarith [kd 0], fun h => by rw [run h],
        fun h => by rw [stop h, mul_zero, add_zero]⟩
    | rungeKutta =>
      obtain ⟨e0, e1, e2, e3, e4⟩ := s
      simp only [smul_eq_mul] at e4
      have e5 : X (n + 1) = X n + (h * k n 0 + 2 * (h * k n 1) + 2 * (h * k n 2) + h * k n 3) / 6 := by
        rw [e4]; ring
      refine ⟨by linarith [kd 0, kd 1, kd 2, kd 3], by linarith [kd 0, kd 1, kd 2, kd 3],
        fun h => ?_, fun h => ?_⟩
      · rw [e5, run h, run h, run h, run h]
        ring
      · rw [e5, stop h, stop h, stop h, stop h]
        ring
  have short : ∀ n, n < N → (t (n + 1) - t n) * c ≤ δ * c := fun n hn =>
    mul_le_mul_of_nonneg_right (grid.fine n hn) hc.le
  have inv : ∀ n, n ≤ N → f 0 ≤ X n ∧ X n ≤ max (f 0) (1 + δ * c) ∧ (1 ≤ f 0 → X n = f 0) ∧
      X n ≤ f 0 + c * t n ∧ (X n = f 0 + c * t n ∨ 1 - δ * c ≤ X n) := by
    intro n
    induction n with
    | zero => intro _; rw [h0, grid.start]; simp
    | succ n ih =>
      intro hn
      obtain ⟨m0, m1, m2, m3, m4⟩ := one n hn
      obtain ⟨i1, i2, i3, i4, i5⟩ := ih (by omega)
      have sh := short n hn
      have e : f 0 + c * t (n + 1) = f 0 + c * t n + (t (n + 1) - t n) * c := by ring
      rw [e]
      refine ⟨i1.trans m1, ?_, fun h => ?_, by linarith, ?_⟩
      · rcases le_total 1 (X n) with h | h
        · rw [m4 h]; exact i2
        · exact le_max_of_le_right (by linarith)
      · rw [m4 (by rw [i3 h]; exact h), i3 h]
      · rcases lt_or_ge (X n + (t (n + 1) - t n) * c) 1 with h | h
        · rcases i5 with h1 | h1
          · left; rw [m3 h, h1]
          · right; linarith
        · right; linarith
  have key : ∀ n, n ≤ N → |X n - f (t n)| ≤ δ * c := by
    intro n hn
    have tn := grid.nonneg hn
    obtain ⟨b1, b2⟩ := clock_bounded hc cf hf _ tn
    obtain ⟨d1, d2⟩ := clock_motion hc cf hf tn
    obtain ⟨i1, i2, i3, i4, i5⟩ := inv n hn
    rw [abs_le]
    rcases le_total 1 (f 0) with h1 | h1
    · rw [max_eq_left h1] at b2
      have := i3 h1
      constructor <;> linarith
    · rw [max_eq_right h1] at b2
      rw [max_eq_right (by linarith)] at i2
      rcases d2 with d2 | d2
      · rcases i5 with i5 | i5
        · constructor <;> linarith
        · constructor <;> linarith
      · rcases i5 with i5 | i5
        · constructor <;> linarith
        · constructor <;> linarith
  refine ⟨key, fun n hn j => ?_⟩
  have k1 := key n hn.le
  obtain ⟨m0, -⟩ := one n hn
  have sh := short n hn
  rw [abs_le] at k1 ⊢
  constructor <;> linarith [(m0 j).1, (m0 j).2, k1.1, k1.2]

namespace Sub

/-- Systems in `d` dimensions whose rate of change is a smooth function of the state, and clocks that run forward. (Of
the Richards systems those whose exponent is a natural number.) -/
def Smooth (d : Nat) : Sub → Prop
  | .time s => 0 < s.tau
  | .exponential _ => True
  | .sigmoid _ => True
  | .richards s => ∀ i, i < d → ∃ n : ℕ, s.clipped.v.at' i = n

theorem tends_smooth {s : Sub} {d : Nat} {a : Nat → ℝ} (h : s.Tends d a) : s.Smooth d := by
  cases s with
  | time s => exact h.elim
  | exponential s => trivial
  | sigmoid s => trivial
  | richards s => exact fun i hi => (h.2.2 i hi).2.2.2.2

theorem stays_smooth {s : Sub} (h : s.Stays) : s.Smooth 1 := by
  cases s with
  | time s => exact h
  | exponential s => trivial
  | sigmoid s => trivial
  | richards s =>
    obtain ⟨a, h⟩ := h
    exact tends_smooth h

/-- Each entry of the rate of change is a smooth function of that entry of the state, except for clocks. -/
theorem rate_smooth {s : Sub} (w : s.Wf) {d : Nat} (hd : s.base.dimX = d) (h : s.Smooth d)
    (ht : ∀ c, s ≠ .time c) {i : Nat} (hi : i < d) :
    ∃ F : ℝ → ℝ, ContDiff ℝ 1 F ∧ ∀ x : List ℝ, x.length = d → (s.rate x).getD i 0 = F (x.getD i 0) := by
  cases s with
  | time s => exact absurd rfl (ht s)
  | exponential s =>
    have w : s.Wf := w
    have hd : s.dimX = d := hd
    have hy : s.dimY = d := w.dim ▸ hd
    exact ⟨fun x => s.alpha.at' i * (s.xAttr.getD i 0 - x) / s.tau, by fun_prop, fun x hx =>
      Exponential.diffEq_getD w (hx.trans hy.symm) (hy ▸ hi)⟩
  | sigmoid s =>
    obtain ⟨w, hc⟩ := w
    have hd : s.dimX = d := hd
    exact ⟨fun x => s.maxRate.at' i * x * (1 - x / s.kComp i), by fun_prop, fun x hx =>
      Sigmoid.rate_getD w (hx.trans hd.symm) (hd ▸ hi)⟩
  | richards s =>
    have w : s.Wf := w
    have hd : s.dimX = d := hd
    obtain ⟨n, hn⟩ := h i hi
    refine ⟨fun x => s.alpha.at' i * (1 - ((x - s.left.at' i) / (s.rightAsymp.at' i - s.left.at' i)) ^ n) *
      (x - s.left.at' i) / s.tau, by fun_prop, fun x hx => ?_⟩
    change (s.rhs x).getD i 0 = _
    rw [Richards.rhs_getD s (by omega), hn, Real.rpow_natCast]

theorem entry_close {s : Sub} (w : s.Wf) {d : Nat} (hd : s.base.dimX = d) (h : s.Smooth d) {f : ℝ → List ℝ}
    (hf : Motion d (fun x xd => xd = s.rate x) f) {T : ℝ} (hT : 0 ≤ T) (m : Method) {ε : ℝ} (hε : 0 < ε)
    {i : Nat} (hi : i < d) : ∃ δ : ℝ, 0 < δ ∧ ∀ (N : Nat) (t : Nat → ℝ) (X : Nat → List ℝ)
      (u : Nat → Fin 4 → List ℝ), Grid T δ N t → RunOn d (fun x xd => xd = s.rate x) m N t X u → X 0 = f 0 →
        Near ε N t X u f i := by
  by_cases ht : ∀ c, s ≠ .time c
  · obtain ⟨F, hF, hF2⟩ := rate_smooth w hd h ht hi
    obtain ⟨δ, δ0, hδ⟩ := scalar_close hF (hf.cont i hi) (fun t ht => by
      obtain ⟨r, hr, hder⟩ := hf.ode t ht
      refine (hder i hi).congr_deriv ?_
      rw [hr, hF2 _ (hf.len t ht)]) hT m hε
    refine ⟨δ, δ0, fun N t X u grid hX h0 => ?_⟩
    choose! K hK hS using hX.step
    exact hδ N t (fun n => (X n).getD i 0) (fun n j => (u n j).getD i 0) (fun n j => (K n j).getD i 0) grid
      (fun n hn => hS n hn i hi) (fun n hn j => by rw [hK n hn j, hF2 _ (hX.lenStage n hn j)]) (by rw [h0])
  · push Not at ht
    obtain ⟨c, rfl⟩ := ht
    have hd1 : d = 1 := by rw [← hd]; exact w.1
    subst hd1
    obtain rfl : i = 0 := by omega
    have h : 0 < c.tau := h
    have c0 : 0 < 1 / c.tau := by positivity
    have one : ∀ t, 0 ≤ t → ∃ x, f t = [x] := fun t ht => List.length_eq_one_iff.mp (hf.len t ht)
    have δ0 : 0 < ε / (2 * (1 / c.tau)) := by positivity
    refine ⟨ε / (2 * (1 / c.tau)), δ0, fun N t X u grid hX h0 => ?_⟩
    have dc : 2 * (ε / (2 * (1 / c.tau)) * (1 / c.tau)) = ε := by field_simp
    generalize ε / (2 * (1 / c.tau)) = δ at grid δ0 dc
    choose! K hK hS using hX.step
    have one' : ∀ n, n < N → ∀ j, ∃ x, u n j = [x] := fun n hn j => List.length_eq_one_iff.mp (hX.lenStage n hn j)
    by_cases hcd : c.countDown = true
    · obtain ⟨r1, r2⟩ := clock_close (f := fun t => -1 * (f t).getD 0 0 + 1) (c := 1 / c.tau) c0
        ((continuousOn_const.mul (hf.cont 0 one_pos)).add continuousOn_const) (fun t ht => by
          obtain ⟨xd, hr, hder⟩ := hf.ode t ht
          refine (((hder 0 one_pos).const_mul (-1)).add_const 1).congr_deriv ?_
          obtain ⟨x, e⟩ := one t ht
          rw [hr, e]
          unfold rate
          simp only [TimeSystem.diffEq, hcd, if_true, List.getD_cons_zero]
          by_cases hx : x > 0
          · rw [if_pos hx, if_pos (by linarith)]
            change -1 * (-1 / c.tau) = _
            ring
          · rw [if_neg hx, if_neg (by linarith)]
            exact mul_zero _) δ0.le grid (fun n hn => (hS n hn 0 one_pos).affine (-1) 1) (fun n hn j => by
          rw [hK n hn j]
          obtain ⟨x, e⟩ := one' n hn j
          rw [e]
          unfold rate
          simp only [TimeSystem.diffEq, hcd, if_true, List.getD_cons_zero]
          by_cases hx : x > 0
          · rw [if_pos hx, if_pos (by linarith)]
            change -1 * (-1 / c.tau) = _
            ring
          · rw [if_neg hx, if_neg (by linarith)]
            exact mul_zero _) (by rw [h0])
      have flip : ∀ a b : ℝ, |-1 * a + 1 - (-1 * b + 1)| = |a - b| := fun a b => by
        rw [← abs_neg]; congr 1; ring
      simp only [flip] at r1 r2
      exact ⟨fun n hn => by linarith [r1 n hn], fun n hn j => by linarith [r2 n hn j]⟩
    · obtain ⟨r1, r2⟩ := clock_close (f := fun t => (f t).getD 0 0) (c := 1 / c.tau) c0
        (hf.cont 0 one_pos) (fun t ht => by
          obtain ⟨xd, hr, hder⟩ := hf.ode t ht
          refine (hder 0 one_pos).congr_deriv ?_
          obtain ⟨x, e⟩ := one t ht
          rw [hr, e]
          unfold rate
          simp only [TimeSystem.diffEq, if_neg hcd, List.getD_cons_zero]
          by_cases hx : x < 1
          · rw [if_pos hx, if_pos hx]
            rfl
          · rw [if_neg hx, if_neg hx]
            rfl) δ0.le grid (fun n hn => hS n hn 0 one_pos) (fun n hn j => by
          rw [hK n hn j]
          obtain ⟨x, e⟩ := one' n hn j
          rw [e]
          unfold rate
          simp only [TimeSystem.diffEq, if_neg hcd, List.getD_cons_zero]
          by_cases hx : x < 1
          · rw [if_pos hx, if_pos hx]
            rfl
          · rw [if_neg hx, if_neg hx]
            rfl) (by rw [h0])
      exact ⟨fun n hn => by linarith [r1 n hn], fun n hn j => by linarith [r2 n hn j]⟩

/-- A distance of times that is small enough for all of finitely many entries. -/
theorem exists_fine {d : Nat} {P : Nat → ℝ → Prop} (h : ∀ i, i < d → ∃ δ : ℝ, 0 < δ ∧ P i δ)
    (mono : ∀ i δ δ', δ' ≤ δ → P i δ → P i δ') : ∃ δ : ℝ, 0 < δ ∧ ∀ i, i < d → P i δ := by
  obtain ⟨δ, δ0, hδ⟩ := exists_min (d := d) (P := P) fun i hi => by
    obtain ⟨δ, δ0, hδ⟩ := h i hi
    exact ⟨δ, δ0, fun δ' _ h1 => mono i δ δ' h1 hδ⟩
  exact ⟨δ, δ0, fun i hi => hδ δ δ0 le_rfl i hi⟩

/-- Numerical integration of a subsystem with small steps stays close to its motion. -/
theorem close {s : Sub} (w : s.Wf) {d : Nat} (hd : s.base.dimX = d) (h : s.Smooth d) {f : ℝ → List ℝ}
    (hf : Motion d (fun x xd => xd = s.rate x) f) {T : ℝ} (hT : 0 ≤ T) (m : Method) {ε : ℝ} (hε : 0 < ε) :
    ∃ δ : ℝ, 0 < δ ∧ ∀ i, i < d → ∀ (N : Nat) (t : Nat → ℝ) (X : Nat → List ℝ)
      (u : Nat → Fin 4 → List ℝ), Grid T δ N t → RunOn d (fun x xd => xd = s.rate x) m N t X u → X 0 = f 0 →
        Near ε N t X u f i :=
  exists_fine (fun i hi => entry_close w hd h hf hT m hε hi) fun i δ δ' h1 h2 N t X u grid =>
    h2 N t X u (grid.finer h1)

end Sub

end Verif
