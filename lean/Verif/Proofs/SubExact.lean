import Verif.Proofs.SubClose

/- Systems whose analytical solution is a motion. -/

set_option autoImplicit false

namespace Verif

open Filter Topology Set Spec

namespace Sub

/-- A system with a solution is in motion. -/
theorem solves_motion {d : Nat} {G : List ℝ → List ℝ} {x0 : List ℝ} {x xd : ℝ → List ℝ} (h : Solves G x0 x xd)
    (hl : ∀ t, (x t).length = d) (hG : ∀ y, y.length = d → (G y).length = d) :
    Motion d (fun y yd => yd = G y) x := by
  have der : ∀ t i, i < d → HasDerivAt (fun u => (x u).getD i 0) ((G (x t)).getD i 0) t := fun t i hi => by
    have h1 := h.deriv t (mem_univ t)
    rw [h.ode t (mem_univ t)] at h1
    exact h1.2 i (by rw [hG _ (hl t)]; exact hi)
  exact ⟨fun t _ => hl t, fun i hi t _ => (der t i hi).continuousAt.continuousWithinAt,
    fun t _ => ⟨_, rfl, fun i hi => (der t i hi).hasDerivWithinAt⟩⟩

theorem tends_exact {s : Sub} (w : s.Wf) {d : Nat} (hd : s.base.dimX = d) {a : Nat → ℝ} (h : s.Tends d a) :
    Motion d (fun x xd => xd = s.rate x) (fun t => s.xAt t) ∧ s.xAt 0 = s.base.xInit := by
  have hG : ∀ y, y.length = d → (s.rate y).length = d := fun y hy => (length_rate w (hy.trans hd.symm)).trans hd
  have hl : ∀ t, (s.xAt t).length = d := fun t => (length_xAt w t).trans hd
  cases s with
  | time s => exact h.elim
  | exponential s =>
    have w : s.Wf := w
    have hd : s.dimX = d := hd
    have hsol := s.solves w
    exact ⟨solves_motion hsol hl hG, hsol.start⟩
  | sigmoid s =>
    obtain ⟨w, hc⟩ := w
    have hd : s.dimX = d := hd
    have hsol := Sigmoid.solves w (fun j hj => (h j (hd ▸ hj)).1)
    exact ⟨solves_motion hsol hl hG, hsol.start⟩
  | richards s =>
    have w : s.Wf := w
    have hd : s.dimX = d := hd
    obtain ⟨h1, h2, h3⟩ := h
    have hreg : Richards.Regular s := ⟨w, h1, h2, fun j hj => (h3 j (hd ▸ hj)).2.1,
      fun j hj => (h3 j (hd ▸ hj)).1, fun j hj => (h3 j (hd ▸ hj)).2.2.1⟩
    have hsol : Solves s.rhs s.xInit s.xAt s.xdAt :=
      Richards.solvesOn w (fun j hj => hreg.vpos hj) (fun j hj => (hreg.key hj).2.1)
        (fun j hj t _ => hreg.den_pos hj t)
    exact ⟨solves_motion hsol hl hG, hsol.start⟩

/-- A clock starts where its analytical solution does. -/
def FromStart : Sub → Prop
  | .time s => s.xInit = [TimeSystem.start s.countDown]
  | _ => True

/-- Motion of a clock. -/
theorem clock_exact {c : ℝ} (hc : 0 < c) {f : ℝ → ℝ} (hf : ∀ t, f t = if t * c > 1 then 1 else t * c) :
    ContinuousOn f (Ici 0) ∧ ∀ t, 0 ≤ t → HasDerivWithinAt f (if f t < 1 then c else 0) (Ici t) t := by
  have e : f = fun t => min (t * c) 1 := by
    funext t
    rw [hf]
    by_cases h : t * c > 1
    · rw [if_pos h, min_eq_right h.le]
    · rw [if_neg h, min_eq_left (not_lt.mp h)]
  subst e
  refine ⟨by fun_prop, fun t _ => ?_⟩
  simp only
  by_cases h : t * c < 1
  · rw [if_pos (by rw [min_eq_left h.le]; exact h)]
    have h1 : HasDerivAt (fun u : ℝ => u * c) c t := by simpa using (hasDerivAt_id t).mul_const c
    refine (h1.congr_of_eventuallyEq ?_).hasDerivWithinAt
    have h2 : ∀ᶠ u in 𝓝 t, u * c < 1 := (continuous_id.mul continuous_const).continuousAt.eventually_lt
      continuousAt_const h
    filter_upwards [h2] with u hu
    exact min_eq_left hu.le
  · have h := not_lt.mp h
    rw [if_neg (by rw [min_eq_right h]; exact lt_irrefl _)]
    refine (hasDerivWithinAt_const t (Ici t) (1 : ℝ)).congr (fun u hu => ?_) (min_eq_right h)
    exact min_eq_right (h.trans (mul_le_mul_of_nonneg_right hu hc.le))

theorem stays_exact {s : Sub} (w : s.Wf) (hd : s.base.dimX = 1) (h : s.Stays) (hs : s.FromStart) :
    Motion 1 (fun x xd => xd = s.rate x) (fun t => s.xAt t) ∧ s.xAt 0 = s.base.xInit := by
  cases s with
  | exponential s =>
    obtain ⟨a, h⟩ := h
    exact tends_exact w hd h
  | sigmoid s =>
    obtain ⟨a, h⟩ := h
    exact tends_exact w hd h
  | richards s =>
    obtain ⟨a, h⟩ := h
    exact tends_exact w hd h
  | time s =>
    have h : 0 < s.tau := h
    have hs : s.xInit = [TimeSystem.start s.countDown] := hs
    have c0 : 0 < 1 / s.tau := by positivity
    obtain ⟨k1, k2⟩ := clock_exact c0 (f := fun t => if t * (1 / s.tau) > 1 then 1 else t * (1 / s.tau))
      fun _ => rfl
    have hrow : ∀ t, (Sub.time s).xAt t = s.xAt t := fun t => rfl
    by_cases hcd : s.countDown = true
    · have e : ∀ t, s.xAt t = [1 - if t * (1 / s.tau) > 1 then 1 else t * (1 / s.tau)] := fun t => by
        unfold TimeSystem.xAt
        simp only [hcd, if_true, mul_one_div]
        by_cases hx : t / s.tau > 1
        · rw [if_pos (by linarith), if_pos hx, sub_self]
        · rw [if_neg (by linarith), if_neg hx]
      refine ⟨⟨fun t _ => by rw [hrow, e]; rfl, fun i hi => ?_, fun t ht => ⟨_, rfl, fun i hi => ?_⟩⟩, ?_⟩
      · obtain rfl : i = 0 := by omega
        simp only [hrow, e, List.getD_cons_zero]
        exact continuousOn_const.sub k1
      · obtain rfl : i = 0 := by omega
        simp only [hrow, e, List.getD_cons_zero]
        refine ((k2 t ht).const_sub 1).congr_deriv ?_
        generalize (if t * (1 / s.tau) > 1 then (1 : ℝ) else t * (1 / s.tau)) = y
        unfold rate
        simp only [TimeSystem.diffEq, hcd, if_true]
        by_cases hy : y < 1
        · rw [if_pos hy, if_pos (by linarith)]
          change _ = -1 / s.tau
          ring
        · rw [if_neg hy, if_neg (by linarith)]
          exact neg_zero
      · rw [hrow, e]
        change _ = s.xInit
        rw [hs, hcd]
        simp [TimeSystem.start]
    · have e : ∀ t, s.xAt t = [if t * (1 / s.tau) > 1 then 1 else t * (1 / s.tau)] := fun t => by
        unfold TimeSystem.xAt
        simp only [if_neg hcd, mul_one_div]
      refine ⟨⟨fun t _ => by rw [hrow, e]; rfl, fun i hi => ?_, fun t ht => ⟨_, rfl, fun i hi => ?_⟩⟩, ?_⟩
      · obtain rfl : i = 0 := by omega
        simp only [hrow, e, List.getD_cons_zero]
        exact k1
      · obtain rfl : i = 0 := by omega
        simp only [hrow, e, List.getD_cons_zero]
        refine (k2 t ht).congr_deriv ?_
        generalize (if t * (1 / s.tau) > 1 then (1 : ℝ) else t * (1 / s.tau)) = y
        unfold rate
        simp only [TimeSystem.diffEq, if_neg hcd]
        by_cases hy : y < 1
        · rw [if_pos hy, if_pos hy]
          rfl
        · rw [if_neg hy, if_neg hy]
          rfl
      · rw [hrow, e]
        change _ = s.xInit
        rw [hs]
        simp [TimeSystem.start, hcd]

end Sub

end Verif
