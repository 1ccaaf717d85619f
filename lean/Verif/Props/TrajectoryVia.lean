import Verif.Props.TrajectoryGen

/- C66: polynomial trajectories through a viapoint. -/

set_option autoImplicit false
set_option linter.unusedSectionVars false

namespace Verif

namespace Trajectory

open Spec Polynomial

section

variable {K : Type} [Field K] [LinearOrder K] [IsStrictOrderedRing K]

theorem takeWhile_length {α : Type} (p : α → Bool) (l : List α) (k : Nat)
    (h1 : ∀ i, i < k → ∃ x, l[i]? = some x ∧ p x = true)
    (h2 : ∃ x, l[k]? = some x ∧ p x = false) : (l.takeWhile p).length = k := by
  induction l generalizing k with
  | nil => obtain ⟨x, hx, -⟩ := h2; simp at hx
  | cons a l ih =>
    cases k with
    | zero =>
      obtain ⟨x, hx, hp⟩ := h2
      simp only [List.getElem?_cons_zero, Option.some.injEq] at hx
      subst hx
      simp [List.takeWhile_cons, hp]
    | succ k =>
      obtain ⟨x, hx, hp⟩ := h1 0 (by omega)
      simp only [List.getElem?_cons_zero, Option.some.injEq] at hx
      subst hx
      rw [List.takeWhile_cons_of_pos hp, List.length_cons, ih k]
      · intro i hi
        obtain ⟨y, hy, hq⟩ := h1 (i + 1) (by omega)
        exact ⟨y, by simpa using hy, hq⟩
      · obtain ⟨y, hy, hq⟩ := h2
        exact ⟨y, by simpa using hy, hq⟩

theorem equidistant_get (t0 dt : K) (n i : Nat) (h : i < n) :
    (equidistant t0 dt n)[i]? = some (t0 + (i : K) * dt) := by
  simp [equidistant, h]

theorem equidistant_take (t0 dt : K) (n k : Nat) (h : k ≤ n) :
    (equidistant t0 dt n).take k = equidistant t0 dt k := by
  simp [equidistant, ← List.map_take, List.take_range, h]

theorem equidistant_drop (t0 dt : K) (n k : Nat) :
    (equidistant t0 dt n).drop k = equidistant (t0 + (k : K) * dt) dt (n - k) := by
  refine List.ext_getElem? fun i => ?_
  rw [List.getElem?_drop]
  by_cases hi : k + i < n
  · rw [equidistant_get _ _ _ _ hi, equidistant_get _ _ _ _ (by omega)]
    push_cast
    congr 1
    ring
  · rw [List.getElem?_eq_none (by simp [equidistant]; omega),
      List.getElem?_eq_none (by simp [equidistant]; omega)]

theorem equidistant_head (t0 dt : K) (n : Nat) (h : 1 ≤ n) :
    (equidistant t0 dt n).head? = some t0 := by
  rw [List.head?_eq_getElem?, equidistant_get _ _ _ _ (by omega)]
  simp

theorem equidistant_last (t0 dt : K) (n : Nat) (h : 1 ≤ n) :
    (equidistant t0 dt n).getLast? = some (t0 + ((n - 1 : Nat) : K) * dt) := by
  rw [List.getLast?_eq_getElem?, show (equidistant t0 dt n).length = n by simp [equidistant],
    equidistant_get _ _ _ _ (by omega)]

theorem equidistant_increasing (t0 dt : K) (n : Nat) (h : 0 < dt) :
    Increasing (equidistant t0 dt n) := by
  refine List.Pairwise.map _ (fun a b hab => ?_) (List.pairwise_lt_range (n := n))
  have : (a : K) < b := by exact_mod_cast hab
  have := mul_lt_mul_of_pos_right this h
  linarith

/-- C66, as claimed. -/
def C66_statement : Prop := ∀ (t0 dt vt : ℚ) (n k : Nat) (y0 y yd ydd y1 : List ℚ)
  (s : Trajectory ℚ), 0 < dt → 2 ≤ k → k + 2 ≤ n →
  t0 + ((k - 1 : Nat) : ℚ) * dt < vt → vt ≤ t0 + (k : ℚ) * dt →
  y.length = y0.length → yd.length = y0.length → ydd.length = y0.length →
  y1.length = y0.length →
  fromViapointPolynomial (equidistant t0 dt n) y0 (y ++ yd ++ ydd) vt y1 = .ok s →
  ∀ j < y0.length, entry s.ys 0 j = some (y0.getD j 0) ∧ entry s.ys k j = some (y.getD j 0) ∧
    entry s.ys (n - 1) j = some (y1.getD j 0)

/-- C66: a polynomial trajectory through a viapoint on equidistant times keeps these times, starts
at `y0` at rest, and has the viapoint position both at the first sample not before the viapoint
time (`k`) and at the sample before it. Missing compared to the full claim: the end position is
`y1` only if the viapoint acceleration `ydd` is 0; otherwise it is `y1 - ydd/2`. -/
theorem C66_viapoint_partial (t0 dt vt : K) (n k : Nat) (y0 y yd ydd y1 : List K) (hdt : 0 < dt)
    (hk : 2 ≤ k) (hkn : k + 2 ≤ n) (hv1 : t0 + ((k - 1 : Nat) : K) * dt < vt)
    (hv2 : vt ≤ t0 + (k : K) * dt) (hy : y.length = y0.length) (hyd : yd.length = y0.length)
    (hydd : ydd.length = y0.length) (hy1 : y1.length = y0.length) :
    ∃ s, fromViapointPolynomial (equidistant t0 dt n) y0 (y ++ yd ++ ydd) vt y1 = .ok s ∧
      s.ts = equidistant t0 dt n ∧ s.dtMean = some dt ∧ s.Shape ∧ s.dim = y0.length ∧
      ∀ j < y0.length, SampleIs s 0 j (y0.getD j 0) 0 0 ∧
        SampleIs s (k - 1) j (y.getD j 0) (yd.getD j 0 / (((k - 1 : Nat) : K) * dt))
          (ydd.getD j 0 / (((k - 1 : Nat) : K) * dt) ^ 2) ∧
        SampleIs s k j (y.getD j 0) (yd.getD j 0 / (((n - 1 - k : Nat) : K) * dt))
          (ydd.getD j 0 / (((n - 1 - k : Nat) : K) * dt) ^ 2) ∧
        SampleIs s (n - 1) j (y1.getD j 0 - ydd.getD j 0 / 2)
          (-ydd.getD j 0 / (((n - 1 - k : Nat) : K) * dt)) 0 := by
  have hstep : viapointStep (equidistant t0 dt n) vt = k := by
    unfold viapointStep
    refine takeWhile_length _ _ _ (fun i hi => ⟨_, equidistant_get t0 dt n i (by omega), ?_⟩)
      ⟨_, equidistant_get t0 dt n k (by omega), ?_⟩
    · have : (i : K) ≤ ((k - 1 : Nat) : K) := by exact_mod_cast (by omega : i ≤ k - 1)
      have := mul_le_mul_of_nonneg_right this hdt.le
      simp only [decide_eq_true_eq]
      linarith
    · simpa using hv2
  have e1 : (y ++ yd ++ ydd).take y0.length = y := by
    rw [List.append_assoc, ← hy, List.take_left]
  have e2 : ((y ++ yd ++ ydd).take (2 * y0.length)).drop y0.length = yd := by
    have : 2 * y0.length = (y ++ yd).length := by simp; omega
    rw [this, List.take_left, ← hy, List.drop_left]
  have e3 : ((y ++ yd ++ ydd).take (3 * y0.length)).drop (2 * y0.length) = ydd := by
    have h2 : 2 * y0.length = (y ++ yd).length := by simp; omega
    have h3 : 3 * y0.length = (y ++ yd ++ ydd).length := by simp; omega
    rw [h2, h3, List.take_length, List.drop_left]
  have hk0 : (0 : K) < ((k - 1 : Nat) : K) := by exact_mod_cast (by omega : 0 < k - 1)
  have hn0 : (0 : K) < ((n - 1 - k : Nat) : K) := by exact_mod_cast (by omega : 0 < n - 1 - k)
  obtain ⟨s1, r1, ts1, m1, d1, mean1, sh1, p1⟩ := C44_polynomial_partial (equidistant t0 dt k) y0
    (List.replicate y0.length 0) (List.replicate y0.length 0) y yd ydd t0
    (t0 + ((k - 1 : Nat) : K) * dt) (equidistant_head _ _ _ (by omega))
    (equidistant_last _ _ _ (by omega)) (by have := mul_pos hk0 hdt; intro h; linarith)
    (by simp) (by simp) hy hyd hydd
  have hnk : n - k - 1 = n - 1 - k := by omega
  obtain ⟨s2, r2, ts2, m2, d2, mean2, sh2, p2⟩ := C44_polynomial_partial
    (equidistant (t0 + (k : K) * dt) dt (n - k)) y
    yd ydd y1 (List.replicate y0.length 0) (List.replicate y0.length 0) (t0 + (k : K) * dt)
    (t0 + (k : K) * dt + ((n - k - 1 : Nat) : K) * dt)
    (equidistant_head _ _ _ (by omega)) (equidistant_last _ _ _ (by omega))
    (by rw [hnk]; have := mul_pos hn0 hdt; intro h; linarith)
    (hyd.trans hy.symm) (hydd.trans hy.symm) (hy1.trans hy.symm) (by simp [hy]) (by simp [hy])
  rw [hnk] at p2
  have hmean1 : s1.dtMean = some dt := by rw [mean1, equidistant_meanDiff _ _ _ hk]
  obtain ⟨s, ha, -, hdur, ⟨c, hts⟩, hcat, hmean, hsh⟩ := C42_append s1 s2 sh1 sh2
    ⟨by rw [← sh1.dim, ← sh2.dim, d1, d2, hy], by rw [m1]; simp⟩
    (ts1 ▸ equidistant_increasing _ _ _ hdt) (ts2 ▸ equidistant_increasing _ _ _ hdt)
    dt (((k - 1 : Nat) : K) * dt) (((n - 1 - k : Nat) : K) * dt) hmean1 hdt
    (by
      rw [duration, ts1, equidistant_head _ _ _ (by omega), equidistant_last _ _ _ (by omega)]
      simp)
    (by
      rw [duration, ts2, equidistant_head _ _ _ (by omega), equidistant_last _ _ _ (by omega),
        hnk]
      simp)
  have hrun : fromViapointPolynomial (equidistant t0 dt n) y0 (y ++ yd ++ ydd) vt y1 = .ok s := by
    unfold fromViapointPolynomial
    dsimp only
    rw [hstep, e1, e2, e3, equidistant_take _ _ _ _ (by omega), equidistant_drop, r1, r2]
    change (match append s2 s1 with
      | (.ok _, t) => (.ok t : Except PyErr (Trajectory K))
      | (.error e, _) => .error e) = _
    rw [ha]
  have hsts : s.ts = equidistant t0 dt n := by
    have hc : c = 0 := by
      rw [duration, hts, ts1, ts2, List.getLast?_append, List.getLast?_map,
        equidistant_last _ _ _ (by omega), List.head?_append,
        equidistant_head _ _ _ (by omega), hnk] at hdur
      simp only [Option.map_some, Option.some_or, Except.ok.injEq] at hdur
      have hkk : (k : K) = ((k - 1 : Nat) : K) + 1 := by
        rw [Nat.cast_sub (by omega)]; simp
      rw [hkk] at hdur
      linarith
    rw [hts, ts1, ts2, hc]
    simp only [add_zero, List.map_id']
    rw [← equidistant_take t0 dt n k (by omega), ← equidistant_drop, List.take_append_drop]
  have hdim : s.dim = y0.length := by
    have hl : s1.ys.rows.length = k := by rw [sh1.ys, ts1]; simp [equidistant]
    obtain ⟨r, rs, hr⟩ := List.exists_cons_of_length_pos (by omega : 0 < s1.ys.rows.length)
    rw [hsh.dim, ← hsh.ysCols r (by rw [hcat.ys, hr]; simp), sh1.ysCols r (by rw [hr]; simp), ← sh1.dim, d1]
  refine ⟨s, hrun, hsts, hmean, hsh, hdim, fun j hj => ?_⟩
  have hl1 : s1.ys.rows.length = k := by rw [sh1.ys, ts1]; simp [equidistant]
  have hl2 : s1.yds.rows.length = k := by rw [sh1.yds, ts1]; simp [equidistant]
  have hl3 : s1.ydds.rows.length = k := by rw [sh1.ydds, ts1]; simp [equidistant]
  have left : ∀ i < k, ∀ a b c, SampleIs s1 i j a b c → SampleIs s i j a b c := by
    intro i hi a b c h
    simpa only [SampleIs, entry, hcat.ys, hcat.yds, hcat.ydds,
      List.getElem?_append_left (by omega : i < s1.ys.rows.length),
      List.getElem?_append_left (by omega : i < s1.yds.rows.length),
      List.getElem?_append_left (by omega : i < s1.ydds.rows.length)] using h
  have right : ∀ i, ∀ a b c, SampleIs s2 i j a b c → SampleIs s (k + i) j a b c := by
    intro i a b c h
    simpa only [SampleIs, entry, hcat.ys, hcat.yds, hcat.ydds,
      List.getElem?_append_right (by omega : s1.ys.rows.length ≤ k + i),
      List.getElem?_append_right (by omega : s1.yds.rows.length ≤ k + i),
      List.getElem?_append_right (by omega : s1.ydds.rows.length ≤ k + i), hl1, hl2, hl3,
      Nat.add_sub_cancel_left] using h
  obtain ⟨P, -, hP, a1, a2, a3, a4, a5, a6⟩ := p1 j hj
  obtain ⟨Q, -, hQ, b1, b2, b3, b4, b5, b6⟩ := p2 j (by omega)
  have hz : (List.replicate y0.length (0 : K)).getD j 0 = 0 := by
    simp [List.getD_eq_getElem?_getD, hj]
  rw [hz] at a2 a3 a4 a5 b5 b6
  rw [add_sub_cancel_left] at a2 a3 a5 a6 b2 b3 b5 b6
  refine ⟨left 0 (by omega) _ _ _ ?_, left (k - 1) (by omega) _ _ _ ?_, right 0 _ _ _ ?_, ?_⟩
  · have := hP 0 t0 (by rw [ts1, equidistant_get _ _ _ _ (by omega)]; simp)
    rw [a1, a2, a3] at this
    simpa [SampleIs] using this
  · have := hP (k - 1) _ (by rw [ts1, equidistant_get _ _ _ _ (by omega)])
    rw [a4, a5, a6] at this
    simpa [SampleIs] using this
  · have := hQ 0 (t0 + (k : K) * dt) (by rw [ts2, equidistant_get _ _ _ _ (by omega)]; simp)
    rw [b1, b2, b3] at this
    exact this
  · have := hQ (n - 1 - k) _ (by rw [ts2, equidistant_get _ _ _ _ (by omega)])
    rw [b4, b5, b6] at this
    rw [show n - 1 = k + (n - 1 - k) by omega]
    have hkk : k + (n - 1 - k) - k = n - 1 - k := by omega
    refine right (n - 1 - k) _ _ _ ?_
    simpa [SampleIs, hkk] using this

/-- C66 fails when the viapoint acceleration is not 0: the end position is missed. -/
theorem C66_refuted : ¬ C66_statement := by
  intro h
  obtain ⟨s, h1, -, -, -, -, h2⟩ := C66_viapoint_partial (0 : ℚ) 1 2 4 2 [0] [1] [0] [2] [3] one_pos
    le_rfl le_rfl (by norm_num) (by norm_num) rfl rfl rfl rfl
  have e1 := (h2 0 (by simp)).2.2.2.1
  have e2 := (h 0 1 2 4 2 [0] [1] [0] [2] [3] s one_pos le_rfl le_rfl (by norm_num) (by norm_num)
    rfl rfl rfl rfl h1 0 (by simp)).2.2
  rw [e1] at e2
  norm_num at e2

/-- The hypotheses are met, with an end position that is reached. -/
example : ∃ s, fromViapointPolynomial (equidistant (0 : ℚ) 1 4) [0] [1, 5, 0] (3 / 2) [3] = .ok s ∧
    entry s.ys 2 0 = some 1 ∧ entry s.ys 3 0 = some 3 := by
  obtain ⟨s, h1, -, -, -, -, h2⟩ := C66_viapoint_partial (0 : ℚ) 1 (3 / 2) 4 2 [0] [1] [5] [0] [3]
    one_pos le_rfl le_rfl (by norm_num) (by norm_num) rfl rfl rfl rfl
  refine ⟨s, h1, (h2 0 (by simp)).2.2.1.1, ?_⟩
  have := (h2 0 (by simp)).2.2.2.1
  simpa using this

end

end Trajectory

end Verif
