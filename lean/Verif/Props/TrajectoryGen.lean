import Verif.Props.TrajectoryCrop
import Mathlib.Analysis.Calculus.Deriv.MeanValue
import Mathlib.Analysis.Calculus.Deriv.Polynomial
import Mathlib.Tactic.ComputeDegree

/- C44, C45, C46: generated trajectories and numerical differentiation. -/

set_option autoImplicit false
set_option linter.unusedSectionVars false

namespace Verif

namespace Trajectory

open Spec Polynomial

section

variable {K : Type} [Field K] [LinearOrder K] [IsStrictOrderedRing K]

/-! ### C44: polynomials -/

theorem entry_table (n : Nat) (ts : List K) (f : Nat → K → K) (i j : Nat) (hj : j < n) (t : K)
    (ht : ts[i]? = some t) :
    entry (⟨n, ts.map fun t => (List.range n).map fun j => f j t⟩ : Arr2 K) i j =
      some (f j t) := by
  simp [entry, ht, hj]

/-- The polynomial with the given coefficients. -/
noncomputable def quintic (c : K × K × K × K × K × K) : K[X] :=
  C c.1 + C c.2.1 * X + C c.2.2.1 * X ^ 2 + C c.2.2.2.1 * X ^ 3 + C c.2.2.2.2.1 * X ^ 4 +
    C c.2.2.2.2.2 * X ^ 5

theorem quintic_eval (c : K × K × K × K × K × K) (t : K) : (quintic c).eval t = polyPos c t := by
  obtain ⟨a0, a1, a2, a3, a4, a5⟩ := c
  simp [quintic, polyPos]

theorem quintic_derivative (c : K × K × K × K × K × K) (t : K) :
    (Polynomial.derivative (quintic c)).eval t = polyVel c t := by
  obtain ⟨a0, a1, a2, a3, a4, a5⟩ := c
  simp [quintic, polyVel, derivative_X_pow]
  ring

theorem quintic_derivative2 (c : K × K × K × K × K × K) (t : K) :
    (Polynomial.derivative (Polynomial.derivative (quintic c))).eval t = polyAcc c t := by
  obtain ⟨a0, a1, a2, a3, a4, a5⟩ := c
  simp [quintic, polyAcc, derivative_X_pow]
  ring

theorem quintic_degree (c : K × K × K × K × K × K) : (quintic c).natDegree ≤ 5 := by
  unfold quintic
  compute_degree

/-- Relative time as a polynomial in time. -/
noncomputable def relTime (first T : K) : K[X] := C (1 / T) * (X - C first)

theorem relTime_eval (first T t : K) : (relTime first T).eval t = (t - first) / T := by
  simp [relTime]; ring

theorem relTime_derivative (first T : K) : Polynomial.derivative (relTime first T) = C (1 / T) := by
  simp [relTime]

theorem comp_derivative (p : K[X]) (first T t : K) :
    (Polynomial.derivative (p.comp (relTime first T))).eval t = (Polynomial.derivative p).eval ((t - first) / T) / T := by
  rw [derivative_comp, relTime_derivative, eval_mul, eval_C, eval_comp, relTime_eval]
  ring

theorem comp_derivative2 (p : K[X]) (first T t : K) :
    (Polynomial.derivative (Polynomial.derivative (p.comp (relTime first T)))).eval t =
      (Polynomial.derivative (Polynomial.derivative p)).eval ((t - first) / T) / T ^ 2 := by
  rw [derivative_comp, relTime_derivative, derivative_C_mul, derivative_comp, relTime_derivative,
    eval_mul, eval_mul, eval_C, eval_comp, relTime_eval]
  ring

theorem comp_degree (p : K[X]) (first T : K) (h : p.natDegree ≤ 5) :
    (p.comp (relTime first T)).natDegree ≤ 5 := by
  refine natDegree_comp_le.trans ?_
  have : (relTime first T).natDegree ≤ 1 := by unfold relTime; compute_degree
  calc p.natDegree * (relTime first T).natDegree ≤ 5 * 1 := Nat.mul_le_mul h this
    _ = 5 := rfl

/-- C44, as claimed. -/
def C44_statement : Prop := ∀ (ts y0 v0 a0 y1 v1 a1 : List ℚ) (s : Trajectory ℚ),
  Increasing ts → 2 ≤ ts.length → fromPolynomial ts y0 v0 a0 y1 v1 a1 = .ok s → ∀ j < y0.length,
    SampleIs s 0 j (y0.getD j 0) (v0.getD j 0) (a0.getD j 0) ∧
    SampleIs s (ts.length - 1) j (y1.getD j 0) (v1.getD j 0) (a1.getD j 0) ∧
    ∃ P : ℚ[X], P.natDegree ≤ 5 ∧ Follows s j P

/-- C44: the positions follow a polynomial of degree 5 whose derivatives are the velocities and
accelerations. Its boundary values are the requested ones, except that the requested velocities are
divided by the duration, the requested accelerations by its square, and that a requested initial
acceleration `a0` moves the final position by `-a0/2` and the final velocity by `-a0` (the
coefficients `2.5` and `2` in lines 323-324 should both be `1.5`). Missing compared to the full
claim: the requested velocities and accelerations when the duration is not 1, and the final
position when the requested initial acceleration is not 0. -/
theorem C44_polynomial_partial (ts y0 v0 a0 y1 v1 a1 : List K) (first last : K)
    (hfirst : ts.head? = some first) (hlast : ts.getLast? = some last) (hT : last ≠ first)
    (h1 : v0.length = y0.length) (h2 : a0.length = y0.length) (h3 : y1.length = y0.length)
    (h4 : v1.length = y0.length) (h5 : a1.length = y0.length) :
    ∃ s, fromPolynomial ts y0 v0 a0 y1 v1 a1 = .ok s ∧ s.ts = ts ∧ s.misc = none ∧
      s.dim = y0.length ∧ s.dtMean = meanDiff ts ∧ s.Shape ∧
      ∀ j < y0.length, ∃ P : K[X], P.natDegree ≤ 5 ∧ Follows s j P ∧
        P.eval first = y0.getD j 0 ∧
        (Polynomial.derivative P).eval first = v0.getD j 0 / (last - first) ∧
        (Polynomial.derivative (Polynomial.derivative P)).eval first = a0.getD j 0 / (last - first) ^ 2 ∧
        P.eval last = y1.getD j 0 - a0.getD j 0 / 2 ∧
        (Polynomial.derivative P).eval last = (v1.getD j 0 - a0.getD j 0) / (last - first) ∧
        (Polynomial.derivative (Polynomial.derivative P)).eval last = a1.getD j 0 / (last - first) ^ 2 := by
  have hT' : last - first ≠ 0 := sub_ne_zero.mpr hT
  have hrun : fromPolynomial ts y0 v0 a0 y1 v1 a1 = .ok ⟨ts, meanDiff ts,
      ⟨y0.length, ts.map fun t => (List.range y0.length).map fun j => polyPos (polyCoeffs
        (y0.getD j 0) (v0.getD j 0) (a0.getD j 0) (y1.getD j 0) (v1.getD j 0) (a1.getD j 0))
        ((t - first) / (last - first))⟩,
      ⟨y0.length, ts.map fun t => (List.range y0.length).map fun j => polyVel (polyCoeffs
        (y0.getD j 0) (v0.getD j 0) (a0.getD j 0) (y1.getD j 0) (v1.getD j 0) (a1.getD j 0))
        ((t - first) / (last - first)) / (last - first)⟩,
      ⟨y0.length, ts.map fun t => (List.range y0.length).map fun j => polyAcc (polyCoeffs
        (y0.getD j 0) (v0.getD j 0) (a0.getD j 0) (y1.getD j 0) (v1.getD j 0) (a1.getD j 0))
        ((t - first) / (last - first)) / (last - first) ^ 2⟩, none, y0.length⟩ := by
    unfold fromPolynomial
    rw [if_neg (by simp [h1, h2, h3, h4, h5]), hfirst, hlast]
    dsimp only
    rw [if_neg hT']
    exact init_two (by simp) (by simp [Arr2.shape]) (by simp [Arr2.shape]) (by simp)
  have e1 : (first - first) / (last - first) = 0 := by simp
  have e2 : (last - first) / (last - first) = 1 := div_self hT'
  refine ⟨_, hrun, rfl, rfl, rfl, rfl, ?_, ?_⟩
  · unfold fromPolynomial at hrun
    rw [if_neg (by simp [h1, h2, h3, h4, h5]), hfirst, hlast] at hrun
    dsimp only at hrun
    rw [if_neg hT'] at hrun
    refine init_shape hrun ?_ ?_ ?_ ?_
    all_goals simp [Arr.Wf, Arr2.Wf]
  intro j hj
  refine ⟨(quintic (polyCoeffs (y0.getD j 0) (v0.getD j 0) (a0.getD j 0) (y1.getD j 0)
    (v1.getD j 0) (a1.getD j 0))).comp (relTime first (last - first)),
    comp_degree _ _ _ (quintic_degree _), ?_, ?_, ?_, ?_, ?_, ?_, ?_⟩
  · intro i t ht
    refine ⟨?_, ?_, ?_⟩
    · rw [eval_comp, relTime_eval, quintic_eval]
      exact entry_table y0.length ts (fun j t => polyPos (polyCoeffs
        (y0.getD j 0) (v0.getD j 0) (a0.getD j 0) (y1.getD j 0) (v1.getD j 0) (a1.getD j 0))
        ((t - first) / (last - first))) i j hj t ht
    · rw [comp_derivative, quintic_derivative]
      exact entry_table y0.length ts (fun j t => polyVel (polyCoeffs
        (y0.getD j 0) (v0.getD j 0) (a0.getD j 0) (y1.getD j 0) (v1.getD j 0) (a1.getD j 0))
        ((t - first) / (last - first)) / (last - first)) i j hj t ht
    · rw [comp_derivative2, quintic_derivative2]
      exact entry_table y0.length ts (fun j t => polyAcc (polyCoeffs
        (y0.getD j 0) (v0.getD j 0) (a0.getD j 0) (y1.getD j 0) (v1.getD j 0) (a1.getD j 0))
        ((t - first) / (last - first)) / (last - first) ^ 2) i j hj t ht
  · rw [eval_comp, relTime_eval, quintic_eval, e1]; simp only [polyPos, polyCoeffs]; ring
  · rw [comp_derivative, quintic_derivative, e1]; simp only [polyVel, polyCoeffs]; ring
  · rw [comp_derivative2, quintic_derivative2, e1]; simp only [polyAcc, polyCoeffs]; ring
  · rw [eval_comp, relTime_eval, quintic_eval, e2]; simp only [polyPos, polyCoeffs]; ring
  · rw [comp_derivative, quintic_derivative, e2]; simp only [polyVel, polyCoeffs]; ring
  · rw [comp_derivative2, quintic_derivative2, e2]; simp only [polyAcc, polyCoeffs]; ring

/-- The error cases of `from_polynomial`. -/
theorem C44_rejects (ts y0 v0 a0 y1 v1 a1 : List K)
    (h : v0.length ≠ y0.length ∨ a0.length ≠ y0.length ∨ y1.length ≠ y0.length ∨
      v1.length ≠ y0.length ∨ a1.length ≠ y0.length) :
    fromPolynomial ts y0 v0 a0 y1 v1 a1 = .error .valueError := by
  unfold fromPolynomial
  rw [if_pos h]

/-! ### C46: numerical differentiation -/

theorem sum_range_eq (n : Nat) (f : Nat → K) :
    ((List.range n).map f).sum = ∑ j ∈ Finset.range n, f j := rfl

theorem convolve_mid (a : List K) (dt : K) (i : Nat) (h1 : 1 ≤ i) (h2 : i + 1 < a.length) :
    (convolve a [1 / 2 / dt, 0 / 2 / dt, -1 / 2 / dt]).getD (i + 1) 0 =
      (a.getD (i + 1) 0 - a.getD (i - 1) 0) / (2 * dt) := by
  have hk : i + 1 < (List.range (a.length + 3 - 1)).length := by simp; omega
  unfold convolve
  simp only [List.length_cons, List.length_nil, Nat.zero_add]
  rw [List.getD_eq_getElem?_getD, List.getElem?_map, List.getElem?_range (by simpa using hk)]
  simp only [Option.map_some, Option.getD_some]
  rw [sum_range_eq, Finset.sum_eq_add (i + 1) (i - 1) (by omega)]
  · rw [if_pos le_rfl, if_pos (by omega), Nat.sub_self, show i + 1 - (i - 1) = 2 by omega]
    simp only [List.getD_cons_zero, List.getD_cons_succ]
    by_cases hd : dt = 0
    · simp [hd]
    · field_simp
      ring
  · intro j _ hj
    by_cases hle : j ≤ i + 1
    · rw [if_pos hle]
      obtain h | h : j = i ∨ j < i - 1 := by omega
      · subst h
        rw [show j + 1 - j = 1 by omega]
        simp
      · rw [List.getD_eq_getElem?_getD (i := i + 1 - j),
          List.getElem?_eq_none (by simp; omega : _ ≤ i + 1 - j)]
        simp
    · rw [if_neg hle]
  · intro h; exact absurd (Finset.mem_range.mpr h2) h
  · intro h; exact absurd (Finset.mem_range.mpr (by omega)) h

/-- Central differences in the interior, copied to both ends. -/
theorem diffnc_entries (xs : Arr2 K) (dt : K) (hdt : dt ≠ 0) (hn : 3 ≤ xs.rows.length) :
    ∃ d, diffnc xs (some dt) = .ok d ∧ d.cols = xs.cols ∧ d.rows.length = xs.rows.length ∧
      ∀ i < xs.rows.length, ∀ j < xs.cols, entry d i j =
        some (((xs.rows.getD (min (max i 1) (xs.rows.length - 2) + 1) []).getD j 0 -
          (xs.rows.getD (min (max i 1) (xs.rows.length - 2) - 1) []).getD j 0) / (2 * dt)) := by
  unfold diffnc
  rw [if_neg (by omega), if_neg (by omega)]
  dsimp only
  rw [if_neg hdt]
  refine ⟨_, rfl, rfl, ?_, ?_⟩
  · simp
  · intro i hi j hj
    obtain ⟨n, hn'⟩ : ∃ n, n = xs.rows.length := ⟨_, rfl⟩
    rw [← hn'] at hi hn ⊢
    -- an interior row before the ends are overwritten
    have key : ∀ k, 1 ≤ k → k + 1 < n → ((((List.range (n + 2)).map fun k => (List.range xs.cols).map
        fun j => (convolve (column xs.rows j) [1 / 2 / dt, 0 / 2 / dt, -1 / 2 / dt]).getD k 0).drop
        1).take n)[k]? = some ((List.range xs.cols).map fun j =>
          ((xs.rows.getD (k + 1) []).getD j 0 - (xs.rows.getD (k - 1) []).getD j 0) / (2 * dt)) := by
      intro k hk1 hk2
      rw [List.getElem?_take, if_pos (by omega), List.getElem?_drop, List.getElem?_map,
        List.getElem?_range (by omega)]
      simp only [Option.map_some, Option.some.injEq]
      refine List.map_congr_left fun j _ => ?_
      rw [Nat.add_comm 1 k, convolve_mid _ _ _ hk1 (by simp [column]; omega)]
      simp only [column, List.getD_eq_getElem?_getD, List.getElem?_map]
      have e1 : xs.rows[k + 1]? = some xs.rows[k + 1] := List.getElem?_eq_getElem (by omega)
      have e2 : xs.rows[k - 1]? = some xs.rows[k - 1] := List.getElem?_eq_getElem (by omega)
      rw [e1, e2]
      rfl
    generalize hL : (((List.range (n + 2)).map fun k => (List.range xs.cols).map
        fun j => (convolve (column xs.rows j) [1 / 2 / dt, 0 / 2 / dt, -1 / 2 / dt]).getD k 0).drop
        1).take n = L at key
    have hLn : L.length = n := by rw [← hL]; simp
    have hset : ((L.set 0 (L.getD 1 [])).set (n - 1) ((L.set 0 (L.getD 1 [])).getD (n - 2) []))[i]? =
        L[min (max i 1) (n - 2)]? := by
      have a1 : L[1]? = some (L.getD 1 []) := by
        rw [List.getD_eq_getElem?_getD, List.getElem?_eq_getElem (by omega)]; rfl
      have a2 : L[n - 2]? = some (L.getD (n - 2) []) := by
        rw [List.getD_eq_getElem?_getD, List.getElem?_eq_getElem (by omega)]; rfl
      have a3 : (L.set 0 (L.getD 1 [])).getD (n - 2) [] = L.getD (n - 2) [] := by
        rw [List.getD_eq_getElem?_getD, List.getElem?_set_ne (by omega),
          ← List.getD_eq_getElem?_getD]
      rw [a3]
      by_cases hl : i = n - 1
      · subst hl
        rw [List.getElem?_set_self (by simp; omega), show min (max (n - 1) 1) (n - 2) = n - 2 by omega,
          a2]
      · rw [List.getElem?_set_ne (Ne.symm hl)]
        by_cases h0 : i = 0
        · subst h0
          rw [List.getElem?_set_self (by omega), show min (max 0 1) (n - 2) = 1 by omega, a1]
        · rw [List.getElem?_set_ne (Ne.symm h0), show min (max i 1) (n - 2) = i by omega]
    simp only [entry]
    rw [hset, key _ (by omega) (by omega)]
    simp [hj]

theorem equidistant_meanDiff (t0 dt : K) (n : Nat) (hn : 2 ≤ n) :
    meanDiff (equidistant t0 dt n) = some dt := by
  obtain ⟨m, rfl⟩ : ∃ m, n = m + 2 := ⟨n - 2, by omega⟩
  have h1 : (equidistant t0 dt (m + 2)).head? = some t0 := by
    simp [equidistant, List.range_succ_eq_map]
  have h2 : (equidistant t0 dt (m + 2)).getLast? = some (t0 + ((m + 1 : Nat) : K) * dt) := by
    simp [equidistant, List.range_succ]
  rw [meanDiff_eq h1 h2 (by simp [equidistant])]
  have : ((m + 1 : Nat) : K) ≠ 0 := by exact_mod_cast Nat.succ_ne_zero m
  simp only [equidistant, List.length_map, List.length_range, Nat.add_sub_cancel,
    show m + 2 - 1 = m + 1 from rfl]
  congr 1
  rw [add_sub_cancel_left, mul_div_cancel_left₀ _ this]

theorem rows_ext {a b : Arr2 K} (hc : a.cols = b.cols) (hr : a.rows.length = b.rows.length)
    (ha : ∀ r ∈ a.rows, r.length = a.cols) (hb : ∀ r ∈ b.rows, r.length = b.cols)
    (h : ∀ i < a.rows.length, ∀ j < a.cols, entry a i j = entry b i j) : a = b := by
  cases a; cases b
  simp only at hc hr
  subst hc
  congr 1
  refine List.ext_getElem hr fun i h1 h2 => ?_
  have l1 := ha _ (List.getElem_mem h1)
  have l2 := hb _ (List.getElem_mem h2)
  refine List.ext_getElem (l1.trans l2.symm) fun j h3 h4 => ?_
  have := h i h1 j (by simpa [l1] using h3)
  simpa [entry, h1, h2, h3, h4] using this

theorem diffnc_entries_rows {xs d : Arr2 K} {dt : Option K} (h : diffnc xs dt = .ok d) :
    ∀ r ∈ d.rows, r.length = d.cols := by
  have := diffnc_shape h
  exact this.2.2

/-- C46, as claimed (constant velocity, any number of samples from two on). -/
def C46_statement : Prop := ∀ (t0 dt : ℚ) (n : Nat) (a b : List ℚ), 0 < dt → 2 ≤ n →
  a.length = b.length →
  ∃ s, init (equidistant t0 dt n) (.two ⟨a.length, (List.range n).map fun (i : Nat) =>
      (List.range a.length).map fun j => a.getD j 0 + (i : ℚ) * dt * b.getD j 0⟩) none none none =
      .ok s ∧ s.yds.rows = List.replicate n b

/-- C46, constant velocity: velocities are exact everywhere and accelerations are 0, from three
samples on. Missing compared to the full claim: two samples. -/
theorem C46_constant_velocity_partial (t0 dt : K) (n : Nat) (a b : List K) (hdt : 0 < dt)
    (hn : 3 ≤ n) (hab : a.length = b.length) :
    ∃ s, init (equidistant t0 dt n) (.two ⟨a.length, (List.range n).map fun (i : Nat) =>
        (List.range a.length).map fun j => a.getD j 0 + (i : K) * dt * b.getD j 0⟩) none none none =
        .ok s ∧ s.yds.rows = List.replicate n b ∧
      s.ydds.rows = List.replicate n (List.replicate b.length 0) := by
  obtain ⟨ys, hys⟩ : ∃ ys : Arr2 K, ys = ⟨a.length, (List.range n).map fun (i : Nat) =>
        (List.range a.length).map fun j => a.getD j 0 + (i : K) * dt * b.getD j 0⟩ := ⟨_, rfl⟩
  have hlen : ys.rows.length = n := by rw [hys]; simp
  have hrow : ∀ i < n, ∀ j < a.length, (ys.rows.getD i []).getD j 0 =
      a.getD j 0 + (i : K) * dt * b.getD j 0 := by
    intro i hi j hj
    rw [hys]
    simp [List.getD_eq_getElem?_getD, hi, hj]
  have hcols : ys.cols = a.length := by rw [hys]
  obtain ⟨d, hd, dc, dl, de⟩ := diffnc_entries ys dt hdt.ne' (by omega)
  have ed : d = ⟨a.length, List.replicate n b⟩ := by
    refine rows_ext (dc.trans hcols) (by rw [dl, hlen]; simp) (diffnc_entries_rows hd) ?_ ?_
    · intro r hr; rw [List.eq_of_mem_replicate hr]; exact hab.symm
    · intro i hi j hj
      rw [dl, hlen] at hi
      rw [dc, hcols] at hj
      rw [de i (by omega) j (by omega), hlen, hrow _ (by omega) j hj, hrow _ (by omega) j hj]
      have hm : 1 ≤ min (max i 1) (n - 2) := by omega
      generalize min (max i 1) (n - 2) = k at hm
      have hb : entry (⟨a.length, List.replicate n b⟩ : Arr2 K) i j = some (b.getD j 0) := by
        have : j < b.length := hab ▸ hj
        simp [entry, List.getElem?_replicate, hi, List.getD_eq_getElem?_getD, this]
      rw [hb]
      congr 1
      push_cast [Nat.cast_sub hm]
      field_simp
      ring
  have hd2 : ∃ d2, diffnc d (some dt) = .ok d2 ∧
      d2 = ⟨a.length, List.replicate n (List.replicate b.length 0)⟩ := by
    obtain ⟨d2, hd2, c2, l2, e2⟩ := diffnc_entries d dt hdt.ne' (by omega)
    refine ⟨d2, hd2, rows_ext ?_ ?_ (diffnc_entries_rows hd2) ?_ ?_⟩
    · rw [c2, dc, hcols]
    · rw [l2, dl, hlen]; simp
    · intro r hr; rw [List.eq_of_mem_replicate hr, List.length_replicate]; exact hab.symm
    · intro i hi j hj
      rw [l2, dl, hlen] at hi
      rw [c2, dc, hcols] at hj
      rw [e2 i (by omega) j (by omega), dl, hlen]
      have hz : ∀ k < n, (d.rows.getD k []).getD j 0 = b.getD j 0 := by
        intro k hk
        rw [ed]
        simp [List.getD_eq_getElem?_getD, List.getElem?_replicate, hk]
      rw [hz _ (by omega), hz _ (by omega)]
      have : j < b.length := hab ▸ hj
      simp [entry, List.getElem?_replicate, hi, this]
  obtain ⟨d2, hd2, ed2⟩ := hd2
  refine ⟨⟨equidistant t0 dt n, some dt, ys, d, d2, none, ys.cols⟩, ?_, by rw [ed], by rw [ed2]⟩
  rw [← hys]
  unfold init
  dsimp only
  rw [if_neg (by simp [Arr.len, hlen, equidistant]), equidistant_meanDiff t0 dt n (by omega)]
  simp only [Arr.asColumns, derivative, bind, Except.bind, hd, hd2]
  rfl

/-- C46, constant acceleration: velocities are exact at the interior samples, at any time from
three samples on. -/
theorem C46_constant_acceleration (t0 dt : K) (n : Nat) (a b c : List K) (hdt : 0 < dt)
    (hn : 3 ≤ n) :
    ∃ s, init (equidistant t0 dt n) (.two ⟨a.length, (List.range n).map fun (i : Nat) =>
        (List.range a.length).map fun j => a.getD j 0 + ((i : K) * dt) * b.getD j 0 +
          ((i : K) * dt) ^ 2 / 2 * c.getD j 0⟩) none none none = .ok s ∧
      ∀ i j, 1 ≤ i → i + 1 < n → j < a.length →
        entry s.yds i j = some (b.getD j 0 + (i : K) * dt * c.getD j 0) := by
  obtain ⟨ys, hys⟩ : ∃ ys : Arr2 K, ys = ⟨a.length, (List.range n).map fun (i : Nat) =>
        (List.range a.length).map fun j => a.getD j 0 + ((i : K) * dt) * b.getD j 0 +
          ((i : K) * dt) ^ 2 / 2 * c.getD j 0⟩ := ⟨_, rfl⟩
  have hlen : ys.rows.length = n := by rw [hys]; simp
  have hrow : ∀ i < n, ∀ j < a.length, (ys.rows.getD i []).getD j 0 =
      a.getD j 0 + ((i : K) * dt) * b.getD j 0 + ((i : K) * dt) ^ 2 / 2 * c.getD j 0 := by
    intro i hi j hj
    rw [hys]
    simp [List.getD_eq_getElem?_getD, hi, hj]
  have hcols : ys.cols = a.length := by rw [hys]
  obtain ⟨d, hd, dc, dl, de⟩ := diffnc_entries ys dt hdt.ne' (by omega)
  obtain ⟨d2, hd2, -⟩ := diffnc_entries d dt hdt.ne' (by omega)
  refine ⟨⟨equidistant t0 dt n, some dt, ys, d, d2, none, ys.cols⟩, ?_, ?_⟩
  · rw [← hys]
    unfold init
    dsimp only
    rw [if_neg (by simp [Arr.len, hlen, equidistant]), equidistant_meanDiff t0 dt n (by omega)]
    simp only [Arr.asColumns, derivative, bind, Except.bind, hd, hd2]
    rfl
  · intro i j h1 h2 hj
    dsimp only
    rw [de i (by omega) j (by omega), hlen, show min (max i 1) (n - 2) = i by omega,
      hrow _ (by omega) j hj, hrow _ (by omega) j hj]
    congr 1
    push_cast [Nat.cast_sub h1]
    field_simp
    ring

/-- C46: `recompute_derivatives` computes the same derivatives as the constructor. -/
theorem C46_recompute (ts : List K) (ys : Arr2 K) (s : Trajectory K) (yds ydds : Option (Arr K))
    (misc : Option (Arr2 K)) (s0 : Trajectory K) (h : init ts (.two ys) none none misc = .ok s)
    (h0 : init ts (.two ys) yds ydds misc = .ok s0) :
    recomputeDerivatives s0 = (.ok (), s) := by
  obtain ⟨-, a1, a2, a3, a4, a5, a6, a7, -⟩ := init_ok h
  obtain ⟨-, b1, b2, b3, -, -, b6, b7, -⟩ := init_ok h0
  simp only [Arr.asColumns, Except.ok.injEq] at a3 b3
  simp only [derivative] at a4 a5
  unfold recomputeDerivatives
  rw [PyM.self_bind, b2, ← b3, a3, a4]
  simp only [lift, PyM.pure_bind, PyM.modify_bind, a5]
  rw [PyM.modify_apply]
  cases s; cases s0
  simp_all

/-- With two samples the computed velocity of a motion at rest in position 1 is not 0. -/
theorem C46_refuted : ¬ C46_statement := by
  intro h
  obtain ⟨s, hs, hv⟩ := h 0 1 2 [1] [0] one_pos le_rfl rfl
  have h2 := (init_ok hs).2.2.2.2.1
  have h3 := (init_ok hs).2.2.2.1
  rw [equidistant_meanDiff 0 1 2 le_rfl] at h2
  simp only [Arr.asColumns, Except.ok.injEq] at h3
  rw [← h3] at h2
  have e : s.yds.rows = [[-1 / 2], [-1 / 2]] := by
    simp [derivative, diffnc, List.range_succ, convolve, column] at h2
    rw [← h2]
  rw [e] at hv
  norm_num [List.replicate_succ] at hv

end

/-! ### C45: minimum jerk -/

/-- The minimum-jerk polynomial in relative time. -/
noncomputable def jerkPoly (a b : ℝ) : ℝ[X] :=
  C a + C (b - a) * (6 * X ^ 5 - 15 * X ^ 4 + 10 * X ^ 3)

theorem jerkPoly_degree (a b : ℝ) : (jerkPoly a b).natDegree ≤ 5 := by
  unfold jerkPoly
  compute_degree

theorem jerkPoly_eval (a b s : ℝ) : (jerkPoly a b).eval s = minJerkPos a b s := by
  simp [jerkPoly, minJerkPos]

theorem jerkPoly_derivative (a b s : ℝ) : (Polynomial.derivative (jerkPoly a b)).eval s =
    (b - a) * (30 * s ^ 4 - 60 * s ^ 3 + 30 * s ^ 2) := by
  simp [jerkPoly, derivative_X_pow]
  left; ring

theorem jerkPoly_derivative2 (a b s : ℝ) : (Polynomial.derivative (Polynomial.derivative (jerkPoly a b))).eval s =
    (b - a) * (120 * s ^ 3 - 180 * s ^ 2 + 60 * s) := by
  simp [jerkPoly, derivative_X_pow]
  left; ring

/-- C45, as claimed. -/
def C45_statement : Prop := ∀ (ts a b : List ℝ) (s : Trajectory ℝ),
  Increasing ts → 2 ≤ ts.length → fromMinJerk ts a b = .ok s → ∀ j < a.length,
    SampleIs s 0 j (a.getD j 0) 0 0 ∧ SampleIs s (ts.length - 1) j (b.getD j 0) 0 0

/-- C45: with times that start at 0, the samples are those of the minimum-jerk polynomial `P`.
Missing compared to the full claim: other start times. -/
theorem C45_min_jerk_partial (ts a b : List ℝ) (D : ℝ) (hfirst : ts.head? = some 0)
    (hlast : ts.getLast? = some D) (hD : 0 < D) (hab : b.length = a.length) :
    ∃ s, fromMinJerk ts a b = .ok s ∧ s.ts = ts ∧ s.misc = none ∧ s.dim = a.length ∧
      s.dtMean = meanDiff ts ∧
      ∀ j < a.length, SampleIs s 0 j (a.getD j 0) 0 0 ∧
        SampleIs s (ts.length - 1) j (b.getD j 0) 0 0 ∧
        ∃ P : ℝ[X], P.natDegree ≤ 5 ∧ Follows s j P ∧
          P.eval 0 = a.getD j 0 ∧ (Polynomial.derivative P).eval 0 = 0 ∧
          (Polynomial.derivative (Polynomial.derivative P)).eval 0 = 0 ∧
          P.eval D = b.getD j 0 ∧ (Polynomial.derivative P).eval D = 0 ∧
          (Polynomial.derivative (Polynomial.derivative P)).eval D = 0 ∧
          (a.getD j 0 ≤ b.getD j 0 → MonotoneOn (fun t => P.eval t) (Set.Icc 0 D)) ∧
          (b.getD j 0 ≤ a.getD j 0 → AntitoneOn (fun t => P.eval t) (Set.Icc 0 D)) := by
  have hrun : fromMinJerk ts a b = .ok ⟨ts, meanDiff ts,
      ⟨a.length, ts.map fun t => (List.range a.length).map fun j =>
        minJerkPos (a.getD j 0) (b.getD j 0) (t / D)⟩,
      ⟨a.length, ts.map fun t => (List.range a.length).map fun j =>
        minJerkVel (a.getD j 0) (b.getD j 0) D (t / D)⟩,
      ⟨a.length, ts.map fun t => (List.range a.length).map fun j =>
        minJerkAcc (a.getD j 0) (b.getD j 0) D (t / D)⟩, none, a.length⟩ := by
    unfold fromMinJerk
    rw [hlast]
    dsimp only
    rw [if_neg (by simp [hab]), if_neg hD.ne']
    exact init_two (by simp) (by simp [Arr2.shape]) (by simp [Arr2.shape]) (by simp)
  refine ⟨_, hrun, rfl, rfl, rfl, rfl, fun j hj => ?_⟩
  have hz : (0 - 0) / D = 0 := by simp
  have ho : (D - 0) / D = 1 := by rw [sub_zero]; exact div_self hD.ne'
  have hF : Follows (⟨ts, meanDiff ts,
      ⟨a.length, ts.map fun t => (List.range a.length).map fun j =>
        minJerkPos (a.getD j 0) (b.getD j 0) (t / D)⟩,
      ⟨a.length, ts.map fun t => (List.range a.length).map fun j =>
        minJerkVel (a.getD j 0) (b.getD j 0) D (t / D)⟩,
      ⟨a.length, ts.map fun t => (List.range a.length).map fun j =>
        minJerkAcc (a.getD j 0) (b.getD j 0) D (t / D)⟩, none, a.length⟩ : Trajectory ℝ) j
      ((jerkPoly (a.getD j 0) (b.getD j 0)).comp (relTime 0 D)) := by
    intro i t ht
    refine ⟨?_, ?_, ?_⟩
    · rw [eval_comp, relTime_eval, jerkPoly_eval, sub_zero]
      exact entry_table a.length ts
        (fun j t => minJerkPos (a.getD j 0) (b.getD j 0) (t / D)) i j hj t ht
    · rw [comp_derivative, jerkPoly_derivative, sub_zero]
      rw [entry_table a.length ts
        (fun j t => minJerkVel (a.getD j 0) (b.getD j 0) D (t / D)) i j hj t ht]
      simp only [minJerkVel]
      congr 1
      ring
    · rw [comp_derivative2, jerkPoly_derivative2, sub_zero]
      rw [entry_table a.length ts
        (fun j t => minJerkAcc (a.getD j 0) (b.getD j 0) D (t / D)) i j hj t ht]
      simp only [minJerkAcc]
      congr 1
      field_simp
  have v1 : ((jerkPoly (a.getD j 0) (b.getD j 0)).comp (relTime 0 D)).eval 0 = a.getD j 0 := by
    rw [eval_comp, relTime_eval, jerkPoly_eval, hz, minJerkPos]; ring
  have v2 : (Polynomial.derivative ((jerkPoly (a.getD j 0) (b.getD j 0)).comp (relTime 0 D))).eval 0 = 0 := by
    rw [comp_derivative, jerkPoly_derivative, hz]; ring
  have v3 : (Polynomial.derivative (Polynomial.derivative ((jerkPoly (a.getD j 0) (b.getD j 0)).comp
      (relTime 0 D)))).eval 0 = 0 := by
    rw [comp_derivative2, jerkPoly_derivative2, hz]; ring
  have v4 : ((jerkPoly (a.getD j 0) (b.getD j 0)).comp (relTime 0 D)).eval D = b.getD j 0 := by
    rw [eval_comp, relTime_eval, jerkPoly_eval, ho, minJerkPos]; ring
  have v5 : (Polynomial.derivative ((jerkPoly (a.getD j 0) (b.getD j 0)).comp (relTime 0 D))).eval D = 0 := by
    rw [comp_derivative, jerkPoly_derivative, ho]; ring
  have v6 : (Polynomial.derivative (Polynomial.derivative ((jerkPoly (a.getD j 0) (b.getD j 0)).comp
      (relTime 0 D)))).eval D = 0 := by
    rw [comp_derivative2, jerkPoly_derivative2, ho]; ring
  have hsq : ∀ t, (Polynomial.derivative ((jerkPoly (a.getD j 0) (b.getD j 0)).comp (relTime 0 D))).eval t =
      (b.getD j 0 - a.getD j 0) * (30 * (t / D) ^ 2 * (1 - t / D) ^ 2 / D) := by
    intro t
    rw [comp_derivative, jerkPoly_derivative, sub_zero]; ring
  have hnn : ∀ t, 0 ≤ 30 * (t / D) ^ 2 * (1 - t / D) ^ 2 / D := fun t => by positivity
  refine ⟨?_, ?_, _, comp_degree _ _ _ (jerkPoly_degree _ _), hF, v1, v2, v3, v4, v5, v6, ?_, ?_⟩
  · have := hF 0 0 (by rw [← List.head?_eq_getElem?]; exact hfirst)
    rw [v1, v2, v3] at this
    exact this
  · have := hF (ts.length - 1) D (by rw [← List.getLast?_eq_getElem?]; exact hlast)
    rw [v4, v5, v6] at this
    exact this
  · intro hle
    refine monotoneOn_of_deriv_nonneg (convex_Icc 0 D) (Polynomial.differentiable _).continuous.continuousOn
      (Polynomial.differentiable _).differentiableOn fun t _ => ?_
    rw [Polynomial.deriv, hsq]
    exact mul_nonneg (by linarith) (hnn t)
  · intro hle
    refine antitoneOn_of_deriv_nonpos (convex_Icc 0 D) (Polynomial.differentiable _).continuous.continuousOn
      (Polynomial.differentiable _).differentiableOn fun t _ => ?_
    rw [Polynomial.deriv, hsq]
    exact mul_nonpos_of_nonpos_of_nonneg (by linarith) (hnn t)

/-- C45 fails for times that do not start at 0: the movement does not start at `a`. -/
theorem C45_refuted : ¬ C45_statement := by
  intro h
  have hi : Increasing [(1 : ℝ), 2] := by simp [Increasing]
  have hrun : ∃ s, fromMinJerk [(1 : ℝ), 2] [0] [1] = .ok s ∧ entry s.ys 0 0 = some (1 / 2) := by
    refine ⟨⟨[1, 2], meanDiff [1, 2], ⟨1, [[minJerkPos 0 1 (1 / 2)], [minJerkPos 0 1 (2 / 2)]]⟩,
      ⟨1, [[minJerkVel 0 1 2 (1 / 2)], [minJerkVel 0 1 2 (2 / 2)]]⟩,
      ⟨1, [[minJerkAcc 0 1 2 (1 / 2)], [minJerkAcc 0 1 2 (2 / 2)]]⟩, none, 1⟩, ?_, ?_⟩
    · unfold fromMinJerk
      simp only [List.getLast?_cons_cons, List.getLast?_singleton]
      rw [if_neg (by simp), if_neg (by norm_num)]
      exact init_two (by simp) (by simp [Arr2.shape]) (by simp [Arr2.shape]) (by simp)
    · simp only [entry, minJerkPos]
      norm_num
  obtain ⟨s, h1, h2⟩ := hrun
  have := (h [1, 2] [0] [1] s hi (by simp) h1 0 (by simp)).1.1
  rw [h2] at this
  norm_num at this

/-- C44 fails when the duration is not 1: a requested initial velocity of 1 becomes 1/2. -/
theorem C44_refuted : ¬ C44_statement := by
  intro h
  obtain ⟨s, h1, h2, -, -, -, -, h3⟩ := C44_polynomial_partial [(0 : ℚ), 2] [0] [1] [0] [0] [0] [0] 0 2
    rfl rfl (by norm_num) rfl rfl rfl rfl rfl
  obtain ⟨P, -, hP, -, hv, -⟩ := h3 0 (by simp)
  have := (h [0, 2] [0] [1] [0] [0] [0] [0] s (by simp [Increasing]) (by simp) h1 0 (by simp)).1.2.1
  rw [(hP 0 0 (by rw [h2]; rfl)).2.1, hv] at this
  norm_num at this

/-- Even with duration 1, the final position is not reached when the requested initial acceleration
is not 0: a movement from 0 to 0 with initial acceleration 2 ends at -1. -/
theorem C44_final_position : ∃ s : Trajectory ℚ,
    fromPolynomial [(0 : ℚ), 1] [0] [0] [2] [0] [0] [0] = .ok s ∧ entry s.ys 1 0 = some (-1) := by
  obtain ⟨s, h1, h2, -, -, -, -, h3⟩ := C44_polynomial_partial [(0 : ℚ), 1] [0] [0] [2] [0] [0] [0] 0 1
    rfl rfl (by norm_num) rfl rfl rfl rfl rfl
  obtain ⟨P, -, hP, -, -, -, hv, -⟩ := h3 0 (by simp)
  refine ⟨s, h1, ?_⟩
  rw [(hP 1 1 (by rw [h2]; rfl)).1, hv]
  norm_num

/-- The hypotheses of the theorems are met. -/
example : ∃ s, fromPolynomial [(1 : ℚ), 2] [0] [1] [0] [3] [0] [0] = .ok s ∧
    entry s.yds 0 0 = some 1 := by
  obtain ⟨s, h1, h2, -, -, -, -, h3⟩ := C44_polynomial_partial [(1 : ℚ), 2] [0] [1] [0] [3] [0] [0] 1 2
    rfl rfl (by norm_num) rfl rfl rfl rfl rfl
  obtain ⟨P, -, hP, -, hv, -⟩ := h3 0 (by simp)
  refine ⟨s, h1, ?_⟩
  rw [(hP 0 1 (by rw [h2]; rfl)).2.1, hv]
  norm_num

example : ∃ s, fromMinJerk [(0 : ℝ), 1, 2] [0, 5] [1, 4] = .ok s ∧ entry s.ys 2 1 = some 4 := by
  obtain ⟨s, h1, -, -, -, -, h2⟩ := C45_min_jerk_partial [(0 : ℝ), 1, 2] [0, 5] [1, 4] 2 rfl rfl
    (by norm_num) rfl
  exact ⟨s, h1, (h2 1 (by simp)).2.1.1⟩

example : ∃ s, init (equidistant (5 : ℚ) 1 3) (.two ⟨1, (List.range 3).map fun (i : Nat) =>
    (List.range 1).map fun j => [(7 : ℚ)].getD j 0 + (i : ℚ) * 1 * [(2 : ℚ)].getD j 0⟩)
    none none none = .ok s ∧ s.yds.rows = [[2], [2], [2]] := by
  obtain ⟨s, h1, h2, -⟩ := C46_constant_velocity_partial (5 : ℚ) 1 3 [7] [2] one_pos le_rfl rfl
  exact ⟨s, h1, h2⟩

end Trajectory

end Verif
