import Verif.Props.ThrowBallCpp

/-
Costs of throwing a ball (C80).
-/

set_option autoImplicit false

namespace Verif.ThrowBall

open Spec
open Dmp (Reachable DefaultLike Change)

/-- How far the ball lies from the goal, where a margin is for free. -/
noncomputable def distanceCost (goal margin x : ℝ) : ℝ := max 0 (|x - goal| - margin)

/-- Mean of the squared accelerations (columns 5 and 6), times the weight. -/
noncomputable def effortCost (weight : ℝ) (rows : List (List ℝ)) : ℝ :=
  if 0 < weight then weight * (rows.map fun r => r.getD 5 0 ^ 2 + r.getD 6 0 ^ 2).sum / rows.length else 0

theorem columns_sum {r : List ℝ} (h : 7 ≤ r.length) :
    (((r.take 7).drop 5).map fun a => a ^ 2).sum = r.getD 5 0 ^ 2 + r.getD 6 0 ^ 2 := by
  match r, h with
  | a0 :: a1 :: a2 :: a3 :: a4 :: a5 :: a6 :: rest, _ => simp

/-- C80: the costs are the sum and the two components, where the position of the ball is that of column 7
in the last row. -/
theorem C80_costs (t : Task) (m : Arr2 ℝ) (hm : m.Wf) (hc : 8 ≤ m.cols) (front : List (List ℝ)) (last : List ℝ)
    (h : m.rows = front ++ [last]) :
    t.evaluateRollout m = .ok [distanceCost t.xGoal t.xMargin (last.getD 7 0) +
        effortCost t.accelerationWeight m.rows, distanceCost t.xGoal t.xMargin (last.getD 7 0),
      effortCost t.accelerationWeight m.rows] := by
  have hl : last.length = m.cols := hm last (by rw [h]; simp)
  unfold Task.evaluateRollout
  have e1 : (m.rows.map fun r => (r.take 9).drop 7).getLast? = some ((last.take 9).drop 7) := by
    rw [h]
    simp
  have e2 : ((last.take 9).drop 7)[0]? = some (last.getD 7 0) := by
    match last, (by omega : 8 ≤ last.length) with
    | a0 :: a1 :: a2 :: a3 :: a4 :: a5 :: a6 :: a7 :: rest, _ => simp
  simp only [e1, e2]
  have e3 : (if |last.getD 7 0 - t.xGoal| - t.xMargin < 0 then 0 else |last.getD 7 0 - t.xGoal| - t.xMargin) =
      distanceCost t.xGoal t.xMargin (last.getD 7 0) := by
    unfold distanceCost
    by_cases hd : |last.getD 7 0 - t.xGoal| - t.xMargin < 0
    · rw [if_pos hd, max_eq_left hd.le]
    · rw [if_neg hd, max_eq_right (not_lt.mp hd)]
  have e4 : t.accelerationWeight * (if t.accelerationWeight > 0 then
        ((m.rows.map fun r => (r.take 7).drop 5).map fun r => (r.map fun a => a ^ 2).sum).sum else 0) /
      (m.rows.length : ℝ) = effortCost t.accelerationWeight m.rows := by
    unfold effortCost
    by_cases hw : t.accelerationWeight > 0
    · rw [if_pos hw, if_pos hw, List.map_map]
      congr 3
      refine List.map_congr_left fun r hr => ?_
      exact columns_sum (by rw [hm r hr]; omega)
    · rw [if_neg hw, if_neg hw, mul_zero, zero_div]
  rw [e3, e4]

/-- C80: without rows, or with fewer than eight columns, there is an IndexError; otherwise there is none. -/
theorem C80_fails (t : Task) (m : Arr2 ℝ) (hm : m.Wf) (e : PyErr) :
    t.evaluateRollout m = .error e ↔ e = .indexError ∧ (m.rows = [] ∨ m.cols < 8) := by
  rcases List.eq_nil_or_concat m.rows with h | ⟨front, last, h⟩
  · have : t.evaluateRollout m = .error .indexError := by
      unfold Task.evaluateRollout
      rw [h]
      rfl
    rw [this]
    constructor
    · intro h'
      cases h'
      exact ⟨rfl, .inl h⟩
    · rintro ⟨rfl, -⟩
      rfl
  · rw [List.concat_eq_append] at h
    by_cases hc : 8 ≤ m.cols
    · rw [C80_costs t m hm hc front last h]
      constructor
      · intro h'
        cases h'
      · rintro ⟨-, h' | h'⟩
        · rw [h] at h'
          simp at h'
        · omega
    · have hl : last.length = m.cols := hm last (by rw [h]; simp)
      have : t.evaluateRollout m = .error .indexError := by
        unfold Task.evaluateRollout
        have e1 : (m.rows.map fun r => (r.take 9).drop 7).getLast? = some ((last.take 9).drop 7) := by
          rw [h]
          simp
        have e2 : ((last.take 9).drop 7)[0]? = none := by
          rw [List.getElem?_eq_none]
          rw [List.length_drop, List.length_take]
          omega
        simp only [e1, e2]
      rw [this]
      constructor
      · intro h'
        cases h'
        exact ⟨rfl, .inr (by omega)⟩
      · rintro ⟨rfl, -⟩
        rfl

/-- C80: no cost is negative, the first is the sum of the others, and there is a label for each of these. -/
theorem C80_components (t : Task) (m : Arr2 ℝ) (hm : m.Wf) (costs : List ℝ)
    (h : t.evaluateRollout m = .ok costs) :
    costs.length = 1 + t.costLabels.length ∧ costs.getD 0 0 = (costs.drop 1).sum ∧ ∀ c ∈ costs, 0 ≤ c := by
  have hok : m.rows ≠ [] ∧ 8 ≤ m.cols := by
    by_contra hc
    have : t.evaluateRollout m = .error .indexError := by
      refine (C80_fails t m hm _).mpr ⟨rfl, ?_⟩
      by_cases h0 : m.rows = []
      · exact .inl h0
      · exact .inr (by
          by_contra h8
          exact hc ⟨h0, by omega⟩)
    rw [h] at this
    cases this
  obtain ⟨front, last, e⟩ := (List.eq_nil_or_concat m.rows).resolve_left hok.1
  rw [List.concat_eq_append] at e
  rw [C80_costs t m hm hok.2 front last e] at h
  cases h
  have h1 : 0 ≤ distanceCost t.xGoal t.xMargin (last.getD 7 0) := le_max_left _ _
  have h2 : 0 ≤ effortCost t.accelerationWeight m.rows := by
    unfold effortCost
    by_cases hw : 0 < t.accelerationWeight
    · rw [if_pos hw]
      refine div_nonneg (mul_nonneg hw.le (List.sum_nonneg fun x hx => ?_)) (Nat.cast_nonneg _)
      obtain ⟨r, -, rfl⟩ := List.mem_map.mp hx
      positivity
    · rw [if_neg hw]
  refine ⟨rfl, by simp, fun c hc => ?_⟩
  simp only [List.mem_cons, List.not_mem_nil, or_false] at hc
  rcases hc with rfl | rfl | rfl
  · exact add_nonneg h1 h2
  · exact h1
  · exact h2

/-- C80: the first component is zero exactly if the ball lies within the margin around the goal. -/
theorem C80_hit (goal margin x : ℝ) :
    distanceCost goal margin x = 0 ↔ goal - margin ≤ x ∧ x ≤ goal + margin := by
  unfold distanceCost
  rw [max_eq_left_iff, sub_nonpos, abs_le]
  constructor
  · rintro ⟨h1, h2⟩
    exact ⟨by linarith, by linarith⟩
  · rintro ⟨h1, h2⟩
    exact ⟨by linarith, by linarith⟩

/-- C80: the second component is zero exactly if its weight is not positive, or all accelerations are 0. -/
theorem C80_effort (weight : ℝ) (rows : List (List ℝ)) (h : rows ≠ []) :
    effortCost weight rows = 0 ↔ weight ≤ 0 ∨ ∀ r ∈ rows, r.getD 5 0 = 0 ∧ r.getD 6 0 = 0 := by
  unfold effortCost
  have hl : (rows.length : ℝ) ≠ 0 := by
    rw [Nat.cast_ne_zero, Ne, List.length_eq_zero_iff]
    exact h
  by_cases hw : 0 < weight
  · rw [if_pos hw, div_eq_zero_iff, or_iff_left hl, mul_eq_zero, or_iff_right hw.ne',
      or_iff_right (not_le.mpr hw)]
    clear h hl
    induction rows with
    | nil => simp
    | cons r rows ih =>
      have hs : 0 ≤ (rows.map fun r => r.getD 5 0 ^ 2 + r.getD 6 0 ^ 2).sum := by
        refine List.sum_nonneg fun x hx => ?_
        obtain ⟨q, -, rfl⟩ := List.mem_map.mp hx
        positivity
      rw [List.map_cons, List.sum_cons, add_eq_zero_iff_of_nonneg (by positivity) hs, List.forall_mem_cons,
        add_eq_zero_iff_of_nonneg (sq_nonneg _) (sq_nonneg _), sq_eq_zero_iff, sq_eq_zero_iff]
      exact and_congr Iff.rfl ih
  · rw [if_neg hw]
    simp [not_lt.mp hw]

/-- C80: if the ball lands before the end, the costs for the landing site of the rows that C++ writes, and
of those of the simulation in Python, are the same. -/
theorem C80_landing (t : Task) (s s' : Dmp) (h : Reachable Cpp.Dmp.Known Change.Forward 2 s) (c : Cpp.Dmp)
    (hr : Cpp.Dmp.read s = .ok c) (hu : Cpp.Dmp.Usable c)
    (hs : ∀ l, s.fas = some l → ∀ fa ∈ l, Cpp.Dmp.Smooth fa)
    (m : Arr2 ℝ) (rows : List (List ℝ)) (hm : runPythonSimulation (-0.3) s = (.ok m, s'))
    (hrows : Cpp.robotExecuteDmp c = .ok rows) (k : Nat) (hk : 61 + k < rows.length)
    (hl : Lands (-0.3) (fun _ => 0.01) (fun i => pair ((rows.getD i []).drop 1))
      (fun i => pair ((rows.getD i []).drop 3)) 61 k) :
    ∃ py cpp, t.evaluateRollout m = .ok py ∧ t.evaluateRollout ⟨14, rows⟩ = .ok cpp ∧
      py.getD 1 0 = cpp.getD 1 0 := by
  have hsame := (Cpp.C79_same_landing s s' h c hr hu hs m rows hm hrows k hk hl).1
  obtain ⟨s1, m1, rows1, e1, e2, l1, l2, hw, h9, -⟩ := Cpp.C79_same_partial s h c hr hu hs
  rw [hm] at e1
  cases e1
  rw [hrows] at e2
  cases e2
  have hw2 : (⟨14, rows⟩ : Arr2 ℝ).Wf := Cpp.C79_width c rows hrows
  obtain ⟨f1, last1, d1⟩ := (List.eq_nil_or_concat m.rows).resolve_left (by
    intro h0
    rw [h0, List.length_nil] at l1
    omega)
  obtain ⟨f2, last2, d2⟩ := (List.eq_nil_or_concat rows).resolve_left (by
    intro h0
    rw [h0, List.length_nil] at hk
    omega)
  rw [List.concat_eq_append] at d1 d2
  refine ⟨_, _, C80_costs t m hw (by omega) f1 last1 d1,
    C80_costs t ⟨14, rows⟩ hw2 (by change 8 ≤ 14; omega) f2 last2 d2, ?_⟩
  rw [d1, d2, List.getLastD_concat, List.getLastD_concat] at hsame
  have h7 : last1.getD 7 0 = last2.getD 7 0 := by
    have := congrArg (fun l : List ℝ => l.getD 0 0) hsame
    have n1 : last1.length = 9 := (hw last1 (by rw [d1]; simp)).trans h9
    have n2 : last2.length = 14 := hw2 last2 (by change last2 ∈ rows; rw [d2]; simp)
    match last1, n1, last2, n2 with
    | _ :: _ :: _ :: _ :: _ :: _ :: _ :: _ :: _ :: _, _, _ :: _ :: _ :: _ :: _ :: _ :: _ :: _ :: _ :: _, _ =>
      exact this.symm
  rw [h7]
  rfl

theorem sum_rows (f : List ℝ → ℝ) (l : List (List ℝ)) :
    (l.map f).sum = ∑ i ∈ Finset.range l.length, f (l.getD i []) := by
  induction l with
  | nil => rfl
  | cons a l ih =>
    rw [List.map_cons, List.sum_cons, ih, List.length_cons, Finset.sum_range_succ', add_comm]
    rfl

/-- C80: for the rows of the simulation, the second component has gravity in place of the acceleration of
the hand when the ball is released. -/
theorem C80_simulated (t : Task) (s s' : Dmp) (hs : Reachable DefaultLike Change.Valid 2 s) (floor : ℝ)
    (rows : List (List ℝ × List ℝ)) (m : Arr2 ℝ)
    (h : Dmp.integrate (Cpp.Dmp.evenly 0.01 0 (steps s)) .rungeKutta s = (.ok rows, s'))
    (hm : runPythonSimulation floor s = (.ok m, s')) (hw : 0 < t.accelerationWeight) (hn : 62 < steps s) :
    ∃ costs, t.evaluateRollout m = .ok costs ∧ costs.getD 2 0 = t.accelerationWeight *
      (9.81 ^ 2 + ∑ i ∈ (Finset.range (steps s)).erase 61,
        ((pair (motion s rows i).2.2).1 ^ 2 + (pair (motion s rows i).2.2).2 ^ 2)) / steps s := by
  obtain ⟨m', ball, e, hwf, hc, hl, hrow, -⟩ := C78_simulation s s' hs floor rows h
  rw [hm] at e
  cases e
  obtain ⟨front, last, d⟩ := (List.eq_nil_or_concat m.rows).resolve_left (by
    intro h0
    rw [h0, List.length_nil] at hl
    omega)
  rw [List.concat_eq_append] at d
  refine ⟨_, C80_costs t m hwf (by omega) front last d, ?_⟩
  change effortCost t.accelerationWeight m.rows = _
  unfold effortCost
  rw [if_pos hw, hl]
  congr 2
  rw [sum_rows, hl, ← Finset.add_sum_erase _ _ (Finset.mem_range.mpr (by omega : 61 < steps s))]
  have key : ∀ i, i < steps s → ∀ A : List ℝ, A.length = 2 →
      ((m.rows.getD i []).take 7).drop 5 = A →
      (m.rows.getD i []).getD 5 0 = (pair A).1 ∧ (m.rows.getD i []).getD 6 0 = (pair A).2 := by
    intro i hi A hA he
    have n9 : (m.rows.getD i []).length = 9 := by
      rw [getD_lt (by omega)]
      exact (hwf _ (List.getElem_mem _)).trans hc
    generalize m.rows.getD i [] = r at he n9
    subst he
    match r, n9 with
    | _ :: _ :: _ :: _ :: _ :: _ :: _ :: _, _ => exact ⟨rfl, rfl⟩
  congr 1
  · have h61 := accelerations hs h hm (i := 61) (by omega)
    rw [if_pos ⟨released_61, by omega⟩] at h61
    obtain ⟨k1, k2⟩ := key 61 (by omega) _ rfl h61
    rw [k1, k2]
    norm_num [pair]
  · refine Finset.sum_congr rfl fun i hi => ?_
    obtain ⟨h1, h2⟩ := Finset.mem_erase.mp hi
    rw [Finset.mem_range] at h2
    have hi := accelerations hs h hm h2
    rw [if_neg fun hc => h1 (released_unique hc.1 released_61)] at hi
    obtain ⟨k1, k2⟩ := key i h2 _ (motion_planar hs.inv.dim rows i).acc hi
    rw [k1, k2]

/-- The hypotheses of C80 are met: costs of two rows. -/
example : (⟨9, [[0, 0, 0, 0, 0, 3, 4, 0, 0], [0.01, 0, 0, 0, 0, 1, 0, 2, -0.3]]⟩ : Arr2 ℝ).Wf ∧
    (⟨1, 0.1, -0.3, 2⟩ : Task).evaluateRollout
      ⟨9, [[0, 0, 0, 0, 0, 3, 4, 0, 0], [0.01, 0, 0, 0, 0, 1, 0, 2, -0.3]]⟩ = .ok [26.9, 0.9, 26] := by
  have hw : (⟨9, [[0, 0, 0, 0, 0, 3, 4, 0, 0], [0.01, 0, 0, 0, 0, 1, 0, 2, -0.3]]⟩ : Arr2 ℝ).Wf := by
    simp [Arr2.Wf]
  refine ⟨hw, ?_⟩
  rw [C80_costs _ _ hw (by change 8 ≤ 9; omega) [_] _ rfl]
  unfold distanceCost effortCost
  norm_num

/-- The hypotheses of C80_simulated are met by a Dmp that rests. (For those of C80_landing, see C79.) -/
example : ∃ s s' rows m, Reachable DefaultLike Change.Valid 2 s ∧
    Dmp.integrate (Cpp.Dmp.evenly 0.01 0 (steps s)) .rungeKutta s = (.ok rows, s') ∧
    runPythonSimulation (-0.3) s = (.ok m, s') ∧ 62 < steps s := by
  obtain ⟨s, -, hr, ht, hrest⟩ := Dmp.resting_example
  have hn : steps s = 150 := by
    unfold steps
    rw [ht, mul_one]
    exact_mod_cast Nat.ceil_natCast (R := ℝ) 150
  obtain ⟨rows, s', e, -⟩ := hrest (Cpp.Dmp.evenly 0.01 0 (steps s)) (by
    rw [hn]
    simp [Cpp.Dmp.evenly])
  obtain ⟨m, ball, em, -⟩ := C78_simulation s s' hr (-0.3) rows e
  exact ⟨s, s', rows, m, hr, e, em, by omega⟩

end Verif.ThrowBall
