import Verif.Model.CppTrajectory
import Verif.Props.TrajectoryVia

/-
C72: trajectories generated in C++. C73: trajectories in text files. C74: operations on trajectories in C++.
-/

set_option autoImplicit false

namespace Verif

namespace Cpp

open Spec

namespace Trajectory

/-- The samples of a trajectory in Python; no miscellaneous variables are a matrix without columns. -/
def ofPy (p : Verif.Trajectory ℝ) : Trajectory :=
  ⟨p.ts, p.ys, p.yds, p.ydds, p.misc.getD ⟨0, List.replicate p.ts.length []⟩⟩

theorem init_ok {ts : List ℝ} {ys yds ydds : Arr2 ℝ} (h1 : ys.rows.length = ts.length)
    (h2 : yds.rows.length = ts.length) (h3 : ydds.rows.length = ts.length) (h4 : yds.cols = ys.cols)
    (h5 : ydds.cols = ys.cols) :
    init ts ys yds ydds = .ok ⟨ts, ys, yds, ydds, ⟨0, List.replicate ts.length []⟩⟩ := by
  simp [init, h1, h2, h3, h4, h5]

theorem init_table (ts : List ℝ) (n : Nat) (f g h : Nat → ℝ → ℝ) :
    init ts (table ts n f) (table ts n g) (table ts n h) =
      .ok ⟨ts, table ts n f, table ts n g, table ts n h, ⟨0, List.replicate ts.length []⟩⟩ :=
  init_ok (by simp [table]) (by simp [table]) (by simp [table]) rfl rfl

/-! ### C72: generated trajectories -/

/-- C72: minimum-jerk trajectories are those of Python, and both fail for the same arguments. -/
theorem C72_min_jerk (ts y0 y1 : List ℝ) :
    (∀ t, minJerk ts y0 y1 = .ok t ↔
      ∃ p, Verif.Trajectory.fromMinJerk ts y0 y1 = .ok p ∧ t = ofPy p) ∧
    (minJerk ts y0 y1 = .error .assertion ↔ ts = [] ∨ y1.length ≠ y0.length) ∧
    (minJerk ts y0 y1 = .error .nan ↔ ts.getLast? = some 0 ∧ y1.length = y0.length) := by
  unfold minJerk Verif.Trajectory.fromMinJerk
  cases hl : ts.getLast? with
  | none =>
    have : ts = [] := by simpa using hl
    simp [this]
  | some D =>
    have hne : ts ≠ [] := by rintro rfl; simp at hl
    dsimp only
    by_cases hy : y1.length = y0.length
    · by_cases hD : D = 0
      · simp [hy, hD, hne]
      · rw [if_neg (by simpa using hy), if_neg hD, if_neg (by simpa using hy), if_neg hD,
          init_table]
        rw [Verif.Trajectory.init_two (by simp) (by simp [Arr2.shape]) (by simp [Arr2.shape]) (by simp)]
        refine ⟨fun t => ?_, by simp [hy, hne], by simp [hD]⟩
        simp only [Except.ok.injEq, exists_eq_left']
        rw [eq_comm]
        rfl
    · simp [hy, hne]

/-- C72: polynomials are those of Python, and both fail for the same arguments. -/
theorem C72_polynomial (ts y0 v0 a0 y1 v1 a1 : List ℝ) :
    (∀ t, polynomial ts y0 v0 a0 y1 v1 a1 = .ok t ↔
      ∃ p, Verif.Trajectory.fromPolynomial ts y0 v0 a0 y1 v1 a1 = .ok p ∧ t = ofPy p) ∧
    ((∃ e, polynomial ts y0 v0 a0 y1 v1 a1 = .error e) ↔
      ∃ e, Verif.Trajectory.fromPolynomial ts y0 v0 a0 y1 v1 a1 = .error e) := by
  unfold polynomial Verif.Trajectory.fromPolynomial
  by_cases hs : v0.length ≠ y0.length ∨ a0.length ≠ y0.length ∨ y1.length ≠ y0.length ∨
      v1.length ≠ y0.length ∨ a1.length ≠ y0.length
  · rw [if_pos hs, if_pos hs]
    simp
  · rw [if_neg hs, if_neg hs]
    cases hf : ts.head? with
    | none => simp
    | some first =>
      cases hl : ts.getLast? with
      | none => simp
      | some last =>
        dsimp only
        by_cases hD : last - first = 0
        · simp [hD]
        · rw [if_neg hD, if_neg hD, init_table]
          rw [Verif.Trajectory.init_two (by simp) (by simp [Arr2.shape]) (by simp [Arr2.shape]) (by simp)]
          refine ⟨fun t => ?_, by simp⟩
          simp only [Except.ok.injEq, exists_eq_left']
          rw [eq_comm]
          have e1 : (2.5 : ℝ) = 5 / 2 := by norm_num
          have e2 : (0.5 : ℝ) = 1 / 2 := by norm_num
          simp only [e1, e2]
          rfl

/-- The rows of a polynomial trajectory at its ends. -/
theorem polynomial_ends {ts y0 v0 a0 y1 v1 a1 : List ℝ} {first last : ℝ} (hf : ts.head? = some first)
    (hl : ts.getLast? = some last) (hD : last ≠ first) (h1 : v0.length = y0.length)
    (h2 : a0.length = y0.length) (h3 : y1.length = y0.length) (h4 : v1.length = y0.length)
    (h5 : a1.length = y0.length) :
    ∃ t, polynomial ts y0 v0 a0 y1 v1 a1 = .ok t ∧ t.ts = ts ∧ t.dim = y0.length ∧
      t.yds.cols = y0.length ∧ t.ydds.cols = y0.length ∧
      t.misc = ⟨0, List.replicate ts.length []⟩ ∧ t.ys.rows.length = ts.length ∧
      t.yds.rows.length = ts.length ∧ t.ydds.rows.length = ts.length ∧
      t.ys.rows.head? = some y0 ∧ t.yds.rows.head? = some (v0.map (· / (last - first))) ∧
      t.ydds.rows.head? = some (a0.map (· / (last - first) ^ 2)) ∧
      t.ys.rows.getLast? = some (List.zipWith (fun y a => y - a / 2) y1 a0) ∧
      t.yds.rows.getLast? = some (List.zipWith (fun v a => (v - a) / (last - first)) v1 a0) ∧
      t.ydds.rows.getLast? = some (a1.map (· / (last - first) ^ 2)) := by
  have hD' : last - first ≠ 0 := sub_ne_zero.mpr hD
  have rowext : ∀ (l : List ℝ) (f : Nat → ℝ), l.length = y0.length → (∀ j, j < y0.length → f j = l.getD j 0) →
      (List.range y0.length).map f = l := by
    intro l f hlen hj
    refine List.ext_getElem (by simp [hlen]) fun i hi hi' => ?_
    have : i < y0.length := by simpa using hi
    simp [hj i this, List.getElem?_eq_getElem hi']
  have gm : ∀ (l : List ℝ) (c : ℝ) (j : Nat), j < l.length → (l.map (· / c)).getD j 0 = l.getD j 0 / c := by
    intro l c j hj
    simp [hj]
  have gz : ∀ (f : ℝ → ℝ → ℝ) (l m : List ℝ) (j : Nat), j < l.length → j < m.length →
      (List.zipWith f l m).getD j 0 = f (l.getD j 0) (m.getD j 0) := by
    intro f l m j hj hm
    simp [List.getElem?_zipWith, hj, hm]
  unfold polynomial
  rw [if_neg (by simp [h1, h2, h3, h4, h5]), hf, hl]
  dsimp only
  rw [if_neg hD', init_table]
  have e1 : (first - first) / (last - first) = 0 := by simp
  have e2 : (last - first) / (last - first) = 1 := div_self hD'
  have e3 : (2.5 : ℝ) = 5 / 2 := by norm_num
  have e4 : (0.5 : ℝ) = 1 / 2 := by norm_num
  refine ⟨_, rfl, rfl, rfl, rfl, rfl, rfl, by simp [table], by simp [table], by simp [table],
    ?_, ?_, ?_, ?_, ?_, ?_⟩
  all_goals
    simp only [table, List.head?_map, List.getLast?_map, hf, hl, Option.map_some, Option.some.injEq, e1, e2,
      e3, e4]
    refine rowext _ _ (by simp [h1, h2, h3, h4, h5]) fun j hj => ?_
    first
    | rw [gm _ _ _ (by omega)]; ring
    | rw [gz _ _ _ _ (by omega) (by omega)]; ring
    | ring

/-- The conditions under which one row continues another: both are zero, or they differ little. -/
def Close (v w : List ℝ) : Prop :=
  ((∀ x ∈ v, |x| ≤ 1 / 10 ^ 12) ∧ ∀ x ∈ w, |x| ≤ 1 / 10 ^ 12) ∨
    (¬(∀ x ∈ v, |x| ≤ 1 / 10 ^ 12) ∧ ¬(∀ x ∈ w, |x| ≤ 1 / 10 ^ 12) ∧
      (List.zipWith (fun a b => (a - b) ^ 2) v w).sum ≤
        1 / 10 ^ 24 * min (v.map (· ^ 2)).sum (w.map (· ^ 2)).sum)

theorem isZero_iff (v : List ℝ) : isZero v = true ↔ ∀ x ∈ v, |x| ≤ 1 / 10 ^ 12 := by
  simp [isZero]

theorem isApprox_iff (v w : List ℝ) : isApprox v w = true ↔
    (List.zipWith (fun a b => (a - b) ^ 2) v w).sum ≤
      1 / 10 ^ 24 * min (v.map (· ^ 2)).sum (w.map (· ^ 2)).sum := by
  have e : ((1 : ℝ) / 10 ^ 12) ^ 2 = 1 / 10 ^ 24 := by norm_num
  simp only [isApprox, decide_eq_true_eq, e, pow_two]

theorem continues_iff {a b : Arr2 ℝ} {v w : List ℝ} (ha : a.rows.getLast? = some v)
    (hb : b.rows.head? = some w) : continues a b = true ↔ Close v w := by
  unfold continues Close
  rw [ha, hb]
  dsimp only
  rw [← isZero_iff, ← isZero_iff, ← isApprox_iff]
  cases isZero v <;> cases isZero w <;> simp

theorem close_refl (v : List ℝ) : Close v v := by
  by_cases h : ∀ x ∈ v, |x| ≤ 1 / 10 ^ 12
  · exact .inl ⟨h, h⟩
  · refine .inr ⟨h, h, ?_⟩
    have : List.zipWith (fun a b : ℝ => (a - b) ^ 2) v v = List.replicate v.length 0 := by
      clear h
      induction v with
      | nil => rfl
      | cons a v ih => simp [List.replicate_succ, ih]
    rw [this, min_self, List.sum_replicate, smul_zero]
    refine mul_nonneg (by positivity) ?_
    exact List.sum_nonneg (by simp; intros; positivity)

theorem close_zeros {v w : List ℝ} (hv : ∀ x ∈ v, x = 0) (hw : ∀ x ∈ w, x = 0) : Close v w := by
  refine .inl ⟨fun x hx => ?_, fun x hx => ?_⟩
  · rw [hv x hx]; norm_num
  · rw [hw x hx]; norm_num

theorem viapointStep_eq : ∀ {ts : List ℝ} {v : ℝ} {k : Nat}, (∀ i x, i < k → ts[i]? = some x → x < v) →
    (∀ x, ts[k]? = some x → v ≤ x) → k ≤ ts.length → viapointStep ts v = k
  | [], _, k, _, _, h => by
    have : k = 0 := by simpa using h
    subst this; rfl
  | t :: ts, v, 0, _, h2, _ => by
    rw [viapointStep, if_neg (not_lt.mpr (h2 t rfl))]
  | t :: ts, v, k + 1, h1, h2, h3 => by
    rw [viapointStep, if_pos (h1 0 t (by omega) rfl)]
    rw [viapointStep_eq (k := k) (fun i x hi hx => h1 (i + 1) x (by omega) (by simpa using hx))
      (fun x hx => h2 x (by simpa using hx)) (by simpa using h3)]

/-- What can be said about a trajectory through a viapoint: `k` is the time step of the viapoint. -/
structure Through (ts yFrom y yd ydd yTo : List ℝ) (k : Nat) (T1 T2 : ℝ) (t : Trajectory) : Prop where
  times : t.ts = ts
  start : t.ys.rows.head? = some yFrom
  startVel : t.yds.rows.head? = some (List.replicate yFrom.length 0)
  startAcc : t.ydds.rows.head? = some (List.replicate yFrom.length 0)
  via : t.ys.rows[k]? = some y
  viaVel : t.yds.rows[k]? = some (yd.map (· / T1))
  viaAcc : t.ydds.rows[k]? = some (ydd.map (· / T1 ^ 2))
  stop : t.ys.rows.getLast? = some (List.zipWith (fun y a => y - a / 2) yTo ydd)
  stopVel : t.yds.rows.getLast? = some (ydd.map fun a => -a / T2)
  stopAcc : t.ydds.rows.getLast? = some (List.replicate yFrom.length 0)
  /-- the two parts are the polynomials of Python -/
  parts : ∃ p q,
    Verif.Trajectory.fromPolynomial (ts.take (k + 1)) yFrom (List.replicate yFrom.length 0)
      (List.replicate yFrom.length 0) y yd ydd = .ok p ∧
    Verif.Trajectory.fromPolynomial (ts.drop k) y yd ydd yTo (List.replicate yFrom.length 0)
      (List.replicate yFrom.length 0) = .ok q ∧
    t.ys = ⟨yFrom.length, p.ys.rows ++ q.ys.rows.drop 1⟩ ∧
    t.yds = ⟨yFrom.length, p.yds.rows ++ q.yds.rows.drop 1⟩ ∧
    t.ydds = ⟨yFrom.length, p.ydds.rows ++ q.ydds.rows.drop 1⟩ ∧
    t.misc = ⟨0, List.replicate ts.length []⟩

theorem zip_zero (n : Nat) (T : ℝ) : ∀ v : List ℝ, v.length = n →
    List.zipWith (fun v a => (v - a) / T) v (List.replicate n 0) = v.map (· / T) := by
  intro v h
  subst h
  induction v with
  | nil => rfl
  | cons a v ih => simp [List.replicate_succ, ih]

theorem zip_zero' (n : Nat) : ∀ v : List ℝ, v.length = n →
    List.zipWith (fun y a => y - a / 2) v (List.replicate n 0) = v := by
  intro v h
  subst h
  induction v with
  | nil => rfl
  | cons a v ih => simp [List.replicate_succ, ih]

theorem zip_zero'' (n : Nat) (T : ℝ) : ∀ v : List ℝ, v.length = n →
    List.zipWith (fun v a => (v - a) / T) (List.replicate n 0) v = v.map fun a => -a / T := by
  intro v h
  subst h
  induction v with
  | nil => rfl
  | cons a v ih => simp [List.replicate_succ, ih]

/-- The last row of the first part, the rows of the second part but the first. -/
theorem join_rows {α : Type} {l m : List α} {x y : α} (hl : l.getLast? = some x) (hm : m.getLast? = some y)
    (h2 : 2 ≤ m.length) :
    (l ++ m.drop 1)[l.length - 1]? = some x ∧ (l ++ m.drop 1).getLast? = some y ∧
      (l ++ m.drop 1).head? = l.head? := by
  have hne : l ≠ [] := by rintro rfl; simp at hl
  have hpos := List.length_pos_iff.mpr hne
  refine ⟨?_, ?_, ?_⟩
  · rw [List.getElem?_append_left (by omega), ← List.getLast?_eq_getElem?, hl]
  · rw [List.getLast?_append, List.getLast?_drop, if_neg (by omega), hm]
    rfl
  · rw [List.head?_append]
    cases l with
    | nil => exact absurd rfl hne
    | cons a l => rfl

/-- C72, trajectories through a viapoint: they are returned if and only if the velocities and
accelerations of the two parts agree; their times are the given ones, and they pass through the viapoint. Missing
compared to the full claim: requested velocities are divided by the duration of the first part, accelerations by
its square, and must be the same after division by the duration of the second part; the requested acceleration
moves the end. -/
theorem C72_viapoint_partial {ts yFrom y yd ydd yTo : List ℝ} {tv first tk last : ℝ} {k : Nat}
    (hi : Increasing ts) (hy : y.length = yFrom.length) (hyd : yd.length = yFrom.length)
    (hydd : ydd.length = yFrom.length) (hto : yTo.length = yFrom.length) (h0 : 0 < k)
    (h1 : k + 1 < ts.length) (hb : ∀ i x, i < k → ts[i]? = some x → x < tv) (hfirst : ts.head? = some first)
    (hk : ts[k]? = some tk) (hv : tv ≤ tk) (hlast : ts.getLast? = some last) :
    ((∃ t, viapoint ts yFrom (y ++ yd ++ ydd) tv yTo = .ok t) ↔
      Close (yd.map (· / (tk - first))) (yd.map (· / (last - tk))) ∧
      Close (ydd.map (· / (tk - first) ^ 2)) (ydd.map (· / (last - tk) ^ 2))) ∧
    (∀ t, viapoint ts yFrom (y ++ yd ++ ydd) tv yTo = .ok t →
      Through ts yFrom y yd ydd yTo k (tk - first) (last - tk) t) ∧
    ((∀ t, viapoint ts yFrom (y ++ yd ++ ydd) tv yTo ≠ .ok t) →
      viapoint ts yFrom (y ++ yd ++ ydd) tv yTo = .error .assertion) := by
  have hstep : viapointStep ts tv = k := by
    refine viapointStep_eq hb (fun x hx => ?_) (by omega)
    rw [hk] at hx
    cases hx
    exact hv
  have f1 : (ts.take (k + 1)).head? = some first := by
    rw [List.head?_take, if_neg (by omega), hfirst]
  have l1 : (ts.take (k + 1)).getLast? = some tk := by
    rw [List.getLast?_take, if_neg (by omega), Nat.add_sub_cancel, hk]; rfl
  have f2 : (ts.drop k).head? = some tk := by rw [List.head?_drop, hk]
  have l2 : (ts.drop k).getLast? = some last := by rw [List.getLast?_drop, if_neg (by omega), hlast]
  have d1 : first < tk := by
    have a : ts[0]? = some first := by rw [← List.head?_eq_getElem?, hfirst]
    obtain ⟨i0, e0⟩ := List.getElem?_eq_some_iff.mp a
    obtain ⟨i1, e1⟩ := List.getElem?_eq_some_iff.mp hk
    rw [← e0, ← e1]
    exact List.pairwise_iff_getElem.mp hi _ _ _ _ h0
  have d2 : tk < last := by
    have a : ts[ts.length - 1]? = some last := by rw [← List.getLast?_eq_getElem?, hlast]
    obtain ⟨i0, e0⟩ := List.getElem?_eq_some_iff.mp a
    obtain ⟨i1, e1⟩ := List.getElem?_eq_some_iff.mp hk
    rw [← e0, ← e1]
    exact List.pairwise_iff_getElem.mp hi _ _ _ _ (by omega)
  have z0 : (List.replicate yFrom.length (0 : ℝ)).length = yFrom.length := by simp
  obtain ⟨t1, p1, a1, b1, c1, c1', m1, n1, n2, n3, q1, q2, q3, q4, q5, q6⟩ :=
    polynomial_ends f1 l1 d1.ne' z0 z0 hy hyd hydd
  obtain ⟨t2, p2, a2, b2, c2, c2', m2, n4, n5, n6, r1, r2, r3, r4, r5, r6⟩ :=
    polynomial_ends (y0 := y) (v0 := yd) (a0 := ydd) (y1 := yTo)
      (v1 := List.replicate yFrom.length 0) (a1 := List.replicate yFrom.length 0) f2 l2 d2.ne'
      (by omega) (by omega) (by omega) (by simp [hy]) (by simp [hy])
  rw [zip_zero' _ _ hy] at q4
  rw [zip_zero _ _ _ hyd] at q5
  rw [zip_zero'' _ _ _ hydd] at r5
  have rz : ∀ c : ℝ, (List.replicate yFrom.length (0 : ℝ)).map (· / c) = List.replicate yFrom.length 0 := by
    simp
  rw [rz] at q2 q3 r6
  have hrun : viapoint ts yFrom (y ++ yd ++ ydd) tv yTo = append t2 t1 := by
    unfold viapoint
    dsimp only
    rw [if_neg (by omega), if_neg (by simp; omega), hstep, if_neg (by omega)]
    have e1 : (y ++ yd ++ ydd).take yFrom.length = y := by
      rw [List.append_assoc, ← hy, List.take_left]
    have e2 : ((y ++ yd ++ ydd).drop yFrom.length).take yFrom.length = yd := by
      rw [List.append_assoc, ← hy, List.drop_left, hy, ← hyd, List.take_left]
    have e3 : ((y ++ yd ++ ydd).drop (2 * yFrom.length)).take yFrom.length = ydd := by
      rw [show 2 * yFrom.length = (y ++ yd).length by simp; omega, List.drop_left, ← hydd, List.take_length]
    rw [e1, e2, e3, p1]
    change (polynomial _ _ _ _ _ _ _ >>= _) = _
    rw [p2]
    rfl
  classical
  have hts : t1.ts ++ t2.ts.drop 1 = ts := by
    rw [a1, a2, List.drop_drop, List.take_append_drop]
  have happ : append t2 t1 =
      if Close (yd.map (· / (tk - first))) (yd.map (· / (last - tk))) ∧
        Close (ydd.map (· / (tk - first) ^ 2)) (ydd.map (· / (last - tk) ^ 2)) then
      .ok ⟨ts, join t1.ys t2.ys, join t1.yds t2.yds, join t1.ydds t2.ydds,
        ⟨0, List.replicate ts.length []⟩⟩
      else .error .assertion := by
    unfold append
    rw [if_neg (by rw [b1, b2]; simpa using hy.symm), a1, a2, l1, f2]
    dsimp only
    rw [if_neg (by simp)]
    have k1 : continues t1.ys t2.ys = true := (continues_iff q4 r1).mpr (close_refl _)
    have k2 := continues_iff q5 r2
    have k3 := continues_iff q6 r3
    rw [k1, Bool.true_and]
    by_cases hc : Close (yd.map (· / (tk - first))) (yd.map (· / (last - tk))) ∧
        Close (ydd.map (· / (tk - first) ^ 2)) (ydd.map (· / (last - tk) ^ 2))
    · rw [if_pos hc, if_pos (by rw [Bool.and_eq_true, k2, k3]; exact hc)]
      have g1 : t1.dimMisc = 0 := by rw [dimMisc, m1]
      have g2 : t2.dimMisc = 0 := by rw [dimMisc, m2]
      have g3 : t1.length + t2.length - 1 = ts.length := by
        rw [length, length, a1, a2]
        simp
        omega
      rw [g1, g2, if_neg (by simp), if_pos rfl, g3, ← a1, ← a2, hts]
    · rw [if_neg hc, if_neg (by rw [Bool.and_eq_true, k2, k3]; exact hc)]
  rw [hrun, happ]
  by_cases hc : Close (yd.map (· / (tk - first))) (yd.map (· / (last - tk))) ∧
      Close (ydd.map (· / (tk - first) ^ 2)) (ydd.map (· / (last - tk) ^ 2))
  · rw [if_pos hc]
    refine ⟨⟨fun _ => hc, fun _ => ⟨_, rfl⟩⟩, ?_, fun h => absurd rfl (h _)⟩
    rintro t ⟨⟩
    have len1 : (ts.take (k + 1)).length - 1 = k := by simp; omega
    have len2 : 2 ≤ (ts.drop k).length := by simp; omega
    obtain ⟨x1, x2, x3⟩ := join_rows q4 r4 (by rw [n4]; exact len2)
    obtain ⟨x4, x5, x6⟩ := join_rows q5 r5 (by rw [n5]; exact len2)
    obtain ⟨x7, x8, x9⟩ := join_rows q6 r6 (by rw [n6]; exact len2)
    rw [n1, len1] at x1
    rw [n2, len1] at x4
    rw [n3, len1] at x7
    obtain ⟨p, hp, rfl⟩ := ((C72_polynomial _ _ _ _ _ _ _).1 t1).mp p1
    obtain ⟨q, hq, rfl⟩ := ((C72_polynomial _ _ _ _ _ _ _).1 t2).mp p2
    exact ⟨rfl, x3.trans q1, x6.trans q2, x9.trans q3, x1, x4, x7, x2, x5, x8,
      p, q, hp, hq, congrArg (fun c => (⟨c, _⟩ : Arr2 ℝ)) b1, congrArg (fun c => (⟨c, _⟩ : Arr2 ℝ)) c1,
      congrArg (fun c => (⟨c, _⟩ : Arr2 ℝ)) c1', rfl⟩
  · rw [if_neg hc]
    exact ⟨⟨fun ⟨_, h⟩ => (nomatch h), fun h => absurd h hc⟩, fun _ h => (nomatch h), fun _ => rfl⟩

/-- C72 for viapoints, as claimed. -/
def C72_statement : Prop :=
  ∀ (ts yFrom y yd ydd yTo : List ℝ) (tv : ℝ) (k : Nat), Increasing ts → y.length = yFrom.length →
    yd.length = yFrom.length → ydd.length = yFrom.length → yTo.length = yFrom.length → 0 < k →
    k + 1 < ts.length → (∀ i x, i < k → ts[i]? = some x → x < tv) →
    (∀ x, ts[k]? = some x → tv ≤ x) →
    ∃ t, viapoint ts yFrom (y ++ yd ++ ydd) tv yTo = .ok t ∧ t.ts = ts ∧ t.ys.rows.head? = some yFrom ∧
      t.ys.rows[k]? = some y ∧ t.yds.rows[k]? = some yd ∧ t.ydds.rows[k]? = some ydd ∧
      t.ys.rows.getLast? = some yTo

/-- C72 for viapoints without velocity and acceleration. -/
theorem C72_viapoint_rest_partial {ts yFrom y yTo : List ℝ} {tv : ℝ} {k : Nat}
    (hi : Increasing ts) (hy : y.length = yFrom.length) (hto : yTo.length = yFrom.length) (h0 : 0 < k)
    (h1 : k + 1 < ts.length) (hb : ∀ i x, i < k → ts[i]? = some x → x < tv)
    (hv : ∀ x, ts[k]? = some x → tv ≤ x) :
    ∃ t, viapoint ts yFrom (y ++ List.replicate yFrom.length 0 ++ List.replicate yFrom.length 0) tv yTo = .ok t ∧
      t.ts = ts ∧ t.ys.rows.head? = some yFrom ∧ t.ys.rows[k]? = some y ∧
      t.yds.rows[k]? = some (List.replicate yFrom.length 0) ∧
      t.ydds.rows[k]? = some (List.replicate yFrom.length 0) ∧ t.ys.rows.getLast? = some yTo ∧
      t.yds.rows.getLast? = some (List.replicate yFrom.length 0) := by
  obtain ⟨first, hf⟩ : ∃ a, ts.head? = some a := by
    cases ts with
    | nil => simp at h1
    | cons a _ => exact ⟨a, rfl⟩
  obtain ⟨last, hl⟩ : ∃ a, ts.getLast? = some a := by
    rw [List.getLast?_eq_getElem?]
    exact ⟨_, List.getElem?_eq_getElem (by omega)⟩
  have hk : ts[k]? = some ts[k] := List.getElem?_eq_getElem (by omega)
  obtain ⟨c1, c2, -⟩ := C72_viapoint_partial hi hy (yd := List.replicate yFrom.length 0)
    (ydd := List.replicate yFrom.length 0) (by simp) (by simp) hto h0 h1 hb hf hk (hv _ hk) hl
  obtain ⟨t, ht⟩ := c1.mpr ⟨close_zeros (by simp) (by simp), close_zeros (by simp) (by simp)⟩
  have th := c2 t ht
  have e1 := th.viaVel
  have e2 := th.viaAcc
  have e3 := th.stop
  have e4 := th.stopVel
  rw [zip_zero' _ _ hto] at e3
  exact ⟨t, ht, th.times, th.start, th.via, by simpa using e1, by simpa using e2, e3, by simpa using e4⟩

/-- C72 for viapoints halfway: requested velocities are scaled. -/
theorem C72_viapoint_halfway_partial {ts yFrom y yd ydd yTo : List ℝ} {tv first tk last : ℝ} {k : Nat}
    (hi : Increasing ts) (hy : y.length = yFrom.length) (hyd : yd.length = yFrom.length)
    (hydd : ydd.length = yFrom.length) (hto : yTo.length = yFrom.length) (h0 : 0 < k)
    (h1 : k + 1 < ts.length) (hb : ∀ i x, i < k → ts[i]? = some x → x < tv) (hfirst : ts.head? = some first)
    (hk : ts[k]? = some tk) (hv : tv ≤ tk) (hlast : ts.getLast? = some last) (hh : last - tk = tk - first) :
    ∃ t, viapoint ts yFrom (y ++ yd ++ ydd) tv yTo = .ok t := by
  refine (C72_viapoint_partial hi hy hyd hydd hto h0 h1 hb hfirst hk hv hlast).1.mpr ?_
  rw [hh]
  exact ⟨close_refl _, close_refl _⟩

/-- C72 fails: a viapoint with velocity 1 that is not halfway makes an assertion fail. -/
theorem C72_refuted : ¬ C72_statement := by
  intro H
  have hb : ∀ (i : Nat) (x : ℝ), i < 1 → ([0, 1, 3] : List ℝ)[i]? = some x → x < 1 := by
    intro i x hi hx
    obtain rfl : i = 0 := by omega
    cases hx
    norm_num
  have hv : ∀ x : ℝ, ([0, 1, 3] : List ℝ)[1]? = some x → 1 ≤ x := by
    rintro x ⟨⟩
    exact le_rfl
  have hi : Increasing ([0, 1, 3] : List ℝ) := by simp [Increasing]
  obtain ⟨t, ht, -⟩ := H [0, 1, 3] [0] [0] [1] [0] [0] 1 1 hi rfl rfl rfl rfl (by omega) (by simp) hb hv
  have h := (C72_viapoint_partial (y := [0]) (yd := [1]) (ydd := [0]) hi rfl rfl rfl (yTo := [0]) (yFrom := [0])
    rfl (by omega) (by simp) hb (first := 0) rfl (tk := 1) rfl le_rfl (last := 3) rfl).1.mp ⟨t, ht⟩
  obtain ⟨h, -⟩ := h
  rcases h with ⟨h, -⟩ | ⟨-, -, h⟩
  · have := h 1 (by norm_num)
    norm_num at this
  · norm_num at h

/-- "C++ and Python make the same trajectory through a viapoint." -/
def C72_same_viapoint_statement : Prop :=
  ∀ (ts yFrom via yTo : List ℝ) (tv : ℝ) (t : Trajectory) (p : Verif.Trajectory ℝ),
    viapoint ts yFrom via tv yTo = .ok t →
    Verif.Trajectory.fromViapointPolynomial ts yFrom via tv yTo = .ok p → t.ys = p.ys

theorem fromPolynomial_ys {ts y0 v0 a0 y1 v1 a1 : List ℝ} {p : Verif.Trajectory ℝ} {first last : ℝ}
    (h : Verif.Trajectory.fromPolynomial ts y0 v0 a0 y1 v1 a1 = .ok p) (hf : ts.head? = some first)
    (hl : ts.getLast? = some last) : p.ys.rows = ts.map fun t => (List.range y0.length).map fun j =>
      Verif.Trajectory.polyPos (Verif.Trajectory.polyCoeffs (y0.getD j 0) (v0.getD j 0) (a0.getD j 0)
        (y1.getD j 0) (v1.getD j 0) (a1.getD j 0)) ((t - first) / (last - first)) := by
  unfold Verif.Trajectory.fromPolynomial at h
  by_cases hs : v0.length ≠ y0.length ∨ a0.length ≠ y0.length ∨ y1.length ≠ y0.length ∨
      v1.length ≠ y0.length ∨ a1.length ≠ y0.length
  · rw [if_pos hs] at h; cases h
  · rw [if_neg hs, hf, hl] at h
    dsimp only at h
    by_cases hD : last - first = 0
    · rw [if_pos hD] at h; cases h
    · rw [if_neg hD, Verif.Trajectory.init_two (by simp) (by simp [Arr2.shape]) (by simp [Arr2.shape])
        (by simp)] at h
      cases h
      rfl

/-- They do not: Python is at the viapoint one sample earlier. -/
theorem C72_same_viapoint_refuted : ¬ C72_same_viapoint_statement := by
  intro H
  have hi : Increasing ([0, 1, 2, 3] : List ℝ) := by simp [Increasing]; norm_num
  have hb : ∀ (i : Nat) (x : ℝ), i < 2 → ([0, 1, 2, 3] : List ℝ)[i]? = some x → x < 2 := by
    intro i x hi hx
    obtain rfl | rfl : i = 0 ∨ i = 1 := by omega
    · cases hx; norm_num
    · cases hx; norm_num
  obtain ⟨t, ht, -⟩ := C72_viapoint_rest_partial (yFrom := [0]) (y := [1]) (yTo := [0]) (tv := 2) hi rfl rfl
    (k := 2) (by omega) (by simp) hb (by rintro x ⟨⟩; exact le_rfl)
  have th := (C72_viapoint_partial (yFrom := [0]) (y := [1]) (yd := [0]) (ydd := [0]) (yTo := [0]) (tv := 2) hi
    rfl rfl rfl rfl (k := 2) (by omega) (by simp) hb (first := 0) rfl (tk := 2) rfl le_rfl (last := 3) rfl).2.1
    t ht
  obtain ⟨p, q, hp, hq, e, -⟩ := th.parts
  have hp' : p.ys.rows[1]? = some [1 / 2] := by
    rw [fromPolynomial_ys hp (first := 0) rfl (last := 2) rfl]
    simp [Verif.Trajectory.polyPos, Verif.Trajectory.polyCoeffs]
    norm_num
  obtain ⟨r, hr, -, -, -, -, h2⟩ := Verif.Trajectory.C66_viapoint_partial (0 : ℝ) 1 2 4 2 [0] [1] [0] [0] [0] one_pos
    le_rfl le_rfl (by norm_num) (by norm_num) rfl rfl rfl rfl
  have h3 := (h2 0 (by simp)).2.1.1
  have eq : equidistant (0 : ℝ) 1 4 = [0, 1, 2, 3] := by
    simp [equidistant, List.range_succ]
  rw [eq] at hr
  have := H [0, 1, 2, 3] [0] [1, 0, 0] [0] 2 t r ht hr
  rw [e] at this
  rw [← this, entry] at h3
  change ((p.ys.rows ++ q.ys.rows.drop 1)[1]?.bind _) = some 1 at h3
  rw [List.getElem?_append_left (List.getElem?_eq_some_iff.mp hp').1, hp'] at h3
  norm_num at h3

/-- The hypotheses of the theorems for viapoints can be met. -/
example : ∃ t, viapoint [0, 1, 3] [0, 0] [1, 2, 0, 0, 0, 0] 1 [5, 6] = .ok t ∧ t.ys.rows[1]? = some [1, 2] := by
  obtain ⟨t, h1, -, -, h2, -⟩ := C72_viapoint_rest_partial (ts := [0, 1, 3]) (yFrom := [0, 0]) (y := [1, 2])
    (yTo := [5, 6]) (tv := 1) (k := 1) (by simp [Increasing]) rfl rfl (by omega) (by simp)
    (by
      intro i x hi hx
      obtain rfl : i = 0 := by omega
      cases hx
      norm_num) (by rintro x ⟨⟩; exact le_rfl)
  exact ⟨t, h1, h2⟩

example : ∃ t, viapoint [0, 1, 2] [0] [1, 7, 0] 1 [5] = .ok t := by
  exact C72_viapoint_halfway_partial (ts := [0, 1, 2]) (yFrom := [0]) (y := [1]) (yd := [7]) (ydd := [0])
    (yTo := [5]) (tv := 1) (k := 1) (by simp [Increasing]) rfl rfl rfl rfl (by omega) (by simp)
    (by
      intro i x hi hx
      obtain rfl : i = 0 := by omega
      cases hx
      norm_num) (first := 0) rfl (tk := 1) rfl le_rfl (last := 2) rfl (by norm_num)

end Trajectory

end Cpp

end Verif
