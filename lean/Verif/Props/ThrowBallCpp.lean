import Verif.Proofs.ThrowCpp
import Verif.Props.ThrowBall

/-
Throwing a ball in C++ (C79): the rows that robotExecuteDmp and robotExecuteTrajectory write, and those of
Python.
-/

set_option autoImplicit false

namespace Verif.Cpp

open Spec
open ThrowBall (clock motion)
open Simulator (row)
open Verif.Dmp (Change)

/-! ### Dmps -/

theorem duration_eq (c : Dmp) : (1.5 : ℝ) * c.tau / 0.01 = 150 * c.tau := by
  rw [div_eq_iff (by norm_num)]
  ring

theorem robotExecuteDmp_eq {c : Dmp} (h : 0 ≤ c.tau) : robotExecuteDmp c = (do
    let ((x, xd), s) ← c.integrateStart
    robotDmpLoop 0.01 ⌊150 * c.tau⌋₊ x xd s Simulator.init) := by
  unfold robotExecuteDmp
  simp only [duration_eq]
  rw [if_neg (by
    have : (0 : ℤ) ≤ ⌊150 * c.tau⌋ := Int.floor_nonneg.mpr (by positivity)
    omega)]

theorem executeLoop_length {dt : ℝ} : ∀ {n : Nat} {x xd : List ℝ} {s : Dmp} {ps : List (List ℝ × List ℝ × List ℝ)},
    Dmp.executeLoop dt n x xd s = .ok ps → ps.length = n := by
  intro n
  induction n with
  | zero => intro x xd s ps h; cases h; rfl
  | succ n ih =>
    intro x xd s ps h
    unfold Dmp.executeLoop at h
    obtain ⟨p, -, h⟩ := Dmp.bind_inv h
    obtain ⟨⟨⟨x', xd'⟩, s'⟩, -, h⟩ := Dmp.bind_inv h
    obtain ⟨rest, e, h⟩ := Dmp.bind_inv h
    cases h
    simp [ih e]

/-- C79: if the Dmp can be executed, there is a row for each hundredth of a second, with the time after the
step, the positions, velocities and accelerations of the Dmp, those of a ball that is held, flies and lies
on the floor, and whether the ball is in the hand after the step. -/
theorem C79_dmp (c : Dmp) (ht : 0 ≤ c.tau) (ps : List (List ℝ × List ℝ × List ℝ))
    (h : Dmp.execute 0.01 ⌊150 * c.tau⌋₊ c = .ok ps) (hp : ∀ p ∈ ps, Planar p) :
    ∃ rows, robotExecuteDmp c = .ok rows ∧ rows.length = ⌊150 * c.tau⌋₊ ∧ ∃ ball bvel bacc,
      (∀ i, i < rows.length → ∃ flag : ℝ, rows.getD i [] = [((i : ℝ) + 1) * 0.01] ++
        (ps.getD i ([], [], [])).1 ++ (ps.getD i ([], [], [])).2.1 ++ (ps.getD i ([], [], [])).2.2 ++
        [(ball i).1, (ball i).2, (bvel i).1, (bvel i).2, (bacc i).1, (bacc i).2, flag] ∧
        (flag = 1 ∧ i ≤ 60 ∨ flag = 0 ∧ 60 < i)) ∧
      ThrownFully rows.length (-0.3) (fun _ => 0.01) clock (fun i => pair (ps.getD i ([], [], [])).1)
        (fun i => pair (ps.getD i ([], [], [])).2.1) (fun i => pair (ps.getD i ([], [], [])).2.2) ball bvel bacc := by
  rw [robotExecuteDmp_eq ht]
  unfold Dmp.execute at h
  obtain ⟨⟨⟨x, xd⟩, s⟩, e1, h⟩ := Dmp.bind_inv h
  rw [e1, Dmp.ok_bind]
  have hl : ps.length = ⌊150 * c.tau⌋₊ := executeLoop_length h
  have c0 : clock 0 = 0 := by simp [clock]
  obtain ⟨rows, e, hr⟩ := robotDmpLoop_rows (clock := clock) (P := fun i => ps.getD i ([], [], [])) 0.01
    (by norm_num) (fun j => by unfold clock; push_cast; ring) _ 0 x xd s Simulator.init ps
    (Simulator.init_inv c0) h (fun j hj => by
      rw [Nat.zero_add]
      refine ⟨rfl, ?_⟩
      rw [getD_lt (by omega)]
      exact hp _ (List.getElem_mem _))
  obtain ⟨h1, ball, bvel, bacc, h2, h3⟩ := thrown_of_rows hr
  refine ⟨rows, e, h1, ball, bvel, bacc, fun i hi => ?_, by rw [h1]; exact h3⟩
  classical
  refine ⟨if ∀ j, j ≤ i → clock j ≤ 0.6 then 1 else 0, ?_, ?_⟩
  · rw [h2 i (by omega)]
    unfold row clock
    push_cast
    congr
  · have r61 := ThrowBall.released_61
    by_cases hi : i ≤ 60
    · exact .inl ⟨if_pos fun j hj => r61.2 j (by omega), hi⟩
    · exact .inr ⟨if_neg fun hc => absurd r61.1 (not_lt.mpr (hc 61 (by omega))), by omega⟩

/-- C79: a negative duration violates an assertion. -/
theorem C79_negative (c : Dmp) (h : c.tau < 0) : robotExecuteDmp c = .error .assertion := by
  unfold robotExecuteDmp
  simp only [duration_eq]
  rw [if_pos (by
    have h1 : (150 : ℝ) * c.tau < (0 : ℤ) := by push_cast; linarith
    exact Int.floor_lt.mpr h1)]
  rfl

theorem getState_size {dt : ℝ} {p : List ℝ × List ℝ × List ℝ} {sim : Simulator} (h : p.1.length ≠ 2) :
    (do let sim ← sim.integrateStep dt p; sim.getState) = .error .assertion := by
  have key : ∀ s : Simulator, s.yEndeff = p.1 → s.getState = .error .assertion := fun s hs => by
    unfold Simulator.getState
    rw [if_neg fun hc => h (hs ▸ hc.1)]
  unfold Simulator.integrateStep
  simp only
  by_cases hb : sim.ballInHand = true
  · rw [if_pos hb]
    refine key _ ?_
    by_cases ht : sim.time > 0.6
    · rw [if_pos ht]
    · rw [if_neg ht]
  · rw [if_neg hb]
    unfold Simulator.fly
    simp only
    split_ifs
    · rfl
    · exact key _ rfl
    · exact key _ rfl

/-- C79: what is not in the plane is rejected, in the first row. -/
theorem C79_wrong_size (c : Dmp) (hn : 1 ≤ ⌊150 * c.tau⌋₊) (r : (List ℝ × List ℝ) × Dmp)
    (hs : c.integrateStart = .ok r) (p : List ℝ × List ℝ × List ℝ) (hp : r.2.posVelAcc r.1.1 r.1.2 = .ok p)
    (hl : p.1.length ≠ 2) : robotExecuteDmp c = .error .assertion := by
  have ht : 0 ≤ c.tau := by
    by_contra hc
    rw [Nat.floor_of_nonpos (by linarith [not_le.mp hc])] at hn
    omega
  obtain ⟨⟨x, xd⟩, s⟩ := r
  rw [robotExecuteDmp_eq ht, hs, Dmp.ok_bind]
  obtain ⟨n, hn'⟩ : ∃ n, ⌊150 * c.tau⌋₊ = n + 1 := ⟨_, (Nat.sub_add_cancel hn).symm⟩
  simp only at hp ⊢
  rw [hn']
  unfold robotDmpLoop
  rw [hp, Dmp.ok_bind]
  have := getState_size (dt := 0.01) (sim := Simulator.init) hl
  cases e : Simulator.integrateStep 0.01 p Simulator.init with
  | error err =>
    rw [e] at this
    cases this
    rfl
  | ok sim =>
    rw [e, Dmp.ok_bind] at this
    rw [Dmp.ok_bind, this]
    rfl

/-! ### Trajectories -/

/-- The lengths of the steps: from the previous time, or as the second for the first. -/
noncomputable def stepLength (ts : List ℝ) (i : Nat) : ℝ :=
  if i = 0 then ts.getD 1 0 - ts.getD 0 0 else ts.getD i 0 - ts.getD (i - 1) 0

/-- The time of the simulator before a step. -/
noncomputable def elapsed (ts : List ℝ) (i : Nat) : ℝ := ∑ j ∈ Finset.range i, stepLength ts j

theorem elapsed_eq (ts : List ℝ) (i : Nat) :
    elapsed ts (i + 1) = (ts.getD 1 0 - ts.getD 0 0) + (ts.getD i 0 - ts.getD 0 0) := by
  induction i with
  | zero => simp [elapsed, stepLength]
  | succ i ih =>
    unfold elapsed at ih ⊢
    rw [Finset.sum_range_succ, ih]
    unfold stepLength
    rw [if_neg (by omega), Nat.add_sub_cancel]
    ring

/-- C79: for a planar trajectory with at least two samples and increasing times, there is a row for each
sample, as for a Dmp. -/
theorem C79_trajectory (t : Trajectory) (h2 : 2 ≤ t.ts.length) (hts : t.ts.Pairwise (· < ·))
    (hy : t.ys.rows.length = t.ts.length) (hyd : t.yds.rows.length = t.ts.length)
    (hydd : t.ydds.rows.length = t.ts.length)
    (py : ∀ r ∈ t.ys.rows, r.length = 2) (pyd : ∀ r ∈ t.yds.rows, r.length = 2)
    (pydd : ∀ r ∈ t.ydds.rows, r.length = 2) :
    ∃ rows, robotExecuteTrajectory t = .ok rows ∧ rows.length = t.ts.length ∧ ∃ ball bvel bacc,
      (∀ i, i < t.ts.length → ∃ flag : ℝ, rows.getD i [] =
        [(t.ts.getD 1 0 - t.ts.getD 0 0) + (t.ts.getD i 0 - t.ts.getD 0 0)] ++
        t.ys.rows.getD i [] ++ t.yds.rows.getD i [] ++ t.ydds.rows.getD i [] ++
        [(ball i).1, (ball i).2, (bvel i).1, (bvel i).2, (bacc i).1, (bacc i).2, flag] ∧
        (flag = 1 ∧ (∀ j, j ≤ i → elapsed t.ts j ≤ 0.6) ∨ flag = 0 ∧ ∃ r, r ≤ i ∧ Released (elapsed t.ts) r)) ∧
      ThrownFully t.ts.length (-0.3) (stepLength t.ts) (elapsed t.ts) (fun i => pair (t.ys.rows.getD i []))
        (fun i => pair (t.yds.rows.getD i [])) (fun i => pair (t.ydds.rows.getD i [])) ball bvel bacc := by
  classical
  have hzl : (t.ts.zip (t.ys.rows.zip (t.yds.rows.zip t.ydds.rows))).length = t.ts.length := by
    simp only [List.length_zip]
    omega
  have hz : ∀ j, j < t.ts.length → (t.ts.zip (t.ys.rows.zip (t.yds.rows.zip t.ydds.rows))).getD j (0, [], [], []) =
      (t.ts.getD j 0, t.ys.rows.getD j [], t.yds.rows.getD j [], t.ydds.rows.getD j []) := by
    intro j hj
    rw [getD_lt (by omega), getD_lt hj, getD_lt (by omega), getD_lt (by omega), getD_lt (by omega)]
    simp
  have hinc : ∀ i j, i < j → j < t.ts.length → t.ts.getD i 0 < t.ts.getD j 0 := by
    intro i j hij hj
    rw [getD_lt hj, getD_lt (by omega)]
    exact List.pairwise_iff_getElem.mp hts i j (by omega) hj hij
  have hpos : ∀ j, j < t.ts.length → stepLength t.ts j ≠ 0 := by
    intro j hj
    unfold stepLength
    by_cases h0 : j = 0
    · rw [if_pos h0]
      exact (sub_pos.mpr (hinc 0 1 (by omega) (by omega))).ne'
    · rw [if_neg h0]
      exact (sub_pos.mpr (hinc (j - 1) j (by omega) hj)).ne'
  obtain ⟨rows, e, hr⟩ := robotTrajectoryLoop_rows (dt := stepLength t.ts) (clock := elapsed t.ts)
    (P := fun i => (t.ys.rows.getD i [], t.yds.rows.getD i [], t.ydds.rows.getD i []))
    (fun j => Finset.sum_range_succ _ _) (t.ts.zip (t.ys.rows.zip (t.yds.rows.zip t.ydds.rows))) 0
    (t.ts.getD 1 0 - t.ts.getD 0 0) none Simulator.init (Simulator.init_inv (by simp [elapsed]))
    (fun j hj => by
      rw [hzl] at hj
      rw [Nat.zero_add, hz j hj]
      refine ⟨rfl, ⟨?_, ?_, ?_⟩, hpos j hj⟩
      · change (t.ys.rows.getD j []).length = 2
        rw [getD_lt (by omega)]
        exact py _ (List.getElem_mem _)
      · change (t.yds.rows.getD j []).length = 2
        rw [getD_lt (by omega)]
        exact pyd _ (List.getElem_mem _)
      · change (t.ydds.rows.getD j []).length = 2
        rw [getD_lt (by omega)]
        exact pydd _ (List.getElem_mem _))
    (fun _ => by simp [stepLength])
    (fun j hj => by
      rw [hzl] at hj
      rw [hz _ hj, hz j (by omega), Nat.zero_add]
      unfold stepLength
      rw [if_neg (by omega), Nat.add_sub_cancel])
  rw [hzl] at hr
  obtain ⟨h1, ball, bvel, bacc, h2', h3⟩ := thrown_of_rows hr
  refine ⟨rows, ?_, h1, ball, bvel, bacc, fun i hi => ?_, h3⟩
  · unfold robotExecuteTrajectory
    match ht : t.ts, h2 with
    | t0 :: t1 :: rest, _ =>
      rw [ht] at e
      exact e
  · refine ⟨if ∀ j, j ≤ i → elapsed t.ts j ≤ 0.6 then 1 else 0, ?_, ?_⟩
    · rw [h2' i hi]
      unfold row
      rw [elapsed_eq]
    · by_cases hh : ∀ j, j ≤ i → elapsed t.ts j ≤ 0.6
      · exact .inl ⟨if_pos hh, hh⟩
      · refine .inr ⟨if_neg hh, ?_⟩
        push Not at hh
        obtain ⟨j, hj, hg⟩ := hh
        have hex : ∃ j, elapsed t.ts j > 0.6 := ⟨j, hg⟩
        exact ⟨Nat.find hex, (Nat.find_min' hex hg).trans hj, Nat.find_spec hex,
          fun m hm => not_lt.mp (Nat.find_min hex hm)⟩

/-- C79: fewer than two samples violate an assertion. -/
theorem C79_trajectory_short (t : Trajectory) (h : t.ts.length < 2) :
    robotExecuteTrajectory t = .error .assertion := by
  unfold robotExecuteTrajectory
  match ht : t.ts, h with
  | [], _ => rfl
  | [_], _ => rfl

/-- C79: a trajectory that is not planar violates an assertion. -/
theorem C79_trajectory_size (t : Trajectory) (hy : t.ys.rows.length = t.ts.length)
    (hyd : t.yds.rows.length = t.ts.length) (hydd : t.ydds.rows.length = t.ts.length)
    (h : ∀ r ∈ t.ys.rows, r.length ≠ 2) : robotExecuteTrajectory t = .error .assertion := by
  by_cases h2 : t.ts.length < 2
  · exact C79_trajectory_short t h2
  unfold robotExecuteTrajectory
  match ht : t.ts, h2 with
  | [], h2 => exact absurd (by simp) h2
  | [_], h2 => exact absurd (by simp) h2
  | t0 :: t1 :: rest, _ =>
    rw [ht] at hy hyd hydd
    match ey : t.ys.rows, hy, eyd : t.yds.rows, hyd, eydd : t.ydds.rows, hydd with
    | y :: ys, _, yd :: yds, _, ydd :: ydds, _ =>
      have hl := h y (by rw [ey]; simp)
      have := getState_size (dt := t1 - t0) (p := (y, yd, ydd)) (sim := Simulator.init) hl
      simp only [List.zip_cons_cons]
      unfold robotTrajectoryLoop
      simp only
      cases e : Simulator.integrateStep (t1 - t0) (y, yd, ydd) Simulator.init with
      | error err =>
        rw [e] at this
        cases this
        rfl
      | ok sim =>
        rw [e, Dmp.ok_bind] at this
        rw [Dmp.ok_bind, this]
        rfl

/-! ### Columns -/

theorem getState_width {s : Simulator} {r : List ℝ} (h : s.getState = .ok r) : r.length = 14 := by
  unfold Simulator.getState at h
  by_cases hs : s.yEndeff.length = 2 ∧ s.ydEndeff.length = 2 ∧ s.yddEndeff.length = 2 ∧
      s.yBall.length = 2 ∧ s.ydBall.length = 2 ∧ s.yddBall.length = 2
  · rw [if_pos hs] at h
    obtain ⟨h1, h2, h3, h4, h5, h6⟩ := hs
    cases h
    simp [h1, h2, h3, h4, h5, h6]
  · rw [if_neg hs] at h
    cases h

/-- C79: a new simulator is at time 0, with arm and ball at the origin, at rest, and the ball in the hand. -/
theorem C79_initial : Simulator.init.getState = .ok (List.replicate 13 0 ++ [1]) ∧ Simulator.init.yFloor = -0.3 := by
  refine ⟨?_, rfl⟩
  unfold Simulator.getState
  rw [if_pos (by simp [Simulator.init, vzeros])]
  simp [Simulator.init, vzeros, List.replicate]

/-- C79: all rows have 14 columns. -/
theorem C79_width (c : Dmp) (rows : List (List ℝ)) (h : robotExecuteDmp c = .ok rows) :
    ∀ r ∈ rows, r.length = 14 := by
  have key : ∀ (n : Nat) (x xd : List ℝ) (s : Dmp) (sim : Simulator) (rows : List (List ℝ)),
      robotDmpLoop 0.01 n x xd s sim = .ok rows → ∀ r ∈ rows, r.length = 14 := by
    intro n
    induction n with
    | zero => intro x xd s sim rows h; cases h; simp
    | succ n ih =>
      intro x xd s sim rows h
      unfold robotDmpLoop at h
      obtain ⟨p, -, h⟩ := Dmp.bind_inv h
      obtain ⟨sim', -, h⟩ := Dmp.bind_inv h
      obtain ⟨row, hrow, h⟩ := Dmp.bind_inv h
      obtain ⟨⟨⟨x', xd'⟩, s'⟩, -, h⟩ := Dmp.bind_inv h
      obtain ⟨rest, hrest, h⟩ := Dmp.bind_inv h
      cases h
      exact List.forall_mem_cons.mpr ⟨getState_width hrow, ih _ _ _ _ _ hrest⟩
  rcases lt_or_ge c.tau 0 with ht | ht
  · rw [C79_negative c ht] at h
    cases h
  · rw [robotExecuteDmp_eq ht] at h
    obtain ⟨⟨⟨x, xd⟩, s⟩, -, h⟩ := Dmp.bind_inv h
    exact key _ _ _ _ _ _ h

/-- C79: this is also true for trajectories. -/
theorem C79_trajectory_width (t : Trajectory) (rows : List (List ℝ)) (h : robotExecuteTrajectory t = .ok rows) :
    ∀ r ∈ rows, r.length = 14 := by
  have key : ∀ (l : List (ℝ × List ℝ × List ℝ × List ℝ)) (d : ℝ) (prev : Option ℝ) (sim : Simulator)
      (rows : List (List ℝ)), robotTrajectoryLoop d prev l sim = .ok rows → ∀ r ∈ rows, r.length = 14 := by
    intro l
    induction l with
    | nil => intro d prev sim rows h; cases h; simp
    | cons q l ih =>
      intro d prev sim rows h
      obtain ⟨t, p⟩ := q
      unfold robotTrajectoryLoop at h
      obtain ⟨sim', -, h⟩ := Dmp.bind_inv h
      obtain ⟨row, hrow, h⟩ := Dmp.bind_inv h
      obtain ⟨rest, hrest, h⟩ := Dmp.bind_inv h
      cases h
      exact List.forall_mem_cons.mpr ⟨getState_width hrow, ih _ _ _ _ hrest⟩
  unfold robotExecuteTrajectory at h
  match ht : t.ts with
  | [] => rw [ht] at h; cases h
  | [_] => rw [ht] at h; cases h
  | t0 :: t1 :: rest =>
    rw [ht] at h
    exact key _ _ _ _ _ h

/-! ### C++ and Python -/

theorem integrateLoop_prefix : ∀ (ts us : List ℝ) (t : ℝ) (x : List ℝ) (s s' : Verif.Dmp)
    (rows : List (List ℝ × List ℝ)), DynSys.integrateLoop .rungeKutta t x (ts ++ us) s = (.ok rows, s') →
    ∃ s1, DynSys.integrateLoop .rungeKutta t x ts s = (.ok (rows.take ts.length), s1) := by
  intro ts
  induction ts with
  | nil => intro us t x s s' rows _; exact ⟨s, rfl⟩
  | cons t1 ts ih =>
    intro us t x s s' rows h
    rw [List.cons_append] at h
    unfold DynSys.integrateLoop at h
    obtain ⟨r, u1, p1, h⟩ := PyM.bind_inv h
    obtain ⟨rest, u2, p2, h⟩ := PyM.bind_inv h
    cases h
    obtain ⟨s1, e⟩ := ih us _ _ _ _ _ p2
    refine ⟨s1, ?_⟩
    unfold DynSys.integrateLoop
    refine (PyM.bind_ok p1).trans ((PyM.bind_ok e).trans rfl)

theorem integrateLoop_length : ∀ (ts : List ℝ) (t : ℝ) (x : List ℝ) (s s' : Verif.Dmp)
    (rows : List (List ℝ × List ℝ)), DynSys.integrateLoop .rungeKutta t x ts s = (.ok rows, s') →
    rows.length = ts.length := by
  intro ts
  induction ts with
  | nil => intro t x s s' rows h; cases h; rfl
  | cons t1 ts ih =>
    intro t x s s' rows h
    unfold DynSys.integrateLoop at h
    obtain ⟨r, u1, -, h⟩ := PyM.bind_inv h
    obtain ⟨rest, u2, p2, h⟩ := PyM.bind_inv h
    cases h
    simp [ih _ _ _ _ _ p2]

theorem integrate_length {ts : List ℝ} {s s' : Verif.Dmp} {rows : List (List ℝ × List ℝ)}
    (h : Verif.Dmp.integrate ts .rungeKutta s = (.ok rows, s')) : rows.length = ts.length := by
  unfold Verif.Dmp.integrate at h
  obtain ⟨r, u1, p1, h⟩ := PyM.bind_inv h
  cases ts with
  | nil => cases h
  | cons t ts =>
    obtain ⟨rest, u2, p2, h⟩ := PyM.bind_inv h
    cases h
    simp [integrateLoop_length _ _ _ _ _ _ p2]

theorem integrate_prefix {t : ℝ} {ts us : List ℝ} {s s' : Verif.Dmp} {rows : List (List ℝ × List ℝ)}
    (h : Verif.Dmp.integrate (t :: (ts ++ us)) .rungeKutta s = (.ok rows, s')) :
    ∃ s1, Verif.Dmp.integrate (t :: ts) .rungeKutta s = (.ok (rows.take (ts.length + 1)), s1) := by
  unfold Verif.Dmp.integrate at h ⊢
  obtain ⟨r, u1, p1, h⟩ := PyM.bind_inv h
  obtain ⟨rest, u2, p2, h⟩ := PyM.bind_inv h
  cases h
  obtain ⟨s1, e⟩ := integrateLoop_prefix _ _ _ _ _ _ _ p2
  exact ⟨s1, (PyM.bind_ok p1).trans ((PyM.bind_ok e).trans rfl)⟩

theorem integrate_evenly {n k : Nat} (hk : 0 < k) (hkn : k ≤ n) {s s' : Verif.Dmp}
    {rows : List (List ℝ × List ℝ)}
    (h : Verif.Dmp.integrate (Dmp.evenly 0.01 0 n) .rungeKutta s = (.ok rows, s')) :
    ∃ s1, Verif.Dmp.integrate (Dmp.evenly 0.01 0 k) .rungeKutta s = (.ok (rows.take k), s1) := by
  obtain ⟨k, rfl⟩ : ∃ k', k = k' + 1 := ⟨k - 1, by omega⟩
  obtain ⟨m, rfl⟩ : ∃ m, n = k + 1 + m := ⟨n - (k + 1), by omega⟩
  have e : ∃ us, Dmp.evenly 0.01 0 (k + 1 + m) = 0 :: (Dmp.evenly 0.01 (0 + 0.01) k ++ us) := by
    refine ⟨(Dmp.evenly 0.01 0 (k + 1 + m)).drop (k + 1), ?_⟩
    rw [← List.cons_append, ← Dmp.evenly_succ]
    have : Dmp.evenly 0.01 0 (k + 1) = (Dmp.evenly 0.01 0 (k + 1 + m)).take (k + 1) := by
      unfold Dmp.evenly
      rw [← List.map_take, List.take_range, Nat.min_eq_left (by omega)]
    rw [this, List.take_append_drop]
  obtain ⟨us, e⟩ := e
  rw [e] at h
  obtain ⟨s1, h1⟩ := integrate_prefix h
  rw [← Dmp.evenly_succ] at h1
  refine ⟨s1, ?_⟩
  rw [h1]
  simp [Dmp.evenly]

/-- C79: a Dmp saved by Python and loaded by C++ makes the same rows, except for the columns that only C++
has. -/
def C79_same_statement : Prop :=
  ∀ (s s' : Verif.Dmp) (c : Dmp) (m : Arr2 ℝ) (rows : List (List ℝ)),
    Verif.Dmp.Reachable Dmp.Known Change.Forward 2 s → Dmp.read s = .ok c → Dmp.Usable c →
    ThrowBall.runPythonSimulation (-0.3) s = (.ok m, s') → robotExecuteDmp c = .ok rows →
    rows.map (List.take 9) = m.rows

open Classical in
theorem both (s : Verif.Dmp) (h : Verif.Dmp.Reachable Dmp.Known Change.Forward 2 s) (c : Dmp)
    (hr : Dmp.read s = .ok c) (hu : Dmp.Usable c) (hs : ∀ l, s.fas = some l → ∀ fa ∈ l, Dmp.Smooth fa) :
    ∃ (s' : Verif.Dmp) (m : Arr2 ℝ) (rows : List (List ℝ)) (P : Nat → List ℝ × List ℝ × List ℝ)
      (ball : Nat → ℝ × ℝ),
      ThrowBall.runPythonSimulation (-0.3) s = (.ok m, s') ∧ robotExecuteDmp c = .ok rows ∧
      rows.length = ⌊150 * s.tau⌋₊ ∧ m.rows.length = ⌈150 * s.tau⌉₊ ∧ m.Wf ∧ m.cols = 9 ∧
      (∀ i, Planar (P i)) ∧
      (∀ i, i < rows.length → ∃ rest, rows.getD i [] = [((i : ℝ) + 1) * 0.01] ++ (P i).1 ++ (P i).2.1 ++
        (P i).2.2 ++ (ball i).1 :: (ball i).2 :: rest) ∧
      (∀ i, i < m.rows.length → m.rows.getD i [] = [(i : ℝ) * 0.01] ++ (P i).1 ++ (P i).2.1 ++
        (if Released clock i ∧ i + 1 < ThrowBall.steps s then [0, -9.81] else (P i).2.2) ++
        [(ball i).1, (ball i).2]) ∧
      Thrown m.rows.length (-0.3) (fun _ => 0.01) clock (fun i => pair (P i).1) (fun i => pair (P i).2.1) ball := by
  have hc := Dmp.reachable_common h
  have hp := Dmp.prepared_of_read hc hr hu
  obtain ⟨c1, hr1, mt⟩ := Dmp.read_prepared hc hp two_pos
  rw [hr] at hr1
  cases hr1
  have hd : s.dimY = 2 := hc.inv.dim
  have hf := Dmp.forced_of hc.inv.wf hp (by rw [hd]; exact two_pos) hs
  have ht : 0 < s.tau := hc.tau
  have hct : c.tau = s.tau := mt.tau
  set n := ⌊150 * s.tau⌋₊ with hn
  obtain ⟨all, s1, e⟩ := Dmp.integrate_total mt hf .rungeKutta 0 (Dmp.evenly 0.01 (0 + 0.01) n)
  rw [← Dmp.evenly_succ] at e
  have hst : ThrowBall.steps s ≤ n + 1 := Nat.ceil_le_floor_add_one _
  have hst' : n ≤ ThrowBall.steps s := Nat.floor_le_ceil _
  have hst0 : 0 < ThrowBall.steps s := Nat.ceil_pos.mpr (by positivity)
  obtain ⟨s2, e2⟩ := integrate_evenly hst0 hst e
  obtain ⟨m, ball, e3, hm1, hm2, hm3, hm4, hball⟩ := ThrowBall.simulation_of_good s s2 hc.inv.good (-0.3) _ e2
  have e4 := Dmp.execute_eq mt (by norm_num) e
  have hpl : ∀ p ∈ (all.take n).map (fun r => s.posVelAcc r.1 r.2), Planar p := by
    intro p hp
    obtain ⟨r, -, rfl⟩ := List.mem_map.mp hp
    exact ThrowBall.posVelAcc_planar hd _ _
  rw [← hct] at hn
  rw [hn] at e4 hpl
  obtain ⟨rows, e5, hl, ball', bvel, bacc, hrow, hfull⟩ := C79_dmp c (by rw [hct]; exact ht.le) _ e4 hpl
  rw [← hn] at hl hrow hfull
  have hlen : all.length = n + 1 := by
    have := integrate_length e
    simpa [Dmp.evenly] using this
  have hmot : ∀ i, i < n → ((all.take n).map (fun r => s.posVelAcc r.1 r.2)).getD i ([], [], []) =
      motion s (all.take (ThrowBall.steps s)) i := by
    intro i hi
    unfold motion
    have h1 : i < (all.take (ThrowBall.steps s)).length := by
      rw [List.length_take]
      omega
    rw [getD_lt (by simp; omega), getD_lt h1]
    simp
  have hthr : Thrown n (-0.3) (fun _ => 0.01) clock (fun i => pair (motion s (all.take (ThrowBall.steps s)) i).1)
      (fun i => pair (motion s (all.take (ThrowBall.steps s)) i).2.1) ball' :=
    hfull.toThrown.congr hl.ge (fun i hi => by rw [hmot i hi]) (fun i hi => by rw [hmot i hi])
  have hsame : ∀ i, i < n → ball' i = ball i := by
    intro i hi
    exact hthr.unique (hball.congr hst' (fun _ _ => rfl) fun _ _ => rfl) hi
  refine ⟨s2, m, rows, _, ball, e3, e5, by rw [hl, hn, hct], hm3, hm1, hm2,
    ThrowBall.motion_planar hd (all.take (ThrowBall.steps s)), fun i hi => ?_, fun i hi => ?_, hm3 ▸ hball⟩
  · obtain ⟨flag, hrw, -⟩ := hrow i hi
    refine ⟨[(bvel i).1, (bvel i).2, (bacc i).1, (bacc i).2, flag], ?_⟩
    rw [hrw, hmot i (by omega), hsame i (by omega)]
  · exact hm4 i (by omega)

/-- C79: both succeed, and the rows that both have (all, but possibly one more in Python) have the same
positions and velocities of the hand and positions of the ball; the same accelerations, except in the row in
which the ball is released. Times are one step ahead in C++. -/
theorem C79_same_partial (s : Verif.Dmp) (h : Verif.Dmp.Reachable Dmp.Known Change.Forward 2 s) (c : Dmp)
    (hr : Dmp.read s = .ok c) (hu : Dmp.Usable c) (hs : ∀ l, s.fas = some l → ∀ fa ∈ l, Dmp.Smooth fa) :
    ∃ s' m rows, ThrowBall.runPythonSimulation (-0.3) s = (.ok m, s') ∧ robotExecuteDmp c = .ok rows ∧
      rows.length ≤ m.rows.length ∧ m.rows.length ≤ rows.length + 1 ∧ m.Wf ∧ m.cols = 9 ∧
      ∀ i, i < rows.length →
        ((rows.getD i []).drop 1).take 4 = ((m.rows.getD i []).drop 1).take 4 ∧
        ((rows.getD i []).drop 7).take 2 = (m.rows.getD i []).drop 7 ∧
        (i ≠ 61 → ((rows.getD i []).drop 5).take 2 = ((m.rows.getD i []).drop 5).take 2) ∧
        (rows.getD i []).getD 0 0 = (m.rows.getD i []).getD 0 0 + 0.01 := by
  obtain ⟨s', m, rows, P, ball, e1, e2, l1, l2, hw, h9, hP, h1, h2, -⟩ := both s h c hr hu hs
  have l3 : ⌊150 * s.tau⌋₊ ≤ ⌈150 * s.tau⌉₊ := Nat.floor_le_ceil _
  have l4 : ⌈150 * s.tau⌉₊ ≤ ⌊150 * s.tau⌋₊ + 1 := Nat.ceil_le_floor_add_one _
  refine ⟨s', m, rows, e1, e2, by omega, by omega, hw, h9, fun i hi => ?_⟩
  obtain ⟨rest, hrow⟩ := h1 i hi
  rw [hrow, h2 i (by omega)]
  have hp := hP i
  generalize P i = p at hp
  obtain ⟨y, yd, ydd⟩ := p
  match y, hp.pos, yd, hp.vel, ydd, hp.acc with
  | [_, _], _, [_, _], _, [_, _], _ =>
    refine ⟨rfl, by split_ifs <;> rfl, fun hi => ?_, ?_⟩
    · rw [if_neg fun hc => hi (released_unique hc.1 ThrowBall.released_61)]
      rfl
    · change ((i : ℝ) + 1) * 0.01 = i * 0.01 + 0.01
      ring

/-- C79: if the ball that is released in row 61 lands before the end of the simulation, then where it lies in
the last row is the same in C++ and Python. -/
theorem C79_same_landing (s s' : Verif.Dmp) (h : Verif.Dmp.Reachable Dmp.Known Change.Forward 2 s) (c : Dmp)
    (hr : Dmp.read s = .ok c) (hu : Dmp.Usable c) (hs : ∀ l, s.fas = some l → ∀ fa ∈ l, Dmp.Smooth fa)
    (m : Arr2 ℝ) (rows : List (List ℝ)) (hm : ThrowBall.runPythonSimulation (-0.3) s = (.ok m, s'))
    (hrows : robotExecuteDmp c = .ok rows) (k : Nat) (hk : 61 + k < rows.length)
    (hl : Lands (-0.3) (fun _ => 0.01) (fun i => pair ((rows.getD i []).drop 1))
      (fun i => pair ((rows.getD i []).drop 3)) 61 k) :
    ((rows.getLastD []).drop 7).take 2 = ((m.rows.getLastD []).drop 7).take 2 ∧
      (rows.getLastD []).getD 8 0 = -0.3 := by
  obtain ⟨s', m, rows, P, ball, e1, e2, l1, l2, hw, h9, hP, h1, h2, hb⟩ := both s h c hr hu hs
  rw [hm] at e1
  cases e1
  rw [hrows] at e2
  cases e2
  have l3 : ⌊150 * s.tau⌋₊ ≤ ⌈150 * s.tau⌉₊ := Nat.floor_le_ceil _
  have hpair : pair ((rows.getD 61 []).drop 1) = pair (P 61).1 ∧
      pair ((rows.getD 61 []).drop 3) = pair (P 61).2.1 := by
    obtain ⟨rest, e⟩ := h1 61 (by omega)
    rw [e]
    have hp := hP 61
    generalize P 61 = p at hp
    obtain ⟨y, yd, ydd⟩ := p
    match y, hp.pos, yd, hp.vel, ydd, hp.acc with
    | [_, _], _, [_, _], _, [_, _], _ => exact ⟨rfl, rfl⟩
  have hl' := lands_congr (hand' := fun i => pair (P i).1) (vel' := fun i => pair (P i).2.1) hpair.1 hpair.2 hl
  have hlast : ∀ l : List (List ℝ), 0 < l.length → l.getLastD [] = l.getD (l.length - 1) [] := by
    intro l hl
    rw [List.getLastD_eq_getLast?, List.getLast?_eq_getElem?, List.getD_eq_getElem?_getD]
  rw [hlast _ (by omega), hlast _ (by omega)]
  obtain ⟨rest, hrow⟩ := h1 (rows.length - 1) (by omega)
  rw [hrow, h2 (m.rows.length - 1) (by omega)]
  have b1 := hb.lies 61 k (rows.length - 1 - 61) ThrowBall.released_61 hl' (by omega) (by omega)
  have b2 := hb.lies 61 k (m.rows.length - 1 - 61) ThrowBall.released_61 hl' (by omega) (by omega)
  rw [show 61 + (rows.length - 1 - 61) = rows.length - 1 by omega] at b1
  rw [show 61 + (m.rows.length - 1 - 61) = m.rows.length - 1 by omega] at b2
  rw [b1, b2]
  have hp := hP (rows.length - 1)
  have hq := hP (m.rows.length - 1)
  generalize P (rows.length - 1) = p at hp
  generalize P (m.rows.length - 1) = q at hq
  obtain ⟨y, yd, ydd⟩ := p
  obtain ⟨y', yd', ydd'⟩ := q
  match y, hp.pos, yd, hp.vel, ydd, hp.acc, y', hq.pos, yd', hq.vel, ydd', hq.acc with
  | [_, _], _, [_, _], _, [_, _], _, [_, _], _, [_, _], _, [_, _], _ =>
    exact ⟨by split_ifs <;> rfl, rfl⟩

/-! ### Examples, and what is not true -/

/-- A Dmp with two dimensions. -/
theorem planar_sample : ∃ s : Verif.Dmp, Verif.Dmp.Reachable Dmp.Known Change.Forward 2 s ∧ Dmp.Prepared s ∧
    (∀ l, s.fas = some l → ∀ fa ∈ l, Dmp.Smooth fa) ∧ s.tau = 1 := by
  have ho : Verif.Dmp.Options.Fits {} 2 :=
    ⟨(fun _ h => nomatch h), trivial, (fun _ h => nomatch h), (fun _ h => nomatch h),
      (fun _ h => nomatch h), (fun _ h => nomatch h), (fun _ h => nomatch h)⟩
  obtain ⟨s0, h0⟩ := (Verif.Dmp.C16_types 1 [0, 0] [1, 1] (some [Dmp.level 3, Dmp.level 3]) {}).1 (.inl (by simp))
  have r0 : Verif.Dmp.Reachable Dmp.Known Change.Forward 2 s0 :=
    .init h0 rfl rfl ho ⟨one_pos, by simp, rfl, rfl, rfl, rfl, rfl⟩
  have r1 := r0.change (.yInit [0, 0]) trivial
  have w : s0.Wf := Verif.Dmp.init_wf h0 rfl ho
  have hd : s0.dimY = 2 := (Verif.Dmp.C16_size _ _ _ _ _ _ h0).1
  have e : (Change.run (.yInit [0, 0]) s0).2 = s0.placed [0, 0] := by
    change (Verif.Dmp.setYInit [0, 0] s0).2 = _
    rw [Verif.Dmp.setYInit_run w (by rw [hd]; rfl)]
  rw [e] at r1
  refine ⟨_, r1, ?_, ?_, ?_⟩
  all_goals obtain ⟨dflt, hd, rfl⟩ := Verif.Dmp.init_eq h0
  · refine ⟨⟨20, rfl⟩, rfl, fun i hi => ?_, fun e => nomatch e⟩
    have hi : i < 2 := hi
    match i, hi with
    | 0, _ => exact ⟨_, _, rfl, rfl, Dmp.level_trained 3⟩
    | 1, _ => exact ⟨_, _, rfl, rfl, Dmp.level_trained 3⟩
  · rintro l ⟨⟩ fa hfa
    obtain rfl : fa = Dmp.level 3 := by simpa using hfa
    exact Dmp.level_smooth 3
  · rfl

/-- C79 is not true of all columns: the time is one step ahead in C++. -/
theorem C79_same_refuted : ¬ C79_same_statement := by
  intro H
  obtain ⟨s, hr, hp, hs, ht⟩ := planar_sample
  obtain ⟨c, hc, hu⟩ := (Dmp.C70_partial hr two_pos).mpr hp
  obtain ⟨s', m, rows, P, ball, e1, e2, l1, l2, hw, h9, hP, h1, h2, -⟩ := both s hr c hc hu hs
  have e := H s s' c m rows hr hc hu e1 e2
  have hn : rows.length = 150 := by
    rw [l1, ht, mul_one]
    exact_mod_cast Nat.floor_natCast (R := ℝ) 150
  have hn2 : m.rows.length = 150 := by
    rw [← e, List.length_map, hn]
  have h3 : ((rows.getD 0 []).take 9).getD 0 0 = (m.rows.getD 0 []).getD 0 0 := by
    rw [← e, getD_map' (by omega) [] []]
  obtain ⟨rest, e3⟩ := h1 0 (by omega)
  rw [e3, h2 0 (by omega)] at h3
  have h3 : ((0 : Nat) + 1 : ℝ) * 0.01 = ((0 : Nat) : ℝ) * 0.01 := h3
  norm_num at h3

/-- The hypotheses of C79 are met by a Dmp that has been loaded. -/
example : ∃ (s s' : Verif.Dmp) (c : Dmp) (m : Arr2 ℝ) (rows : List (List ℝ)),
    Verif.Dmp.Reachable Dmp.Known Change.Forward 2 s ∧ Dmp.read s = .ok c ∧ Dmp.Usable c ∧
    (∀ l, s.fas = some l → ∀ fa ∈ l, Dmp.Smooth fa) ∧
    ThrowBall.runPythonSimulation (-0.3) s = (.ok m, s') ∧ robotExecuteDmp c = .ok rows ∧
    rows.length = 150 ∧ m.rows.length = 150 := by
  obtain ⟨s, hr, hp, hs, ht⟩ := planar_sample
  obtain ⟨c, hc, hu⟩ := (Dmp.C70_partial hr two_pos).mpr hp
  obtain ⟨s', m, rows, P, ball, e1, e2, l1, l2, -⟩ := both s hr c hc hu hs
  refine ⟨s, s', c, m, rows, hr, hc, hu, hs, e1, e2, ?_, ?_⟩
  · rw [l1, ht, mul_one]
    exact_mod_cast Nat.floor_natCast (R := ℝ) 150
  · rw [l2, ht, mul_one]
    exact_mod_cast Nat.ceil_natCast (R := ℝ) 150

/-- A Dmp with two dimensions that can be loaded, and stays at 0: its forcing term is scaled by the distance
between start and attractor. -/
theorem still_sample : ∃ s : Verif.Dmp, Verif.Dmp.Reachable Dmp.Known Change.Forward 2 s ∧ Dmp.Prepared s ∧
    (∀ l, s.fas = some l → ∀ fa ∈ l, Dmp.Smooth fa) ∧ s.tau = 1 ∧ ∀ ts, ts ≠ [] → ∃ rows s',
      Verif.Dmp.integrate ts .rungeKutta s = (.ok rows, s') ∧ rows.length = ts.length ∧
        ∀ r ∈ rows, Verif.Dmp.Motionless r.1 ∧ Verif.Dmp.Motionless r.2 := by
  have ho : Verif.Dmp.Options.Fits { scaling := .gMinusY0 } 2 :=
    ⟨(fun _ h => nomatch h), trivial, (fun _ h => nomatch h), (fun _ h => nomatch h),
      (fun _ h => nomatch h), (fun _ h => nomatch h), (fun _ h => nomatch h)⟩
  obtain ⟨s0, h0⟩ := (Verif.Dmp.C16_types 1 [0, 0] [0, 0] (some [Dmp.level 3, Dmp.level 3])
    { scaling := .gMinusY0 }).1 (.inl (by simp))
  have r0 : Verif.Dmp.Reachable Dmp.Known Change.Forward 2 s0 :=
    .init h0 rfl rfl ho ⟨one_pos, by simp, rfl, rfl, rfl, rfl, rfl⟩
  have r1 := r0.change (.yInit [0, 0]) trivial
  have w : s0.Wf := Verif.Dmp.init_wf h0 rfl ho
  have hd : s0.dimY = 2 := (Verif.Dmp.C16_size _ _ _ _ _ _ h0).1
  have e : (Change.run (.yInit [0, 0]) s0).2 = s0.placed [0, 0] := by
    change (Verif.Dmp.setYInit [0, 0] s0).2 = _
    rw [Verif.Dmp.setYInit_run w (by rw [hd]; rfl)]
  rw [e] at r1
  have hc := Dmp.reachable_common r1
  have hp : Dmp.Prepared (s0.placed [0, 0]) := by
    obtain ⟨dflt, hd, rfl⟩ := Verif.Dmp.init_eq h0
    refine ⟨⟨20, rfl⟩, rfl, fun i hi => ?_, fun e => nomatch e⟩
    have hi : i < 2 := hi
    match i, hi with
    | 0, _ => exact ⟨_, _, rfl, rfl, Dmp.level_trained 3⟩
    | 1, _ => exact ⟨_, _, rfl, rfl, Dmp.level_trained 3⟩
  have hs : ∀ l, (s0.placed [0, 0]).fas = some l → ∀ fa ∈ l, Dmp.Smooth fa := by
    obtain ⟨dflt, hd, rfl⟩ := Verif.Dmp.init_eq h0
    rintro l ⟨⟩ fa hfa
    obtain rfl : fa = Dmp.level 3 := by simpa using hfa
    exact Dmp.level_smooth 3
  obtain ⟨c, hr, mt⟩ := Dmp.read_prepared hc hp two_pos
  have hf := Dmp.forced_of hc.inv.wf hp (by rw [hc.inv.dim]; exact two_pos) hs
  have hy : (s0.placed [0, 0]).yInit? = some [0, 0] := by
    obtain ⟨dflt, hd, rfl⟩ := Verif.Dmp.init_eq h0
    rfl
  have ha : (s0.placed [0, 0]).yAttr = [0, 0] := by
    obtain ⟨dflt, hd, rfl⟩ := Verif.Dmp.init_eq h0
    rfl
  have hsc : (s0.placed [0, 0]).scaling = .gMinusY0 := by
    obtain ⟨dflt, hd, rfl⟩ := Verif.Dmp.init_eq h0
    rfl
  have ht : (s0.placed [0, 0]).tau = 1 := by
    obtain ⟨dflt, hd, rfl⟩ := Verif.Dmp.init_eq h0
    rfl
  obtain ⟨eg, hg, -, hgi, hga⟩ := hc.goal
  have R : Verif.Dmp.AtZero (s0.placed [0, 0]) := by
    refine Verif.Dmp.atZero_of hc.inv.good hc.noScaling (fun x hx => ?_) (fun p q f hp hf j hj => ?_)
      (fun ga hga' => ?_) ?_
    · obtain ⟨xd, s', c', e, -⟩ := Dmp.diffEq_total mt hf (x := x) (by rw [hc.inv.dim]; exact hx)
      exact ⟨xd, by rw [e]⟩
    · obtain ⟨fa, -, hf⟩ := except_bind_ok hf
      unfold Verif.Dmp.scaleForcing Verif.Dmp.getYInit at hf
      rw [hsc, hy, ha] at hf
      cases hf
      generalize vscale (q.getD 0 0) (fa.getD 0 []) = v
      match v, j, hj with
      | [], 0, _ => rfl
      | [], 1, _ => rfl
      | [a], 0, _ => simp [vmul, vsub]
      | [a], 1, _ => simp [vmul, vsub]
      | a :: b :: v, 0, _ => simp [vmul, vsub]
      | a :: b :: v, 1, _ => simp [vmul, vsub]
    · unfold Verif.Dmp.springGoal Verif.Dmp.scaleGoal at hga'
      rw [hg, hc.noScaling] at hga'
      cases hga'
      rfl
    · unfold Verif.Dmp.goalRate
      rw [hg, ha]
      obtain ⟨a, hal⟩ := hga hp.damping
      change vdivs (eg.alpha.mul (vsub [0, 0] [0, 0])) eg.tau = [0, 0]
      rw [hal]
      simp [vdivs, vsub, Par.mul, vscale]
  refine ⟨_, r1, hp, hs, ht, fun ts hts => R.run ⟨?_, fun j hj => ?_⟩ hts⟩
  · exact (Verif.Dmp.startX_sizes hc.inv.wf).length.trans (by rw [hc.inv.dim])
  · have hgs : (s0.placed [0, 0]).goalStart = [0, 0] := by
      unfold Verif.Dmp.goalStart
      rw [hg]
      exact hgi _ hy
    unfold Verif.Dmp.startX
    rw [hgs]
    obtain ⟨dflt, hd, rfl⟩ := Verif.Dmp.init_eq h0
    match j, hj with
    | 0, _ => rfl
    | 1, _ => rfl
    | 2, _ => rfl
    | 3, _ => rfl
    | 4, _ => rfl
    | 5, _ => rfl

/-- The hypotheses of C79_same_landing are met: the ball that is dropped in row 61 lands in row 86. -/
example : ∃ (s s' : Verif.Dmp) (c : Dmp) (m : Arr2 ℝ) (rows : List (List ℝ)),
    Verif.Dmp.Reachable Dmp.Known Change.Forward 2 s ∧ Dmp.read s = .ok c ∧ Dmp.Usable c ∧
    (∀ l, s.fas = some l → ∀ fa ∈ l, Dmp.Smooth fa) ∧
    ThrowBall.runPythonSimulation (-0.3) s = (.ok m, s') ∧ robotExecuteDmp c = .ok rows ∧
    61 + 25 < rows.length ∧ Lands (-0.3) (fun _ => 0.01) (fun i => pair ((rows.getD i []).drop 1))
      (fun i => pair ((rows.getD i []).drop 3)) 61 25 := by
  obtain ⟨s, hr, hp, hs, ht, hrest⟩ := still_sample
  obtain ⟨c, hc, hu⟩ := (Dmp.C70_partial hr two_pos).mpr hp
  obtain ⟨s', m, rows, P, ball, e1, e2, l1, l2, hw, h9, hP, h1, h2, -⟩ := both s hr c hc hu hs
  have hn : rows.length = 150 := by
    rw [l1, ht, mul_one]
    exact_mod_cast Nat.floor_natCast (R := ℝ) 150
  have hd : s.dimY = 2 := (Dmp.reachable_common hr).inv.dim
  have hst : ThrowBall.steps s = 150 := by
    unfold ThrowBall.steps
    rw [ht, mul_one]
    exact_mod_cast Nat.ceil_natCast (R := ℝ) 150
  obtain ⟨all, s1, e3, hl, hall⟩ := hrest (Dmp.evenly 0.01 0 (ThrowBall.steps s)) (by rw [hst]; simp [Dmp.evenly])
  obtain ⟨m', ball', e4, -, -, -, hrow, -⟩ := ThrowBall.simulation_of_good s s1 (Dmp.reachable_common hr).inv.good (-0.3) _ e3
  rw [e1] at e4
  cases e4
  have hlen : 61 < all.length := by
    rw [hl, hst]
    simp [Dmp.evenly]
  obtain ⟨hm1, hm2⟩ := hall _ (List.getElem_mem hlen)
  have hpos : (motion s all 61).1 = [0, 0] := by
    rw [eq_pair (ThrowBall.motion_planar hd all 61).pos]
    unfold motion Verif.Dmp.posVelAcc
    rw [getD_lt hlen, hd]
    change [all[61].1.getD 0 0, all[61].1.getD 1 0] = _
    rw [hm1.2 0 (by omega), hm1.2 1 (by omega)]
  have hvel : (motion s all 61).2.1 = [0, 0] := by
    rw [eq_pair (ThrowBall.motion_planar hd all 61).vel]
    unfold motion Verif.Dmp.posVelAcc
    rw [getD_lt hlen, hd]
    change [all[61].2.getD 0 0, all[61].2.getD 1 0] = _
    rw [hm2.2 0 (by omega), hm2.2 1 (by omega)]
  have hsame : (P 61).1 = [0, 0] ∧ (P 61).2.1 = [0, 0] := by
    have h3 := (hrow 61 (by omega)).symm.trans (h2 61 (by rw [l2]; change 61 < ThrowBall.steps s; omega))
    rw [hpos, hvel] at h3
    have hp := hP 61
    generalize P 61 = p at hp h3
    obtain ⟨y, yd, ydd⟩ := p
    match y, hp.pos, yd, hp.vel with
    | [a, b], _, [c, d], _ =>
      simp only [List.cons_append, List.nil_append, List.cons.injEq] at h3
      obtain ⟨-, rfl, rfl, rfl, rfl, -⟩ := h3
      exact ⟨rfl, rfl⟩
  obtain ⟨rest, e5⟩ := h1 61 (by omega)
  rw [hsame.1, hsame.2] at e5
  have hp1 : pair ((rows.getD 61 []).drop 1) = (0, 0) := by
    rw [e5]
    rfl
  have hp2 : pair ((rows.getD 61 []).drop 3) = (0, 0) := by
    rw [e5]
    rfl
  refine ⟨s, s', c, m, rows, hr, hc, hu, hs, e1, e2, by omega, by omega, ?_, fun j _ hj => ?_⟩
  · rw [flight_const]
    simp only [hp1, hp2]
    norm_num
  · rw [flight_const]
    simp only [hp1, hp2]
    have h1 : (j : ℝ) ≤ 24 := by exact_mod_cast (by omega : j ≤ 24)
    have h0 : (0 : ℝ) ≤ j := Nat.cast_nonneg j
    have h2 : (j : ℝ) * (j + 1) ≤ 24 * 25 := by nlinarith
    norm_num
    linarith

/-- The hypotheses of C79_dmp are met; so are those of C79_trajectory. -/
example : ∃ (c : Dmp) (ps : List (List ℝ × List ℝ × List ℝ)), 0 ≤ c.tau ∧
    Dmp.execute 0.01 ⌊150 * c.tau⌋₊ c = .ok ps ∧ (∀ p ∈ ps, Planar p) ∧ ps.length = 150 := by
  obtain ⟨s, hr, hp, hs, ht⟩ := planar_sample
  have hc := Dmp.reachable_common hr
  obtain ⟨c, hrd, mt⟩ := Dmp.read_prepared hc hp two_pos
  have hf := Dmp.forced_of hc.inv.wf hp (by rw [hc.inv.dim]; exact two_pos) hs
  obtain ⟨all, s1, e⟩ := Dmp.integrate_total mt hf .rungeKutta 0 (Dmp.evenly 0.01 (0 + 0.01) 150)
  rw [← Dmp.evenly_succ] at e
  have hct : ⌊150 * c.tau⌋₊ = 150 := by
    rw [mt.tau, ht, mul_one]
    exact_mod_cast Nat.floor_natCast (R := ℝ) 150
  refine ⟨c, _, by rw [mt.tau, ht]; exact zero_le_one, by rw [hct]; exact Dmp.execute_eq mt (by norm_num) e, ?_, ?_⟩
  · intro p hp
    obtain ⟨r, -, rfl⟩ := List.mem_map.mp hp
    exact ThrowBall.posVelAcc_planar hc.inv.dim _ _
  · have := integrate_length e
    simp [this, Dmp.evenly]

example : ∃ t : Trajectory, 2 ≤ t.ts.length ∧ t.ts.Pairwise (· < ·) ∧ t.ys.rows.length = t.ts.length ∧
    t.yds.rows.length = t.ts.length ∧ t.ydds.rows.length = t.ts.length ∧ (∀ r ∈ t.ys.rows, r.length = 2) ∧
    (∀ r ∈ t.yds.rows, r.length = 2) ∧ (∀ r ∈ t.ydds.rows, r.length = 2) ∧ Released (elapsed t.ts) 1 := by
  refine ⟨⟨[0, 1, 3], ⟨2, [[0, 0], [1, 1], [1, 1]]⟩, ⟨2, [[0, 0], [1, 2], [1, 1]]⟩, ⟨2, [[0, 0], [1, 1], [1, 1]]⟩,
    ⟨0, [[], [], []]⟩⟩, by simp, by simp, rfl, rfl, rfl, by simp, by simp, by simp, ?_, fun i hi => ?_⟩
  · rw [elapsed_eq]
    norm_num
  · obtain rfl : i = 0 := by omega
    simp [elapsed]
    norm_num

/-- The hypotheses of C79_wrong_size are met by a Dmp with one dimension. -/
example : ∃ (c : Dmp) (r : (List ℝ × List ℝ) × Dmp) (p : List ℝ × List ℝ × List ℝ), 1 ≤ ⌊150 * c.tau⌋₊ ∧
    c.integrateStart = .ok r ∧ r.2.posVelAcc r.1.1 r.1.2 = .ok p ∧ p.1.length ≠ 2 := by
  obtain ⟨s, hr, hp, hs, hsp, -⟩ := Dmp.default_sample
  have hc := Dmp.reachable_common hr
  obtain ⟨c, hrd, mt⟩ := Dmp.read_prepared hc hp one_pos
  have hf := Dmp.forced_of hc.inv.wf hp (by rw [hc.inv.dim]; exact one_pos) hs
  obtain ⟨all, s1, e⟩ := Dmp.integrate_total mt hf .rungeKutta 0 (Dmp.evenly 0.01 (0 + 0.01) 1)
  rw [← Dmp.evenly_succ] at e
  have hlen : all.length = 2 := by
    have := integrate_length e
    simpa [Dmp.evenly] using this
  have e2 := Dmp.execute_eq mt (by norm_num) e
  unfold Dmp.execute at e2
  obtain ⟨⟨⟨x, xd⟩, c1⟩, h1, e2⟩ := Dmp.bind_inv e2
  unfold Dmp.executeLoop at e2
  obtain ⟨p, h2, e2⟩ := Dmp.bind_inv e2
  refine ⟨c, ((x, xd), c1), p, ?_, h1, h2, ?_⟩
  · rw [mt.tau]
    have ht : s.tau = 1 := by
      rw [← hc.springTau, hsp]
      rfl
    rw [ht, mul_one]
    have := Nat.floor_natCast (R := ℝ) 150
    push_cast at this
    omega
  · obtain ⟨⟨⟨x', xd'⟩, c2⟩, -, e2⟩ := Dmp.bind_inv e2
    obtain ⟨rest, -, e2⟩ := Dmp.bind_inv e2
    match all, hlen with
    | [a, b], _ =>
      have e3 : p :: rest = [s.posVelAcc a.1 a.2] := by
        cases e2
        rfl
      rw [(List.cons.inj e3).1]
      unfold Verif.Dmp.posVelAcc
      rw [hc.inv.dim]
      simp [pickAt, Verif.Dmp.SPRING_Y]

end Verif.Cpp
