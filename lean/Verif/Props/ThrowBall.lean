import Verif.Proofs.ThrowPython
import Verif.Props.DmpPure
import Verif.Proofs.DmpRest

/-
Throwing a ball in Python (C78): the rows that run_python_simulation returns.
-/

set_option autoImplicit false

namespace Verif.ThrowBall

open Spec
open Dmp (Reachable DefaultLike Change)

/-- Number of rows: one per hundredth of a second, up to 1.5 times the duration of the Dmp. -/
noncomputable def steps (s : Dmp) : Nat := ⌈150 * s.tau⌉₊

/-- The times of the rows. -/
noncomputable def clock (i : Nat) : ℝ := i * 0.01

theorem arange_eq (s : Dmp) : arange (1.5 * s.tau) 0.01 = Cpp.Dmp.evenly 0.01 0 (steps s) := by
  unfold arange Cpp.Dmp.evenly steps
  have e : (1.5 : ℝ) * s.tau / 0.01 = 150 * s.tau := by
    rw [div_eq_iff (by norm_num)]
    ring
  rw [e]
  refine List.map_congr_left fun k _ => ?_
  ring

theorem run_ok {s s' : Dmp} (g : Dmp.Good 2 s) {floor : ℝ} {rows : List (List ℝ × List ℝ)}
    (h : Dmp.integrate (Cpp.Dmp.evenly 0.01 0 (steps s)) .rungeKutta s = (.ok rows, s')) :
    ∃ sim, runPythonSimulation floor s =
        (.ok ⟨9, costVars (Cpp.Dmp.evenly 0.01 0 (steps s)) sim⟩, s') ∧
      0 < steps s ∧ Inv floor 0.01 clock (motion s rows) (steps s - 1) sim := by
  unfold Dmp.integrate at h
  obtain ⟨r0, s1, p1, h⟩ := PyM.bind_inv h
  cases hn : steps s with
  | zero =>
    rw [hn] at h
    cases h
  | succ n =>
    rw [hn, Cpp.Dmp.evenly_succ] at h
    simp only at h
    obtain ⟨rest, s2, p2, h⟩ := PyM.bind_inv h
    cases h
    obtain ⟨hcore, g1⟩ := stable_run Dmp.stable_integrateStart g p1
    have hpv := posVelAcc_core hcore
    have hd1 : s1.core.dimY = s.core.dimY := by rw [hcore]
    replace hd1 : s1.dimY = 2 := hd1.trans g.dim
    have c0 : clock 0 = 0 := by simp [clock]
    have i0 : Inv floor 0.01 clock (motion s (r0 :: rest)) 0 (start 2 (motion s (r0 :: rest) 0)) :=
      start_inv 2 (by rw [c0]; norm_num) (motion_planar g.dim _ _)
    obtain ⟨sim, e, i1⟩ := loop_ok (floor := floor) (dt := 0.01) (clock := clock) n 0 r0.1 _ s1 s' rest g1 hd1
      (fun j => by unfold clock; push_cast; ring) (motion_planar g.dim (r0 :: rest)) i0 (by rw [c0]; exact p2)
      (fun j _ => by
        rw [show 0 + 1 + j = j + 1 by omega]
        unfold motion
        rw [hpv]
        rfl)
    refine ⟨sim, ?_, by omega, by simpa using i1⟩
    unfold runPythonSimulation
    rw [PyM.self_bind, arange_eq, hn]
    refine (PyM.bind_ok p1).trans ?_
    rw [PyM.self_bind, Cpp.Dmp.evenly_succ]
    rw [c0] at e
    simp only [hd1, hpv]
    exact (PyM.bind_ok e).trans rfl

open Classical in
theorem simulation_of_good (s s' : Dmp) (g : Dmp.Good 2 s) (floor : ℝ)
    (rows : List (List ℝ × List ℝ))
    (h : Dmp.integrate (Cpp.Dmp.evenly 0.01 0 (steps s)) .rungeKutta s = (.ok rows, s')) :
    ∃ m ball, runPythonSimulation floor s = (.ok m, s') ∧ m.Wf ∧ m.cols = 9 ∧ m.rows.length = steps s ∧
      (∀ i, i < steps s → m.rows.getD i [] = [(i : ℝ) * 0.01] ++ (motion s rows i).1 ++ (motion s rows i).2.1 ++
        (if Released clock i ∧ i + 1 < steps s then [0, -9.81] else (motion s rows i).2.2) ++
        [(ball i).1, (ball i).2]) ∧
      Thrown (steps s) floor (fun _ => 0.01) clock (fun i => pair (motion s rows i).1)
        (fun i => pair (motion s rows i).2.1) ball := by
  obtain ⟨sim, e, hn, i1⟩ := run_ok (floor := floor) g h
  obtain ⟨n, hn⟩ : ∃ n, steps s = n + 1 := ⟨steps s - 1, by omega⟩
  rw [hn] at e i1 ⊢
  rw [show n + 1 - 1 = n by omega] at i1
  have hp := motion_planar g.dim rows
  have hrow : ∀ i, i < n + 1 → (costVars (Cpp.Dmp.evenly 0.01 0 (n + 1)) sim).getD i [] =
      [(i : ℝ) * 0.01] ++ (motion s rows i).1 ++ (motion s rows i).2.1 ++
        (if Released clock i ∧ i + 1 < n + 1 then [0, -9.81] else (motion s rows i).2.2) ++
        [(pair (sim.ysBall.getD i [])).1, (pair (sim.ysBall.getD i [])).2] := by
    intro i hi
    unfold costVars
    rw [getD_range_map (by simpa [Cpp.Dmp.evenly] using hi), i1.ys, i1.yds, getD_range_map hi,
      getD_range_map hi, i1.ydds i (by omega), ← eq_pair (i1.ball i (by omega)).1]
    have et : (Cpp.Dmp.evenly 0.01 0 (n + 1)).getD i 0 = (i : ℝ) * 0.01 := by
      unfold Cpp.Dmp.evenly
      rw [getD_range_map hi, zero_add]
    rw [et]
    simp only [List.append_assoc, List.cons_append, List.nil_append, Nat.add_lt_add_iff_right]
  refine ⟨_, fun i => pair (sim.ysBall.getD i []), e, ?_, rfl, by simp [costVars, Cpp.Dmp.evenly], hrow,
    thrown_of_stage fun i hi => (i1.ball i (by omega)).2⟩
  intro row hr
  obtain ⟨i, hi, rfl⟩ := List.getElem_of_mem hr
  have hi' : i < n + 1 := by simpa [costVars, Cpp.Dmp.evenly] using hi
  have := hrow i hi'
  rw [getD_lt hi] at this
  change ((costVars (Cpp.Dmp.evenly 0.01 0 (n + 1)) sim)[i]).length = 9
  rw [this]
  by_cases hc : Released clock i ∧ i + 1 < n + 1
  · rw [if_pos hc]
    simp [(hp i).pos, (hp i).vel]
  · rw [if_neg hc]
    simp [(hp i).pos, (hp i).vel, (hp i).acc]

open Classical in
/-- C78: if the Dmp can be integrated, the rows have the times, the positions and velocities of the Dmp, and
the positions of a ball that is held, flies and lies on the floor. The accelerations are those of the Dmp,
except at the time of the release (see `C78_accelerations_refuted`). -/
theorem C78_simulation (s s' : Dmp) (hs : Reachable DefaultLike Change.Valid 2 s) (floor : ℝ)
    (rows : List (List ℝ × List ℝ))
    (h : Dmp.integrate (Cpp.Dmp.evenly 0.01 0 (steps s)) .rungeKutta s = (.ok rows, s')) :
    ∃ m ball, runPythonSimulation floor s = (.ok m, s') ∧ m.Wf ∧ m.cols = 9 ∧ m.rows.length = steps s ∧
      (∀ i, i < steps s → m.rows.getD i [] = [(i : ℝ) * 0.01] ++ (motion s rows i).1 ++ (motion s rows i).2.1 ++
        (if Released clock i ∧ i + 1 < steps s then [0, -9.81] else (motion s rows i).2.2) ++
        [(ball i).1, (ball i).2]) ∧
      Thrown (steps s) floor (fun _ => 0.01) clock (fun i => pair (motion s rows i).1)
        (fun i => pair (motion s rows i).2.1) ball :=
  simulation_of_good s s' hs.inv.good floor rows h

/-- C78: the simulation fails exactly if the integration fails, with the same exception. -/
theorem C78_fails (s : Dmp) (hs : Reachable DefaultLike Change.Valid 2 s) (floor : ℝ) (e : PyErr) :
    (runPythonSimulation floor s).1 = .error e ↔
      (Dmp.integrate (Cpp.Dmp.evenly 0.01 0 (steps s)) .rungeKutta s).1 = .error e := by
  have g := hs.inv.good
  have key : ∀ e s', Dmp.integrate (Cpp.Dmp.evenly 0.01 0 (steps s)) .rungeKutta s = (.error e, s') →
      (runPythonSimulation floor s).1 = .error e := by
    intro e s' h
    unfold Dmp.integrate at h
    unfold runPythonSimulation
    rw [PyM.self_bind, arange_eq]
    rw [PyM.bind_apply] at h
    rcases p1 : Dmp.integrateStart none s with ⟨r, s1⟩
    rw [p1] at h
    cases r with
    | error e1 =>
      cases h
      rw [PyM.bind_error p1]
    | ok r0 =>
      rw [PyM.bind_ok p1, PyM.self_bind]
      cases hn : steps s with
      | zero =>
        rw [hn] at h
        cases h
        rfl
      | succ n =>
        rw [hn, Cpp.Dmp.evenly_succ] at h
        rw [Cpp.Dmp.evenly_succ]
        simp only at h ⊢
        obtain ⟨hcore, g1⟩ := stable_run Dmp.stable_integrateStart g p1
        have hd1 : s1.core.dimY = s.core.dimY := by rw [hcore]
        replace hd1 : s1.dimY = 2 := hd1.trans g.dim
        rw [PyM.bind_apply] at h
        rcases p2 : DynSys.integrateLoop (σ := Dmp) .rungeKutta 0 r0.1 (Cpp.Dmp.evenly 0.01 (0 + 0.01) n) s1
          with ⟨q, s2⟩
        rw [p2] at h
        cases q with
        | ok rows => cases h
        | error e2 =>
          cases h
          have ok0 : Ok (start s1.dimY (s1.posVelAcc r0.1 r0.2)) :=
            ⟨fun row hr => by
              rw [List.mem_singleton.mp hr]
              exact (posVelAcc_planar hd1 _ _).acc, fun hc => nomatch hc⟩
          have := loop_error (floor := floor) n 0 r0.1 _ s1 _ _ g1 hd1 ok0 p2
          rw [PyM.bind_error this]
  constructor
  · intro h
    rcases hi : Dmp.integrate (Cpp.Dmp.evenly 0.01 0 (steps s)) .rungeKutta s with ⟨r, s'⟩
    cases r with
    | error e' =>
      have := key e' s' hi
      rw [h] at this
      cases this
      rfl
    | ok rows =>
      obtain ⟨sim, e1, -⟩ := run_ok (floor := floor) g hi
      rw [e1] at h
      cases h
  · intro h
    exact key e _ (Prod.ext h rfl)

/-- C78 for the accelerations: those of the Dmp. -/
def C78_accelerations_statement : Prop :=
  ∀ (s s' : Dmp), Reachable DefaultLike Change.Valid 2 s → ∀ (floor : ℝ) (rows : List (List ℝ × List ℝ))
    (m : Arr2 ℝ), Dmp.integrate (Cpp.Dmp.evenly 0.01 0 (steps s)) .rungeKutta s = (.ok rows, s') →
    runPythonSimulation floor s = (.ok m, s') →
    ∀ i, i < steps s → ((m.rows.getD i []).take 7).drop 5 = (motion s rows i).2.2

open Classical in
theorem accelerations {s s' : Dmp} (hs : Reachable DefaultLike Change.Valid 2 s) {floor : ℝ}
    {rows : List (List ℝ × List ℝ)} {m : Arr2 ℝ}
    (h : Dmp.integrate (Cpp.Dmp.evenly 0.01 0 (steps s)) .rungeKutta s = (.ok rows, s'))
    (hm : runPythonSimulation floor s = (.ok m, s')) {i : Nat} (hi : i < steps s) :
    ((m.rows.getD i []).take 7).drop 5 =
      if Released clock i ∧ i + 1 < steps s then [0, -9.81] else (motion s rows i).2.2 := by
  obtain ⟨m', ball, e, -, -, -, hrow, -⟩ := C78_simulation s s' hs floor rows h
  rw [hm] at e
  cases e
  rw [hrow i hi]
  have hp := motion_planar hs.inv.dim rows i
  generalize hA : (if Released clock i ∧ i + 1 < steps s then [0, -9.81] else (motion s rows i).2.2) = A
  have hA2 : A.length = 2 := by
    rw [← hA]
    by_cases hc : Released clock i ∧ i + 1 < steps s
    · rw [if_pos hc]; rfl
    · rw [if_neg hc]; exact hp.acc
  match A, hA2, (motion s rows i).1, hp.pos, (motion s rows i).2.1, hp.vel with
  | [_, _], _, [_, _], _, [_, _], _ => rfl

/-- C78: the accelerations are those of the Dmp, except in the row in which the ball is released. (There as
well, if that is the last row.) -/
theorem C78_accelerations_partial (s s' : Dmp) (hs : Reachable DefaultLike Change.Valid 2 s) (floor : ℝ)
    (rows : List (List ℝ × List ℝ)) (m : Arr2 ℝ)
    (h : Dmp.integrate (Cpp.Dmp.evenly 0.01 0 (steps s)) .rungeKutta s = (.ok rows, s'))
    (hm : runPythonSimulation floor s = (.ok m, s')) (i : Nat) (hi : i < steps s)
    (hr : Released clock i → i + 1 = steps s) :
    ((m.rows.getD i []).take 7).drop 5 = (motion s rows i).2.2 := by
  rw [accelerations hs h hm hi, if_neg]
  rintro ⟨h1, h2⟩
  have := hr h1
  omega

theorem released_61 : Released clock 61 := by
  refine ⟨by unfold clock; norm_num, fun i hi => ?_⟩
  unfold clock
  have : (i : ℝ) ≤ 60 := by exact_mod_cast (by omega : i ≤ 60)
  have h2 : (i : ℝ) * 0.01 ≤ 60 * 0.01 := mul_le_mul_of_nonneg_right this (by norm_num)
  exact h2.trans (by norm_num)

/-- C78 is not true of the accelerations: ydd_ball is a view of the row of ydds at the time of the release,
and gravity is written to it. -/
theorem C78_accelerations_refuted : ¬ C78_accelerations_statement := by
  intro H
  obtain ⟨s, -, hr, ht, hrest⟩ := Dmp.resting_example
  have hn : steps s = 150 := by
    unfold steps
    rw [ht, mul_one]
    exact_mod_cast Nat.ceil_natCast (R := ℝ) 150
  have hne : Cpp.Dmp.evenly 0.01 0 (steps s) ≠ [] := by
    rw [hn]
    unfold Cpp.Dmp.evenly
    simp
  obtain ⟨rows, s', e, hl, hrows⟩ := hrest _ hne
  obtain ⟨m, ball, em, -⟩ := C78_simulation s s' hr (-0.3) rows e
  have h1 := H s s' hr (-0.3) rows m e em 61 (by omega)
  rw [accelerations hr e em (by omega), if_pos ⟨released_61, by omega⟩] at h1
  have hlen : 61 < rows.length := by
    rw [hl, hn]
    unfold Cpp.Dmp.evenly
    simp
  have hm := (hrows _ (List.getElem_mem hlen)).2
  have h2 : (motion s rows 61).2.2.getD 1 0 = 0 := by
    unfold motion Dmp.posVelAcc
    rw [getD_lt hlen, ht, show s.dimY = 2 from hr.inv.dim]
    change rows[61].2.getD 3 0 / 1 = 0
    rw [hm.2 3 (by omega), zero_div]
  rw [← h1] at h2
  norm_num at h2

/-- C78: once released, the ball is never below the floor. -/
theorem C78_floor {n : Nat} {floor : ℝ} {dt clock : Nat → ℝ} {hand vel ball : Nat → ℝ × ℝ}
    (h : Thrown n floor dt clock hand vel ball) {r i : Nat} (hr : Released clock r) (hri : r < i) (hi : i < n) :
    floor ≤ (ball i).2 := by
  cases h.stage hi with
  | held hh e => exact absurd hr.1 (not_lt.mpr (hh r hri))
  | flies r' k hi' hr' hh e =>
    cases released_unique hr hr'
    rw [e]
    exact hh k (by omega) le_rfl
  | lies r' k l hi' hr' hh hl e => rw [e]

/-- C78: with steps of the same length, the ball flies on a parabola, where the discretization adds the
distance that it falls in half a step. -/
theorem C78_parabola (d : ℝ) (hand vel : Nat → ℝ × ℝ) (r k : Nat) :
    flight (fun _ => d) hand vel r k =
      ((hand r).1 + (k * d) * (vel r).1,
        (hand r).2 + (k * d) * (vel r).2 - 9.81 / 2 * (k * d) ^ 2 - 9.81 / 2 * (k * d) * d) := by
  rw [flight_const]
  refine Prod.ext rfl ?_
  simp only
  ring

/-- C78: the ball lands, if the simulation is long enough, and lies there. -/
theorem C78_lands {d : ℝ} (hd : 0 < d) (floor : ℝ) {clock : Nat → ℝ} (hand vel : Nat → ℝ × ℝ) {r : Nat}
    (hr : Released clock r) : ∃ k, Lands floor (fun _ => d) hand vel r k ∧ ∀ n ball,
      Thrown n floor (fun _ => d) clock hand vel ball → ∀ i, r + k ≤ i → i < n →
        ball i = ((hand r).1 + k * d * (vel r).1, floor) := by
  obtain ⟨k, hk⟩ := exists_lands hd floor hand vel r
  refine ⟨k, hk, fun n ball h i h1 h2 => ?_⟩
  have := h.lies r k (i - r) hr hk (by omega) (by omega)
  rw [show r + (i - r) = i by omega] at this
  rw [this, flight_const]

/-- The hypotheses of C78 are met: by a Dmp that rests at 0, for which the ball is dropped in row 61 and
lies on the floor from row 85 on. -/
example : ∃ s s' rows m, Reachable DefaultLike Change.Valid 2 s ∧
    Dmp.integrate (Cpp.Dmp.evenly 0.01 0 (steps s)) .rungeKutta s = (.ok rows, s') ∧
    runPythonSimulation (-0.3) s = (.ok m, s') ∧ steps s = 150 ∧ Released clock 61 ∧
    Lands (-0.3) (fun _ => 0.01) (fun i => pair (motion s rows i).1) (fun i => pair (motion s rows i).2.1) 61 25 ∧
    (m.rows.getD 149 []).drop 7 = [0, -0.3] := by
  obtain ⟨s, -, hr, ht, hrest⟩ := Dmp.resting_example
  have hn : steps s = 150 := by
    unfold steps
    rw [ht, mul_one]
    exact_mod_cast Nat.ceil_natCast (R := ℝ) 150
  have hne : Cpp.Dmp.evenly 0.01 0 (steps s) ≠ [] := by
    rw [hn]
    unfold Cpp.Dmp.evenly
    simp
  obtain ⟨rows, s', e, hl, hrows⟩ := hrest _ hne
  obtain ⟨m, ball, em, -, -, -, hrow, hball⟩ := C78_simulation s s' hr (-0.3) rows e
  have hlen : 61 < rows.length := by
    rw [hl, hn]
    unfold Cpp.Dmp.evenly
    simp
  obtain ⟨hm1, hm2⟩ := hrows _ (List.getElem_mem hlen)
  have hd : s.dimY = 2 := hr.inv.dim
  have hpos : pair (motion s rows 61).1 = (0, 0) := by
    unfold motion Dmp.posVelAcc
    rw [getD_lt hlen, hd]
    exact Prod.ext (hm1.2 0 (by omega)) (hm1.2 1 (by omega))
  have hvel : pair (motion s rows 61).2.1 = (0, 0) := by
    unfold motion Dmp.posVelAcc
    rw [getD_lt hlen, hd]
    exact Prod.ext (hm2.2 0 (by omega)) (hm2.2 1 (by omega))
  have hland : Lands (-0.3) (fun _ => 0.01) (fun i => pair (motion s rows i).1)
      (fun i => pair (motion s rows i).2.1) 61 25 := by
    refine ⟨by omega, ?_, fun j _ hj => ?_⟩
    · rw [flight_const]
      simp only [hpos, hvel]
      norm_num
    · rw [flight_const]
      simp only [hpos, hvel]
      have h1 : (j : ℝ) ≤ 24 := by exact_mod_cast (by omega : j ≤ 24)
      have h0 : (0 : ℝ) ≤ j := Nat.cast_nonneg j
      have h2 : (j : ℝ) * (j + 1) ≤ 24 * 25 := by nlinarith
      norm_num
      linarith
  refine ⟨s, s', rows, m, hr, e, em, hn, released_61, hland, ?_⟩
  have hb := hball.lies 61 25 88 released_61 hland (by omega) (by omega)
  rw [flight_const] at hb
  simp only [hpos, hvel] at hb
  norm_num at hb
  rw [hrow 149 (by omega)]
  have hp := motion_planar hd rows 149
  have hA : ¬ (Released clock 149 ∧ 149 + 1 < steps s) := by omega
  rw [if_neg hA, hb]
  match (motion s rows 149).1, hp.pos, (motion s rows 149).2.1, hp.vel, (motion s rows 149).2.2, hp.acc with
  | [_, _], _, [_, _], _, [_, _], _ => norm_num

end Verif.ThrowBall
