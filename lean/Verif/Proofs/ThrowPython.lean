import Verif.Proofs.Throw
import Verif.Model.ThrowBall
import Verif.Proofs.DmpSetters
import Verif.Proofs.CppDmpRuns

/-
Lemmas for the simulation of a thrown ball in Python.
-/

set_option autoImplicit false

namespace Verif

open Spec

/-- A vector with two entries. -/
def pair (l : List ℝ) : ℝ × ℝ := (l.getD 0 0, l.getD 1 0)

theorem eq_pair {l : List ℝ} (h : l.length = 2) : l = [(pair l).1, (pair l).2] := by
  match l, h with
  | [a, b], _ => rfl

/-- Position, velocity and acceleration, all of them with two entries. -/
structure Planar (p : List ℝ × List ℝ × List ℝ) : Prop where
  pos : p.1.length = 2
  vel : p.2.1.length = 2
  acc : p.2.2.length = 2

namespace ThrowBall

/-- What the simulation knows about the ball after row `i`. -/
inductive Now (floor dt : ℝ) (clock : Nat → ℝ) (P : Nat → List ℝ × List ℝ × List ℝ) (i : Nat) (sim : Sim) : Prop
  | hand (h1 : sim.inHand = true) (h : ∀ j, j ≤ i → clock j ≤ 0.6)
  | air (r k : Nat) (h1 : sim.inHand = false) (h2 : sim.inAir = true) (hi : i = r + k) (hr : Released clock r)
      (h : ∀ j, 1 ≤ j → j ≤ k →
        floor ≤ (flight (fun _ => dt) (fun i => pair (P i).1) (fun i => pair (P i).2.1) r j).2)
      (row : sim.yddBall = some r)
      (e : pair (sim.ysBall.getLastD []) =
        flight (fun _ => dt) (fun i => pair (P i).1) (fun i => pair (P i).2.1) r k)
      (v : sim.ydBall = [(pair (P r).2.1).1, (pair (P r).2.1).2 - 9.81 * airTime (fun _ => dt) r k])
  | floor (r k l : Nat) (h1 : sim.inHand = false) (h2 : sim.inAir = false) (hi : i = r + l)
      (hr : Released clock r)
      (h : Lands floor (fun _ => dt) (fun i => pair (P i).1) (fun i => pair (P i).2.1) r k) (hl : k ≤ l)
      (e : pair (sim.ysBall.getLastD []) =
        ((flight (fun _ => dt) (fun i => pair (P i).1) (fun i => pair (P i).2.1) r k).1, floor))

open Classical in
/-- The state after row `i`, where `P` is the motion of the hand. -/
structure Inv (floor dt : ℝ) (clock : Nat → ℝ) (P : Nat → List ℝ × List ℝ × List ℝ) (i : Nat) (sim : Sim) :
    Prop where
  ys : sim.ys = (List.range (i + 1)).map fun j => (P j).1
  yds : sim.yds = (List.range (i + 1)).map fun j => (P j).2.1
  lydds : sim.ydds.length = i + 1
  ydds : ∀ j, j ≤ i → sim.ydds.getD j [] = if Released clock j ∧ j < i then [0, -9.81] else (P j).2.2
  lball : sim.ysBall.length = i + 1
  ball : ∀ j, j ≤ i → (sim.ysBall.getD j []).length = 2 ∧
    Stage floor (fun _ => dt) clock (fun i => pair (P i).1) (fun i => pair (P i).2.1) j
      (pair (sim.ysBall.getD j []))
  now : Now floor dt clock P i sim

variable {floor dt : ℝ} {clock : Nat → ℝ} {P : Nat → List ℝ × List ℝ × List ℝ}

theorem start_inv (n : Nat) (hc : clock 0 ≤ 0.6) (hp : Planar (P 0)) :
    Inv floor dt clock P 0 (start n (P 0)) where
  ys := rfl
  yds := rfl
  lydds := rfl
  ydds j hj := by
    cases Nat.le_zero.mp hj
    rw [if_neg (by simp)]
    rfl
  lball := rfl
  ball j hj := by
    cases Nat.le_zero.mp hj
    exact ⟨hp.pos, .held (fun j hj => by omega) rfl⟩
  now := .hand rfl fun j hj => by cases Nat.le_zero.mp hj; exact hc

theorem getD_concat_lt {α : Type} {l : List α} {a d : α} {j : Nat} (h : j < l.length) :
    (l ++ [a]).getD j d = l.getD j d := getD_append_left' h d

theorem getD_concat_eq {α : Type} {l : List α} {a d : α} {j : Nat} (h : j = l.length) :
    (l ++ [a]).getD j d = a := by
  subst h
  simp

theorem getLastD_concat {α : Type} (l : List α) (a d : α) : (l ++ [a]).getLastD d = a := by
  simp [List.getLastD_eq_getLast?]

theorem getLastD_eq_getD {α : Type} {l : List α} (d : α) {i : Nat} (h : l.length = i + 1) :
    l.getLastD d = l.getD i d := by
  rw [List.getLastD_eq_getLast?, List.getLast?_eq_getElem?, h, List.getD_eq_getElem?_getD]
  simp

theorem ball_concat {i : Nat} {l : List (List ℝ)} (hl : l.length = i + 1)
    (hb : ∀ j, j ≤ i → (l.getD j []).length = 2 ∧
      Stage floor (fun _ => dt) clock (fun i => pair (P i).1) (fun i => pair (P i).2.1) j (pair (l.getD j [])))
    {b : List ℝ} (h2 : b.length = 2)
    (hs : Stage floor (fun _ => dt) clock (fun i => pair (P i).1) (fun i => pair (P i).2.1) (i + 1) (pair b)) :
    ∀ j, j ≤ i + 1 → ((l ++ [b]).getD j []).length = 2 ∧
      Stage floor (fun _ => dt) clock (fun i => pair (P i).1) (fun i => pair (P i).2.1) j
        (pair ((l ++ [b]).getD j [])) := by
  intro j hj
  rcases Nat.lt_or_ge i j with h | h
  · rw [getD_concat_eq (by omega)]
    cases (by omega : j = i + 1)
    exact ⟨h2, hs⟩
  · rw [getD_concat_lt (by omega)]
    exact hb j h

open Classical in
theorem step_inv {i : Nat} {sim : Sim} (h : Inv floor dt clock P i sim) (hp : ∀ j, j ≤ i + 1 → Planar (P j)) :
    ∃ sim', sim.step dt floor (clock (i + 1)) (P (i + 1)) = .ok sim' ∧ Inv floor dt clock P (i + 1) sim' := by
  have range_succ : ∀ f : Nat → List ℝ, (List.range (i + 1)).map f ++ [f (i + 1)] =
      (List.range (i + 1 + 1)).map f := fun f => by rw [List.range_succ (n := i + 1)]; simp
  have hys : sim.ys ++ [(P (i + 1)).1] = (List.range (i + 1 + 1)).map fun j => (P j).1 := by
    rw [h.ys]; exact range_succ _
  have hyds : sim.yds ++ [(P (i + 1)).2.1] = (List.range (i + 1 + 1)).map fun j => (P j).2.1 := by
    rw [h.yds]; exact range_succ _
  have hlast := getLastD_eq_getD ([] : List ℝ) h.lball
  have hlen := (h.ball i le_rfl).1
  rw [← hlast] at hlen
  -- rows of accelerations if nothing is overwritten
  have keep : (∀ j, j ≤ i → Released clock j → j < i) →
      ∀ j, j ≤ i + 1 → (sim.ydds ++ [(P (i + 1)).2.2]).getD j [] =
        if Released clock j ∧ j < i + 1 then [0, -9.81] else (P j).2.2 := fun hn j hj => by
    rcases Nat.lt_or_ge i j with hij | hij
    · rw [getD_concat_eq (by rw [h.lydds]; omega), if_neg (by omega)]
      cases (by omega : j = i + 1)
      rfl
    · rw [getD_concat_lt (by rw [h.lydds]; omega), h.ydds j hij]
      by_cases hr : Released clock j
      · rw [if_pos ⟨hr, hn j hij hr⟩, if_pos ⟨hr, by omega⟩]
      · rw [if_neg fun hc => hr hc.1, if_neg fun hc => hr hc.1]
  unfold Sim.step Sim.record
  simp only
  cases h.now with
  | hand h1 hc =>
    have hn : ∀ j, j ≤ i → Released clock j → j < i := fun j hj hr => absurd hr.1 (not_lt.mpr (hc j hj))
    have hst : Stage floor (fun _ => dt) clock (fun i => pair (P i).1) (fun i => pair (P i).2.1) (i + 1)
        (pair (P (i + 1)).1) := .held (fun j hj => hc j (by omega)) rfl
    rw [if_pos h1]
    by_cases ht : clock (i + 1) > 0.6
    · rw [if_pos ht]
      have hr : Released clock (i + 1) := ⟨ht, fun j hj => hc j (by omega)⟩
      refine ⟨_, rfl, hys, hyds, by simp [h.lydds], keep hn, by simp [h.lball],
        ball_concat h.lball h.ball (hp _ le_rfl).pos hst, ?_⟩
      refine .air (i + 1) 0 rfl rfl rfl hr (fun j _ _ => by omega) ?_ ?_ ?_
      · simp [h.lydds]
      · rw [getLastD_concat, flight_zero]
      · rw [airTime_zero]
        change (P (i + 1)).2.1 = _
        rw [mul_zero, sub_zero]
        exact eq_pair (hp _ le_rfl).vel
    · rw [if_neg ht]
      refine ⟨_, rfl, hys, hyds, by simp [h.lydds], keep hn, by simp [h.lball],
        ball_concat h.lball h.ball (hp _ le_rfl).pos hst, ?_⟩
      refine .hand h1 fun j hj => ?_
      rcases Nat.lt_or_ge i j with hij | hij
      · cases (by omega : j = i + 1)
        exact not_lt.mp ht
      · exact hc j hij
  | air r k h1 h2 hi hr hab hrow he hv =>
    subst hi
    rw [h1, if_neg (by simp), if_pos h2]
    unfold Sim.fly
    simp only [hrow]
    have hrl : r < sim.ydds.length := by rw [h.lydds]; omega
    have hrow2 : (sim.ydds ++ [(P (r + k + 1)).2.2]).getD r [] = sim.ydds.getD r [] := getD_concat_lt hrl
    have hset : ∀ l : List ℝ, l.length = 2 → (l.set 0 0).set 1 (-9.81) = [0, -9.81] := fun l hl => by
      match l, hl with
      | [a, b], _ => rfl
    have hl2 : (sim.ydds.getD r []).length = 2 := by
      rw [h.ydds r (by omega)]
      by_cases hc : Released clock r ∧ r < r + k
      · rw [if_pos hc]; rfl
      · rw [if_neg hc]; exact (hp r (by omega)).acc
    rw [hrow2, if_neg (by omega), hset _ hl2]
    have hyd : vadd sim.ydBall (vscale dt [0, -9.81]) =
        [(pair (P r).2.1).1, (pair (P r).2.1).2 - 9.81 * airTime (fun _ => dt) r (k + 1)] := by
      rw [hv, airTime_succ]
      simp only [vadd, vscale, List.map_cons, List.map_nil, List.zipWith_cons_cons, List.zipWith_nil_left]
      refine List.ext_getElem rfl fun n hn _ => ?_
      match n, hn with
      | 0, _ => simp
      | 1, _ => simp only [List.getElem_cons_succ, List.getElem_cons_zero]; ring
    rw [hyd]
    have hb : vadd (sim.ysBall.getLastD []) (vscale dt
        [(pair (P r).2.1).1, (pair (P r).2.1).2 - 9.81 * airTime (fun _ => dt) r (k + 1)]) =
        [(flight (fun _ => dt) (fun i => pair (P i).1) (fun i => pair (P i).2.1) r (k + 1)).1,
          (flight (fun _ => dt) (fun i => pair (P i).1) (fun i => pair (P i).2.1) r (k + 1)).2] := by
      rw [eq_pair hlen, he, flight_succ]
      rfl
    rw [hb]
    -- the row of the release is overwritten
    have hydds : ∀ j, j ≤ r + k + 1 → ((sim.ydds ++ [(P (r + k + 1)).2.2]).set r [0, -9.81]).getD j [] =
        if Released clock j ∧ j < r + k + 1 then [0, -9.81] else (P j).2.2 := by
      intro j hj
      by_cases hjr : j = r
      · subst hjr
        rw [if_pos ⟨hr, by omega⟩, getD_lt (by simp; omega)]
        simp
      · have e : ((sim.ydds ++ [(P (r + k + 1)).2.2]).set r [0, -9.81]).getD j [] =
            (sim.ydds ++ [(P (r + k + 1)).2.2]).getD j [] := by
          rw [List.getD_eq_getElem?_getD, List.getElem?_set_ne (Ne.symm hjr), ← List.getD_eq_getElem?_getD]
        have hnr : ¬ Released clock j := fun hc => hjr (released_unique hc hr)
        rw [e, if_neg fun hc => hnr hc.1]
        rcases Nat.lt_or_ge (r + k) j with hij | hij
        · rw [getD_concat_eq (by rw [h.lydds]; omega)]
          cases (by omega : j = r + k + 1)
          rfl
        · rw [getD_concat_lt (by rw [h.lydds]; omega), h.ydds j hij, if_neg fun hc => hnr hc.1]
    by_cases hf : (flight (fun _ => dt) (fun i => pair (P i).1) (fun i => pair (P i).2.1) r (k + 1)).2 < floor
    · have hl : Lands floor (fun _ => dt) (fun i => pair (P i).1) (fun i => pair (P i).2.1) r (k + 1) :=
        ⟨by omega, hf, fun j h1 hj => hab j h1 (by omega)⟩
      rw [if_pos (by exact hf)]
      refine ⟨_, rfl, hys, hyds, by simp [h.lydds], hydds, by simp [h.lball],
        ball_concat h.lball h.ball (by simp) (.lies r (k + 1) (k + 1) (by omega) hr hl le_rfl rfl), ?_⟩
      refine .floor r (k + 1) (k + 1) rfl rfl (by omega) hr hl le_rfl ?_
      rw [getLastD_concat]
      rfl
    · have hab' : ∀ j, 1 ≤ j → j ≤ k + 1 →
          floor ≤ (flight (fun _ => dt) (fun i => pair (P i).1) (fun i => pair (P i).2.1) r j).2 := by
        intro j h1 hj
        rcases Nat.lt_or_ge k j with hk | hk
        · cases (by omega : j = k + 1)
          exact not_lt.mp hf
        · exact hab j h1 hk
      rw [if_neg (by exact hf)]
      refine ⟨_, rfl, hys, hyds, by simp [h.lydds], hydds, by simp [h.lball],
        ball_concat h.lball h.ball (by simp) (.flies r (k + 1) (by omega) hr hab' rfl), ?_⟩
      refine .air r (k + 1) rfl h2 (by omega) hr hab' rfl ?_ rfl
      rw [getLastD_concat]
      rfl
  | floor r k l h1 h2 hi hr hl hkl he =>
    have hn : ∀ j, j ≤ i → Released clock j → j < i := fun j hj hc => by
      cases released_unique hc hr
      have := hl.1
      omega
    rw [h1, if_neg (by simp), if_neg (by simp [h2])]
    refine ⟨_, rfl, hys, hyds, by simp [h.lydds], keep hn, by simp [h.lball],
      ball_concat h.lball h.ball hlen (.lies r k (l + 1) (by omega) hr hl (by omega) he), ?_⟩
    refine .floor r k (l + 1) rfl h2 (by omega) hr hl (by omega) ?_
    rw [getLastD_concat]
    exact he

/-! ### The loop -/

theorem posVelAcc_planar {s : Dmp} (h : s.dimY = 2) (x xd : List ℝ) : Planar (s.posVelAcc x xd) := by
  constructor <;> simp [Dmp.posVelAcc, length_pick, Dmp.SPRING_Y, Dmp.SPRING_Z, vdivs, h]

/-- The motion of the hand, row by row. -/
noncomputable def motion (s : Dmp) (rows : List (List ℝ × List ℝ)) (i : Nat) : List ℝ × List ℝ × List ℝ :=
  s.posVelAcc (rows.getD i ([], [])).1 (rows.getD i ([], [])).2

theorem motion_planar {s : Dmp} (h : s.dimY = 2) (rows : List (List ℝ × List ℝ)) (i : Nat) :
    Planar (motion s rows i) := posVelAcc_planar h _ _

theorem posVelAcc_core {s s' : Dmp} (h : s.core = s'.core) : s.posVelAcc = s'.posVelAcc := by
  have h1 : s.core.dimY = s'.core.dimY := by rw [h]
  change s.dimY = s'.dimY at h1
  have h2 : s.core.tau = s'.core.tau := by rw [h]
  change s.tau = s'.tau at h2
  funext x xd
  unfold Dmp.posVelAcc
  rw [h1, h2]

theorem stable_run {α : Type} {d : Nat} {m : PyM Dmp α} (h : Dmp.Stable d m) {s s' : Dmp} {r : Except PyErr α}
    (g : Dmp.Good d s) (hr : m s = (r, s')) : s'.core = s.core ∧ Dmp.Good d s' := by
  have := (h s s g g rfl).2
  rw [hr] at this
  exact this

/-- If the integration succeeds, so does the simulation. -/
theorem loop_ok : ∀ (n i : Nat) (x : List ℝ) (sim : Sim) (s s' : Dmp) (rows : List (List ℝ × List ℝ)),
    Dmp.Good 2 s → s.dimY = 2 → (∀ j, clock (j + 1) = clock j + dt) → (∀ j, Planar (P j)) →
    Inv floor dt clock P i sim →
    DynSys.integrateLoop .rungeKutta (clock i) x (Cpp.Dmp.evenly dt (clock i + dt) n) s = (.ok rows, s') →
    (∀ j, j < n → P (i + 1 + j) = motion s rows j) →
    ∃ sim', loop dt floor (Cpp.Dmp.evenly dt (clock i + dt) n) x sim s = (.ok sim', s') ∧
      Inv floor dt clock P (i + n) sim' := by
  intro n
  induction n with
  | zero =>
    intro i x sim s s' rows g hd hc hp h hs hP
    cases hs
    exact ⟨sim, rfl, h⟩
  | succ n ih =>
    intro i x sim s s' rows g hd hc hp h hs hP
    rw [Cpp.Dmp.evenly_succ] at hs ⊢
    unfold DynSys.integrateLoop at hs
    obtain ⟨r, s1, p1, hs⟩ := PyM.bind_inv hs
    obtain ⟨rest, s2, p2, hs⟩ := PyM.bind_inv hs
    cases hs
    rw [show clock i + dt - clock i = dt by ring] at p1
    obtain ⟨hcore, g1⟩ := stable_run (Dmp.stable_step .rungeKutta dt x) g p1
    have hpv := posVelAcc_core hcore
    have h0 := hP 0 (by omega)
    obtain ⟨sim1, e1, i1⟩ := step_inv h fun j _ => hp j
    rw [← hc] at p2 ⊢
    have p3 := p2
    obtain ⟨sim', e2, i2⟩ := ih (i + 1) r.1 sim1 s1 s' rest g1 (by
        have : s1.core.dimY = s.core.dimY := by rw [hcore]
        exact this.trans hd) hc hp i1 p3 fun j hj => by
      have := hP (j + 1) (by omega)
      rw [show i + 1 + 1 + j = i + 1 + (j + 1) by omega, this]
      unfold motion
      rw [hpv]
      rfl
    refine ⟨sim', ?_, by rw [show i + (n + 1) = i + 1 + n by omega]; exact i2⟩
    unfold loop
    refine (PyM.bind_ok (show DynSys.integrateStep dt x s = _ from p1)).trans ?_
    rw [PyM.self_bind, hpv]
    have e3 : s.posVelAcc r.1 r.2 = P (i + 1) := h0.symm
    rw [e3, e1, PyM.lift_ok_bind]
    exact e2

/-- What is needed for the next step to succeed. -/
structure Ok (sim : Sim) : Prop where
  rows : ∀ row ∈ sim.ydds, row.length = 2
  view : sim.inHand = false → sim.inAir = true → ∃ r, sim.yddBall = some r ∧ r < sim.ydds.length

theorem step_ok {t : ℝ} {p : List ℝ × List ℝ × List ℝ} {sim : Sim} (h : Ok sim) (hp : Planar p) :
    ∃ sim', sim.step dt floor t p = .ok sim' ∧ Ok sim' := by
  have hrows : ∀ row ∈ sim.ydds ++ [p.2.2], row.length = 2 := by
    intro row hrow
    rcases List.mem_append.mp hrow with hr | hr
    · exact h.rows row hr
    · rw [List.mem_singleton.mp hr]; exact hp.acc
  unfold Sim.step Sim.record
  simp only
  cases h1 : sim.inHand with
  | true =>
    rw [if_pos rfl]
    by_cases ht : t > 0.6
    · rw [if_pos ht]
      exact ⟨_, rfl, hrows, fun _ _ => ⟨_, rfl, by simp⟩⟩
    · rw [if_neg ht]
      exact ⟨_, rfl, hrows, fun hc => nomatch hc⟩
  | false =>
    rw [if_neg (by simp)]
    cases h2 : sim.inAir with
    | true =>
      obtain ⟨r, hr, hl⟩ := h.view h1 h2
      rw [if_pos rfl]
      unfold Sim.fly
      simp only [hr]
      have hl' : r < (sim.ydds ++ [p.2.2]).length := by simp; omega
      have hlen : ((sim.ydds ++ [p.2.2]).getD r []).length = 2 := by
        rw [getD_lt hl']
        exact hrows _ (List.getElem_mem hl')
      have hset : ∀ row ∈ (sim.ydds ++ [p.2.2]).set r
          ((((sim.ydds ++ [p.2.2]).getD r []).set 0 0).set 1 (-9.81)), row.length = 2 := by
        intro row hrow
        rcases List.mem_or_eq_of_mem_set hrow with hc | rfl
        · exact hrows row hc
        · rw [List.length_set, List.length_set]
          exact hlen
      rw [if_neg (by omega)]
      by_cases hf : (vadd (sim.ysBall.getLastD []) (vscale dt (vadd sim.ydBall
          (vscale dt ((((sim.ydds ++ [p.2.2]).getD r []).set 0 0).set 1 (-9.81)))))).getD 1 0 < floor
      · rw [if_pos hf]
        exact ⟨_, rfl, hset, fun _ hc => nomatch hc⟩
      · rw [if_neg hf]
        exact ⟨_, rfl, hset, fun _ _ => ⟨r, rfl, by simp; omega⟩⟩
    | false =>
      rw [if_neg (by simp)]
      exact ⟨_, rfl, hrows, fun _ hc => nomatch hc⟩

/-- If the integration fails, so does the simulation. -/
theorem loop_error : ∀ (n : Nat) (t0 : ℝ) (x : List ℝ) (sim : Sim) (s s' : Dmp) (e : PyErr),
    Dmp.Good 2 s → s.dimY = 2 → Ok sim →
    DynSys.integrateLoop .rungeKutta t0 x (Cpp.Dmp.evenly dt (t0 + dt) n) s = (.error e, s') →
    loop dt floor (Cpp.Dmp.evenly dt (t0 + dt) n) x sim s = (.error e, s') := by
  intro n
  induction n with
  | zero => intro t0 x sim s s' e g hd h hs; cases hs
  | succ n ih =>
    intro t0 x sim s s' e g hd h hs
    rw [Cpp.Dmp.evenly_succ] at hs ⊢
    unfold DynSys.integrateLoop at hs
    unfold loop
    rw [show t0 + dt - t0 = dt by ring] at hs
    rw [PyM.bind_apply] at hs
    rcases p1 : DynSys.step (σ := Dmp) .rungeKutta dt x s with ⟨r, s1⟩
    rw [p1] at hs
    cases r with
    | error e1 =>
      cases hs
      exact PyM.bind_error (show DynSys.integrateStep dt x s = _ from p1)
    | ok r =>
      refine (PyM.bind_ok (show DynSys.integrateStep dt x s = _ from p1)).trans ?_
      obtain ⟨hcore, g1⟩ := stable_run (Dmp.stable_step .rungeKutta dt x) g p1
      have hd1 : s1.core.dimY = s.core.dimY := by rw [hcore]
      replace hd1 : s1.dimY = 2 := hd1.trans hd
      obtain ⟨sim1, e1, i1⟩ := step_ok (dt := dt) (floor := floor) (t := t0 + dt) h (posVelAcc_planar hd1 r.1 r.2)
      simp only at hs
      rw [PyM.self_bind, e1, PyM.lift_ok_bind]
      refine ih (t0 + dt) r.1 sim1 s1 s' e g1 hd1 i1 ?_
      rw [PyM.bind_apply] at hs
      rcases p2 : DynSys.integrateLoop (σ := Dmp) .rungeKutta (t0 + dt) r.1
        (Cpp.Dmp.evenly dt (t0 + dt + dt) n) s1 with ⟨q, s2⟩
      rw [p2] at hs
      cases q with
      | error e2 => exact hs
      | ok rows => cases hs

end ThrowBall

end Verif
