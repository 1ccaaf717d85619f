import Verif.Proofs.ThrowPython
import Verif.Props.CppDmp

/-
Lemmas for the simulation of a thrown ball in C++.
-/

set_option autoImplicit false

namespace Verif.Cpp

open Spec

namespace Simulator

/-- What the simulator knows about the ball before row `i`. -/
inductive Now (dt clock : Nat → ℝ) (P : Nat → List ℝ × List ℝ × List ℝ) (i : Nat) (s : Simulator) : Prop
  | hand (h1 : s.ballInHand = true) (h : ∀ j, j < i → clock j ≤ 0.6)
  | air (r k : Nat) (h1 : s.ballInHand = false) (hi : i = r + k + 1) (hr : Released clock r)
      (h : ∀ j, 1 ≤ j → j ≤ k →
        -0.3 ≤ (flight dt (fun i => pair (P i).1) (fun i => pair (P i).2.1) r j).2)
      (e : s.yBall = [(flight dt (fun i => pair (P i).1) (fun i => pair (P i).2.1) r k).1,
        (flight dt (fun i => pair (P i).1) (fun i => pair (P i).2.1) r k).2])
      (v : s.ydBall = [(pair (P r).2.1).1, (pair (P r).2.1).2 - 9.81 * airTime dt r k])
      (a : s.yddBall.length = 2)
  | floor (r k l : Nat) (h1 : s.ballInHand = false) (hi : i = r + l + 1) (hr : Released clock r)
      (h : Lands (-0.3) dt (fun i => pair (P i).1) (fun i => pair (P i).2.1) r k) (hl : k ≤ l)
      (e : s.yBall = [(flight dt (fun i => pair (P i).1) (fun i => pair (P i).2.1) r k).1, -0.3])
      (v : s.ydBall = [0, 0]) (a : s.yddBall.length = 2)

/-- The state before row `i`, where `P` is the motion of the hand. -/
structure Inv (dt clock : Nat → ℝ) (P : Nat → List ℝ × List ℝ × List ℝ) (i : Nat) (s : Simulator) : Prop where
  time : s.time = clock i
  yFloor : s.yFloor = -0.3
  now : Now dt clock P i s

variable {dt clock : Nat → ℝ} {P : Nat → List ℝ × List ℝ × List ℝ}

theorem init_inv (h : clock 0 = 0) : Inv dt clock P 0 init :=
  ⟨h.symm, rfl, .hand rfl fun _ hj => by omega⟩

open Classical in
/-- Row `i` of cost_vars, where `b`, `v` and `a` are position, velocity and acceleration of the ball. -/
noncomputable def row (clock : Nat → ℝ) (P : Nat → List ℝ × List ℝ × List ℝ) (i : Nat) (b v a : ℝ × ℝ) : List ℝ :=
  [clock (i + 1)] ++ (P i).1 ++ (P i).2.1 ++ (P i).2.2 ++ [b.1, b.2, v.1, v.2, a.1, a.2,
    if ∀ j, j ≤ i → clock j ≤ 0.6 then 1 else 0]

theorem getState_row {s : Simulator} {i : Nat} (hp : Planar (P i)) (ht : s.time = clock (i + 1))
    (h1 : s.yEndeff = (P i).1) (h2 : s.ydEndeff = (P i).2.1) (h3 : s.yddEndeff = (P i).2.2)
    (h4 : s.yBall.length = 2) (h5 : s.ydBall.length = 2) (h6 : s.yddBall.length = 2)
    (hf : s.ballInHand = true ↔ ∀ j, j ≤ i → clock j ≤ 0.6) :
    s.getState = .ok (row clock P i (pair s.yBall) (pair s.ydBall) (pair s.yddBall)) := by
  unfold getState
  rw [if_pos ⟨by rw [h1]; exact hp.pos, by rw [h2]; exact hp.vel, by rw [h3]; exact hp.acc, h4, h5, h6⟩]
  unfold row
  rw [ht, h1, h2, h3]
  have e : (if s.ballInHand = true then (1 : ℝ) else 0) =
      @ite _ (∀ j, j ≤ i → clock j ≤ 0.6) (Classical.propDecidable _) 1 0 := by
    by_cases hh : s.ballInHand = true
    · rw [if_pos hh, if_pos (hf.mp hh)]
    · rw [if_neg hh, if_neg fun hc => hh (hf.mpr hc)]
  rw [e, eq_pair h4, eq_pair h5, eq_pair h6]
  simp [pair]

theorem step_inv {i : Nat} {s : Simulator} (h : Inv dt clock P i s) (hc : clock (i + 1) = clock i + dt i)
    (hdt : dt i ≠ 0) (hp : Planar (P i)) :
    ∃ s' b v a, s.integrateStep (dt i) (P i) = .ok s' ∧ s'.getState = .ok (row clock P i b v a) ∧
      FullStage (-0.3) dt clock (fun i => pair (P i).1) (fun i => pair (P i).2.1) (fun i => pair (P i).2.2) i b v a ∧
      Inv dt clock P (i + 1) s' := by
  have hset : ∀ l : List ℝ, l.length = 2 → (l.set 0 0).set 1 (-9.81) = [0, -9.81] := fun l hl => by
    match l, hl with
    | [a, b], _ => rfl
  unfold integrateStep
  simp only
  cases h.now with
  | hand h1 hh =>
    rw [if_pos h1, h.time]
    by_cases ht : clock i > 0.6
    · have hr : Released clock i := ⟨ht, fun j hj => hh j hj⟩
      rw [if_pos ht]
      refine ⟨_, pair (P i).1, pair (P i).2.1, pair (P i).2.2, rfl,
        getState_row hp hc.symm rfl rfl rfl hp.pos hp.vel hp.acc ?_,
        .held hh rfl rfl rfl, ⟨hc.symm, h.yFloor, ?_⟩⟩
      · refine ⟨(fun hc => nomatch hc), fun hcl => absurd ht (not_lt.mpr (hcl i le_rfl))⟩
      · refine .air i 0 rfl rfl hr (fun j _ _ => by omega) ?_ ?_ hp.acc
        · rw [flight_zero]
          exact eq_pair hp.pos
        · rw [airTime_zero, mul_zero, sub_zero]
          exact eq_pair hp.vel
    · rw [if_neg ht]
      have hh' : ∀ j, j ≤ i → clock j ≤ 0.6 := fun j hj => by
        rcases Nat.lt_or_ge j i with hl | hl
        · exact hh j hl
        · cases (by omega : j = i)
          exact not_lt.mp ht
      refine ⟨_, pair (P i).1, pair (P i).2.1, pair (P i).2.2, rfl,
        getState_row hp hc.symm rfl rfl rfl hp.pos hp.vel hp.acc ?_,
        .held hh rfl rfl rfl, ⟨hc.symm, h.yFloor, ?_⟩⟩
      · exact ⟨fun _ => hh', fun _ => h1⟩
      · exact .hand h1 fun j hj => hh' j (by omega)
  | air r k h1 hi hr hab he hv ha =>
    subst hi
    rw [if_neg (by simp [h1])]
    unfold fly
    simp only [he, hv, h.yFloor]
    rw [if_neg (by simp [ha]), hset _ ha]
    have hyd : vadd [(pair (P r).2.1).1, (pair (P r).2.1).2 - 9.81 * airTime dt r k]
        (vscale (dt (r + k + 1)) [0, -9.81]) =
        [(pair (P r).2.1).1, (pair (P r).2.1).2 - 9.81 * airTime dt r (k + 1)] := by
      rw [airTime_succ]
      simp only [vadd, vscale, List.map_cons, List.map_nil, List.zipWith_cons_cons, List.zipWith_nil_left]
      refine List.ext_getElem rfl fun n hn _ => ?_
      match n, hn with
      | 0, _ => simp
      | 1, _ => simp only [List.getElem_cons_succ, List.getElem_cons_zero]; ring
    rw [hyd]
    have hb : vadd [(flight dt (fun i => pair (P i).1) (fun i => pair (P i).2.1) r k).1,
          (flight dt (fun i => pair (P i).1) (fun i => pair (P i).2.1) r k).2]
        (vscale (dt (r + k + 1)) [(pair (P r).2.1).1, (pair (P r).2.1).2 - 9.81 * airTime dt r (k + 1)]) =
        [(flight dt (fun i => pair (P i).1) (fun i => pair (P i).2.1) r (k + 1)).1,
          (flight dt (fun i => pair (P i).1) (fun i => pair (P i).2.1) r (k + 1)).2] := by
      rw [flight_succ]
      rfl
    rw [hb]
    have hflag : ¬ ∀ j, j ≤ r + k + 1 → clock j ≤ 0.6 := fun hcl =>
      absurd hr.1 (not_lt.mpr (hcl r (by omega)))
    by_cases hf : (flight dt (fun i => pair (P i).1) (fun i => pair (P i).2.1) r (k + 1)).2 < -0.3
    · have hl : Lands (-0.3) dt (fun i => pair (P i).1) (fun i => pair (P i).2.1) r (k + 1) :=
        ⟨by omega, hf, fun j h1 hj => hab j h1 (by omega)⟩
      rw [if_pos (by exact hf)]
      refine ⟨_, _, (0, 0), (0, 0), rfl,
        getState_row hp (by rw [hc, ← h.time]) rfl rfl rfl (by simp) (by simp [vzeros]) (by simp [vzeros]) ?_,
        .lies r (k + 1) (k + 1) (by omega) hr hl le_rfl rfl rfl rfl, ⟨by rw [hc, ← h.time], rfl, ?_⟩⟩
      · refine ⟨fun hc => ?_, fun hc => absurd hc hflag⟩
        rw [show s.ballInHand = true from hc] at h1
        cases h1
      · exact .floor r (k + 1) (k + 1) h1 (by omega) hr hl le_rfl rfl rfl rfl
    · have hab' : ∀ j, 1 ≤ j → j ≤ k + 1 →
          -0.3 ≤ (flight dt (fun i => pair (P i).1) (fun i => pair (P i).2.1) r j).2 := by
        intro j h1 hj
        rcases Nat.lt_or_ge k j with hk | hk
        · cases (by omega : j = k + 1)
          exact not_lt.mp hf
        · exact hab j h1 hk
      rw [if_neg (by exact hf)]
      refine ⟨_, _, _, (0, -9.81), rfl,
        getState_row hp (by rw [hc, ← h.time]) rfl rfl rfl (by simp) (by simp) (by simp) ?_,
        .flies r (k + 1) (by omega) hr (by omega) hab' rfl rfl rfl, ⟨by rw [hc, ← h.time], rfl, ?_⟩⟩
      · refine ⟨fun hc => ?_, fun hc => absurd hc hflag⟩
        rw [show s.ballInHand = true from hc] at h1
        cases h1
      · exact .air r (k + 1) h1 (by omega) hr hab' rfl rfl rfl
  | floor r k l h1 hi hr hl hkl he hv ha =>
    subst hi
    rw [if_neg (by simp [h1])]
    unfold fly
    simp only [he, hv, h.yFloor]
    rw [if_neg (by simp [ha]), hset _ ha]
    have hlow : (vadd [(flight dt (fun i => pair (P i).1) (fun i => pair (P i).2.1) r k).1, -0.3]
        (vscale (dt (r + l + 1)) (vadd [0, 0] (vscale (dt (r + l + 1)) [0, -9.81])))) =
        [(flight dt (fun i => pair (P i).1) (fun i => pair (P i).2.1) r k).1,
          -0.3 - 9.81 * (dt (r + l + 1)) ^ 2] := by
      simp only [vadd, vscale, List.map_cons, List.map_nil, List.zipWith_cons_cons, List.zipWith_nil_left]
      refine List.ext_getElem rfl fun n hn _ => ?_
      match n, hn with
      | 0, _ => simp
      | 1, _ => simp only [List.getElem_cons_succ, List.getElem_cons_zero]; ring
    have hflag : ¬ ∀ j, j ≤ r + l + 1 → clock j ≤ 0.6 := fun hcl =>
      absurd hr.1 (not_lt.mpr (hcl r (by omega)))
    rw [hlow, if_pos (by
      have : 0 < (dt (r + l + 1)) ^ 2 := by positivity
      change -0.3 - 9.81 * (dt (r + l + 1)) ^ 2 < -0.3
      have : 0 < (9.81 : ℝ) * (dt (r + l + 1)) ^ 2 := by positivity
      linarith)]
    refine ⟨_, _, (0, 0), (0, 0), rfl,
      getState_row hp (by rw [hc, ← h.time]) rfl rfl rfl (by simp) (by simp [vzeros]) (by simp [vzeros]) ?_,
      .lies r k (l + 1) (by omega) hr hl (by omega) rfl rfl rfl, ⟨by rw [hc, ← h.time], rfl, ?_⟩⟩
    · refine ⟨fun hc => ?_, fun hc => absurd hc hflag⟩
      rw [show s.ballInHand = true from hc] at h1
      cases h1
    · exact .floor r k (l + 1) h1 (by omega) hr hl (by omega) rfl rfl rfl

end Simulator

open Simulator

variable {dt clock : Nat → ℝ} {P : Nat → List ℝ × List ℝ × List ℝ}

/-- `n` rows from row `i` on. -/
def Rows (dt clock : Nat → ℝ) (P : Nat → List ℝ × List ℝ × List ℝ) (i n : Nat) (rows : List (List ℝ)) : Prop :=
  rows.length = n ∧ ∀ j, j < n → ∃ b v a, rows.getD j [] = row clock P (i + j) b v a ∧
    FullStage (-0.3) dt clock (fun i => pair (P i).1) (fun i => pair (P i).2.1) (fun i => pair (P i).2.2) (i + j) b v a

theorem rows_cons {i n : Nat} {first : List ℝ} {rest : List (List ℝ)} {b v a : ℝ × ℝ}
    (h1 : first = row clock P i b v a)
    (h2 : FullStage (-0.3) dt clock (fun i => pair (P i).1) (fun i => pair (P i).2.1) (fun i => pair (P i).2.2) i b v a)
    (h : Rows dt clock P (i + 1) n rest) : Rows dt clock P i (n + 1) (first :: rest) := by
  refine ⟨by simp [h.1], fun j hj => ?_⟩
  cases j with
  | zero => exact ⟨b, v, a, h1, h2⟩
  | succ j =>
    have := h.2 j (by omega)
    rw [show i + 1 + j = i + (j + 1) by omega] at this
    exact this

theorem thrown_of_rows {n : Nat} {rows : List (List ℝ)} (h : Rows dt clock P 0 n rows) :
    rows.length = n ∧ ∃ ball bvel bacc,
      (∀ i, i < n → rows.getD i [] = row clock P i (ball i) (bvel i) (bacc i)) ∧
      ThrownFully n (-0.3) dt clock (fun i => pair (P i).1) (fun i => pair (P i).2.1) (fun i => pair (P i).2.2)
        ball bvel bacc := by
  have h2 := h.2
  choose! b v a hr hs using h2
  simp only [Nat.zero_add] at hr hs
  exact ⟨h.1, b, v, a, hr, thrown_of_fullStage hs⟩

theorem robotDmpLoop_rows (d : ℝ) (hd : d ≠ 0) (hc : ∀ j, clock (j + 1) = clock j + d) :
    ∀ (n i : Nat) (x xd : List ℝ) (s : Dmp) (sim : Simulator) (ps : List (List ℝ × List ℝ × List ℝ)),
    Inv (fun _ => d) clock P i sim → Dmp.executeLoop d n x xd s = .ok ps →
    (∀ j, j < n → P (i + j) = ps.getD j ([], [], []) ∧ Planar (P (i + j))) →
    ∃ rows, robotDmpLoop d n x xd s sim = .ok rows ∧ Rows (fun _ => d) clock P i n rows := by
  intro n
  induction n with
  | zero => intro i x xd s sim ps h he hP; exact ⟨[], rfl, rfl, fun j hj => by omega⟩
  | succ n ih =>
    intro i x xd s sim ps h he hP
    unfold Dmp.executeLoop at he
    obtain ⟨p, e1, he⟩ := Dmp.bind_inv he
    obtain ⟨⟨⟨x', xd'⟩, s'⟩, e2, he⟩ := Dmp.bind_inv he
    obtain ⟨rest, e3, he⟩ := Dmp.bind_inv he
    cases he
    have hP0 : P i = p := (hP 0 (by omega)).1
    obtain ⟨sim', b, v, a, e4, e5, hst, i1⟩ := step_inv h (hc i) hd (hP 0 (by omega)).2
    obtain ⟨rows, e6, hr⟩ := ih (i + 1) x' xd' s' sim' rest i1 e3 fun j hj => by
      have := hP (j + 1) (by omega)
      rw [show i + 1 + j = i + (j + 1) by omega]
      exact this
    rw [hP0] at e4
    refine ⟨_ :: rows, ?_, rows_cons rfl hst hr⟩
    unfold robotDmpLoop
    rw [e1, Dmp.ok_bind, e4, Dmp.ok_bind, e5, Dmp.ok_bind, e2, Dmp.ok_bind]
    simp only
    rw [e6]
    rfl

theorem robotTrajectoryLoop_rows (hc : ∀ j, clock (j + 1) = clock j + dt j) : ∀ (l : List (ℝ × List ℝ × List ℝ × List ℝ)) (i : Nat) (d : ℝ) (prev : Option ℝ)
    (sim : Simulator), Inv dt clock P i sim →
    (∀ j, j < l.length → P (i + j) = (l.getD j (0, [], [], [])).2 ∧ Planar (P (i + j)) ∧ dt (i + j) ≠ 0) →
    (0 < l.length → dt i = match prev with
      | none => d
      | some p => (l.getD 0 (0, [], [], [])).1 - p) →
    (∀ j, j + 1 < l.length → dt (i + j + 1) = (l.getD (j + 1) (0, [], [], [])).1 - (l.getD j (0, [], [], [])).1) →
    ∃ rows, robotTrajectoryLoop d prev l sim = .ok rows ∧ Rows dt clock P i l.length rows := by
  intro l
  induction l with
  | nil => intro i d prev sim h hP h0 hs; exact ⟨[], rfl, rfl, fun j hj => by simp at hj⟩
  | cons q l ih =>
    intro i d prev sim h hP h0 hs
    obtain ⟨t, p⟩ := q
    obtain ⟨hP0, hp, hd⟩ := hP 0 (by simp)
    replace hP0 : P i = p := hP0
    have h0' := h0 (by simp)
    obtain ⟨sim', b, v, a, e4, e5, hst, i1⟩ := step_inv h (hc i) hd hp
    obtain ⟨rows, e6, hr⟩ := ih (i + 1) (dt i) (some t) sim' i1 (fun j hj => by
        have := hP (j + 1) (by simpa using hj)
        rw [show i + 1 + j = i + (j + 1) by omega]
        exact this)
      (fun hl => by
        have := hs 0 (by simpa using hl)
        exact this)
      (fun j hj => by
        have := hs (j + 1) (by simpa using hj)
        rw [show i + 1 + j + 1 = i + (j + 1) + 1 by omega, this]
        rfl)
    refine ⟨_ :: rows, ?_, rows_cons rfl hst hr⟩
    rw [← hP0]
    cases prev with
    | none =>
      unfold robotTrajectoryLoop
      simp only
      rw [show d = dt i from h0'.symm, e4, Dmp.ok_bind, e5, Dmp.ok_bind, e6]
      rfl
    | some prev =>
      unfold robotTrajectoryLoop
      simp only
      rw [show t - prev = dt i from h0'.symm, e4, Dmp.ok_bind, e5, Dmp.ok_bind, e6]
      rfl

end Verif.Cpp
