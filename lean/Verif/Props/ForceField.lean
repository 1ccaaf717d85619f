import Verif.Proofs.ForceFieldRuns

/-
Following a Dmp in a force field (C81): the rows that perform_rollout returns.
-/

set_option autoImplicit false

namespace Verif.ForceField

open Spec
open ThrowBall (motion posVelAcc_core stable_run)
open Cpp.Dmp (evenly evenly_succ)
open Dmp (Reachable DefaultLike Change)

/-- The time between two rows. -/
noncomputable def stepLength (T : ℝ) (n : Int) : ℝ := T / ((n : ℝ) - 1)

theorem linspace_evenly (T : ℝ) (n : Nat) : linspace 0 T n = evenly (stepLength T n) 0 n := by
  unfold linspace evenly stepLength
  refine List.map_congr_left fun k _ => ?_
  rw [sub_zero]
  rfl

theorem motion_sized {s : Dmp} {d : Nat} (h : s.dimY = d) (rows : List (List ℝ × List ℝ)) (i : Nat) :
    Sized d (motion s rows i) := by
  subst h
  unfold motion Dmp.posVelAcc
  refine ⟨?_, ?_, ?_⟩ <;> simp [length_pick, Dmp.SPRING_Y, Dmp.SPRING_Z]

/-- What a rollout contains, given the motion of the Dmp: the desired motion, the gains, the field, and a
motion that tracks the desired motion. -/
structure Follows (d : Nat) (s : DmpWithSchedules) (T F m : ℝ) (n : Int) (rows : List (List ℝ × List ℝ))
    (r : Rollout) : Prop where
  ts : r.ts = evenly (stepLength T n) 0 n.toNat
  lengths : r.ysDes.length = n.toNat ∧ r.ydsDes.length = n.toNat ∧ r.yddsDes.length = n.toNat ∧
    r.schedules.length = n.toNat ∧ r.ysCur.length = n.toNat ∧ r.ydsCur.length = n.toNat ∧
    r.yddsCur.length = n.toNat ∧ r.fields.length = n.toNat
  sizes : ∀ i, i < n.toNat → Sized d (r.ysCur.getD i [], r.ydsCur.getD i [], r.yddsCur.getD i [])
  desired : ∀ i, i < n.toNat → (r.ysDes.getD i [], r.ydsDes.getD i [], r.yddsDes.getD i []) = motion s.dmp rows i
  gains : ∀ i, i < n.toNat → ∃ v, s.schedulesNow (rows.getD i ([], [])).1 = .ok v ∧
    gainsRow d v = .ok (r.schedules.getD i [])
  nonneg : ∀ i, 1 ≤ i → i < n.toNat → ∀ x ∈ r.schedules.getD i [], 0 ≤ x
  fields : ∀ i, i < n.toNat → r.fields.getD i 0 = if i = 0 then 0 else bump F m (i * stepLength T n)
  tracks : ∀ j, j < d → Tracks n.toNat (stepLength T n) (fun i => (r.schedules.getD i []).getD j 0)
    (fun i => (r.ysDes.getD i []).getD j 0) (fun i => (r.ydsDes.getD i []).getD j 0)
    (fun i => (r.yddsDes.getD i []).getD j 0) (fun i => r.fields.getD i 0)
    (fun i => (r.ysCur.getD i []).getD j 0) (fun i => (r.ydsCur.getD i []).getD j 0)
    (fun i => (r.yddsCur.getD i []).getD j 0)

theorem linspaceInt_two {T : ℝ} {n : Int} (hn : 2 ≤ n) : ∃ k, n.toNat = k + 2 ∧
    TaskSolverDmp.linspaceInt 0 T n =
      .ok (0 :: stepLength T n :: evenly (stepLength T n) (stepLength T n + stepLength T n) k) := by
  obtain ⟨k, rfl⟩ : ∃ k : Nat, n = ((k + 2 : Nat) : Int) := ⟨(n - 2).toNat, by omega⟩
  refine ⟨k, rfl, ?_⟩
  unfold TaskSolverDmp.linspaceInt
  rw [if_neg (by omega), Int.toNat_natCast, linspace_evenly, evenly_succ, evenly_succ, zero_add]

theorem sound_of_good (d : Nat) (s s' : DmpWithSchedules) (g : Dmp.Good d s.dmp) (T F m : ℝ) (hm : 0 < m)
    (n : Int) (r : Rollout) (h : performRollout T n F m s = (.ok r, s')) :
    2 ≤ n ∧ s' = { s with dmp := s'.dmp } ∧
      ∃ rows, Dmp.integrate (evenly (stepLength T n) 0 n.toNat) .rungeKutta s.dmp = (.ok rows, s'.dmp) ∧
        Follows d s T F m n rows r := by
  unfold performRollout at h
  have hn : 2 ≤ n := by
    by_contra hn
    unfold TaskSolverDmp.linspaceInt at h
    rcases lt_or_ge n 0 with e | e
    · rw [if_pos e] at h
      cases h
    · rw [if_neg (by omega)] at h
      rcases (by omega : n = 0 ∨ n = 1) with rfl | rfl
      · cases h
      · cases h
  obtain ⟨k, hk, hts⟩ := linspaceInt_two (T := T) hn
  rw [hts, PyM.lift_ok_bind] at h
  generalize hdt : stepLength T n = dt at h ⊢
  simp only at h
  obtain ⟨q, s1, p1, h⟩ := PyM.bind_inv h
  rw [PyM.self_bind] at h
  obtain ⟨r0, s2, p2, h⟩ := PyM.bind_inv h
  obtain ⟨e1, d1, v1⟩ := startSched_ok p1
  obtain ⟨hcore, g1⟩ := stable_run Dmp.stable_integrateStart g d1
  have hd1 := core_dimY hcore
  have hpv := posVelAcc_core hcore
  obtain ⟨hr0, rfl⟩ : start s1.dmp.dimY (0 :: dt :: evenly dt (dt + dt) k) (s1.dmp.posVelAcc q.1 q.2.1) q.2.2 =
      .ok r0 ∧ s1 = s2 := by
    cases e : start s1.dmp.dimY (0 :: dt :: evenly dt (dt + dt) k) (s1.dmp.posVelAcc q.1 q.2.1) q.2.2 with
    | error er => rw [e] at p2; cases p2
    | ok r1' => rw [e] at p2; cases p2; exact ⟨rfl, rfl⟩
  rw [g1.dim, hpv] at hr0
  obtain ⟨clock, hclock⟩ : ∃ clock : Nat → ℝ, clock = fun (i : Nat) => (i : ℝ) * dt := ⟨_, rfl⟩
  have c0 : clock 0 = 0 := by rw [hclock]; simp
  have ets : dt :: evenly dt (dt + dt) k = evenly dt (clock 0 + dt) (k + 1) := by
    rw [evenly_succ, c0, zero_add]
  rw [ets] at h
  obtain ⟨rows, vs, i1, i2, i3, i4, i5, i6⟩ := loop_sound (d := d) (clock := clock)
    (fun j => by rw [hclock]; push_cast; ring) hm (k + 1) 0 q.1 r0 r s1 s' g1 h
  obtain ⟨P, hP⟩ : ∃ P, P = motion s.dmp ((q.1, q.2.1) :: rows) := ⟨_, rfl⟩
  obtain ⟨V, hV⟩ : ∃ V : Nat → Arr ℝ, V = fun i => (q.2.2 :: vs).getD i (.one []) := ⟨_, rfl⟩
  have hsz : ∀ j, Sized d (P j) := fun j => by rw [hP]; exact motion_sized g.dim _ _
  have hP0 : P 0 = s.dmp.posVelAcc q.1 q.2.1 := by rw [hP]; rfl
  have hV0 : V 0 = q.2.2 := by rw [hV]; rfl
  rw [← hP0, ← hV0] at hr0
  obtain ⟨j1, j2⟩ := start_inv (F := F) (m := m) (dt := dt) (clock := clock) (V := V) (hsz 0) hr0
  obtain ⟨j3, j4⟩ := i6 P V (fun j hj => by
      rw [hP]
      unfold motion
      rw [hpv, show 0 + 1 + j = j + 1 by omega]
      rfl) (fun j hj => by
      rw [hV, show 0 + 1 + j = j + 1 by omega]
      rfl) hsz j1
  rw [zero_add] at j3
  have hsn : ∀ y, s1.schedulesNow y = s.schedulesNow y := fun y => by
    rw [e1, schedulesNow_withDmp hd1]
  have hev : evenly dt 0 n.toNat = 0 :: evenly dt (clock 0 + dt) (k + 1) := by
    rw [hk, evenly_succ, c0]
  refine ⟨hn, by rw [i2, e1]; rfl, (q.1, q.2.1) :: rows, ?_, ?_⟩
  · rw [hev]
    unfold Dmp.integrate
    refine (PyM.bind_ok d1).trans ?_
    rw [c0] at i1 ⊢
    refine (PyM.bind_ok i1).trans ?_
    rfl
  · have hdes : ∀ i, i < n.toNat → (r.ysDes.getD i [], r.ydsDes.getD i [], r.yddsDes.getD i []) = P i := by
      intro i hi
      rw [j3.ysDes, j3.ydsDes, j3.yddsDes, getD_range_map (by omega), getD_range_map (by omega),
        getD_range_map (by omega)]
    have hfields : ∀ i, i < n.toNat → r.fields.getD i 0 = if i = 0 then 0 else bump F m (clock i) := by
      intro i hi
      rw [j3.fields, getD_range_map (by omega)]
    refine ⟨?_, ⟨?_, ?_, ?_, ?_, ?_, ?_, ?_, ?_⟩, ?_, ?_, ?_, ?_, ?_, ?_⟩
    · rw [j4, j2, hdt, hev, ets]
    · rw [j3.ysDes]; simp [hk]
    · rw [j3.ydsDes]; simp [hk]
    · rw [j3.yddsDes]; simp [hk]
    · rw [j3.lsched, hk]
    · rw [j3.lys, hk]
    · rw [j3.lyds, hk]
    · rw [j3.lydds, hk]
    · rw [j3.fields]; simp [hk]
    · exact fun i hi => j3.rows i (by omega)
    · intro i hi
      rw [hdes i hi, hP]
    · intro i hi
      refine ⟨V i, ?_, j3.gains i (by omega)⟩
      rw [hV]
      cases i with
      | zero => rw [← hsn]; exact v1
      | succ i => rw [← hsn]; exact i5 i (by omega)
    · exact fun i h1 hi => j3.nonneg i h1 (by omega)
    · intro i hi
      rw [hfields i hi, hclock, hdt]
    · intro j hj
      have t := j3.tracks j hj
      have e1 : ∀ i, i < n.toNat → r.ysDes.getD i [] = (P i).1 := fun i hi => by rw [← hdes i hi]
      have e2 : ∀ i, i < n.toNat → r.ydsDes.getD i [] = (P i).2.1 := fun i hi => by rw [← hdes i hi]
      have e3 : ∀ i, i < n.toNat → r.yddsDes.getD i [] = (P i).2.2 := fun i hi => by rw [← hdes i hi]
      rw [hdt]
      refine ⟨?_, ?_, ?_, ?_⟩
      · rw [e1 0 (by omega), e2 0 (by omega), e3 0 (by omega)]
        exact t.start
      · intro i hi
        rw [e1 (i + 1) hi, e2 (i + 1) hi, e3 (i + 1) hi, hfields (i + 1) hi, if_neg (by omega)]
        exact t.accel i (by omega)
      · exact fun i hi => t.speed i (by omega)
      · exact fun i hi => t.place i (by omega)

/-- C81: a rollout contains the times, the motion of the Dmp as `integrate` computes it, the gains for the
phases of this motion, the field, and a motion that tracks the motion of the Dmp. -/
theorem C81_rollout (d : Nat) (s s' : DmpWithSchedules) (hs : Reachable DefaultLike Change.Valid d s.dmp)
    (T F m : ℝ) (hm : 0 < m) (n : Int) (r : Rollout) (h : performRollout T n F m s = (.ok r, s')) :
    2 ≤ n ∧ s' = { s with dmp := s'.dmp } ∧
      ∃ rows, Dmp.integrate (evenly (stepLength T n) 0 n.toNat) .rungeKutta s.dmp = (.ok rows, s'.dmp) ∧
        Follows d s T F m n rows r :=
  sound_of_good d s s' hs.inv.good T F m hm n r h

theorem total_of_good (d : Nat) (s : DmpWithSchedules) (t : Dmp) (g : Dmp.Good d s.dmp)
    (T F m : ℝ) (hm : 0 < m) (n : Int) (hn : 2 ≤ n) (rows : List (List ℝ × List ℝ))
    (h : Dmp.integrate (evenly (stepLength T n) 0 n.toNat) .rungeKutta s.dmp = (.ok rows, t))
    (hg : ∀ i, i < n.toNat → ∃ v gain, s.schedulesNow (rows.getD i ([], [])).1 = .ok v ∧
      gainsRow d v = .ok gain ∧ (1 ≤ i → ∀ x ∈ gain, 0 ≤ x)) :
    ∃ r, performRollout T n F m s = (.ok r, { s with dmp := t }) := by
  obtain ⟨k, hk, hts⟩ := linspaceInt_two (T := T) hn
  unfold performRollout
  rw [hts, PyM.lift_ok_bind]
  generalize hdt : stepLength T n = dt at h ⊢
  obtain ⟨clock, hclock⟩ : ∃ clock : Nat → ℝ, clock = fun (i : Nat) => (i : ℝ) * dt := ⟨_, rfl⟩
  have c0 : clock 0 = 0 := by rw [hclock]; simp
  have ets : dt :: evenly dt (dt + dt) k = evenly dt (clock 0 + dt) (k + 1) := by
    rw [evenly_succ, c0, zero_add]
  have hev : evenly dt 0 n.toNat = 0 :: evenly dt (clock 0 + dt) (k + 1) := by
    rw [hk, evenly_succ, c0]
  rw [hev] at h
  unfold Dmp.integrate at h
  obtain ⟨q, s1, p1, h⟩ := PyM.bind_inv h
  obtain ⟨rest, s2, p2, h⟩ := PyM.bind_inv h
  cases h
  obtain ⟨hcore, g1⟩ := stable_run Dmp.stable_integrateStart g p1
  have hd1 := core_dimY hcore
  obtain ⟨v, gs, hv, hgs, -⟩ := hg 0 (by omega)
  have hv' : (withDmp s s1).schedulesNow q.1 = .ok v := by
    rw [schedulesNow_withDmp hd1]
    exact hv
  obtain ⟨r0, hr0⟩ : ∃ r0, start s1.dimY (0 :: dt :: evenly dt (dt + dt) k) (s1.posVelAcc q.1 q.2) v = .ok r0 := by
    unfold start
    rw [g1.dim, hgs]
    exact ⟨_, rfl⟩
  rw [← c0] at p2
  obtain ⟨r, hr⟩ := loop_total (d := d) (F := F) (clock := clock) (fun j => by rw [hclock]; push_cast; ring) hm
    (k + 1) 0 q.1 r0 (withDmp s s1) _ rest g1 p2 fun j hj => by
      obtain ⟨v, gs, hv, h2, h3⟩ := hg (j + 1) (by omega)
      exact ⟨v, gs, by rw [schedulesNow_withDmp hd1]; exact hv, h2, h3 (by omega)⟩
  refine ⟨r, ?_⟩
  simp only
  refine (PyM.bind_ok (startSched_of p1 hv')).trans ?_
  rw [PyM.self_bind]
  change (PyM.lift (start s1.dimY (0 :: dt :: evenly dt (dt + dt) k) (s1.posVelAcc q.1 q.2) v) >>= _)
    (withDmp s s1) = _
  rw [hr0, PyM.lift_ok_bind, ets]
  exact hr

/-- C81: if the Dmp can be integrated, and the schedules are gains for each of its dimensions (not negative
after the first time), the rollout succeeds. -/
theorem C81_total (d : Nat) (s : DmpWithSchedules) (t : Dmp) (hs : Reachable DefaultLike Change.Valid d s.dmp)
    (T F m : ℝ) (hm : 0 < m) (n : Int) (hn : 2 ≤ n) (rows : List (List ℝ × List ℝ))
    (h : Dmp.integrate (evenly (stepLength T n) 0 n.toNat) .rungeKutta s.dmp = (.ok rows, t))
    (hg : ∀ i, i < n.toNat → ∃ v gain, s.schedulesNow (rows.getD i ([], [])).1 = .ok v ∧
      gainsRow d v = .ok gain ∧ (1 ≤ i → ∀ x ∈ gain, 0 ≤ x)) :
    ∃ r, performRollout T n F m s = (.ok r, { s with dmp := t }) :=
  total_of_good d s t hs.inv.good T F m hm n hn rows h hg

/-- C81: fewer than two times. -/
theorem C81_too_few (s : DmpWithSchedules) (T F m : ℝ) (n : Int) (hn : n < 2) :
    performRollout T n F m s = (.error (if n < 0 then .valueError else .indexError), s) := by
  unfold performRollout TaskSolverDmp.linspaceInt
  rcases lt_or_ge n 0 with e | e
  · rw [if_pos e, if_pos e]
    rfl
  · rw [if_neg (by omega), if_neg (by omega)]
    rcases (by omega : n = 0 ∨ n = 1) with rfl | rfl
    · rfl
    · rfl

/-! ### Gains -/

theorem gainsRow_entries {d : Nat} {v : Arr ℝ} {g : List ℝ} (h : gainsRow d v = .ok g) :
    ((DmpWithSchedules.entries v).length = d ∧ g = DmpWithSchedules.entries v) ∨
      ∃ x, DmpWithSchedules.entries v = [x] ∧ g = List.replicate d x := by
  have key : ∀ w : List ℝ, fill d w = .ok g → (w.length = d ∧ g = w) ∨ ∃ x, w = [x] ∧ g = List.replicate d x := by
    intro w h
    unfold fill at h
    by_cases e : w.length = d
    · rw [if_pos e] at h
      cases h
      exact .inl ⟨e, rfl⟩
    · rw [if_neg e] at h
      match w, h with
      | [x], h => cases h; exact .inr ⟨x, rfl, rfl⟩
      | [], h => cases h
      | _ :: _ :: _, h => cases h
  cases v with
  | one v => exact key v h
  | two a =>
    unfold gainsRow at h
    simp only at h
    match e : a.rows with
    | [w] =>
      rw [e] at h
      have : DmpWithSchedules.entries (.two a) = w := by simp [DmpWithSchedules.entries, e]
      rw [this]
      exact key w h
    | [] => rw [e] at h; cases h
    | _ :: _ :: _ => rw [e] at h; cases h

/-- C81: there is one gain for each dimension, or one gain for all dimensions, and it is the prediction of
the schedule for the phase, clipped to the bounds of the schedule. -/
theorem C81_gains {d : Nat} {lo hi : Option BoundArg} {s : DmpWithSchedules}
    (hs : DmpWithSchedules.Bounded lo hi s)
    (h1 : ¬ BoundArg.Ignored s.sched.length lo) (h2 : ¬ BoundArg.Ignored s.sched.length hi) {x : List ℝ}
    {v : Arr ℝ} {g : List ℝ} (h : s.schedulesNow x = .ok v) (hg : gainsRow d v = .ok g) :
    (s.sched.length = d ∨ s.sched.length = 1) ∧ g.length = d ∧ ∀ j, j < d → ∃ p,
      s.Predicts (if s.sched.length = 1 then 0 else j) (x.getD (3 * s.dmp.dimY) 0) p ∧
      Spec.Clipped (BoundArg.value lo (if s.sched.length = 1 then 0 else j))
        (BoundArg.value hi (if s.sched.length = 1 then 0 else j)) p (g.getD j 0) := by
  obtain ⟨k1, k2⟩ := DmpWithSchedules.schedulesNow_ok hs h1 h2 h
  rcases gainsRow_entries hg with ⟨e1, e2⟩ | ⟨y, e1, e2⟩
  · have hd : s.sched.length = d := k1.symm.trans e1
    refine ⟨.inl hd, by rw [e2, e1], fun j hj => ?_⟩
    have hj' : (if s.sched.length = 1 then 0 else j) = j := by
      by_cases e : s.sched.length = 1
      · rw [if_pos e]; omega
      · rw [if_neg e]
    rw [hj', e2]
    exact k2 j (by omega)
  · have h1 : s.sched.length = 1 := by rw [← k1, e1]; rfl
    refine ⟨.inr h1, by rw [e2]; simp, fun j hj => ?_⟩
    rw [if_pos h1]
    have := k2 0 (by omega)
    rw [e1] at this
    have e3 : g.getD j 0 = y := by rw [e2]; simp [List.getElem?_replicate, hj]
    rw [e3]
    exact this

/-! ### Effect of the field -/

theorem tracks_combine {n : Nat} {dt : ℝ} {gain des desVel desAcc : Nat → ℝ} {f f1 f2 p p1 p2 v v1 v2 a a1 a2 : Nat → ℝ}
    {c1 c2 : ℝ} (hc : c1 + c2 = 1) (hf : ∀ i, i < n → f i = c1 * f1 i + c2 * f2 i)
    (h : Tracks n dt gain des desVel desAcc f p v a) (h1 : Tracks n dt gain des desVel desAcc f1 p1 v1 a1)
    (h2 : Tracks n dt gain des desVel desAcc f2 p2 v2 a2) :
    ∀ i, i < n → p i = c1 * p1 i + c2 * p2 i ∧ v i = c1 * v1 i + c2 * v2 i ∧ a i = c1 * a1 i + c2 * a2 i := by
  obtain rfl : c2 = 1 - c1 := by linarith
  intro i
  induction i with
  | zero =>
    intro _
    obtain ⟨b1, b2, b3⟩ := h.start
    obtain ⟨b4, b5, b6⟩ := h1.start
    obtain ⟨b7, b8, b9⟩ := h2.start
    rw [b1, b2, b3, b4, b5, b6, b7, b8, b9]
    refine ⟨?_, ?_, ?_⟩ <;> ring
  | succ i ih =>
    intro hi
    obtain ⟨q1, q2, -⟩ := ih (by omega)
    have e3 : a (i + 1) = c1 * a1 (i + 1) + (1 - c1) * a2 (i + 1) := by
      rw [h.accel i hi, h1.accel i hi, h2.accel i hi, q1, q2, hf (i + 1) hi]
      ring
    have e2 : v (i + 1) = c1 * v1 (i + 1) + (1 - c1) * v2 (i + 1) := by
      rw [h.speed i hi, h1.speed i hi, h2.speed i hi, q2, e3]
      ring
    refine ⟨?_, e2, e3⟩
    rw [h.place i hi, h1.place i hi, h2.place i hi, q1, e2]
    ring

/-- C81: the deviation that a field causes is proportional to its strength: positions, velocities and
accelerations are affine functions of the strength. -/
theorem C81_proportional (d : Nat) (s : DmpWithSchedules) (hs : Reachable DefaultLike Change.Valid d s.dmp)
    (T m : ℝ) (hm : 0 < m) (n : Int) (F1 F2 c1 c2 : ℝ) (hc : c1 + c2 = 1) (r r1 r2 : Rollout)
    (h : (performRollout T n (c1 * F1 + c2 * F2) m s).1 = .ok r)
    (h1 : (performRollout T n F1 m s).1 = .ok r1) (h2 : (performRollout T n F2 m s).1 = .ok r2) :
    ∀ i, i < n.toNat → ∀ j, j < d →
      (r.ysCur.getD i []).getD j 0 = c1 * (r1.ysCur.getD i []).getD j 0 + c2 * (r2.ysCur.getD i []).getD j 0 ∧
      (r.ydsCur.getD i []).getD j 0 = c1 * (r1.ydsCur.getD i []).getD j 0 + c2 * (r2.ydsCur.getD i []).getD j 0 ∧
      (r.yddsCur.getD i []).getD j 0 =
        c1 * (r1.yddsCur.getD i []).getD j 0 + c2 * (r2.yddsCur.getD i []).getD j 0 := by
  obtain ⟨hn, -, rows, k, f⟩ := C81_rollout d s _ hs T _ m hm n r (Prod.ext h rfl)
  obtain ⟨-, -, rows1, k1, f1⟩ := C81_rollout d s _ hs T _ m hm n r1 (Prod.ext h1 rfl)
  obtain ⟨-, -, rows2, k2, f2⟩ := C81_rollout d s _ hs T _ m hm n r2 (Prod.ext h2 rfl)
  obtain rfl : rows = rows1 := by
    have := (congrArg Prod.fst k).symm.trans (congrArg Prod.fst k1)
    exact Except.ok.inj this
  obtain rfl : rows = rows2 := by
    have := (congrArg Prod.fst k).symm.trans (congrArg Prod.fst k2)
    exact Except.ok.inj this
  have same : ∀ {Fa : ℝ} {ra : Rollout}, Follows d s T Fa m n rows ra → ∀ j, j < d →
      Tracks n.toNat (stepLength T n) (fun i => (r.schedules.getD i []).getD j 0)
        (fun i => (r.ysDes.getD i []).getD j 0) (fun i => (r.ydsDes.getD i []).getD j 0)
        (fun i => (r.yddsDes.getD i []).getD j 0) (fun i => ra.fields.getD i 0)
        (fun i => (ra.ysCur.getD i []).getD j 0) (fun i => (ra.ydsCur.getD i []).getD j 0)
        (fun i => (ra.yddsCur.getD i []).getD j 0) := by
    intro Fa ra fa j hj
    have t := fa.tracks j hj
    have e1 : ∀ i, i < n.toNat → ra.schedules.getD i [] = r.schedules.getD i [] := by
      intro i hi
      obtain ⟨v, b1, b2⟩ := f.gains i hi
      obtain ⟨v', b3, b4⟩ := fa.gains i hi
      rw [b1] at b3
      cases b3
      rw [b2] at b4
      exact (Except.ok.inj b4).symm
    have e2 : ∀ i, i < n.toNat → (ra.ysDes.getD i [], ra.ydsDes.getD i [], ra.yddsDes.getD i []) =
        (r.ysDes.getD i [], r.ydsDes.getD i [], r.yddsDes.getD i []) := fun i hi => by
      rw [f.desired i hi, fa.desired i hi]
    have e3 : ∀ i, i < n.toNat → ra.ysDes.getD i [] = r.ysDes.getD i [] :=
      fun i hi => congrArg (fun p => p.1) (e2 i hi)
    have e4 : ∀ i, i < n.toNat → ra.ydsDes.getD i [] = r.ydsDes.getD i [] :=
      fun i hi => congrArg (fun p => p.2.1) (e2 i hi)
    have e5 : ∀ i, i < n.toNat → ra.yddsDes.getD i [] = r.yddsDes.getD i [] :=
      fun i hi => congrArg (fun p => p.2.2) (e2 i hi)
    refine ⟨?_, ?_, t.speed, t.place⟩
    · rw [← e3 0 (by omega), ← e4 0 (by omega), ← e5 0 (by omega)]
      exact t.start
    · intro i hi
      rw [← e3 _ hi, ← e4 _ hi, ← e5 _ hi, ← e1 _ hi]
      exact t.accel i hi
  intro i hi j hj
  refine tracks_combine hc (fun i hi => ?_) (same f j hj) (same f1 j hj) (same f2 j hj) i hi
  rw [f.fields i hi, f1.fields i hi, f2.fields i hi]
  by_cases e : i = 0
  · rw [if_pos e, if_pos e, if_pos e]
    ring
  · rw [if_neg e, if_neg e, if_neg e]
    unfold bump
    ring

end Verif.ForceField
