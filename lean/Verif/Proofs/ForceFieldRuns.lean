import Verif.Proofs.ForceField

/-
The loop of the simulation in a force field, and the integration of the Dmp.
-/

set_option autoImplicit false

namespace Verif.ForceField

open Spec
open ThrowBall (motion posVelAcc_core stable_run)
open Cpp.Dmp (evenly evenly_succ)
open DmpWithSchedules (integrateStepSched integrateStartSched after_super_ok)

/-- The object with another state of the superclass. -/
def withDmp (s : DmpWithSchedules) (t : Dmp) : DmpWithSchedules := { s with dmp := t }

theorem clipColumns_withDmp (s : DmpWithSchedules) (t : Dmp) : ∀ (l : List Nat) (a : Arr2 ℝ),
    (withDmp s t).clipColumns l a = s.clipColumns l a
  | [], _ => rfl
  | i :: rest, a => by
    unfold DmpWithSchedules.clipColumns
    simp only [clipColumns_withDmp s t rest]
    rfl

theorem enforce_withDmp (s : DmpWithSchedules) (t : Dmp) (a : Arr ℝ) :
    (withDmp s t).enforce a = s.enforce a := by
  unfold DmpWithSchedules.enforce
  simp only [clipColumns_withDmp]
  rfl

theorem schedulesNow_withDmp {s : DmpWithSchedules} {t : Dmp} (h : t.dimY = s.dmp.dimY) (x : List ℝ) :
    (withDmp s t).schedulesNow x = s.schedulesNow x := by
  unfold DmpWithSchedules.schedulesNow
  simp only [enforce_withDmp]
  change (s.sched.mapM (DmpWithSchedules.predictAt (pickAt x (Dmp.PHASE t.dimY))) >>= _) = _
  rw [h]

theorem core_dimY {s s' : Dmp} (h : s'.core = s.core) : s'.dimY = s.dimY := by
  have h1 : s'.core.dimY = s.core.dimY := by rw [h]
  exact h1

theorem step_ok {dt : ℝ} {x : List ℝ} {s s' : DmpWithSchedules} {q : List ℝ × List ℝ × Arr ℝ}
    (h : integrateStepSched .rungeKutta dt x s = (.ok q, s')) :
    s' = withDmp s s'.dmp ∧ DynSys.step .rungeKutta dt x s.dmp = (.ok (q.1, q.2.1), s'.dmp) ∧
      s'.schedulesNow q.1 = .ok q.2.2 := by
  rw [DmpWithSchedules.integrateStepSched_run] at h
  obtain ⟨e, a, b, h1, h2, h3⟩ := after_super_ok (m := DynSys.step .rungeKutta dt x)
    (f := fun s r => s.schedulesNow r.1) (g := fun r v => (r.1, r.2, v)) h
  refine ⟨?_, by rw [h3]; exact h1, by rw [h3]; exact h2⟩
  rw [e]
  rfl

theorem step_of {dt : ℝ} {x : List ℝ} {s : DmpWithSchedules} {t : Dmp} {r : List ℝ × List ℝ} {v : Arr ℝ}
    (h : DynSys.step .rungeKutta dt x s.dmp = (.ok r, t)) (hv : (withDmp s t).schedulesNow r.1 = .ok v) :
    integrateStepSched .rungeKutta dt x s = (.ok (r.1, r.2, v), withDmp s t) := by
  rw [DmpWithSchedules.integrateStepSched_run, h]
  change (((withDmp s t).schedulesNow r.1).map _, withDmp s t) = _
  rw [hv]
  rfl

theorem startSched_ok {s s' : DmpWithSchedules} {q : List ℝ × List ℝ × Arr ℝ}
    (h : integrateStartSched none s = (.ok q, s')) :
    s' = withDmp s s'.dmp ∧ Dmp.integrateStart none s.dmp = (.ok (q.1, q.2.1), s'.dmp) ∧
      s'.schedulesNow q.1 = .ok q.2.2 := by
  rw [DmpWithSchedules.integrateStartSched_run] at h
  obtain ⟨e, a, b, h1, h2, h3⟩ := after_super_ok (m := Dmp.integrateStart none)
    (f := fun s r => s.schedulesNow r.1) (g := fun r v => (r.1, r.2, v)) h
  refine ⟨?_, by rw [h3]; exact h1, by rw [h3]; exact h2⟩
  rw [e]
  rfl

theorem startSched_of {s : DmpWithSchedules} {t : Dmp} {r : List ℝ × List ℝ} {v : Arr ℝ}
    (h : Dmp.integrateStart none s.dmp = (.ok r, t)) (hv : (withDmp s t).schedulesNow r.1 = .ok v) :
    integrateStartSched none s = (.ok (r.1, r.2, v), withDmp s t) := by
  rw [DmpWithSchedules.integrateStartSched_run, h]
  change (((withDmp s t).schedulesNow r.1).map _, withDmp s t) = _
  rw [hv]
  rfl

variable {d : Nat} {F m dt : ℝ}

/-- What the loop computes, if it succeeds. -/
theorem loop_sound {clock : Nat → ℝ} (hc : ∀ j, clock (j + 1) = clock j + dt) (hm : 0 < m) :
    ∀ (n k : Nat) (x : List ℝ) (r r' : Rollout) (s s' : DmpWithSchedules), Dmp.Good d s.dmp →
    loop F m dt (evenly dt (clock k + dt) n) x r s = (.ok r', s') →
    ∃ (rows : List (List ℝ × List ℝ)) (vs : List (Arr ℝ)), DynSys.integrateLoop .rungeKutta (clock k) x (evenly dt (clock k + dt) n) s.dmp =
        (.ok rows, s'.dmp) ∧ s' = withDmp s s'.dmp ∧ rows.length = n ∧ vs.length = n ∧
      (∀ j, j < n → s.schedulesNow (rows.getD j ([], [])).1 = .ok (vs.getD j (.one []))) ∧
      ∀ P V, (∀ j, j < n → P (k + 1 + j) = motion s.dmp rows j) →
        (∀ j, j < n → V (k + 1 + j) = vs.getD j (.one [])) → (∀ j, Sized d (P j)) →
        Inv d F m dt clock P V k r → Inv d F m dt clock P V (k + n) r' ∧ r'.ts = r.ts := by
  intro n
  induction n with
  | zero =>
    intro k x r r' s s' g h
    cases h
    exact ⟨[], [], rfl, rfl, rfl, rfl, fun j hj => absurd hj (by omega), fun P V _ _ _ hi => ⟨hi, rfl⟩⟩
  | succ n ih =>
    intro k x r r' s s' g h
    rw [evenly_succ] at h ⊢
    unfold loop at h
    obtain ⟨q, s1, p1, h⟩ := PyM.bind_inv h
    rw [PyM.self_bind] at h
    obtain ⟨r1, s2, p2, h⟩ := PyM.bind_inv h
    obtain ⟨e1, d1, v1⟩ := step_ok p1
    obtain ⟨hcore, g1⟩ := stable_run (Dmp.stable_step .rungeKutta dt x) g d1
    have hd1 := core_dimY hcore
    have hpv := posVelAcc_core hcore
    obtain ⟨hr1, rfl⟩ : r.step s1.dmp.dimY F m dt (clock k + dt) (s1.dmp.posVelAcc q.1 q.2.1) q.2.2 = .ok r1 ∧
        s1 = s2 := by
      cases e : r.step s1.dmp.dimY F m dt (clock k + dt) (s1.dmp.posVelAcc q.1 q.2.1) q.2.2 with
      | error er => rw [e] at p2; cases p2
      | ok r1' => rw [e] at p2; cases p2; exact ⟨rfl, rfl⟩
    rw [g1.dim, hpv] at hr1
    rw [← hc k] at h hr1 ⊢
    obtain ⟨rows, vs, i1, i2, i3, i4, i5, i6⟩ := ih (k + 1) q.1 r1 r' s1 s' g1 h
    have v2 : s.schedulesNow q.1 = .ok q.2.2 := by
      rw [← v1, e1, schedulesNow_withDmp hd1]
    have hsn : ∀ y, s1.schedulesNow y = s.schedulesNow y := fun y => by
      rw [e1, schedulesNow_withDmp hd1]
    refine ⟨(q.1, q.2.1) :: rows, q.2.2 :: vs, ?_, ?_, by simp [i3], by simp [i4], ?_, ?_⟩
    · unfold DynSys.integrateLoop
      rw [show clock (k + 1) - clock k = dt by rw [hc]; ring]
      refine (PyM.bind_ok d1).trans ?_
      rw [PyM.bind_ok i1]
      rfl
    · rw [i2, e1]
      rfl
    · intro j hj
      cases j with
      | zero => exact v2
      | succ j =>
        rw [← hsn]
        exact i5 j (by omega)
    · intro P V hP hV hs hi
      have hP0 : P (k + 1) = s.dmp.posVelAcc q.1 q.2.1 := hP 0 (by omega)
      have hV0 : V (k + 1) = q.2.2 := hV 0 (by omega)
      rw [← hP0, ← hV0] at hr1
      obtain ⟨j1, j2⟩ := step_inv hm hs hi hr1
      obtain ⟨j3, j4⟩ := i6 P V (fun j hj => by
          have := hP (j + 1) (by omega)
          rw [show k + 1 + (j + 1) = k + 1 + 1 + j by omega] at this
          rw [this]
          unfold motion
          rw [hpv]
          rfl) (fun j hj => by
          have := hV (j + 1) (by omega)
          rw [show k + 1 + (j + 1) = k + 1 + 1 + j by omega] at this
          exact this) hs j1
      exact ⟨by rw [show k + (n + 1) = k + 1 + n by omega]; exact j3, j4.trans j2⟩

/-- If the integration succeeds and the gains are positive or zero, the loop succeeds. -/
theorem loop_total {clock : Nat → ℝ} (hc : ∀ j, clock (j + 1) = clock j + dt) (hm : 0 < m) :
    ∀ (n k : Nat) (x : List ℝ) (r : Rollout) (s : DmpWithSchedules) (t : Dmp) (rows : List (List ℝ × List ℝ)),
    Dmp.Good d s.dmp →
    DynSys.integrateLoop .rungeKutta (clock k) x (evenly dt (clock k + dt) n) s.dmp = (.ok rows, t) →
    (∀ j, j < n → ∃ v g, s.schedulesNow (rows.getD j ([], [])).1 = .ok v ∧ gainsRow d v = .ok g ∧
      ∀ y ∈ g, 0 ≤ y) →
    ∃ r', loop F m dt (evenly dt (clock k + dt) n) x r s = (.ok r', withDmp s t) := by
  intro n
  induction n with
  | zero =>
    intro k x r s t rows g h hg
    cases h
    exact ⟨r, rfl⟩
  | succ n ih =>
    intro k x r s t rows g h hg
    rw [evenly_succ] at h ⊢
    unfold DynSys.integrateLoop at h
    obtain ⟨q, s1, p1, h⟩ := PyM.bind_inv h
    obtain ⟨rest, s2, p2, h⟩ := PyM.bind_inv h
    cases h
    rw [show clock k + dt - clock k = dt by ring] at p1
    obtain ⟨hcore, g1⟩ := stable_run (Dmp.stable_step .rungeKutta dt x) g p1
    have hd1 := core_dimY hcore
    obtain ⟨v, gs, hv, hgs, hpos⟩ := hg 0 (by omega)
    have hv' : (withDmp s s1).schedulesNow q.1 = .ok v := by
      rw [schedulesNow_withDmp hd1]
      exact hv
    obtain ⟨a, ha⟩ := control_of (y := r.ysCur.getLastD []) (yd := r.ydsCur.getLastD [])
      (p := s1.posVelAcc q.1 q.2) hpos
    have hstep : ∃ r1, r.step s1.dimY F m dt (clock k + dt) (s1.posVelAcc q.1 q.2) v = .ok r1 := by
      unfold Rollout.step
      simp only
      rw [g1.dim, hgs]
      change ∃ r1, (control gs _ _ _ >>= _) = _
      rw [ha]
      change ∃ r1, (field F m _ >>= _) = _
      rw [field_pos hm]
      exact ⟨_, rfl⟩
    obtain ⟨r1, hr1⟩ := hstep
    rw [← hc k] at p2 hr1 ⊢
    obtain ⟨r', h'⟩ := ih (k + 1) q.1 r1 (withDmp s s1) t rest g1 p2 fun j hj => by
      obtain ⟨v, gs, hv, h2⟩ := hg (j + 1) (by omega)
      exact ⟨v, gs, by rw [schedulesNow_withDmp hd1]; exact hv, h2⟩
    refine ⟨r', ?_⟩
    unfold loop
    refine (PyM.bind_ok (step_of p1 hv')).trans ?_
    rw [PyM.self_bind]
    change (PyM.lift (r.step s1.dimY F m dt (clock (k + 1)) (s1.posVelAcc q.1 q.2) v) >>= _) (withDmp s s1) = _
    rw [hr1, PyM.lift_ok_bind]
    exact h'

end Verif.ForceField
