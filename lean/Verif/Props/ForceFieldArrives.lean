import Verif.Props.DmpStepsRates
import Verif.Props.ForceField
import Verif.Proofs.Tracking

/-
Following a Dmp in a force field (C82): arrival at the goal.
-/

set_option autoImplicit false

namespace Verif.ForceField

open Filter Topology Spec
open ThrowBall (motion posVelAcc_core stable_run)
open Cpp.Dmp (evenly evenly_succ)
open Dmp (Reachable DefaultLike DefaultScaled Change orbit)

theorem tracks_mono {n k : Nat} {dt : ℝ} {gain des desVel desAcc f p v a : Nat → ℝ}
    (h : Tracks n dt gain des desVel desAcc f p v a) (hk : k ≤ n) : Tracks k dt gain des desVel desAcc f p v a :=
  ⟨h.start, fun i hi => h.accel i (by omega), fun i hi => h.speed i (by omega), fun i hi => h.place i (by omega)⟩

theorem tracks_congr {n : Nat} {dt : ℝ} {gain des desVel desAcc f p v a gain' des' desVel' desAcc' f' p' v' a' : Nat → ℝ}
    (h : Tracks n dt gain des desVel desAcc f p v a) (hn : 1 ≤ n) (h1 : ∀ i, i < n → gain i = gain' i)
    (h2 : ∀ i, i < n → des i = des' i) (h3 : ∀ i, i < n → desVel i = desVel' i)
    (h4 : ∀ i, i < n → desAcc i = desAcc' i) (h5 : ∀ i, i < n → f i = f' i) (h6 : ∀ i, i < n → p i = p' i)
    (h7 : ∀ i, i < n → v i = v' i) (h8 : ∀ i, i < n → a i = a' i) :
    Tracks n dt gain' des' desVel' desAcc' f' p' v' a' where
  start := by
    rw [← h2 0 hn, ← h3 0 hn, ← h4 0 hn, ← h6 0 hn, ← h7 0 hn, ← h8 0 hn]
    exact h.start
  accel i hi := by
    rw [← h1 _ hi, ← h2 _ hi, ← h3 _ hi, ← h4 _ hi, ← h5 _ hi, ← h6 i (by omega), ← h7 i (by omega), ← h8 _ hi]
    exact h.accel i hi
  speed i hi := by
    rw [← h7 _ hi, ← h7 i (by omega), ← h8 _ hi]
    exact h.speed i hi
  place i hi := by
    rw [← h7 _ hi, ← h6 i (by omega), ← h6 _ hi]
    exact h.place i hi

theorem bump_vanishes {F m dt : ℝ} (hm : 0 < m) (hdt : 0 < dt) :
    Tendsto (fun i : Nat => bump F m (i * dt)) atTop (𝓝 0) := by
  have h1 : Tendsto (fun i : Nat => (i : ℝ) * dt - m) atTop atTop :=
    tendsto_atTop_add_const_right _ _ (tendsto_natCast_atTop_atTop.atTop_mul_const hdt)
  have h2 : Tendsto (fun i : Nat => 10 * ((i : ℝ) * dt - m) ^ 2 / m) atTop atTop := by
    have := ((tendsto_pow_atTop (two_ne_zero)).comp h1).const_mul_atTop (by norm_num : (0 : ℝ) < 10)
    exact this.atTop_div_const hm
  have h3 := (Real.tendsto_exp_neg_atTop_nhds_zero.comp h2).const_mul F
  rw [mul_zero] at h3
  exact h3

theorem stepLength_eq (dt : ℝ) (n : Nat) : stepLength (dt * (n + 1)) ((n : Int) + 2) = dt := by
  unfold stepLength
  push_cast
  have : (n : ℝ) + 2 - 1 = n + 1 := by ring
  rw [this]
  have : (n : ℝ) + 1 ≠ 0 := by positivity
  field_simp

/-- Rollouts of all durations, with steps of length `dt`, are the beginnings of one motion. -/
structure Endless (d : Nat) (s : DmpWithSchedules) (dt F m : ℝ) (R : Nat → Rollout) (X K : Nat → List ℝ) : Prop where
  makes : ∀ i, orbit s.dmp .rungeKutta dt i = some (X i)
  rate : ∀ i, (Dmp.diffEq (X i) s.dmp).1 = .ok (K i)
  gains : ∀ i, ∃ v, s.schedulesNow (X i) = .ok v ∧ gainsRow d v = .ok ((R i).schedules.getD i [])
  same : ∀ n i, i < n + 2 → (R n).schedules.getD i [] = (R i).schedules.getD i [] ∧
    ∀ j, j < d → ((R n).ysCur.getD i []).getD j 0 = ((R i).ysCur.getD i []).getD j 0 ∧
      ((R n).ydsCur.getD i []).getD j 0 = ((R i).ydsCur.getD i []).getD j 0
  tracks : ∀ n j, j < d → Tracks n dt (fun i => ((R i).schedules.getD i []).getD j 0)
    (fun i => (X i).getD j 0) (fun i => (K i).getD j 0) (fun i => (K i).getD (d + j) 0 / s.dmp.tau)
    (fun i => if i = 0 then 0 else bump F m (i * dt)) (fun i => ((R i).ysCur.getD i []).getD j 0)
    (fun i => ((R i).ydsCur.getD i []).getD j 0) (fun i => ((R i).yddsCur.getD i []).getD j 0)

theorem endless_of (d : Nat) (s : DmpWithSchedules) (g : Dmp.Good d s.dmp) {dt F m : ℝ} (hm : 0 < m)
    {R : Nat → Rollout} (h : ∀ n : Nat, (performRollout (dt * (n + 1)) (n + 2) F m s).1 = .ok (R n)) :
    ∃ X K, Endless d s dt F m R X K := by
  have hs := fun n => sound_of_good d s _ g _ F m hm _ (R n) (Prod.ext (h n) rfl)
  simp only [stepLength_eq] at hs
  have hs := fun n => (hs n).2.2
  choose rows h1 fol using hs
  have hN : ∀ n : Nat, ((n : Int) + 2).toNat = n + 2 := fun n => by omega
  have hlen : ∀ n : Nat, (evenly dt 0 ((n : Int) + 2).toNat).length = n + 2 := fun n => by
    rw [hN]; simp [evenly]
  have horb := fun n : Nat => Dmp.integrate_orbit g (m := .rungeKutta) (dt := dt)
    (ts := evenly dt 0 ((n : Int) + 2).toNat) (fun i hi => by
      rw [hlen n] at hi
      rw [hN]
      unfold evenly
      rw [getD_range_map (by omega), getD_range_map (by omega)]
      push_cast
      ring) (rows := rows n) (by rw [h1 n])
  have hl : ∀ n, (rows n).length = n + 2 := fun n => (horb n).1.trans (hlen n)
  have hrate : ∀ n, ∀ i, i < n + 2 → (Dmp.diffEq ((rows n).getD i ([], [])).1 s.dmp).1 =
      .ok ((rows n).getD i ([], [])).2 := fun n i hi => by
    refine Dmp.integrate_rates g (by rw [h1 n]) _ ?_
    rw [getD_lt (by rw [hl]; exact hi)]
    exact List.getElem_mem _
  have hx : ∀ n i, i < n + 2 → ((rows n).getD i ([], [])).1 = ((rows i).getD i ([], [])).1 := fun n i hi => by
    have e1 := (horb n).2 i (by rw [hl]; exact hi)
    have e2 := (horb i).2 i (by rw [hl]; omega)
    rw [e1] at e2
    exact Option.some.inj e2
  have hk : ∀ n i, i < n + 2 → ((rows n).getD i ([], [])).2 = ((rows i).getD i ([], [])).2 := fun n i hi => by
    have e1 := hrate n i hi
    have e2 := hrate i i (by omega)
    rw [hx n i hi, e2] at e1
    exact (Except.ok.inj e1).symm
  have hgain : ∀ n i, i < n + 2 → (R n).schedules.getD i [] = (R i).schedules.getD i [] := fun n i hi => by
    obtain ⟨v, b1, b2⟩ := (fol n).gains i (by rw [hN]; exact hi)
    obtain ⟨v', b3, b4⟩ := (fol i).gains i (by rw [hN]; omega)
    rw [hx n i hi, b3] at b1
    cases b1
    rw [b2] at b4
    exact Except.ok.inj b4
  -- the motion that is followed
  have hmo : ∀ n i, i < n + 2 → motion s.dmp (rows n) i = motion s.dmp (rows i) i := fun n i hi => by
    unfold motion
    rw [hx n i hi, hk n i hi]
  have hdes : ∀ n i, i < n + 2 → ∀ j, j < d →
      ((R n).ysDes.getD i []).getD j 0 = ((rows i).getD i ([], [])).1.getD j 0 ∧
      ((R n).ydsDes.getD i []).getD j 0 = ((rows i).getD i ([], [])).2.getD j 0 ∧
      ((R n).yddsDes.getD i []).getD j 0 = ((rows i).getD i ([], [])).2.getD (d + j) 0 / s.dmp.tau := by
    intro n i hi j hj
    have e := (fol n).desired i (by rw [hN]; exact hi)
    rw [hmo n i hi] at e
    unfold motion Dmp.posVelAcc at e
    have hd := g.dim
    rw [hd] at e
    obtain ⟨e1, e2⟩ := Prod.mk.inj e
    obtain ⟨e2, e3⟩ := Prod.mk.inj e2
    rw [e1, e2, e3, getD_vdivs]
    unfold Dmp.SPRING_Y Dmp.SPRING_Z
    rw [Dmp.getD_pick _ hj, Dmp.getD_pick _ hj, Dmp.getD_pick _ hj, zero_add]
    exact ⟨rfl, rfl, rfl⟩
  -- all rollouts track the same motion
  have htr : ∀ n j, j < d → Tracks (n + 2) dt (fun i => ((R i).schedules.getD i []).getD j 0)
      (fun i => ((rows i).getD i ([], [])).1.getD j 0) (fun i => ((rows i).getD i ([], [])).2.getD j 0)
      (fun i => ((rows i).getD i ([], [])).2.getD (d + j) 0 / s.dmp.tau)
      (fun i => if i = 0 then 0 else bump F m (i * dt)) (fun i => ((R n).ysCur.getD i []).getD j 0)
      (fun i => ((R n).ydsCur.getD i []).getD j 0) (fun i => ((R n).yddsCur.getD i []).getD j 0) := by
    intro n j hj
    have t := (fol n).tracks j hj
    rw [hN, stepLength_eq] at t
    refine tracks_congr t (by omega) (fun i hi => by rw [hgain n i hi]) (fun i hi => (hdes n i hi j hj).1)
      (fun i hi => (hdes n i hi j hj).2.1) (fun i hi => (hdes n i hi j hj).2.2) (fun i hi => ?_) (fun _ _ => rfl)
      (fun _ _ => rfl) (fun _ _ => rfl)
    have := (fol n).fields i (by rw [hN]; exact hi)
    rw [stepLength_eq] at this
    exact this
  have huniq : ∀ n i, i < n + 2 → ∀ j, j < d →
      ((R n).ysCur.getD i []).getD j 0 = ((R i).ysCur.getD i []).getD j 0 ∧
      ((R n).ydsCur.getD i []).getD j 0 = ((R i).ydsCur.getD i []).getD j 0 ∧
      ((R n).yddsCur.getD i []).getD j 0 = ((R i).yddsCur.getD i []).getD j 0 := by
    intro n i hi j hj
    have := tracks_combine (c1 := 1) (c2 := 0) (by norm_num) (fun k _ => by ring)
      (tracks_mono (htr n j hj) (k := i + 1) (by omega)) (tracks_mono (htr i j hj) (k := i + 1) (by omega))
      (tracks_mono (htr i j hj) (k := i + 1) (by omega)) i (by omega)
    simpa using this
  refine ⟨fun i => ((rows i).getD i ([], [])).1, fun i => ((rows i).getD i ([], [])).2, ?_, ?_, ?_, ?_, ?_⟩
  · exact fun i => (horb i).2 i (by rw [hl]; omega)
  · exact fun i => hrate i i (by omega)
  · exact fun i => (fol i).gains i (by rw [hN]; omega)
  · exact fun n i hi => ⟨hgain n i hi, fun j hj => ⟨(huniq n i hi j hj).1, (huniq n i hi j hj).2.1⟩⟩
  · intro n j hj
    refine tracks_mono (tracks_congr (htr n j hj) (by omega) (fun _ _ => rfl) (fun _ _ => rfl) (fun _ _ => rfl)
      (fun _ _ => rfl) (fun _ _ => rfl) (fun i hi => (huniq n i hi j hj).1)
      (fun i hi => (huniq n i hi j hj).2.1) (fun i hi => (huniq n i hi j hj).2.2)) (by omega)

theorem orbit_makes {s : Dmp} {m : DynSys.Method} {dt : ℝ} {X : Nat → List ℝ}
    (hX : ∀ n, orbit s m dt n = some (X n)) : Dmp.Makes s m dt X := by
  constructor
  · have := hX 0
    unfold orbit at this
    cases e : (Dmp.integrateStart none s).1 with
    | error _ => rw [e] at this; cases this
    | ok r =>
      rw [e] at this
      injection this with this
      exact ⟨r.2, by rw [← this]⟩
  · intro n
    have := hX (n + 1)
    unfold orbit at this
    rw [hX n] at this
    simp only at this
    cases e : (DynSys.step m dt (X n) s).1 with
    | error _ => rw [e] at this; cases this
    | ok r =>
      rw [e] at this
      injection this with this
      exact ⟨r.2, by rw [← this]⟩

/-- Rollouts with steps that are fine for the Dmp. -/
theorem arrives_of_fine {d : Nat} {s : DmpWithSchedules} (hst : Dmp.Settles d s.dmp) {dt : ℝ}
    (fine : Dmp.FineSteps d s.dmp .rungeKutta dt) {F m : ℝ} (hm : 0 < m) {R : Nat → Rollout}
    (hR : ∀ n : Nat, (performRollout (dt * (n + 1)) (n + 2) F m s).1 = .ok (R n)) {j : Nat} (hj : j < d) {g : ℝ}
    (g0 : 0 < g) (hb : dt * √g < √5 - 1)
    (tg : Tendsto (fun n => ((R n).schedules.getD (n + 1) []).getD j 0) atTop (𝓝 g)) :
    Tendsto (fun n => ((R n).ysCur.getD (n + 1) []).getD j 0) atTop (𝓝 (s.dmp.yAttr.getD j 0)) ∧
    Tendsto (fun n => ((R n).ydsCur.getD (n + 1) []).getD j 0) atTop (𝓝 0) := by
  obtain ⟨X, K, E⟩ := endless_of d s hst.inv.good hm hR
  obtain ⟨⟨u, hu⟩, hsta⟩ := (orbit_makes E.makes).steps hst.inv.good
  have d0 := fine.pos
  have a1 := (Dmp.settles_arrives hst fine hu hsta j hj).1
  obtain ⟨a2, a3⟩ := Dmp.settles_rates hst fine hu hsta E.rate hj
  have a3 := a3.div_const s.dmp.tau
  rw [zero_div] at a3
  have tg' : Tendsto (fun i => ((R i).schedules.getD i []).getD j 0) atTop (𝓝 g) := by
    refine (tendsto_add_atTop_iff_nat 1).mp (tg.congr fun n => ?_)
    rw [(E.same n (n + 1) (by omega)).1]
  have tf : Tendsto (fun i : Nat => if i = 0 then 0 else bump F m (i * dt)) atTop (𝓝 0) := by
    refine (bump_vanishes (F := F) hm d0).congr' ?_
    filter_upwards [eventually_ge_atTop 1] with i hi
    rw [if_neg (by omega)]
  obtain ⟨k1, k2⟩ := follower_arrives d0 g0 hb (fun n => E.tracks n j hj) tg' a1 a2 a3 tf
  constructor
  · refine ((tendsto_add_atTop_iff_nat 1).mpr k1).congr fun n => ?_
    rw [((E.same n (n + 1) (by omega)).2 j hj).1]
  · refine ((tendsto_add_atTop_iff_nat 1).mpr k2).congr fun n => ?_
    rw [((E.same n (n + 1) (by omega)).2 j hj).2]

/-- C82: after any history of assignments, training and queries, for the default subsystems, there is a step
length such that rollouts with steps up to it end at rest at the attractor as their duration grows, whatever
the force field, if the gains tend to positive numbers whose roots are below `(√5 - 1) / dt`. -/
theorem C82_arrives (d : Nat) (s : DmpWithSchedules) (hs : Reachable DefaultScaled Change.Forward d s.dmp) :
    ∃ t : ℝ, 0 < t ∧ ∀ dt, 0 < dt → dt ≤ t → ∀ F m, 0 < m → ∀ R : Nat → Rollout,
      (∀ n : Nat, (performRollout (dt * (n + 1)) (n + 2) F m s).1 = .ok (R n)) → ∀ j, j < d → ∀ g, 0 < g →
      dt * √g < √5 - 1 →
      Tendsto (fun n => ((R n).schedules.getD (n + 1) []).getD j 0) atTop (𝓝 g) →
      Tendsto (fun n => ((R n).ysCur.getD (n + 1) []).getD j 0) atTop (𝓝 (s.dmp.yAttr.getD j 0)) ∧
      Tendsto (fun n => ((R n).ydsCur.getD (n + 1) []).getD j 0) atTop (𝓝 0) := by
  have hst := (Dmp.kept_standard.reachable Dmp.init_standard hs).toSettles
  obtain ⟨t, t0, ht⟩ := Dmp.fine_small hst .rungeKutta
  exact ⟨t, t0, fun dt d0 d1 F m hm R hR j hj g g0 hb tg => arrives_of_fine hst (ht dt d0 d1) hm hR hj g0 hb tg⟩

/-- C82: for all positive limits of the gains there are steps that are small enough. -/
theorem C82_small_steps (d : Nat) (s : DmpWithSchedules) (hs : Reachable DefaultScaled Change.Forward d s.dmp)
    (g : Nat → ℝ) (hg : ∀ j, j < d → 0 < g j) :
    ∃ t : ℝ, 0 < t ∧ ∀ dt, 0 < dt → dt ≤ t → ∀ F m, 0 < m → ∀ R : Nat → Rollout,
      (∀ n : Nat, (performRollout (dt * (n + 1)) (n + 2) F m s).1 = .ok (R n)) →
      (∀ j, j < d → Tendsto (fun n => ((R n).schedules.getD (n + 1) []).getD j 0) atTop (𝓝 (g j))) →
      ∀ j, j < d →
        Tendsto (fun n => ((R n).ysCur.getD (n + 1) []).getD j 0) atTop (𝓝 (s.dmp.yAttr.getD j 0)) ∧
        Tendsto (fun n => ((R n).ydsCur.getD (n + 1) []).getD j 0) atTop (𝓝 0) := by
  obtain ⟨t1, p1, h1⟩ := C82_arrives d s hs
  obtain ⟨t2, p2, h2⟩ := Sub.exists_min (d := d) (P := fun j dt => dt * √(g j) < √5 - 1) fun j hj => by
    have s5 : 2 < √5 := by
      rw [Real.lt_sqrt (by norm_num)]; norm_num
    have s0 : 0 < √(g j) := Real.sqrt_pos.mpr (hg j hj)
    refine ⟨1 / √(g j), by positivity, fun dt _ h => ?_⟩
    have : dt * √(g j) ≤ 1 := by
      rw [le_div_iff₀ s0] at h
      exact h
    linarith
  refine ⟨min t1 t2, lt_min p1 p2, fun dt d0 hle F m hm R hR hlim j hj => ?_⟩
  exact h1 dt d0 (hle.trans (min_le_left _ _)) F m hm R hR j hj (g j) (hg j hj)
    (h2 dt d0 (hle.trans (min_le_right _ _)) j hj) (hlim j hj)

end Verif.ForceField
