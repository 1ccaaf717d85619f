import Verif.Props.ForceFieldArrives
import Verif.Props.DmpStepsBound
import Verif.Proofs.DmpRest

/-
Following a Dmp in a force field (C81, C82): rollouts that succeed, and gains that are too large.
-/

set_option autoImplicit false

namespace Verif.ForceField

open Filter Topology Spec
open ThrowBall (motion stable_run)
open Cpp.Dmp (evenly evenly_succ)
open Dmp (Reachable DefaultLike DefaultScaled Change orbit Makes Motionless)
open DmpWithSchedules (constFa predictAt_const)

/-- A constant schedule without bounds. -/
theorem schedulesNow_const {s : DmpWithSchedules} {c : ℝ} (h1 : s.sched = [constFa c]) (h2 : s.lo = none)
    (h3 : s.hi = none) (x : List ℝ) : s.schedulesNow x = .ok (.one [c]) := by
  have hne : pickAt x (Dmp.PHASE s.dmp.dimY) ≠ [] := by
    unfold pickAt Dmp.PHASE
    simp
  unfold DmpWithSchedules.schedulesNow
  rw [h1]
  simp only [List.mapM_cons, List.mapM_nil, predictAt_const _ hne]
  have : (pickAt x (Dmp.PHASE s.dmp.dimY)).length = 1 := by rw [length_pick]; rfl
  rw [this]
  change s.enforce (.one [c]) = _
  unfold DmpWithSchedules.enforce
  rw [h2, h3]
  rfl

theorem gainsRow_const (d : Nat) (c : ℝ) : gainsRow d (.one [c]) = .ok (List.replicate d c) := by
  unfold gainsRow fill
  by_cases h : d = 1
  · subst h; rfl
  · simp only
    rw [if_neg (fun e => h (by simpa using e.symm))]

/-- A Dmp whose steps succeed can be integrated. -/
theorem makes_integrate {d : Nat} {s : Dmp} (g : Dmp.Good d s) {m : DynSys.Method} {dt : ℝ} {X : Nat → List ℝ}
    (h : Makes s m dt X) (n : Nat) : ∃ rows, (Dmp.integrate (evenly dt 0 (n + 1)) m s).1 = .ok rows := by
  have loop : ∀ (k i : Nat) (t0 : ℝ) (t : Dmp), Dmp.Good d t → t.core = s.core →
      ∃ rows, (DynSys.integrateLoop m t0 (X i) (evenly dt (t0 + dt) k) t).1 = .ok rows := by
    intro k
    induction k with
    | zero => exact fun i t0 t _ _ => ⟨[], rfl⟩
    | succ k ih =>
      intro i t0 t gt ct
      obtain ⟨xd, e⟩ := h.next i
      obtain ⟨q1, q2, q3⟩ := Dmp.stable_step m dt (X i) t s gt g ct
      rw [e] at q1
      obtain ⟨rows, hr⟩ := ih (i + 1) (t0 + dt) _ q3 (q2.trans ct)
      refine ⟨(X (i + 1), xd) :: rows, ?_⟩
      rw [evenly_succ]
      unfold DynSys.integrateLoop
      have p1 : DynSys.step m (t0 + dt - t0) (X i) t =
          (.ok (X (i + 1), xd), (DynSys.step m dt (X i) t).2) := by
        rw [show t0 + dt - t0 = dt by ring]
        exact Prod.ext q1 rfl
      rw [PyM.bind_ok p1]
      have p2 : DynSys.integrateLoop m (t0 + dt) (X (i + 1)) (evenly dt (t0 + dt + dt) k)
          (DynSys.step m dt (X i) t).2 = (.ok rows, _) := Prod.ext hr rfl
      rw [PyM.bind_ok p2]
      rfl
  obtain ⟨xd, e⟩ := h.start
  obtain ⟨-, q2, q3⟩ := Dmp.stable_integrateStart s s g g rfl
  obtain ⟨rows, hr⟩ := loop n 0 0 _ q3 q2
  refine ⟨(X 0, xd) :: rows, ?_⟩
  rw [evenly_succ]
  unfold Dmp.integrate
  have p1 : Dmp.integrateStart none s = (.ok (X 0, xd), (Dmp.integrateStart none s).2) := Prod.ext e rfl
  rw [PyM.bind_ok p1]
  have p2 : DynSys.integrateLoop m 0 (X 0) (evenly dt (0 + dt) n) (Dmp.integrateStart none s).2 = (.ok rows, _) :=
    Prod.ext hr rfl
  simp only
  rw [PyM.bind_ok p2]
  rfl

/-- With a constant gain, rollouts succeed if the Dmp can be integrated. -/
theorem const_rollouts {d : Nat} {s : DmpWithSchedules} (g : Dmp.Good d s.dmp) {c : ℝ} (hc : 0 ≤ c)
    (h1 : s.sched = [constFa c]) (h2 : s.lo = none) (h3 : s.hi = none) (T F m : ℝ) (hm : 0 < m) (n : Int)
    (hn : 2 ≤ n) (h : ∃ rows, (Dmp.integrate (evenly (stepLength T n) 0 n.toNat) .rungeKutta s.dmp).1 = .ok rows) :
    ∃ r, (performRollout T n F m s).1 = .ok r := by
  obtain ⟨rows, hr⟩ := h
  obtain ⟨r, hr⟩ := total_of_good d s _ g T F m hm n hn rows (Prod.ext hr rfl) fun i _ =>
    ⟨_, _, schedulesNow_const h1 h2 h3 _, gainsRow_const d c, fun _ x hx => by
      rw [(List.mem_replicate.mp hx).2]
      exact hc⟩
  exact ⟨r, by rw [hr]⟩

/-- The gains of such rollouts. -/
theorem const_gains {d : Nat} {s : DmpWithSchedules} {c dt F m : ℝ} {R : Nat → Rollout} {X K : Nat → List ℝ}
    (E : Endless d s dt F m R X K) (h1 : s.sched = [constFa c]) (h2 : s.lo = none) (h3 : s.hi = none) (i j : Nat)
    (hj : j < d) : ((R i).schedules.getD i []).getD j 0 = c := by
  obtain ⟨v, b1, b2⟩ := E.gains i
  rw [schedulesNow_const h1 h2 h3] at b1
  cases b1
  rw [gainsRow_const] at b2
  rw [← Except.ok.inj b2]
  simp [List.getElem?_replicate, hj]

/-- C82 for the steps, duration and field of the demo: the default Dmp, from 0 to 1, with the gain 100. -/
theorem C82_example : ∃ s, DmpWithSchedules.init 1 [0] [1] none [constFa 100] none none = .ok s ∧
    Reachable DefaultScaled Change.Forward 1 s.dmp ∧ ∃ R : Nat → Rollout,
      (∀ n : Nat, (performRollout (0.05 * (n + 1)) (n + 2) (-20) 0.5 s).1 = .ok (R n)) ∧
      Tendsto (fun n => ((R n).ysCur.getD (n + 1) []).getD 0 0) atTop (𝓝 1) ∧
      Tendsto (fun n => ((R n).ydsCur.getD (n + 1) []).getD 0 0) atTop (𝓝 0) := by
  obtain ⟨s, hs, hr, hmk, -⟩ := Dmp.C75_example
  have hst := (Dmp.kept_standard.reachable Dmp.init_standard hr).toSettles
  have g := hst.inv.good
  obtain ⟨X, hX⟩ := hmk .rungeKutta 0.05
  obtain ⟨w, hw⟩ : ∃ w : DmpWithSchedules, w = ⟨s, [constFa 100], none, none⟩ := ⟨_, rfl⟩
  have hi : DmpWithSchedules.init 1 [0] [1] none [constFa 100] none none = .ok w := by
    unfold DmpWithSchedules.init
    rw [hs, hw]
    rfl
  have hwd : w.dmp = s := by rw [hw]
  have hR : ∀ n : Nat, ∃ r, (performRollout (0.05 * (n + 1)) (n + 2) (-20) 0.5 w).1 = .ok r := fun n => by
    refine const_rollouts (d := 1) (c := 100) (by rw [hwd]; exact g) (by norm_num) (by rw [hw]) (by rw [hw])
      (by rw [hw]) _ _ _ (by norm_num) _ (by omega) ?_
    rw [stepLength_eq, hwd]
    exact makes_integrate g hX (n + 1)
  choose R hR using hR
  have hfit : Dmp.Options.Fits {} 1 :=
    ⟨(fun _ h => nomatch h), trivial, (fun _ h => nomatch h),
      (fun _ h => nomatch h), (fun _ h => nomatch h), (fun _ h => nomatch h), (fun _ h => nomatch h)⟩
  have fine : Dmp.FineSteps 1 s .rungeKutta 0.05 :=
    Dmp.init_fine (o := {}) hs hfit ⟨one_pos, fun j _ => (by norm_num : (0 : ℝ) < 20), rfl, rfl, rfl, rfl, rfl⟩
      .rungeKutta
      (by norm_num) (by norm_num) (fun h => absurd h (by decide))
      fun j _ => (by norm_num : (0.05 : ℝ) * 20 < 4 * 1)
  have hy : s.yAttr = [1] := by
    obtain ⟨dflt, -, rfl⟩ := Dmp.init_eq hs
    rfl
  obtain ⟨X', K, E⟩ := endless_of 1 w (by rw [hwd]; exact g) (by norm_num) hR
  have key := arrives_of_fine (s := w) (by rw [hwd]; exact hst) (by rw [hwd]; exact fine) (by norm_num) hR
    Nat.one_pos (g := 100) (by norm_num) (by
      have : √(100 : ℝ) = 10 := by
        rw [show (100 : ℝ) = 10 ^ 2 by norm_num]
        exact Real.sqrt_sq (by norm_num)
      rw [this]
      have : 2 < √5 := by
        rw [Real.lt_sqrt (by norm_num)]; norm_num
      linarith) (by
      refine tendsto_const_nhds.congr fun n => ?_
      rw [(E.same n (n + 1) (by omega)).1, const_gains E (by rw [hw]) (by rw [hw]) (by rw [hw]) _ 0 Nat.one_pos])
  refine ⟨w, hi, by rw [hwd]; exact hr, R, hR, ?_, key.2⟩
  have := key.1
  rw [hwd, hy] at this
  exact this

/-- C82: the bound on the gains is sharp. For each step length and each gain beyond the bound there are a
Dmp with this constant gain and a field such that the positions get out of all bounds. -/
theorem C82_large_gains_fail (dt c : ℝ) (h0 : 0 < dt) (hc : 0 < c) (hb : √5 - 1 < dt * √c) :
    ∃ s, DmpWithSchedules.init 1 [0, 0] [0, 0] none [constFa c] none none { dmpType := "Ijs02" } = .ok s ∧
      Reachable DefaultScaled Change.Forward 2 s.dmp ∧ ∀ F, F ≠ 0 → ∃ R : Nat → Rollout,
        (∀ n : Nat, (performRollout (dt * (n + 1)) (n + 2) F dt s).1 = .ok (R n)) ∧
        ∀ B, ∃ n, B < |((R n).ysCur.getD (n + 1) []).getD 0 0| := by
  obtain ⟨s, hs, hr, ht, hrest⟩ := Dmp.resting_example
  have hfit : Dmp.Options.Fits { dmpType := "Ijs02" } 2 :=
    ⟨(fun _ h => nomatch h), trivial, (fun _ h => nomatch h),
      (fun _ h => nomatch h), (fun _ h => nomatch h), (fun _ h => nomatch h), (fun _ h => nomatch h)⟩
  have hr' : Reachable DefaultScaled Change.Forward 2 s :=
    .init hs rfl rfl hfit ⟨⟨one_pos, fun j _ => (by norm_num : (0 : ℝ) < 20), rfl, rfl, rfl, rfl, rfl⟩, by decide⟩
  have g := hr.inv.good
  obtain ⟨w, hw⟩ : ∃ w : DmpWithSchedules, w = ⟨s, [constFa c], none, none⟩ := ⟨_, rfl⟩
  have hi : DmpWithSchedules.init 1 [0, 0] [0, 0] none [constFa c] none none { dmpType := "Ijs02" } = .ok w := by
    unfold DmpWithSchedules.init
    rw [hs, hw]
    rfl
  have hwd : w.dmp = s := by rw [hw]
  refine ⟨w, hi, by rw [hwd]; exact hr', fun F hF => ?_⟩
  have hR : ∀ n : Nat, ∃ r, (performRollout (dt * (n + 1)) (n + 2) F dt w).1 = .ok r := fun n => by
    refine const_rollouts (d := 2) (c := c) (by rw [hwd]; exact g) hc.le (by rw [hw]) (by rw [hw])
      (by rw [hw]) _ _ _ h0 _ (by omega) ?_
    rw [stepLength_eq, hwd]
    obtain ⟨rows, s', e, -⟩ := hrest (evenly dt 0 ((n : Int) + 2).toNat) (by
      rw [show ((n : Int) + 2).toNat = n + 2 by omega, evenly_succ]; simp)
    exact ⟨rows, by rw [e]⟩
  choose R hR using hR
  obtain ⟨X, K, E⟩ := endless_of 2 w (by rw [hwd]; exact g) h0 hR
  have hmot : ∀ i, Motionless (X i) ∧ Motionless (K i) := fun i => by
    obtain ⟨rows, s', e, hl, hm⟩ := hrest (evenly dt 0 (i + 1)) (by rw [evenly_succ]; simp)
    have hl' : rows.length = i + 1 := by rw [hl]; simp [evenly]
    have horb := (Dmp.integrate_orbit g (m := .rungeKutta) (dt := dt) (ts := evenly dt 0 (i + 1)) (fun k hk => by
      have hk : k + 1 < i + 1 := by simpa [evenly] using hk
      unfold evenly
      rw [getD_range_map (by omega), getD_range_map (by omega)]
      push_cast
      ring) (rows := rows) (by rw [e])).2 i (by omega)
    have h1 := E.makes i
    rw [hwd, horb] at h1
    have h1 := Option.some.inj h1
    have hmem : rows.getD i ([], []) ∈ rows := by
      rw [getD_lt (by omega)]
      exact List.getElem_mem _
    have h2 := Dmp.integrate_rates g (by rw [e]) _ hmem
    have h3 := E.rate i
    rw [hwd, ← h1, h2] at h3
    rw [← h1, ← Except.ok.inj h3]
    exact hm _ hmem
  refine ⟨R, hR, fun B => ?_⟩
  have tr : ∀ n, Tracks n dt (fun _ => c) (fun _ => 0) (fun _ => 0) (fun _ => 0)
      (fun i => if i = 0 then 0 else bump F dt (i * dt)) (fun i => ((R i).ysCur.getD i []).getD 0 0)
      (fun i => ((R i).ydsCur.getD i []).getD 0 0) (fun i => ((R i).yddsCur.getD i []).getD 0 0) := fun n => by
    refine tracks_mono (tracks_congr (E.tracks (n + 1) 0 (by omega)) (by omega)
      (fun i _ => const_gains E (by rw [hw]) (by rw [hw]) (by rw [hw]) i 0 (by omega))
      (fun i _ => (hmot i).1.2 0 (by omega)) (fun i _ => (hmot i).2.2 0 (by omega))
      (fun i _ => by
        change (K i).getD 2 0 / _ = 0
        rw [(hmot i).2.2 2 (by omega), zero_div]) (fun _ _ => rfl) (fun _ _ => rfl) (fun _ _ => rfl)
      (fun _ _ => rfl)) (by omega)
  obtain ⟨n, hn⟩ := follower_diverges (F := F) (φ := fun i => bump 1 dt (i * dt)) h0 hc hb tr hF
    (fun i => by
      rw [if_neg (by omega)]
      unfold bump
      ring)
    (fun i => by
      simp only [bump, one_mul]
      exact Real.exp_pos _)
    (fun i => by
      simp only [bump, one_mul]
      refine Real.exp_le_exp.mpr (neg_le_neg (div_le_div_of_nonneg_right ?_ h0.le))
      push_cast
      have : 0 ≤ (i : ℝ) := Nat.cast_nonneg i
      have e1 : ((i : ℝ) + 1) * dt - dt = i * dt := by ring
      have e2 : ((i : ℝ) + 2) * dt - dt = (i + 1) * dt := by ring
      rw [e1, e2]
      have : (i : ℝ) * dt ≤ (i + 1) * dt := mul_le_mul_of_nonneg_right (by linarith) h0.le
      have : 0 ≤ (i : ℝ) * dt := by positivity
      nlinarith) B
  rw [sub_zero] at hn
  cases n with
  | zero =>
    have := ((tr 1).start).1
    rw [this, abs_zero] at hn
    exact ⟨0, hn.trans_le (abs_nonneg _)⟩
  | succ n =>
    refine ⟨n, ?_⟩
    rw [((E.same n (n + 1) (by omega)).2 0 (by omega)).1]
    exact hn

end Verif.ForceField
