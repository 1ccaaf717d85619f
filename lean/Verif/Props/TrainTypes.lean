import Verif.Props.DemoDmp

/-
C114: the training of demo_dmp.py for the other types of Dmps.
-/

set_option autoImplicit false

namespace Verif

open Spec Dmp

/-- Training a Dmp with radial basis functions succeeds if the phases at the times of the demonstration are different, for
options such that the phase is given by `φ`, the gating is not zero, and no scaling is missing. -/
theorem trains_if {traj : Trajectory ℝ} (hs : traj.Shape) {tau : ℝ} (hlast : traj.ts.getLast? = some tau)
    (hd : 0 < traj.dim) {n : Nat} (h1 : 1 ≤ n) (hn : n ≤ traj.ts.length) (hi : traj.ts.Pairwise (· < ·))
    (o : Options) (φ : ℝ → ℝ) (hφ : ∀ a ∈ traj.ts, ∀ b ∈ traj.ts, φ a = φ b → a = b)
    (hinit : ∀ y0 yg fas, ∃ s, init tau y0 yg fas o = .ok s)
    (hP : ∀ {y0 yg range : List ℝ} {fas : Option (List Fa)} {s : Dmp}, yg.length = y0.length → range.length = y0.length →
      init tau y0 yg fas o = .ok s → Timed y0.length s ∧ ∀ f, Timed y0.length (s.prepared tau y0 yg range f) ∧
      (∀ t, ((s.prepared tau y0 yg range f).phase.xAt t).getD 0 0 = φ t) ∧
      (∀ t, ((s.prepared tau y0 yg range f).gating.xAt t).getD 0 0 ≠ 0) ∧
      (s.prepared tau y0 yg range f).CanScale ∧ (s.prepared tau y0 yg range f).CanForce ∧
      ∀ j, (s.prepared tau y0 yg range f).forcingFactor j = 1) :
    ∃ t, fromTraj traj (some (List.replicate traj.dim (Fa.new (.rbfn [n] 0.7 0)))) o = .ok t := by
  have hne : traj.ts ≠ [] := fun e => by rw [e] at hlast; cases hlast
  obtain ⟨tau', y0, yg, he⟩ := ends_of_shape hs hne
  obtain rfl : tau' = tau := Option.some.inj (he.last.symm.trans hlast)
  obtain ⟨l0, lg⟩ := he.lengths hs
  obtain ⟨s, hs1⟩ := hinit y0 yg (some (List.replicate traj.dim (Fa.new (.rbfn [n] 0.7 0))))
  obtain ⟨range, hr⟩ := range_exists he
  obtain ⟨hT, hP⟩ := hP (lg.trans l0.symm) ((rangePerDim_length hr).trans l0.symm) hs1
  have hfas : s.fas = some (List.replicate traj.dim (Fa.new (.rbfn [n] 0.7 0))) := by
    obtain ⟨dflt, -, rfl⟩ := init_eq hs1
    rfl
  obtain ⟨hP, p1, p2, p3, p4, p5⟩ := hP (some (List.replicate traj.dim (Fa.new (.rbfn [n] 0.7 0))))
  have hdim := hP.inv.dim
  set u := s.prepared tau' y0 yg range (some (List.replicate traj.dim (Fa.new (.rbfn [n] 0.7 0)))) with hu
  obtain ⟨fa, hfa⟩ : ∃ fa, u.faUsed traj.ts false = .ok fa := by
    obtain ⟨r, hr⟩ := predictions_untrained (s := u) (n := traj.dim) (params := .rbfn [n] 0.7 0) rfl
      (by rw [hdim, l0, hs.dim]) (traj.ts.map fun t => (u.phase.xAt t).getD 0 0)
    unfold faUsed
    rw [hr]
    exact ⟨_, rfl⟩
  obtain ⟨phases, targets, ht⟩ := computeTargets_exists hP.inv.wf (sameStart_of_tau hP.springTau)
    (by rw [hdim, l0]) p3 p4 hne hfa (fun t _ _ => p2 t) (fun j _ => by rw [p5]; exact one_ne_zero)
  have T := targetsFor_of hP.inv.wf (sameStart_of_tau hP.springTau) ht
  obtain rfl : phases = traj.ts.map φ := by
    rw [T.phases]
    exact List.map_congr_left fun t _ => p1 t
  have hfst := train_fst (newFas := none) hT.inv hs he.last he.yInit he.yFinal hr l0.symm hfas ht
  have hx : distinct (fun (i : Fin (traj.ts.map φ).length) (_ : Fin 1) => (traj.ts.map φ)[i]) = traj.ts.length := by
    rw [distinct_injective, List.length_map]
    intro i j hij
    have hij := congrFun hij 0
    simp only [Fin.getElem_fin, List.getElem_map] at hij
    have e := hφ _ (List.getElem_mem _) _ (List.getElem_mem _) hij
    have hnd : traj.ts.Nodup := hi.imp fun {a b} h => ne_of_lt h
    exact Fin.ext ((List.Nodup.getElem_inj_iff hnd).mp e)
  have ho : ∀ t, (Fa.train (fun (i : Fin (traj.ts.map φ).length) (_ : Fin 1) => (traj.ts.map φ)[i]) t none
      (Fa.new (.rbfn [n] 0.7 0))).1 = .ok () := by
    intro t
    rw [C102_rbfn (Fa.new (.rbfn [n] 0.7 0)) n h1 0.7 (fun _ => by norm_num) rfl _ t none, hx]
    rw [if_pos hn]
  have key : (trainFas (traj.ts.map φ) targets (List.range y0.length)
      (List.replicate traj.dim (Fa.new (.rbfn [n] 0.7 0)))).1 = .ok () := by
    refine trainFas_all _ List.nodup_range fun j hj => ⟨_, ?_, ho _⟩
    rw [List.getElem?_replicate, if_pos (by rw [hs.dim, ← l0]; exact List.mem_range.mp hj)]
  rw [fromTraj_eq he, hs1]
  simp only
  rcases e : train traj none s with ⟨r, t⟩
  rw [e] at hfst
  simp only at hfst
  rw [key] at hfst
  subst hfst
  exact ⟨t, rfl⟩

/-- C114: a Dmp of type IJSPEERT_2002_MOVEMENT can be trained with any demonstration that has increasing times, ends after
time 0, and has at least as many samples as there are basis functions. Its phase is exp(-4 t / tau). -/
theorem C114_ijspeert {traj : Trajectory ℝ} (hs : traj.Shape) {tau : ℝ} (hlast : traj.ts.getLast? = some tau)
    (h0 : 0 < tau) (hd : 0 < traj.dim) {n : Nat} (h1 : 1 ≤ n) (hn : n ≤ traj.ts.length) (hi : traj.ts.Pairwise (· < ·)) :
    ∃ t, fromTraj traj (some (List.replicate traj.dim (Fa.new (.rbfn [n] 0.7 0))))
      { dmpType := "IJSPEERT_2002_MOVEMENT" } = .ok t := by
  refine trains_if hs hlast hd h1 hn hi _ (fun t => Real.exp (-4 * t / tau)) (fun a _ b _ hab => ?_)
    (fun y0 yg fas => (C16_types tau y0 yg fas _).1 (.inl (by simp))) ?_
  · have e := Real.exp_injective hab
    rw [div_left_inj' h0.ne'] at e
    linarith
  intro y0 yg range fas s hl hr h
  have hfit : ({ dmpType := "IJSPEERT_2002_MOVEMENT" } : Options).Fits y0.length := by
    constructor <;> first | trivial | exact (fun _ h => nomatch h)
  have hT := init_timed tau y0 yg fas _ s h rfl hl hfit ⟨(fun _ h => nomatch h), h0, fun _ h => nomatch h⟩
  obtain ⟨dflt, hd, hseq⟩ := init_eq h
  have hd' : dflt = { goal := none
                      gating := .exponential (.init tau [1] [0] (.scalar 4))
                      phase := .exponential (.init tau [1] [0] (.scalar 4))
                      damping := none
                      requiresScaling := false } := by
    unfold defaults at hd
    simp only at hd
    rw [if_pos (by simp)] at hd
    exact (Except.ok.inj hd).symm
  subst hd'
  have e1 : s.phase = .exponential (.init tau [1] [0] (.scalar 4)) := by rw [hseq]; rfl
  have e2 : s.gating = .exponential (.init tau [1] [0] (.scalar 4)) := by rw [hseq]; rfl
  have e5 : s.tau = tau := by rw [hseq]
  have e6 : s.scaling = .noScaling := by rw [hseq]
  have e7 : s.requiresScaling = false := by rw [hseq]
  have hexp : ∀ t, ((Sub.exponential (.init tau [1] [0] (.scalar 4))).xAt t).getD 0 0 = Real.exp (-4 * t / tau) := by
    intro t
    simp [Sub.xAt, Exponential.xAt, Exponential.xComp, Exponential.init, Par.at']
  refine ⟨hT, fun f => ⟨?_, fun t => ?_, fun t => ?_, fun k => ?_, ?_, fun j => ?_⟩⟩
  · have t1 := kept_timed.tau s tau hT h0
    have t2 := kept_timed.place _ y0 t1 t1.inv.dim.symm
    have t3 := kept_timed.aim _ yg t2 (hl.trans t2.inv.dim.symm)
    exact kept_timed.other _ f (some range) _ _ t3 (t3.inv.congr rfl rfl rfl rfl rfl rfl rfl rfl rfl
      (by rintro a ⟨⟩; exact hr))
  · change ((s.phase.withTau (s.phase.base.tau * (tau / s.tau))).xAt t).getD 0 0 = _
    rw [e1, e5, Dmp.Fresh.same h0.ne' (show Dmp.Fresh tau (.exponential (.init tau [1] [0] (.scalar 4))) from rfl), hexp]
  · change ((s.gating.withTau (s.gating.base.tau * (tau / s.tau))).xAt t).getD 0 0 ≠ _
    rw [e2, e5, Dmp.Fresh.same h0.ne' (show Dmp.Fresh tau (.exponential (.init tau [1] [0] (.scalar 4))) from rfl), hexp]
    exact (Real.exp_pos _).ne'
  · change s.requiresScaling = true at k
    rw [e7] at k
    cases k
  · unfold CanForce
    change match s.scaling with | .noScaling => True | .gMinusY0 => _ | .amplitude => _
    rw [e6]
    trivial
  · unfold forcingFactor
    change (match s.scaling with | .noScaling => (1 : ℝ) | .gMinusY0 => _ | .amplitude => _) = _
    rw [e6]

/-- The gating of Dmps of type 2022 is never zero. -/
theorem richards_gating {tau : ℝ} (h0 : 0 < tau) (t : ℝ) :
    ((Richards.init tau [1] (.array [0]) (.scalar 1) (.scalar 10) (.scalar 10)).xAt t).getD 0 0 ≠ 0 := by
  set s := Richards.init tau [1] (.array [0]) (.scalar 1) (.scalar 10) (.scalar 10) with hs
  have hdim : s.dimX = 1 := rfl
  have hr : Richards.Regular s := by
    refine ⟨⟨rfl, rfl, trivial, trivial, ?_, trivial, ?_⟩, rfl, h0, fun i _ => ?_, fun i _ => ?_, fun i hi => ?_⟩
    · rfl
    · intro a ha; cases ha
    · change (0 : ℝ) < 10; norm_num
    · change (0 : ℝ) ≤ 1; norm_num
    · obtain rfl : i = 0 := by omega
      change (1 : ℝ) ≠ 0
      exact one_ne_zero
  have hi : 0 < s.dimX := by rw [hdim]; exact one_pos
  obtain ⟨k1, -, k3⟩ := hr.key hi
  have hv := hr.vpos hi
  have hra : s.rightAsymp.at' 0 = 0 := rfl
  rw [Richards.xAt_getD s hi]
  have hd : 1 < Richards.den (s.alpha.at' 0) (s.clipped.v.at' 0) s.tau (s.clipped.qComp s.left 0) t := by
    unfold Richards.den
    rw [k1]
    have := mul_pos (mul_pos hv (Real.exp_pos (s.alpha.at' 0 * s.clipped.v.at' 0 * (s.tInflRatio.at' 0 * s.tau) / s.tau)))
      (Real.exp_pos (-s.alpha.at' 0 * s.clipped.v.at' 0 * t / s.tau))
    linarith
  have hp := Real.one_lt_rpow hd (one_div_pos.mpr hv)
  unfold Richards.pos1
  rw [hra] at k3 ⊢
  have ha : s.left.at' 0 ≠ 0 := fun e => k3 (by rw [e, sub_zero])
  intro e
  have e2 : Richards.den (s.alpha.at' 0) (s.clipped.v.at' 0) s.tau (s.clipped.qComp s.left 0) t ^ (1 / s.clipped.v.at' 0) = 1 := by
    field_simp at e
    have e3 : s.left.at' 0 * (Richards.den (s.alpha.at' 0) (s.clipped.v.at' 0) s.tau (s.clipped.qComp s.left 0) t ^ (1 / s.clipped.v.at' 0) - 1) = 0 := by
      linarith
    rcases mul_eq_zero.mp e3 with e4 | e4
    · exact absurd e4 ha
    · linarith
  linarith

open Classical in
/-- C114: a Dmp of type 2022 can be trained with any such demonstration also. Its phase counts down from 1 to 0. -/
theorem C114_2022 {traj : Trajectory ℝ} (hs : traj.Shape) {tau : ℝ} (hlast : traj.ts.getLast? = some tau)
    (h0 : 0 < tau) (hd : 0 < traj.dim) {n : Nat} (h1 : 1 ≤ n) (hn : n ≤ traj.ts.length) (hi : traj.ts.Pairwise (· < ·)) :
    ∃ t, fromTraj traj (some (List.replicate traj.dim (Fa.new (.rbfn [n] 0.7 0)))) { dmpType := "2022" } = .ok t := by
  have hle : ∀ a ∈ traj.ts, a ≤ tau := by
    obtain ⟨front, e⟩ := List.getLast?_eq_some_iff.mp hlast
    rw [e, List.pairwise_append] at hi
    intro a ha
    rw [e, List.mem_append, List.mem_singleton] at ha
    rcases ha with ha | rfl
    · exact (hi.2.2 a ha tau (by simp)).le
    · exact le_refl _
  refine trains_if hs hlast hd h1 hn hi _ (fun t => if 1 - t / tau < 0 then 0 else 1 - t / tau) (fun a ha b hb hab => ?_)
    (fun y0 yg fas => (C16_types tau y0 yg fas _).1 (.inr (.inl ⟨"", "", by simp⟩))) ?_
  · have hx : ∀ c ∈ traj.ts, ¬ (1 - c / tau < 0) := by
      intro c hc
      have := (div_le_one h0).mpr (hle c hc)
      linarith
    rw [if_neg (hx a ha), if_neg (hx b hb)] at hab
    have e : a / tau = b / tau := by linarith
    rwa [div_left_inj' h0.ne'] at e
  intro y0 yg range fas s hl hr h
  have hfit : ({ dmpType := "2022" } : Options).Fits y0.length := by
    constructor <;> first | trivial | exact (fun _ h => nomatch h)
  have hT := init_timed tau y0 yg fas _ s h rfl hl hfit ⟨(fun _ h => nomatch h), h0, fun _ h => nomatch h⟩
  obtain ⟨dflt, hd, hseq⟩ := init_eq h
  have hd' : dflt.gating = .richards (.init tau [1] (.array [0]) (.scalar 1) (.scalar 10) (.scalar 10)) ∧
      dflt.phase = .time (.init tau true) := by
    unfold defaults at hd
    simp only at hd
    rw [if_neg (by simp), if_neg (by simp), if_pos (by rw [Bool.or_eq_true, isIn_iff]; exact .inl ⟨"", "", by simp⟩)] at hd
    rw [← Except.ok.inj hd]
    exact ⟨rfl, rfl⟩
  have e1 : s.phase = .time (.init tau true) := by rw [hseq]; exact hd'.2
  have e2 : s.gating = .richards (.init tau [1] (.array [0]) (.scalar 1) (.scalar 10) (.scalar 10)) := by rw [hseq]; exact hd'.1
  have e5 : s.tau = tau := by rw [hseq]
  have e6 : s.scaling = .noScaling := by rw [hseq]
  refine ⟨hT, fun f => ⟨?_, fun t => ?_, fun t => ?_, fun k => ?_, ?_, fun j => ?_⟩⟩
  · have t1 := kept_timed.tau s tau hT h0
    have t2 := kept_timed.place _ y0 t1 t1.inv.dim.symm
    have t3 := kept_timed.aim _ yg t2 (hl.trans t2.inv.dim.symm)
    exact kept_timed.other _ f (some range) _ _ t3 (t3.inv.congr rfl rfl rfl rfl rfl rfl rfl rfl rfl
      (by rintro a ⟨⟩; exact hr))
  · change ((s.phase.withTau (s.phase.base.tau * (tau / s.tau))).xAt t).getD 0 0 = _
    rw [e1, e5, Dmp.Fresh.same h0.ne' (show Dmp.Fresh tau (.time (.init tau true)) from rfl)]
    change ((TimeSystem.init tau true).xAt t).getD 0 0 = _
    unfold TimeSystem.xAt
    rw [if_pos (by simp [TimeSystem.init])]
    rfl
  · change ((s.gating.withTau (s.gating.base.tau * (tau / s.tau))).xAt t).getD 0 0 ≠ _
    rw [e2, e5, Dmp.Fresh.same h0.ne' (show Dmp.Fresh tau (.richards (.init tau [1] (.array [0]) (.scalar 1) (.scalar 10) (.scalar 10))) from rfl)]
    exact richards_gating h0 t
  · change some y0 ≠ none
    simp
  · unfold CanForce
    change match s.scaling with | .noScaling => True | .gMinusY0 => _ | .amplitude => _
    rw [e6]
    trivial
  · unfold forcingFactor
    change (match s.scaling with | .noScaling => (1 : ℝ) | .gMinusY0 => _ | .amplitude => _) = _
    rw [e6]

/-- The demonstration of the demo meets the hypotheses of C114_ijspeert and C114_2022. -/
example : ∃ traj : Trajectory ℝ, traj.Shape ∧ traj.ts.getLast? = some 0.5 ∧ 0 < traj.dim ∧ 10 ≤ traj.ts.length ∧
    traj.ts.Pairwise (· < ·) := by
  obtain ⟨traj, -, hs, hd, hts, -⟩ := C114_demonstration
  refine ⟨traj, hs, ?_, by omega, by rw [hts]; simp [equidistant], ?_⟩
  · rw [hts]
    unfold equidistant
    rw [List.getLast?_map, List.getLast?_range]
    norm_num
  · rw [hts]
    exact Trajectory.equidistant_increasing _ _ _ (by norm_num)

/-- C114: the training succeeds for all three types of Dmps of the demo. -/
theorem C114_training : ∃ traj, dmpDemoTrajectory = .ok traj ∧
    ∀ dmpType ∈ ["IJSPEERT_2002_MOVEMENT", "KULVICIUS_2012_JOINING", "2022"], ∃ s, dmpDemoTrain traj dmpType = .ok s := by
  obtain ⟨traj, s, -, h1, h2, -⟩ := C114_demo_partial
  obtain ⟨traj', h1', hs, hd, hts, -⟩ := C114_demonstration
  obtain rfl := Except.ok.inj (h1'.symm.trans h1)
  have hlast : traj'.ts.getLast? = some 0.5 := by
    rw [hts]
    unfold equidistant
    rw [List.getLast?_map, List.getLast?_range]
    norm_num
  have hi : traj'.ts.Pairwise (· < ·) := by
    rw [hts]
    exact Trajectory.equidistant_increasing _ _ _ (by norm_num)
  have hn : 10 ≤ traj'.ts.length := by rw [hts]; simp [equidistant]
  obtain ⟨s1, g1⟩ := C114_ijspeert hs hlast (by norm_num) (by omega) (n := 10) (by omega) hn hi
  obtain ⟨s2, g2⟩ := C114_2022 hs hlast (by norm_num) (by omega) (n := 10) (by omega) hn hi
  rw [hd] at g1 g2
  refine ⟨traj', h1, fun dmpType ht => ?_⟩
  simp only [List.mem_cons, List.not_mem_nil, or_false] at ht
  rcases ht with rfl | rfl | rfl
  · exact ⟨s1, g1⟩
  · exact ⟨s, h2⟩
  · exact ⟨s2, g2⟩

end Verif
