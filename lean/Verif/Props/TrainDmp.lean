import Verif.Model.TrainScript
import Verif.Proofs.TrainOutcome
import Verif.Props.RobotWorkflow

/-! Claims about the script that trains Dmps from a trajectory (demos/robot/step1_train_dmp_from_trajectory_file.py):
C103. -/

set_option autoImplicit false

namespace Verif

open Spec

namespace Dmp

/-- The phases of a Dmp at the times of a demonstration whose last time is `tau`. -/
noncomputable def demoPhases (tau : ℝ) (ts : List ℝ) : List ℝ := ts.map fun t => min 1 (t / tau)

/-- The options that the script passes. -/
noncomputable abbrev trainOptions : Options := { dmpType := "KULVICIUS_2012_JOINING" }

theorem trainOptions_fits (d : Nat) : trainOptions.Fits d := by
  constructor <;> first | trivial | exact (fun _ h => nomatch h)

theorem trainOptions_init (tau : ℝ) (y0 yg : List ℝ) (fas : Option (List Fa)) : ∃ s, init tau y0 yg fas trainOptions = .ok s :=
  (C16_types tau y0 yg fas trainOptions).1 (.inl (by simp))

theorem trainOptions_consistent {tau : ℝ} (h0 : 0 < tau) (y0 yg : List ℝ) (s : Dmp) : Consistent tau y0 yg trainOptions s :=
  ⟨(fun _ h => nomatch h), h0, fun _ h => nomatch h⟩

theorem trainOptions_known {tau : ℝ} (h0 : 0 < tau) (y0 yg : List ℝ) (s : Dmp) : Cpp.Dmp.Known tau y0 yg trainOptions s :=
  ⟨h0, by simp, rfl, rfl, rfl, rfl, rfl⟩

/-- The object that the function approximators are trained with. -/
theorem trainOptions_prepared {tau : ℝ} (h0 : 0 < tau) {y0 yg range : List ℝ} (hl : yg.length = y0.length)
    (hr : range.length = y0.length) {fas : Option (List Fa)} {s : Dmp} (h : init tau y0 yg fas trainOptions = .ok s)
    (f : Option (List Fa)) : Timed y0.length (s.prepared tau y0 yg range f) ∧
      (∀ t, ((s.prepared tau y0 yg range f).phase.xAt t).getD 0 0 = min 1 (t / tau)) ∧
      (∀ t, ((s.prepared tau y0 yg range f).gating.xAt t).getD 0 0 ≠ 0) ∧
      (s.prepared tau y0 yg range f).CanScale ∧ (s.prepared tau y0 yg range f).CanForce ∧
      ∀ j, (s.prepared tau y0 yg range f).forcingFactor j = 1 := by
  have hT := init_timed tau y0 yg fas trainOptions s h rfl hl (trainOptions_fits _) (trainOptions_consistent h0 y0 yg s)
  obtain ⟨dflt, hd, hseq⟩ := init_eq h
  have hd' : dflt = { goal := some (.exponential (.init tau y0 yg (.scalar 15)))
                      gating := .sigmoid (.forGating tau 0.1)
                      phase := .time (.init tau false)
                      damping := none
                      requiresScaling := false } := by
    unfold defaults at hd
    simp only at hd
    rw [if_neg (by decide), if_pos (by simp)] at hd
    exact (Except.ok.inj hd).symm
  subst hd'
  have e1 : s.phase = .time (.init tau false) := by rw [hseq]; rfl
  have e2 : s.gating = .sigmoid (.forGating tau 0.1) := by rw [hseq]; rfl
  have e5 : s.tau = tau := by rw [hseq]
  have e6 : s.scaling = .noScaling := by rw [hseq]
  have e7 : s.requiresScaling = false := by rw [hseq]
  refine ⟨?_, fun t => ?_, fun t => ?_, fun k => ?_, ?_, fun j => ?_⟩
  · have t1 := kept_timed.tau s tau hT h0
    have t2 := kept_timed.place _ y0 t1 t1.inv.dim.symm
    have t3 := kept_timed.aim _ yg t2 (hl.trans t2.inv.dim.symm)
    exact kept_timed.other _ f (some range) _ _ t3 (t3.inv.congr rfl rfl rfl rfl rfl rfl rfl rfl rfl
      (by rintro a ⟨⟩; exact hr))
  · change ((s.phase.withTau (s.phase.base.tau * (tau / s.tau))).xAt t).getD 0 0 = _
    rw [e1, e5, Fresh.same h0.ne' (show Fresh tau (.time (.init tau false)) from rfl)]
    change ((TimeSystem.init tau false).xAt t).getD 0 0 = _
    unfold TimeSystem.xAt
    rw [if_neg (by simp [TimeSystem.init])]
    change (if t / tau > 1 then (1 : ℝ) else t / tau) = _
    by_cases hn : t / tau > 1
    · rw [if_pos hn, min_eq_left (le_of_lt hn)]
    · rw [if_neg hn, min_eq_right (not_lt.mp hn)]
  · change ((s.gating.withTau (s.gating.base.tau * (tau / s.tau))).xAt t).getD 0 0 ≠ _
    rw [e2, e5, Fresh.same h0.ne' (show Fresh tau (.sigmoid (.forGating tau 0.1)) from ⟨rfl, rfl⟩)]
    change ((Sigmoid.forGating tau 0.1).xAt t).getD 0 0 ≠ _
    rw [Sigmoid.gating_form tau 0.1 1 h0 (by norm_num) (by norm_num) one_pos]
    have hg : (0 : ℝ) < Sigmoid.gatingD := by norm_num [Sigmoid.gatingD]
    positivity
  · change s.requiresScaling = true at k
    rw [e7] at k
    cases k
  · unfold CanForce
    change match s.scaling with | .noScaling => True | .gMinusY0 => _ | .amplitude => _
    rw [e6]
    trivial
  · unfold forcingFactor
    change (match s.scaling with | .noScaling => (1 : ℝ) | .gMinusY0 => _ | .amplitude => _) = _
    rw [e6]

theorem range_exists {traj : Trajectory ℝ} {tau : ℝ} {y0 yg : List ℝ} (he : Ends traj tau y0 yg) :
    ∃ range, traj.rangePerDim = .ok range := by
  unfold Trajectory.rangePerDim
  cases e : traj.ys.rows with
  | nil => exact absurd e he.rows
  | cons a l => exact ⟨_, rfl⟩

/-- C103: training a new Dmp has the outcome of training one function approximator on the phases of the
demonstration, if this does not depend on the targets. -/
theorem C103_outcome {traj : Trajectory ℝ} (hs : traj.Shape) {tau : ℝ} (hlast : traj.ts.getLast? = some tau)
    (h0 : 0 < tau) (hd : 0 < traj.dim) (params : FaMeta) (outcome : Except PyErr Unit)
    (ho : ∀ t, (Fa.train (fun (i : Fin (demoPhases tau traj.ts).length) (_ : Fin 1) => (demoPhases tau traj.ts)[i]) t none
      (Fa.new params)).1 = outcome) :
    (fromTraj traj (some (List.replicate traj.dim (Fa.new params))) trainOptions).map (fun _ => ()) = outcome := by
  have hne : traj.ts ≠ [] := fun e => by rw [e] at hlast; cases hlast
  obtain ⟨tau', y0, yg, he⟩ := ends_of_shape hs hne
  obtain rfl : tau' = tau := Option.some.inj (he.last.symm.trans hlast)
  obtain ⟨l0, lg⟩ := he.lengths hs
  obtain ⟨s, h1⟩ := trainOptions_init tau' y0 yg (some (List.replicate traj.dim (Fa.new params)))
  have hT := init_timed tau' y0 yg _ trainOptions s h1 rfl (lg.trans l0.symm) (trainOptions_fits _) (trainOptions_consistent h0 y0 yg s)
  obtain ⟨range, hr⟩ := range_exists he
  have hfas : s.fas = some (List.replicate traj.dim (Fa.new params)) := by
    obtain ⟨dflt, -, rfl⟩ := init_eq h1
    rfl
  obtain ⟨hP, p1, p2, p3, p4, p5⟩ := trainOptions_prepared h0 (lg.trans l0.symm) ((rangePerDim_length hr).trans l0.symm) h1
    (some (List.replicate traj.dim (Fa.new params)))
  have hdim := hP.inv.dim
  set u := s.prepared tau' y0 yg range (some (List.replicate traj.dim (Fa.new params))) with hu
  obtain ⟨fa, hfa⟩ : ∃ fa, u.faUsed traj.ts false = .ok fa := by
    obtain ⟨r, hr⟩ := predictions_untrained (s := u) (n := traj.dim) (params := params) rfl
      (by rw [hdim, l0, hs.dim]) (traj.ts.map fun t => (u.phase.xAt t).getD 0 0)
    unfold faUsed
    rw [hr]
    exact ⟨_, rfl⟩
  obtain ⟨phases, targets, ht⟩ := computeTargets_exists hP.inv.wf (sameStart_of_tau hP.springTau)
    (by rw [hdim, l0]) p3 p4 hne hfa (fun t _ _ => p2 t) (fun j _ => by rw [p5]; exact one_ne_zero)
  have T := targetsFor_of hP.inv.wf (sameStart_of_tau hP.springTau) ht
  obtain rfl : phases = demoPhases tau' traj.ts := by
    rw [T.phases]
    unfold demoPhases
    exact List.map_congr_left fun t _ => p1 t
  have hfst := train_fst (newFas := none) hT.inv hs he.last he.yInit he.yFinal hr l0.symm hfas ht
  have key : (trainFas (demoPhases tau' traj.ts) targets (List.range y0.length) (List.replicate traj.dim (Fa.new params))).1 =
      outcome := by
    have hget : ∀ j, j < y0.length → (List.replicate traj.dim (Fa.new params))[j]? = some (Fa.new params) := by
      intro j hj
      rw [List.getElem?_replicate, if_pos (by rw [hs.dim, ← l0]; exact hj)]
    have hpos : 0 < y0.length := by rw [l0, ← hs.dim]; exact hd
    cases outcome with
    | ok v =>
      exact trainFas_all _ List.nodup_range fun j hj => ⟨_, hget j (List.mem_range.mp hj), ho _⟩
    | error e =>
      obtain ⟨k, hk⟩ := Nat.exists_eq_succ_of_ne_zero hpos.ne'
      rw [hk, List.range_succ_eq_map]
      exact trainFas_first (hget 0 hpos) (ho _)
  rw [fromTraj_eq he, h1]
  simp only
  rcases e : train traj none s with ⟨r, t⟩
  rw [e] at hfst
  simp only at hfst
  rw [key] at hfst
  subst hfst
  cases r <;> rfl

end Dmp

namespace Fa

variable {N : Nat}

/-- What training of a radial basis function network leaves, for one-dimensional inputs. -/
theorem trained_rbfn {fa fa' : Fa} {n : Nat} (h1 : 1 ≤ n) {height : ℝ} (hh : n ≠ 1 → 0 < height ∧ height < 1)
    (hfa : fa.params = .rbfn [n] height 0) {x : Fin N → Fin 1 → ℝ} {t : Fin N → ℝ} {w : Option (Fin N → ℝ)}
    (h : Fa.train x t w fa = (.ok (), fa')) : n ≤ distinct x ∧ ∃ m : RbfnModel 1,
      fa' = { fa with model := some ⟨1, .rbfn m⟩ } ∧ m.kernels.n = n ∧ m.rows = n ∧ m.cols = 1 ∧
      ∀ b i, m.kernels.widths b i ≠ 0 := by
  have hle : n ≤ distinct x := by
    have := C102_rbfn fa n h1 height hh hfa x t w
    rw [h] at this
    by_contra hc
    rw [if_neg hc] at this
    split_ifs at this
  obtain ⟨hN, m, hm, rfl⟩ := train_ok h
  rw [hfa] at hm
  obtain ⟨m', hm', h'⟩ := except_bind_ok hm
  obtain rfl := Except.ok.inj h'
  have hf := rbfnTrain_fits (d := 1) (ns := fun _ => n) (by simp) (fun _ => h1) hm'
  have hk : getCentersAndWidths x [n] height = .ok m'.kernels := by
    obtain ⟨_, _, hk, _⟩ := rbfnTrain_ok hm'
    exact hk
  have hk' : getCentersAndWidths x (List.ofFn fun _ : Fin 1 => n) height = .ok m'.kernels := by simpa using hk
  have hc' : n = 1 ∨ ¬ Constant x 0 := by
    by_cases h : n = 1
    · exact .inl h
    · exact .inr (distinct_two.mp (by omega))
  have hpos := (grid_widths (fun _ => h1) hk').1 fun i hi => by
    rw [Subsingleton.elim i 0]
    exact hc'.resolve_left hi
  have hn := (line_kernels h1 hk hc').1
  exact ⟨hle, m', rfl, hn, hf.2.trans hn, hf.1, fun b i => (hpos b i).ne'⟩

end Fa

open Dmp

/-- C103: a Dmp with `n` basis functions per dimension can be trained exactly if the demonstration has at least `n`
different phases. -/
theorem C103_trains {traj : Trajectory ℝ} (hs : traj.Shape) {tau : ℝ} (hlast : traj.ts.getLast? = some tau)
    (h0 : 0 < tau) (hd : 0 < traj.dim) {n : Nat} (h1 : 1 ≤ n) :
    (trainDmp traj n).map (fun _ => ()) =
      if n ≤ distinct (fun (i : Fin traj.ts.length) (_ : Fin 1) => min 1 (traj.ts[i] / tau)) then .ok ()
      else if distinct (fun (i : Fin traj.ts.length) (_ : Fin 1) => min 1 (traj.ts[i] / tau)) = 1 then .error .nanResult
      else .error .linAlgError := by
  have hne : traj.ts ≠ [] := fun e => by rw [e] at hlast; cases hlast
  have hl : (demoPhases tau traj.ts).length = traj.ts.length := by simp [demoPhases]
  have hx : distinct (fun (i : Fin (demoPhases tau traj.ts).length) (_ : Fin 1) => (demoPhases tau traj.ts)[i]) =
      distinct (fun (i : Fin traj.ts.length) (_ : Fin 1) => min 1 (traj.ts[i] / tau)) := by
    have : ∀ (m : Nat) (e : m = traj.ts.length) (f : Fin m → Fin 1 → ℝ),
        (∀ i, f i 0 = min 1 (traj.ts[(i : Nat)]'(by have := i.2; omega) / tau)) →
        distinct f = distinct (fun (i : Fin traj.ts.length) (_ : Fin 1) => min 1 (traj.ts[i] / tau)) := by
      rintro m rfl f hf
      refine congrArg distinct (funext fun i => funext fun j => ?_)
      rw [Subsingleton.elim j 0]
      exact hf i
    exact this _ hl _ fun i => List.getElem_map (fun t => min 1 (t / tau))
  have hpos : distinct (fun (i : Fin traj.ts.length) (_ : Fin 1) => min 1 (traj.ts[i] / tau)) ≠ 0 := fun e =>
    hne (List.length_eq_zero_iff.mp (distinct_pos.mp e))
  have key := C103_outcome hs hlast h0 hd (.rbfn [n] 0.7 0) _ fun t =>
    C102_rbfn (Fa.new (.rbfn [n] 0.7 0)) n h1 0.7 (fun _ => by norm_num) rfl _ t none
  rw [hx, if_neg hpos] at key
  rw [← key]
  unfold trainDmp
  change Except.map _ (Dmp.fromTraj traj _ trainOptions >>= _) = _
  cases Dmp.fromTraj traj (some (List.replicate traj.dim (Fa.new (.rbfn [n] 0.7 0)))) trainOptions with
  | error e => rfl
  | ok s =>
    change Except.map _ ((fun r : Except PyErr Unit × Dmp => (r.1 >>= fun _ => pure r.2)) (setSelected ["weights"] s)) = _
    rw [setSelected_run]
    rfl

/-- Increasing times have different phases. -/
theorem distinct_increasing {ts : List ℝ} {tau : ℝ} (hlast : ts.getLast? = some tau) (h0 : 0 < tau)
    (hi : ts.Pairwise (· < ·)) : distinct (fun (i : Fin ts.length) (_ : Fin 1) => min 1 (ts[i] / tau)) = ts.length := by
  apply distinct_injective
  have hne : ts ≠ [] := fun e => by rw [e] at hlast; cases hlast
  have hle : ∀ i : Fin ts.length, ts[i] ≤ tau := by
    intro i
    rw [List.getLast?_eq_some_getLast hne, List.getLast_eq_getElem] at hlast
    rw [← Option.some.inj hlast]
    rcases Nat.lt_or_ge (i : Nat) (ts.length - 1) with h | h
    · exact (List.pairwise_iff_getElem.mp hi _ _ i.2 (by omega) h).le
    · have : (i : Nat) = ts.length - 1 := by have := i.2; omega
      simp [this]
  intro i j h
  have h := congrFun h 0
  simp only at h
  rw [min_eq_right ((div_le_one h0).mpr (hle i)), min_eq_right ((div_le_one h0).mpr (hle j)),
    div_left_inj' h0.ne'] at h
  by_contra hc
  rcases lt_or_gt_of_ne hc with hlt | hlt
  · exact absurd h (List.pairwise_iff_getElem.mp hi _ _ i.2 j.2 hlt).ne
  · exact absurd h (List.pairwise_iff_getElem.mp hi _ _ j.2 i.2 hlt).ne'

/-- C103: for increasing times, the number of samples decides. -/
theorem C103_increasing {traj : Trajectory ℝ} (hs : traj.Shape) {tau : ℝ} (hlast : traj.ts.getLast? = some tau)
    (h0 : 0 < tau) (hi : traj.ts.Pairwise (· < ·)) (hd : 0 < traj.dim) {n : Nat} (h1 : 1 ≤ n) :
    (trainDmp traj n).map (fun _ => ()) =
      if n ≤ traj.ts.length then .ok () else if traj.ts.length = 1 then .error .nanResult else .error .linAlgError := by
  rw [C103_trains hs hlast h0 hd h1, distinct_increasing hlast h0 hi]

/-- C103: what is trained. The Dmp can be read by C++, moves with the duration of the demonstration, has been
trained at its times, has one network with `n` basis functions of positive width per dimension, and the weights of all
networks are the parameters for optimisation. -/
theorem C103_dmp {traj : Trajectory ℝ} (hs : traj.Shape) {tau : ℝ} (hlast : traj.ts.getLast? = some tau)
    (h0 : 0 < tau) (hd : 0 < traj.dim) {n : Nat} (h1 : 1 ≤ n) {s : Dmp} (h : trainDmp traj n = .ok s) :
    Deployable traj.dim s ∧ s.tau = tau ∧ s.tsTrain = some traj.ts ∧ s.selected = [] ∧
      (∃ l, s.fas = some l ∧ l.length = traj.dim ∧ ∀ fa ∈ l, fa.params = .rbfn [n] 0.7 0 ∧ fa.selected = some ["weights"] ∧
        Cpp.Dmp.Smooth fa ∧ ∃ m : RbfnModel 1, fa.model = some ⟨1, .rbfn m⟩ ∧ m.kernels.n = n) ∧
      ∃ u : TunableDmp (traj.dim * n), u.dmp = s := by
  have hne : traj.ts ≠ [] := fun e => by rw [e] at hlast; cases hlast
  unfold trainDmp at h
  obtain ⟨t, ht, h⟩ := except_bind_ok h
  change Dmp.fromTraj traj _ trainOptions = _ at ht
  rw [setSelected_run] at h
  have hsel : s = { t with
      fas := t.fas.map fun fas => fas.map fun fa => { fa with selected := some ["weights"] } } := by
    have := Except.ok.inj h
    rw [← this]
    simp
  have hrun : Dmp.setSelected ["weights"] t = (.ok (), s) := by
    rw [setSelected_run, hsel]
    simp
  have hlast' : ∀ T, traj.ts.getLast? = some T → 0 < T := by
    intro T hT
    rw [hlast] at hT
    cases hT
    exact h0
  obtain ⟨tau', y0, yg, he, hr, k1, k2, -, k4, k5, range, k6, -⟩ := C87_made (G := Cpp.Dmp.Known) (A := Change.Forward) hs ht
    (trainOptions_fits _) (fun T y0 yg s he hi => ⟨trainOptions_consistent (hlast' T he.last) y0 yg s,
      trainOptions_known (hlast' T he.last) y0 yg s⟩) ⟨hs, hlast'⟩
  obtain rfl : tau' = tau := Option.some.inj (he.last.symm.trans hlast)
  rw [← hs.dim] at hr
  have hrs : Reachable Cpp.Dmp.Known Change.Forward traj.dim s := by
    have := hr.change (.select ["weights"]) trivial
    change Reachable _ _ _ (Dmp.setSelected ["weights"] t).2 at this
    rwa [hrun] at this
  -- the function approximators
  obtain ⟨T, z0, zg, s0, he', i1, i2⟩ := fromTraj_ok ht
  obtain rfl : T = tau' := Option.some.inj (he'.last.symm.trans hlast)
  obtain ⟨l0, lg⟩ := he'.lengths hs
  have hT := init_timed T z0 zg _ trainOptions s0 i1 l0 lg (trainOptions_fits _) (trainOptions_consistent h0 z0 zg s0)
  have hfas0 : s0.fas = some (List.replicate traj.dim (Fa.new (.rbfn [n] 0.7 0))) := by
    obtain ⟨dflt, -, rfl⟩ := init_eq i1
    rfl
  obtain ⟨T', y0', yg', range', q1, q2, q3, q4, q5, q6, q7, q8, hcase⟩ := train_inv hT.inv hs i2
  have hcase : ∃ fas1 phases targets, trainFas phases targets (List.range traj.ys.cols)
      (List.replicate traj.dim (Fa.new (.rbfn [n] 0.7 0))) = (.ok (), fas1) ∧
      t = (s0.prepared T' y0' yg' range' (some (List.replicate traj.dim (Fa.new (.rbfn [n] 0.7 0))))).refreshed
        (some fas1) (some traj.ts) := by
    rcases hcase with ⟨hn, -⟩ | ⟨f0, fas1, phases, targets, e0, -, e2, e3⟩
    · change s0.fas = none at hn
      rw [hfas0] at hn
      cases hn
    · change s0.fas = some f0 at e0
      rw [hfas0] at e0
      cases e0
      exact ⟨fas1, phases, targets, e2, e3⟩
  obtain ⟨fas1, phases, targets, e2, e3⟩ := hcase
  obtain ⟨m1, -, m2⟩ := trainFas_ok _ List.nodup_range e2
  rw [List.length_replicate] at m1
  have hfa : ∀ fa ∈ fas1, ∃ m : RbfnModel 1, fa = ⟨.rbfn [n] 0.7 0, some ⟨1, .rbfn m⟩, none⟩ ∧ m.kernels.n = n ∧
      m.rows = n ∧ m.cols = 1 ∧ ∀ b i, m.kernels.widths b i ≠ 0 := by
    intro fa hfa
    obtain ⟨j, hj, rfl⟩ := List.mem_iff_getElem.mp hfa
    obtain ⟨fb, fb', r1, r2, r3⟩ := m2 j (List.mem_range.mpr (by rw [← hs.dim]; omega))
    rw [List.getElem?_replicate, if_pos (by omega)] at r1
    cases r1
    rw [List.getElem?_eq_getElem hj] at r2
    cases r2
    obtain ⟨-, m, a1, a2⟩ := Fa.trained_rbfn h1 (fun _ => by norm_num) rfl r3
    exact ⟨m, a1, a2⟩
  have hsf : s.fas = some (fas1.map fun fa => { fa with selected := some ["weights"] }) := by
    rw [hsel, e3]
    rfl
  have hdim : s.dimY = traj.dim := hrs.valid.inv.dim
  have hfs : ∀ fa ∈ fas1.map (fun fa : Fa => { fa with selected := some ["weights"] }), ∃ m : RbfnModel 1,
      fa = ⟨.rbfn [n] 0.7 0, some ⟨1, .rbfn m⟩, some ["weights"]⟩ ∧ m.kernels.n = n ∧
      m.rows = n ∧ m.cols = 1 ∧ ∀ b i, m.kernels.widths b i ≠ 0 := by
    intro fa hf
    obtain ⟨fb, hb, rfl⟩ := List.mem_map.mp hf
    obtain ⟨m, rfl, hm⟩ := hfa fb hb
    exact ⟨m, rfl, hm⟩
  have hsels : s.Selects := by
    intro fa hf _
    rw [hsf] at hf
    obtain ⟨m, rfl, -⟩ := hfs fa hf
    refine ⟨["weights"], rfl, by simp, fun nm hnm => ?_⟩
    obtain rfl := List.mem_singleton.mp hnm
    exact ⟨_, _, rfl⟩
  have hgoal : s.selected = [] := by
    rw [hsel, e3]
    change s0.selected = []
    obtain ⟨dflt, -, rfl⟩ := init_eq i1
    rfl
  refine ⟨⟨hd, hrs, ⟨?_, ?_, ?_, ?_⟩, ?_⟩, ?_, ?_, hgoal, ⟨_, hsf, by simp [m1], ?_⟩, ?_⟩
  · rw [hsel, e3]
    obtain ⟨dflt, -, rfl⟩ := init_eq i1
    exact ⟨_, rfl⟩
  · rw [hsel, e3]
    rfl
  · intro i hi
    rw [hdim] at hi
    have hi' : i < (fas1.map fun fa : Fa => { fa with selected := some ["weights"] }).length := by simp [m1, hi]
    refine ⟨_, _, hsf, List.getElem?_eq_getElem hi', ?_⟩
    obtain ⟨m, e, b1, b2, b3, -⟩ := hfs _ (List.getElem_mem hi')
    rw [e]
    exact ⟨by omega, by omega, b3⟩
  · intro _ _
    rw [hsel]
    simp [k6]
  · intro l hl fa hf
    rw [hsf] at hl
    cases hl
    obtain ⟨m, rfl, -⟩ := hfs fa hf
    trivial
  · rw [hsel]
    exact k1
  · rw [hsel]
    exact k5
  · intro fa hf
    obtain ⟨m, rfl, b1, -, -, b4⟩ := hfs fa hf
    exact ⟨rfl, rfl, ⟨rfl, b4⟩, m, rfl, b1⟩
  · refine ⟨⟨s, ⟨_, hrs.valid⟩, hsels, ?_⟩, rfl⟩
    rw [paramVectorSize_eq hrs.valid.inv.wf hsels]
    have hg : s.goalValues = [] := by
      unfold goalValues
      rw [hgoal, if_neg (by simp)]
    rw [hg, List.append_nil, hsf, Option.getD_some, List.length_flatten, List.map_map]
    have hlen : ∀ fa ∈ fas1.map (fun fa : Fa => { fa with selected := some ["weights"] }),
        (List.length ∘ Fa.values) fa = n := by
      intro fa hf
      obtain ⟨m, rfl, b1, b2, b3, -⟩ := hfs fa hf
      have hp : ∃ v, Fa.param ⟨.rbfn [n] 0.7 0, some ⟨1, .rbfn m⟩, some ["weights"]⟩ "weights" =
          some (.array [m.rows, m.cols] v) := ⟨_, rfl⟩
      obtain ⟨v, hp⟩ := hp
      have hv := Fa.param_length hp
      simp [Fa.values, Fa.entries, hp, hv, b2, b3]
    rw [List.map_congr_left (g := fun _ => n) hlen, List.map_const', List.sum_replicate]
    simp [m1]

/-! ### Cases that meet the hypotheses -/

/-- Two samples of a movement in two dimensions. -/
private noncomputable def two (a b : ℝ) : Trajectory ℝ :=
  ⟨[a, b], meanDiff [a, b], ⟨2, [[0, 1], [2, 3]]⟩, ⟨2, [[0, 0], [0, 0]]⟩, ⟨2, [[0, 0], [0, 0]]⟩, none, 2⟩

private theorem two_shape (a b : ℝ) : (two a b).Shape := by
  constructor <;> simp [two]

/-- Two basis functions for two different times can be trained, three not; for equal times the result is nan. -/
example : (∃ s, trainDmp (two (1 / 2) 1) 2 = .ok s ∧ Deployable 2 s ∧ s.tau = 1 ∧ ∃ u : TunableDmp 4, u.dmp = s) ∧
    (trainDmp (two (1 / 2) 1) 3).map (fun _ => ()) = .error .linAlgError ∧
    (trainDmp (two 1 1) 3).map (fun _ => ()) = .error .nanResult := by
  have hi : (two (1 / 2) 1).ts.Pairwise (· < ·) := by norm_num [two]
  have h2 := C103_increasing (two_shape (1 / 2) 1) (tau := 1) rfl one_pos hi (by simp [two]) (n := 2) (by omega)
  have h3 := C103_increasing (two_shape (1 / 2) 1) (tau := 1) rfl one_pos hi (by simp [two]) (n := 3) (by omega)
  have h1 := C103_trains (two_shape 1 1) (tau := 1) rfl one_pos (by simp [two]) (n := 3) (by omega)
  have hd : distinct (fun (i : Fin (two 1 1).ts.length) (_ : Fin 1) => min 1 ((two 1 1).ts[i] / 1)) = 1 := by
    have hlt : ¬ 2 ≤ distinct (fun (i : Fin (two 1 1).ts.length) (_ : Fin 1) => min 1 ((two 1 1).ts[i] / 1)) := fun h => by
      refine distinct_two.mp h ?_
      intro s s'
      have e : ∀ i : Fin (two 1 1).ts.length, (two 1 1).ts[i] = 1 := by
        intro i
        change [(1 : ℝ), 1][(i : Nat)]'_ = 1
        have := i.2
        rcases (show (i : Nat) = 0 ∨ (i : Nat) = 1 by simp [two] at this; omega) with h | h <;> simp [h]
      simp [e]
    have hpos : distinct (fun (i : Fin (two 1 1).ts.length) (_ : Fin 1) => min 1 ((two 1 1).ts[i] / 1)) ≠ 0 := fun h =>
      absurd (distinct_pos.mp h) (by simp [two])
    omega
  rw [if_pos (by simp [two])] at h2
  rw [if_neg (by simp [two]), if_neg (by simp [two])] at h3
  rw [hd, if_neg (by omega), if_pos rfl] at h1
  refine ⟨?_, h3, h1⟩
  cases e : trainDmp (two (1 / 2) 1) 2 with
  | error er => rw [e] at h2; cases h2
  | ok s =>
    obtain ⟨k1, k2, -, -, -, u, hu⟩ := C103_dmp (two_shape (1 / 2) 1) (tau := 1) rfl one_pos (by simp [two]) (by omega) e
    exact ⟨s, rfl, k1, k2, u, hu⟩

end Verif
