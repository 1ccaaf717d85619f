import Verif.Props.Trainable
import Verif.Props.FromTraj

/- Helper lemmas: when training of a Dmp succeeds. -/

set_option autoImplicit false

namespace Verif

open Spec

namespace Dmp

variable {d : Nat}

/-- Training of a Dmp has the outcome of training its function approximators. -/
theorem train_fst {s : Dmp} (i : Inv d s) {traj : Trajectory ℝ} (hs : traj.Shape)
    {newFas : Option (Option (List Fa))} {tau : ℝ} {y0 yg range : List ℝ}
    (h1 : traj.ts.getLast? = some tau) (h2 : traj.yInit = .ok y0) (h3 : traj.yFinal = .ok yg)
    (h4 : traj.rangePerDim = .ok range) (h5 : traj.ys.cols = d) {fas0 : List Fa} {phases : List ℝ}
    {targets : List (List ℝ)} (h6 : newFas.getD s.fas = some fas0)
    (h7 : (computeTargets traj (s.prepared tau y0 yg range (some fas0))).1 = .ok (phases, targets)) :
    (train traj newFas s).1 = (trainFas phases targets (List.range d) fas0).1 := by
  rcases e8 : trainFas phases targets (List.range d) fas0 with ⟨r8, fas1⟩
  cases r8 with
  | ok u =>
    obtain ⟨t, ht⟩ := train_exists i hs h1 h2 h3 h4 h5 h6 h7 e8
    rw [ht]
  | error er =>
    rw [train_eq, h1]
    simp only
    rw [PyM.bind_ok (setTau_run s tau)]
    have i1 := inv_retimed i tau
    unfold trainRest
    rw [h2, PyM.lift_ok_bind]
    have hl : y0.length = (s.retimed tau).dimY := by rw [yInit_length hs h2, h5]; exact i1.dim.symm
    rw [PyM.bind_ok (setYInit_run i1.wf hl), h3, PyM.lift_ok_bind]
    have i2 := inv_placed i1 hl
    have lg : yg.length = ((s.retimed tau).placed y0).dimY := by
      rw [yFinal_length hs h3, h5]; exact i2.dim.symm
    rw [PyM.bind_ok (setYAttr_run i2.wf lg), h4, PyM.lift_ok_bind, PyM.modify_bind, PyM.modify_bind]
    have i3 := inv_aimed i2 lg
    have i4 : Inv d (s.prepared tau y0 yg range (some fas0)) := by
      refine i3.congr rfl rfl rfl rfl rfl rfl rfl rfl rfl ?_
      rintro a ⟨⟩
      rw [rangePerDim_length h4, h5]
    have e0 : ({ ((s.retimed tau).placed y0).aimed yg with amplitudes := some range, fas := newFas.getD s.fas } :
      Dmp) = s.prepared tau y0 yg range (some fas0) := by rw [h6]; rfl
    change (trainLast traj { ((s.retimed tau).placed y0).aimed yg with
      amplitudes := some range, fas := newFas.getD s.fas }).1 = _
    rw [e0]
    unfold trainLast
    rw [PyM.self_bind]
    change ((computeTargets traj >>= fun r => (do
      onFas (trainFas r.1 r.2 (List.range (s.prepared tau y0 yg range (some fas0)).dimY))
      PyM.modify fun s => { s with tsTrain := some traj.ts } : PyM Dmp Unit))
      (s.prepared tau y0 yg range (some fas0))).1 = _
    rcases e6 : computeTargets traj (s.prepared tau y0 yg range (some fas0)) with ⟨r, t1⟩
    rw [e6] at h7
    simp only at h7
    subst h7
    rw [PyM.bind_ok e6]
    have hfas : t1.fas = some fas0 := by rw [computeTargets_state i4.wf e6]; rfl
    have hon : onFas (trainFas phases targets
        (List.range (s.prepared tau y0 yg range (some fas0)).dimY)) t1 =
        (.error er, { t1 with fas := some fas1 }) := by
      unfold onFas
      rw [i4.dim]
      simp only [hfas, e8]
    rw [PyM.bind_error hon]

/-- All function approximators can be trained. -/
theorem trainFas_all {phases : List ℝ} {targets : List (List ℝ)} : ∀ (l : List Nat) {fas : List Fa}, l.Nodup →
    (∀ dd ∈ l, ∃ fa, fas[dd]? = some fa ∧ (Fa.train (fun (t : Fin phases.length) (_ : Fin 1) => phases[t])
      (fun t => (targets.getD t []).getD dd 0) none fa).1 = .ok ()) →
    (trainFas phases targets l fas).1 = .ok () := by
  intro l
  induction l with
  | nil => exact fun _ _ => rfl
  | cons a l ih =>
    intro fas hn h
    obtain ⟨hna, hn⟩ := List.nodup_cons.mp hn
    obtain ⟨fa, h1, h2⟩ := h a List.mem_cons_self
    change ((trainFa phases targets a >>= fun _ => trainFas phases targets l) fas).1 = _
    have e : trainFa phases targets a fas = (.ok (), fas.set a (Fa.train (fun (t : Fin phases.length) (_ : Fin 1) =>
        phases[t]) (fun t => (targets.getD t []).getD a 0) none fa).2) := by
      unfold trainFa
      simp only [h1, h2]
    rw [PyM.bind_ok e]
    refine ih hn fun dd hdd => ?_
    obtain ⟨fb, k1, k2⟩ := h dd (List.mem_cons_of_mem _ hdd)
    refine ⟨fb, ?_, k2⟩
    rw [List.getElem?_set_ne (by rintro rfl; exact hna hdd), k1]

/-- The first function approximator can not be trained. -/
theorem trainFas_first {phases : List ℝ} {targets : List (List ℝ)} {a : Nat} {l : List Nat} {fas : List Fa} {fa : Fa}
    (h : fas[a]? = some fa) {e : PyErr} (he : (Fa.train (fun (t : Fin phases.length) (_ : Fin 1) => phases[t])
      (fun t => (targets.getD t []).getD a 0) none fa).1 = .error e) :
    (trainFas phases targets (a :: l) fas).1 = .error e := by
  change ((trainFa phases targets a >>= fun _ => trainFas phases targets l) fas).1 = _
  have e : trainFa phases targets a fas = (.error e, fas.set a (Fa.train (fun (t : Fin phases.length) (_ : Fin 1) =>
      phases[t]) (fun t => (targets.getD t []).getD a 0) none fa).2) := by
    unfold trainFa
    simp only [h, he]
  rw [PyM.bind_error e]

/-- Function approximators that are not trained do not contribute. -/
theorem predictions_untrained {s : Dmp} {n : Nat} {params : FaMeta} (h : s.fas = some (List.replicate n (Fa.new params)))
    (hn : s.dimY ≤ n) (phases : List ℝ) : ∃ r, s.predictions phases = .ok r := by
  unfold predictions
  rw [h]
  cases hr : List.replicate n (Fa.new params) with
  | nil => exact ⟨_, rfl⟩
  | cons f fs =>
    simp only
    have : ∃ cols, (List.range s.dimY).mapM (faColumn (f :: fs) phases) = .ok cols := by
      refine ⟨(List.range s.dimY).map fun _ => List.replicate phases.length 0, ?_⟩
      rw [mapM_ok, List.forall₂_map_right_iff, List.forall₂_same]
      intro dd hdd
      have hdd := List.mem_range.mp hdd
      unfold faColumn
      rw [← hr, List.getElem?_replicate, if_pos (by omega)]
      rfl
    obtain ⟨cols, e⟩ := this
    rw [e]
    exact ⟨_, rfl⟩

end Dmp

end Verif
