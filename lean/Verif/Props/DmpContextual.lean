import Verif.Model.DmpContextual
import Verif.Proofs.StepRelation
import Verif.Props.DmpParams
import Verif.Props.DmpTraining
import Verif.Props.Predictions

/- DmpContextualTwoStep (C63). -/

set_option autoImplicit false

namespace Verif

noncomputable section

namespace DmpContextual

variable {d : Nat}

theorem onDmp_inv {α : Type} {m : PyM Dmp α} {s s' : DmpContextual} {a : α}
    (h : onDmp m s = (.ok a, s')) : ∃ t, m s.dmp = (.ok a, t) ∧ s' = { s with dmp := t } := by
  have h1 : (m s.dmp).1 = .ok a := congrArg Prod.fst h
  have h2 : ({ s with dmp := (m s.dmp).2 } : DmpContextual) = s' := congrArg Prod.snd h
  exact ⟨(m s.dmp).2, Prod.ext h1 rfl, h2.symm⟩

theorem onDmp_ok {α : Type} {m : PyM Dmp α} {s : DmpContextual} {a : α} {t : Dmp}
    (h : m s.dmp = (.ok a, t)) : onDmp m s = (.ok a, { s with dmp := t }) := by
  change ((m s.dmp).1, ({ s with dmp := (m s.dmp).2 } : DmpContextual)) = _
  rw [h]

theorem lift_inv {σ α : Type} {e : Except PyErr α} {s s' : σ} {a : α}
    (h : (PyM.lift e : PyM σ α) s = (.ok a, s')) : e = .ok a ∧ s' = s := by
  cases e with
  | ok b => exact ⟨congrArg Prod.fst h, (congrArg Prod.snd h).symm⟩
  | error x => cases congrArg Prod.fst h

theorem modify_inv {σ : Type} {f : σ → σ} {s s' : σ} {a : Unit}
    (h : (PyM.modify f : PyM σ Unit) s = (.ok a, s')) : s' = f s := (congrArg Prod.snd h).symm

theorem trainedCopy_inv {s : Dmp} {traj : Trajectory ℝ} {c : Dmp × List ℝ}
    (h : trainedCopy s traj = .ok c) :
    Dmp.train traj none s = (.ok (), c.1) ∧ c.1.getParamVector = .ok c.2 := by
  unfold trainedCopy at h
  rcases e : Dmp.train traj none s with ⟨r, t⟩
  rw [e] at h
  cases r with
  | error x => cases h
  | ok u =>
    obtain ⟨p, hp, h⟩ := except_bind_ok h
    cases h
    exact ⟨rfl, hp⟩

theorem train_cast {N N' k : Nat} (e : N' = N) (x : Fin N' → Fin k → ℝ) (t : Fin N' → ℝ) (fa : Fa) :
    Fa.train (fun i => x (Fin.cast e.symm i)) (fun i => t (Fin.cast e.symm i)) none fa = Fa.train x t none fa := by
  subst e
  rfl

/-- What the policy parameter function is trained with. -/
def inputArray (demos : List (List ℝ × Trajectory ℝ)) (t : Fin demos.length)
    (j : Fin ((demos.map Prod.fst).headD []).length) : ℝ := (demos[t].1).getD j 0

theorem trainPpfs_inv {inputs targets : List (List ℝ)} : ∀ (l : List Nat) {s s' : DmpContextual}
    {fas : List Fa}, l.Nodup → s.ppf = some fas → trainPpfs inputs targets l s = (.ok (), s') →
    s'.dmp = s.dmp ∧ ∃ fas', s'.ppf = some fas' ∧ fas'.length = fas.length ∧
      (∀ i, i ∉ l → fas'[i]? = fas[i]?) ∧ ∀ i ∈ l, ∃ fa fa', fas[i]? = some fa ∧ fas'[i]? = some fa' ∧
        Fa.train (fun (t : Fin inputs.length) (j : Fin (inputs.headD []).length) =>
          (inputs.getD t []).getD j 0) (fun t => (targets.getD t []).getD i 0) none fa = (.ok (), fa') := by
  intro l
  induction l with
  | nil =>
    intro s s' fas _ hf h
    have := (Prod.mk.inj h).2
    change s = s' at this
    subst this
    exact ⟨rfl, fas, hf, rfl, fun _ _ => rfl, fun _ h => absurd h List.not_mem_nil⟩
  | cons i l ih =>
    intro s s' fas hl hf h
    obtain ⟨hi, hl⟩ := List.nodup_cons.mp hl
    obtain ⟨u, s1, h1, h2⟩ := PyM.bind_inv h
    unfold trainPpf at h1
    change (match s.ppf with
      | none => _
      | some fas => _ : Except PyErr Unit × DmpContextual) = _ at h1
    rw [hf] at h1
    simp only at h1
    cases e : fas[i]? with
    | none => rw [e] at h1; cases h1
    | some fa =>
      rw [e] at h1
      simp only at h1
      have h3 := congrArg Prod.fst h1
      have h4 := congrArg Prod.snd h1
      simp only at h3 h4
      subst h4
      obtain ⟨k1, fas', k2, k3, k4, k5⟩ := ih hl rfl h2
      have hlt : i < fas.length := (List.getElem?_eq_some_iff.mp e).1
      refine ⟨k1, fas', k2, by simpa using k3, fun j hj => ?_, fun j hj => ?_⟩
      · rw [List.mem_cons, not_or] at hj
        rw [k4 j hj.2, List.getElem?_set_ne (Ne.symm hj.1)]
      · rcases List.mem_cons.mp hj with rfl | hj
        · refine ⟨fa, _, e, (k4 j hi).trans (by rw [List.getElem?_set_self hlt]), ?_⟩
          exact Prod.ext h3 rfl
        · obtain ⟨fb, fb', m1, m2, m3⟩ := k5 j hj
          rw [List.getElem?_set_ne (by rintro rfl; exact hi hj)] at m1
          exact ⟨fb, fb', m1, m2, m3⟩

theorem meanRows_const {n : Nat} (hn : n ≠ 0) (y : List ℝ) : meanRows (List.replicate n y) = y := by
  unfold meanRows mean
  obtain ⟨m, rfl⟩ := Nat.exists_eq_succ_of_ne_zero hn
  have e : (List.replicate (m + 1) y).headD [] = y := by simp [List.replicate_succ]
  refine ext_getD 0 (by rw [List.length_map, List.length_range, e]) fun i hi => ?_
  rw [List.length_map, List.length_range, e] at hi
  rw [getD_range_map (by rw [e]; exact hi), List.map_replicate, List.sum_replicate, List.length_replicate,
    nsmul_eq_mul]
  field_simp

theorem setYInit_inv {s t : Dmp} (w : s.Wf) {y : List ℝ} (h : Dmp.setYInit y s = (.ok (), t)) :
    y.length = s.dimY ∧ t = s.placed y := by
  by_cases hy : y.length = s.dimY
  · rw [Dmp.setYInit_run w hy] at h
    exact ⟨hy, (Prod.mk.inj h).2.symm⟩
  · rw [Dmp.setYInit_reject hy] at h
    cases h

theorem setYAttr_inv {s t : Dmp} (w : s.Wf) {y : List ℝ} (h : Dmp.setYAttr y s = (.ok (), t)) :
    y.length = s.dimY ∧ t = s.aimed y := by
  by_cases hy : y.length = s.dimY
  · rw [Dmp.setYAttr_run w hy] at h
    exact ⟨hy, (Prod.mk.inj h).2.symm⟩
  · rw [Dmp.setYAttr_reject hy] at h
    cases h

/-- Training a Dmp changes neither the initial state of the base class nor the selections. -/
theorem train_frame {s t : Dmp} (i : Dmp.Inv d s) {traj : Trajectory ℝ} (hs : traj.Shape)
    (h : Dmp.train traj none s = (.ok (), t)) :
    t.toBase.yInit = s.toBase.yInit ∧ t.selected = s.selected ∧
      ∀ fa ∈ t.fas.getD [], ∃ fa0 ∈ s.fas.getD [], fa.selected = fa0.selected := by
  obtain ⟨tau, y0, yg, range, -, -, -, -, -, -, -, -, h | ⟨fas0, fas1, ph, tg, h1, -, h3, rfl⟩⟩ :=
    Dmp.train_inv i hs h
  · obtain ⟨-, rfl⟩ := h
    exact ⟨rfl, rfl, fun fa hfa => nomatch hfa⟩
  · refine ⟨rfl, rfl, fun fa hfa => ?_⟩
    change fa ∈ fas1 at hfa
    have h1 : s.fas = some fas0 := h1
    rw [h1]
    change ∃ fa0 ∈ fas0, _
    obtain ⟨k1, k2, k3⟩ := Dmp.trainFas_ok _ List.nodup_range h3
    obtain ⟨n, hn, rfl⟩ := List.mem_iff_getElem.mp hfa
    by_cases hd : n ∈ List.range d
    · obtain ⟨fa, fa', m1, m2, m3⟩ := k3 n hd
      obtain ⟨-, m, -, rfl⟩ := train_ok m3
      rw [List.getElem?_eq_getElem hn] at m2
      rw [Option.some.inj m2]
      exact ⟨fa, List.mem_of_getElem? m1, rfl⟩
    · have := k2 n hd
      rw [List.getElem?_eq_getElem hn] at this
      exact ⟨_, List.mem_of_getElem? this.symm, rfl⟩

/-- Everything training does. -/
theorem train_spec {s s' : DmpContextual} (hr : Dmp.Reachable Dmp.DefaultLike Dmp.Change.Valid d s.dmp)
    {demos : List (List ℝ × Trajectory ℝ)} (hs : ∀ demo ∈ demos, demo.2.Shape) {names : List String}
    {ppf : Fa ⊕ List Fa} (h : train demos names ppf s = (.ok (), s')) :
    ∃ (copies : List (Dmp × List ℝ)) (cur : Dmp × List ℝ) (fas fas' : List Fa),
      List.Forall₂ (fun demo c => Dmp.train demo.2 none (Dmp.setSelected names s.dmp).2 = (.ok (), c.1) ∧
        c.1.getParamVector = .ok c.2) demos copies ∧ copies.getLast? = some cur ∧
      (∀ c ∈ copies, c.2.length = cur.2.length) ∧
      (∀ a ∈ demos, ∀ b ∈ demos, a.1.length = b.1.length) ∧
      approximators cur.2.length ppf = .ok fas ∧ s'.ppf = some fas' ∧ fas'.length = cur.2.length ∧
      (∀ i < cur.2.length, ∃ fa fa', fas[i]? = some fa ∧ fas'[i]? = some fa' ∧
        Fa.train (inputArray demos) (fun t => (copies.getD t cur).2.getD i 0) none fa = (.ok (), fa')) ∧
      s'.dmp.tau = (copies.map fun c => c.1.tau).sum / copies.length ∧
      s'.dmp.yInit? = some s.dmp.toBase.yInit ∧
      s'.dmp.yAttr = meanRows (copies.map fun c => c.1.yAttr) ∧
      s'.dmp.fas = cur.1.fas ∧ s'.dmp.selected = cur.1.selected ∧ s'.dmp.toBase.yInit = s.dmp.toBase.yInit ∧
      Dmp.Reachable Dmp.DefaultLike Dmp.Change.Valid d s'.dmp := by
  unfold train at h
  obtain ⟨_, s1, h1, h⟩ := PyM.bind_inv h
  obtain ⟨t1, g1, rfl⟩ := onDmp_inv h1
  rw [PyM.self_bind] at h
  obtain ⟨copies, s2, h2, h⟩ := PyM.bind_inv h
  obtain ⟨g2, rfl⟩ := lift_inv h2
  simp only at g2 h
  have ht1 : t1 = (Dmp.setSelected names s.dmp).2 := by rw [g1]
  subst ht1
  have r1 : Dmp.Reachable Dmp.DefaultLike Dmp.Change.Valid d (Dmp.setSelected names s.dmp).2 :=
    .change hr (.select names) trivial
  have hc := mapM_ok.mp g2
  have hc' : List.Forall₂ (fun (demo : List ℝ × Trajectory ℝ) (c : Dmp × List ℝ) =>
      Dmp.train demo.2 none (Dmp.setSelected names s.dmp).2 = (.ok (), c.1) ∧
        c.1.getParamVector = .ok c.2) demos copies := hc.imp fun _ _ h => trainedCopy_inv h
  cases hl : copies.getLast? with
  | none => rw [hl] at h; cases h
  | some cur =>
    rw [hl] at h
    simp only at h
    have hmem : cur ∈ copies := List.mem_of_getLast? hl
    have hlen : demos.length = copies.length := hc'.length_eq
    have hne : copies.length ≠ 0 := by
      intro e; rw [List.length_eq_zero_iff.mp e] at hmem; exact nomatch hmem
    have each (c : Dmp × List ℝ) (hcm : c ∈ copies) : ∃ demo ∈ demos,
        Dmp.train demo.2 none (Dmp.setSelected names s.dmp).2 = (.ok (), c.1) := by
      obtain ⟨n, hn, rfl⟩ := List.mem_iff_getElem.mp hcm
      exact ⟨demos[n]'(by omega), List.getElem_mem _, (hc'.get (by omega) hn).1⟩
    have hy (c : Dmp × List ℝ) (hcm : c ∈ copies) : c.1.toBase.yInit = s.dmp.toBase.yInit := by
      obtain ⟨demo, hd, ht⟩ := each c hcm
      have := (train_frame r1.inv (hs demo hd) ht).1
      rw [Dmp.setSelected_run] at this
      exact this
    have r2 : Dmp.Reachable Dmp.DefaultLike Dmp.Change.Valid d cur.1 := by
      obtain ⟨demo, hd, ht⟩ := each cur hmem
      have := Dmp.Reachable.change r1 (.train demo.2 none) (hs demo hd)
      change Dmp.Reachable _ _ _ (Dmp.train demo.2 none _).2 at this
      rwa [ht] at this
    obtain ⟨_, s3, h3, h⟩ := PyM.bind_inv h
    obtain rfl := modify_inv h3
    obtain ⟨_, s4, h4, h⟩ := PyM.bind_inv h
    obtain ⟨t4, g4, rfl⟩ := onDmp_inv h4
    simp only at g4 h
    have r3 : Dmp.Reachable Dmp.DefaultLike Dmp.Change.Valid d t4 := by
      have := Dmp.Reachable.change r2 (.tau (mean (copies.map fun c => c.1.tau))) trivial
      change Dmp.Reachable _ _ _ (Dmp.setTau _ _).2 at this
      rwa [g4] at this
    rw [Dmp.setTau_run] at g4
    obtain rfl := (Prod.mk.inj g4).2
    obtain ⟨_, s5, h5, h⟩ := PyM.bind_inv h
    obtain ⟨t5, g5, rfl⟩ := onDmp_inv h5
    simp only at g5 h
    have e5 : (copies.map fun c => c.1.toBase.yInit) = List.replicate copies.length s.dmp.toBase.yInit := by
      rw [List.eq_replicate_iff]
      refine ⟨by simp, fun y hy' => ?_⟩
      obtain ⟨c, hcm, rfl⟩ := List.mem_map.mp hy'
      exact hy c hcm
    rw [e5, meanRows_const hne] at g5
    have r4 : Dmp.Reachable Dmp.DefaultLike Dmp.Change.Valid d t5 := by
      have := Dmp.Reachable.change r3 (.yInit s.dmp.toBase.yInit) trivial
      change Dmp.Reachable _ _ _ (Dmp.setYInit _ _).2 at this
      rwa [g5] at this
    obtain ⟨-, rfl⟩ := setYInit_inv r3.inv.wf g5
    obtain ⟨_, s6, h6, h⟩ := PyM.bind_inv h
    obtain ⟨t6, g6, rfl⟩ := onDmp_inv h6
    simp only at g6 h
    have r5 : Dmp.Reachable Dmp.DefaultLike Dmp.Change.Valid d t6 := by
      have := Dmp.Reachable.change r4 (.yAttr (meanRows (copies.map fun c => c.1.yAttr))) trivial
      change Dmp.Reachable _ _ _ (Dmp.setYAttr _ _).2 at this
      rwa [g6] at this
    obtain ⟨-, rfl⟩ := setYAttr_inv r4.inv.wf g6
    obtain ⟨_, s7, h7, h⟩ := PyM.bind_inv h
    obtain ⟨g7, rfl⟩ := lift_inv h7
    obtain ⟨_, s8, h8, h⟩ := PyM.bind_inv h
    obtain ⟨g8, rfl⟩ := lift_inv h8
    obtain ⟨fas, s9, h9, h⟩ := PyM.bind_inv h
    obtain ⟨g9, rfl⟩ := lift_inv h9
    obtain ⟨_, s10, h10, h⟩ := PyM.bind_inv h
    obtain rfl := modify_inv h10
    obtain ⟨k1, fas', k2, k3, -, k5⟩ := trainPpfs_inv _ List.nodup_range rfl h
    have rect (rows : List (List ℝ)) (h : rectangular rows = .ok ()) (a b : List ℝ) (ha : a ∈ rows)
        (hb : b ∈ rows) : a.length = b.length := by
      unfold rectangular at h
      by_cases hall : (rows.all fun r => r.length = (rows.headD []).length) = true
      · rw [List.all_eq_true] at hall
        have h1 := hall a ha
        have h2 := hall b hb
        rw [decide_eq_true_eq] at h1 h2
        omega
      · rw [if_neg hall] at h
        cases h
    have hfl : fas.length = cur.2.length := by
      unfold approximators at g9
      cases ppf with
      | inl fa => cases g9; simp
      | inr l =>
        simp only at g9
        by_cases e : l.length = cur.2.length
        · rw [if_pos e] at g9; cases g9; exact e
        · rw [if_neg e] at g9; cases g9
    refine ⟨copies, cur, fas, fas', hc', hl, fun c hcm => ?_, fun a ha b hb => ?_, g9, k2, k3.trans hfl,
      fun i hi => ?_, ?_⟩
    · exact rect _ g7 _ _ (List.mem_map_of_mem hcm) (List.mem_map_of_mem hmem)
    · exact rect _ g8 _ _ (List.mem_map_of_mem ha) (List.mem_map_of_mem hb)
    · obtain ⟨fa, fa', m1, m2, m3⟩ := k5 i (List.mem_range.mpr hi)
      refine ⟨fa, fa', m1, m2, ?_⟩
      rw [← train_cast (List.length_map (as := demos) Prod.fst)] at m3
      have e1 : (inputArray demos) = fun (t : Fin demos.length)
          (j : Fin ((demos.map Prod.fst).headD []).length) =>
          ((demos.map Prod.fst).getD (Fin.cast (List.length_map (as := demos) Prod.fst).symm t) []).getD j 0 := by
        funext t j
        simp [inputArray, List.getD_eq_getElem?_getD]
      have e2 : (fun t : Fin demos.length => (copies.getD t cur).2.getD i 0) = fun t =>
          ((copies.map Prod.snd).getD (Fin.cast (List.length_map (as := demos) Prod.fst).symm t) []).getD i 0 := by
        funext t
        have ht : (t : Nat) < copies.length := hlen ▸ t.2
        simp [List.getD_eq_getElem?_getD, ht]
      rw [e1, e2]
      exact m3
    · rw [k1]
      refine ⟨?_, rfl, rfl, rfl, rfl, ?_, r5⟩
      · change mean _ = _
        unfold mean
        rw [List.length_map]
      · exact hy cur hmem

/-! ### Use of a trained contextual Dmp -/

/-- Objects that can occur after `s`: task parameters are set (also without success), and the Dmp is
queried. -/
inductive Used (d : Nat) (s : DmpContextual) : DmpContextual → Prop
  | here : Used d s s
  | set {s' : DmpContextual} (h : Used d s s') {N k : Nat} (q : Fin N → Fin k → ℝ) :
      Used d s (setTaskParams q s').2
  | query {s' : DmpContextual} (h : Used d s s') (c : Dmp.Call) (hc : c.Sized d) :
      Used d s { s' with dmp := (c.run s'.dmp).2 }

/-- There is one trained function approximator for each parameter of the Dmp. -/
structure Ready (d : Nat) (fas : List Fa) (s : DmpContextual) : Prop where
  reach : Dmp.Reachable Dmp.DefaultLike Dmp.Change.Valid d s.dmp
  selects : s.dmp.Selects
  ppf : s.ppf = some fas
  size : ∃ v, s.dmp.getParamVector = .ok v ∧ v.length = fas.length

theorem fill_ok {N k : Nat} {q : Fin N → Fin k → ℝ} : ∀ {fas : List Fa} {ps : List ℝ} (i : Nat)
    (params : List ℝ), List.Forall₂ (fun fa p => predicted q fa = .ok p) fas ps →
    i + fas.length ≤ params.length →
    fill q i fas params = .ok (params.take i ++ ps ++ params.drop (i + fas.length)) := by
  intro fas
  induction fas with
  | nil =>
    intro ps i params h _
    cases h
    simp [fill]
  | cons fa fas ih =>
    intro ps i params h hl
    cases h with
    | cons h1 h2 =>
      rename_i p ps
      rw [List.length_cons] at hl
      unfold fill
      rw [h1, Dmp.except_ok_bind, if_pos (by omega), ih (i + 1) _ h2 (by rw [List.length_set]; omega)]
      congr 1
      rw [List.take_add_one, List.take_set_of_le (le_refl i), List.drop_set_of_lt (by omega),
        List.getElem?_set_self (by omega), List.length_cons]
      simp only [Option.toList_some, List.append_assoc, List.singleton_append]
      congr 3
      omega

theorem fill_error {N k : Nat} {q : Fin N → Fin k → ℝ} : ∀ {fas : List Fa} (i : Nat) (params : List ℝ),
    (∃ fa ∈ fas, ∀ p, predicted q fa ≠ .ok p) → ∃ e, fill q i fas params = .error e := by
  intro fas
  induction fas with
  | nil => rintro i params ⟨fa, h, -⟩; exact nomatch h
  | cons fa fas ih =>
    rintro i params ⟨fb, hb, hp⟩
    unfold fill
    cases e : predicted q fa with
    | error x => exact ⟨x, rfl⟩
    | ok p =>
      rw [Dmp.except_ok_bind]
      split
      · rcases List.mem_cons.mp hb with rfl | hb
        · exact absurd e (hp p)
        · exact ih _ _ ⟨fb, hb, hp⟩
      · exact ⟨_, rfl⟩

theorem fillStart_ok {N k : Nat} {q : Fin N → Fin k → ℝ} {fas : List Fa} : ∀ {l : List Nat}
    {ps : List ℝ}, List.Forall₂ (fun i p => ∃ fa, fas[i]? = some fa ∧ predicted q fa = .ok p) l ps →
    fillStart q (some fas) l = .ok ps := by
  intro l
  induction l with
  | nil => intro ps h; cases h; rfl
  | cons i l ih =>
    intro ps h
    cases h with
    | cons h1 h2 =>
      obtain ⟨fa, h3, h4⟩ := h1
      unfold fillStart
      simp only [Dmp.except_ok_bind]
      rw [h3]
      simp only [Dmp.except_ok_bind]
      rw [h4, Dmp.except_ok_bind, ih h2]
      rfl

theorem predicted_one {k : Nat} {q : Fin 1 → Fin k → ℝ} {fa : Fa} {p : ℝ}
    (h : fa.predict q = .ok fun _ => p) : predicted q fa = .ok p := by
  unfold predicted
  rw [h, Dmp.except_ok_bind, dif_pos rfl]
  rfl

theorem predicted_inv {N k : Nat} {q : Fin N → Fin k → ℝ} {fa : Fa} {p : ℝ}
    (h : predicted q fa = .ok p) : N = 1 ∧ fa.predict q = .ok fun _ => p := by
  unfold predicted at h
  obtain ⟨out, h1, h2⟩ := except_bind_ok h
  by_cases hN : N = 1
  · subst hN
    rw [dif_pos rfl] at h2
    cases h2
    refine ⟨rfl, h1.trans (congrArg _ (funext fun i => ?_))⟩
    rw [Subsingleton.elim i 0]
    rfl
  · rw [dif_neg hN] at h2
    cases h2

theorem selects_of_set {s : Dmp} (w : s.Wf) (h : s.Selects) {v v0 : List ℝ} (h0 : s.getParamVector = .ok v0)
    (hv : v.length = v0.length) : (Dmp.setParamVector v s).2.Selects := by
  rw [Dmp.getParamVector_eq h] at h0
  have h0 := Except.ok.inj h0
  set n := ((s.fas.getD []).map Fa.values).flatten.length with hn
  have hl : v.length = n + s.goalValues.length := by rw [hv, ← h0, List.length_append]
  obtain ⟨fas, -, -, h3, -, h5⟩ := Dmp.setParamVector_run w h (v := v.take n) (g := v.drop n)
    (by rw [List.length_take]; omega) (by rw [List.length_drop]; omega)
  rw [List.take_append_drop] at h5
  rw [h5]
  have efas : ∀ fa ∈ ((s.fas.map fun _ => fas).getD []), fa.Selects := by
    cases s.fas with
    | none => exact fun _ h => nomatch h
    | some l => exact h3
  simp only
  split <;> exact efas

theorem setTaskParams_cases {fas : List Fa} {s : DmpContextual} (hs : Ready d fas s) {N k : Nat}
    (q : Fin N → Fin k → ℝ) :
    (∃ ps t, List.Forall₂ (fun fa p => predicted q fa = .ok p) fas ps ∧
      setTaskParams q s = (.ok (), { s with dmp := t }) ∧ Dmp.setParamVector ps s.dmp = (.ok (), t) ∧
      t.getParamVector = .ok ps ∧ Ready d fas { s with dmp := t }) ∨
    ((∃ fa ∈ fas, ∀ p, predicted q fa ≠ .ok p) ∧ ∃ e, setTaskParams q s = (.error e, s)) := by
  obtain ⟨v, hv, hl⟩ := hs.size
  have hset : setTaskParams q s = (PyM.lift (fill q 0 fas v) >>= fun params => onDmp (Dmp.setParamVector params)) s := by
    unfold setTaskParams
    rw [PyM.self_bind, hv, PyM.lift_ok_bind, hs.ppf]
  by_cases h : ∃ fa ∈ fas, ∀ p, predicted q fa ≠ .ok p
  · refine .inr ⟨h, ?_⟩
    obtain ⟨e, he⟩ := fill_error (q := q) 0 v h
    exact ⟨e, by rw [hset, he, PyM.lift_error_bind]; rfl⟩
  · left
    push Not at h
    choose! f hf using h
    have hp : List.Forall₂ (fun fa p => predicted q fa = .ok p) fas (fas.map f) := by
      rw [List.forall₂_map_right_iff, List.forall₂_same]
      exact fun fa hfa => hf fa hfa
    obtain ⟨v0, h1, h2, h3, h4, h5⟩ := Dmp.C27_roundtrip d s.dmp hs.reach hs.selects
    rw [hv] at h1
    obtain rfl := Except.ok.inj h1
    obtain ⟨t, k1, k2, k3⟩ := h4 (fas.map f) (by rw [List.length_map, hl])
    have hfill := fill_ok 0 v hp (by omega)
    rw [List.take_zero, List.nil_append, zero_add, List.drop_of_length_le (by omega), List.append_nil] at hfill
    refine ⟨fas.map f, t, hp, ?_, k1, k2, ?_, ?_, hs.ppf, _, k2, by rw [List.length_map]⟩
    · rw [hset, hfill, PyM.lift_ok_bind]
      exact onDmp_ok k1
    · have := Dmp.Reachable.change hs.reach (.params (fas.map f)) trivial
      change Dmp.Reachable _ _ _ (Dmp.setParamVector _ _).2 at this
      rwa [k1] at this
    · have := selects_of_set hs.reach.inv.wf hs.selects hv (v := fas.map f) (by rw [List.length_map, hl])
      rwa [k1] at this

theorem query_frame {s : Dmp} (h : Dmp.Reachable Dmp.DefaultLike Dmp.Change.Valid d s) (c : Dmp.Call)
    (hc : c.Sized d) : (c.run s).2.fas = s.fas ∧ (c.run s).2.selected = s.selected ∧
      (c.run s).2.yAttr = s.yAttr := by
  have e := (Dmp.Call.stable hc s s h.inv.good h.inv.good rfl).2.1
  have h1 := congrArg Dmp.fas e
  have h2 := congrArg Dmp.selected e
  have h3 := congrArg Dmp.yAttr e
  exact ⟨h1, h2, h3⟩

theorem Used.ready {fas : List Fa} {s s' : DmpContextual} (hs : Ready d fas s) (h : Used d s s') :
    Ready d fas s' := by
  induction h with
  | here => exact hs
  | set h q ih =>
    rcases setTaskParams_cases ih q with ⟨ps, t, -, h1, -, -, h2⟩ | ⟨-, e, h1⟩
    · rw [h1]; exact h2
    · rw [h1]; exact ih
  | query h c hc ih =>
    obtain ⟨h1, h2, h3⟩ := query_frame ih.reach c hc
    obtain ⟨v, hv, hl⟩ := ih.size
    refine ⟨.query ih.reach c hc, ?_, ih.ppf, v, ?_, hl⟩
    · intro fa hfa
      change fa ∈ (c.run _).2.fas.getD [] at hfa
      rw [h1] at hfa
      exact ih.selects fa hfa
    · change (c.run _).2.getParamVector = _
      unfold Dmp.getParamVector at hv ⊢
      rw [h1, h2, h3]
      exact hv

/-- All selected parameters of the Dmp after training are arrays. -/
def SelectsArrays (names : List String) (s : Dmp) : Prop :=
  names.Nodup ∧ ∀ fa ∈ s.fas.getD [], fa.model.isSome = true → ∀ n ∈ names, n ≠ "goal" →
    ∃ sh v, fa.param n = some (.array sh v)

theorem train_ready {s s' : DmpContextual} (hr : Dmp.Reachable Dmp.DefaultLike Dmp.Change.Valid d s.dmp)
    {demos : List (List ℝ × Trajectory ℝ)} (hs : ∀ demo ∈ demos, demo.2.Shape) {names : List String}
    {ppf : Fa ⊕ List Fa} (h : train demos names ppf s = (.ok (), s')) (hn : SelectsArrays names s'.dmp) :
    ∃ fas, Ready d fas s' := by
  obtain ⟨copies, cur, fas, fas', h1, h2, h3, h4, h5, h6, h7, h8, -, -, -, h9, h10, -, h11⟩ := train_spec hr hs h
  have hcur : cur ∈ copies := List.mem_of_getLast? h2
  obtain ⟨n, hnc, rfl⟩ := List.mem_iff_getElem.mp hcur
  have hl := h1.length_eq
  obtain ⟨k1, k2⟩ := h1.get (by omega) hnc
  simp only [List.get_eq_getElem] at k1 k2
  have r1 : Dmp.Reachable Dmp.DefaultLike Dmp.Change.Valid d (Dmp.setSelected names s.dmp).2 :=
    .change hr (.select names) trivial
  obtain ⟨-, -, m3⟩ := train_frame r1.inv (hs _ (List.getElem_mem (show n < demos.length by omega))) k1
  have hsel : s'.dmp.Selects := by
    intro fa hfa ht
    refine ⟨names.filter (· ≠ "goal"), ?_, hn.1.filter _, fun m hm => ?_⟩
    · rw [h9] at hfa
      obtain ⟨fa0, hf0, he⟩ := m3 fa hfa
      rw [he]
      rw [Dmp.setSelected_run] at hf0
      cases e : s.dmp.fas with
      | none => rw [e] at hf0; exact nomatch hf0
      | some l =>
        rw [e] at hf0
        obtain ⟨fb, -, rfl⟩ := List.mem_map.mp hf0
        rfl
    · rw [List.mem_filter] at hm
      exact hn.2 fa hfa ht m hm.1 (by simpa using hm.2)
  obtain ⟨v, hv, -⟩ := Dmp.C27_roundtrip d s'.dmp h11 hsel
  refine ⟨fas', h11, hsel, h6, v, hv, ?_⟩
  rw [h7]
  have e1 := hv
  unfold Dmp.getParamVector at e1 k2
  rw [h9, h10] at e1
  obtain ⟨l1, e2, e3⟩ := except_bind_ok e1
  obtain ⟨l2, e4, e5⟩ := except_bind_ok k2
  rw [e2] at e4
  obtain rfl := Except.ok.inj e4
  rw [← Except.ok.inj e3, ← Except.ok.inj e5]
  have y1 : s'.dmp.yAttr.length = d := by rw [h11.inv.wf.yAttr, h11.inv.dim]
  have r2 : Dmp.Reachable Dmp.DefaultLike Dmp.Change.Valid d copies[n].1 := by
    have := Dmp.Reachable.change r1 (.train (demos[n]'(by omega)).2 none) (hs _ (List.getElem_mem _))
    change Dmp.Reachable _ _ _ (Dmp.train _ none _).2 at this
    rwa [show Dmp.train (demos[n]'(by omega)).2 none (Dmp.setSelected names s.dmp).2 = _ from k1] at this
  have y2 : copies[n].1.yAttr.length = d := by rw [r2.inv.wf.yAttr, r2.inv.dim]
  rw [List.length_append, List.length_append]
  split <;> simp [y1, y2]

/-- C63: in a contextual Dmp that was trained, and was used in any way since, setting task parameters
installs exactly the predicted vector and changes nothing else; motions use the parameters. If a prediction
raises an exception or does not consist of one number, the object is unchanged. -/
theorem C63_installs (s s1 s' : DmpContextual) (hr : Dmp.Reachable Dmp.DefaultLike Dmp.Change.Valid d s.dmp)
    (demos : List (List ℝ × Trajectory ℝ)) (hs : ∀ demo ∈ demos, demo.2.Shape) (names : List String)
    (ppf : Fa ⊕ List Fa) (h : train demos names ppf s = (.ok (), s1)) (hn : SelectsArrays names s1.dmp)
    (hu : Used d s1 s') :
    ∃ fas, s1.ppf = some fas ∧ s'.ppf = some fas ∧
      (∀ (k : Nat) (q : Fin 1 → Fin k → ℝ) (ps : List ℝ),
        List.Forall₂ (fun fa p => fa.predict q = .ok fun _ => p) fas ps →
        ∃ t, setTaskParams q s' = (.ok (), { s' with dmp := t }) ∧ t.getParamVector = .ok ps ∧
          Dmp.OnlySelected s'.dmp t ∧
          (∀ ts suppress, analytical q ts suppress s' =
            ((Dmp.analytical ts suppress t).1, { s' with dmp := (Dmp.analytical ts suppress t).2 })) ∧
          ("goal" ∉ s'.dmp.selected → ∀ y, integrateStart q y s' =
            ((Dmp.integrateStart y t).1, { s' with dmp := (Dmp.integrateStart y t).2 }))) ∧
      ∀ (N k : Nat) (q : Fin N → Fin k → ℝ), (∃ fa ∈ fas, N ≠ 1 ∨ ∀ p, fa.predict q ≠ .ok p) →
        ∃ e, setTaskParams q s' = (.error e, s') := by
  obtain ⟨fas, hready⟩ := train_ready hr hs h hn
  have hr' := hu.ready hready
  refine ⟨fas, hready.ppf, hr'.ppf, fun k q ps hp => ?_, fun N k q hp => ?_⟩
  · rcases setTaskParams_cases hr' q with ⟨ps', t, k1, k2, k3, k4, k5⟩ | ⟨⟨fa, hfa, hno⟩, -⟩
    · have : ps' = ps := by
        clear k2 k3 k4 k5 hr' hready
        induction hp generalizing ps' with
        | nil => cases k1; rfl
        | cons a b ih =>
          cases k1 with
          | cons c e =>
            rw [predicted_one a] at c
            rw [Except.ok.inj c, ih _ e]
      subst this
      refine ⟨t, k2, k4, ?_, fun ts sup => ?_, fun _ y => ?_⟩
      · have := Dmp.C27_unselected d s'.dmp hr'.reach ps'
        rwa [k3] at this
      · unfold analytical
        rw [PyM.bind_ok k2]
        rfl
      · unfold integrateStart
        obtain ⟨v, hv, hl⟩ := hr'.size
        rw [PyM.self_bind, Dmp.size_of_vector hr'.reach.inv.wf hr'.selects hv, PyM.lift_ok_bind, hr'.ppf,
          fillStart_ok (ps := ps') ?_, PyM.lift_ok_bind, PyM.bind_ok (onDmp_ok k3)]
        · rw [← hr'.ppf]
          rfl
        · rw [hl, List.forall₂_iff_get]
          have hlen := k1.length_eq
          refine ⟨by simpa using hlen, fun i h1 h2 => ⟨fas[i]'(by simpa using h1), ?_, ?_⟩⟩
          · simp
          · exact k1.get (by simpa using h1) h2
    · exfalso
      obtain ⟨i, hi, rfl⟩ := List.mem_iff_getElem.mp hfa
      have hlen := hp.length_eq
      exact hno _ (predicted_one (hp.get hi (by omega)))
  · rcases setTaskParams_cases hr' q with ⟨ps', t, k1, -⟩ | ⟨-, he⟩
    · exfalso
      obtain ⟨fa, hfa, hno⟩ := hp
      obtain ⟨i, hi, rfl⟩ := List.mem_iff_getElem.mp hfa
      have hlen := k1.length_eq
      obtain ⟨e1, e2⟩ := predicted_inv (k1.get hi (by omega))
      rcases hno with hno | hno
      · exact hno e1
      · exact hno _ e2
    · exact he

/-- C63: unless told otherwise, motions are those with forcing term. -/
theorem C63_forced {N k : Nat} (q : Fin N → Fin k → ℝ) (ts : Option (List ℝ)) (s t : DmpContextual)
    (h : setTaskParams q s = (.ok (), t)) : (analytical q ts) s =
      ((Dmp.analytical ts false t.dmp).1, { t with dmp := (Dmp.analytical ts false t.dmp).2 }) := by
  unfold analytical
  rw [PyM.bind_ok h]
  rfl

/-- C63: if the policy parameter function interpolates, setting the task parameters of a demonstration
installs the parameters that a Dmp trained with this demonstration alone has. -/
theorem C63_interpolates (s s1 s' : DmpContextual)
    (hr : Dmp.Reachable Dmp.DefaultLike Dmp.Change.Valid d s.dmp)
    (demos : List (List ℝ × Trajectory ℝ)) (hs : ∀ demo ∈ demos, demo.2.Shape) (names : List String)
    (ppf : Fa ⊕ List Fa) (h : train demos names ppf s = (.ok (), s1)) (hn : SelectsArrays names s1.dmp)
    (hu : Used d s1 s') (alone : Fin demos.length → List ℝ)
    (ha : ∀ k, (Dmp.train demos[k].2 none (Dmp.setSelected names s.dmp).2).2.getParamVector = .ok (alone k))
    (fas : List Fa) (hf : s1.ppf = some fas)
    (hi : ∀ i (h : i < fas.length), fas[i].predict (inputArray demos) = .ok fun k => (alone k).getD i 0)
    (k : Fin demos.length) :
    ∃ t, setTaskParams (fun _ : Fin 1 => inputArray demos k) s' = (.ok (), { s' with dmp := t }) ∧
      t.getParamVector = .ok (alone k) := by
  obtain ⟨fas', h1, -, h2, -⟩ := C63_installs s s1 s' hr demos hs names ppf h hn hu
  rw [hf] at h1
  obtain rfl := Option.some.inj h1
  obtain ⟨copies, cur, fas0, fas', c1, c2, c3, -, -, c6, c7, -⟩ := train_spec hr hs h
  rw [hf] at c6
  obtain rfl := Option.some.inj c6
  have hlen : (alone k).length = fas.length := by
    have hl := c1.length_eq
    obtain ⟨m1, m2⟩ := c1.get k.2 (hl ▸ k.2)
    have := ha k
    change (Dmp.train (demos.get ⟨k, _⟩).2 none (Dmp.setSelected names s.dmp).2).2.getParamVector = _ at this
    rw [m1, m2] at this
    rw [← Except.ok.inj this, c7]
    exact c3 _ (List.get_mem _ _)
  obtain ⟨t, h3, h4, -⟩ := h2 _ (fun _ : Fin 1 => inputArray demos k) (alone k) (by
    rw [List.forall₂_iff_get]
    refine ⟨hlen.symm, fun i hi1 hi2 => ?_⟩
    have := (C39_batch _ (Nat.ne_of_gt (Nat.lt_of_le_of_lt (Nat.zero_le _) k.2)) _ _).mp (hi i hi1) k
    rw [getD_lt hi2] at this
    exact this)
  exact ⟨t, h3, h4⟩

/-- C63: with Gaussian process regression as policy parameter function, setting the task parameters of a
demonstration installs the parameters that a Dmp trained with this demonstration alone has. -/
theorem C63_gpr (s s1 s' : DmpContextual) (hr : Dmp.Reachable Dmp.DefaultLike Dmp.Change.Valid d s.dmp)
    (demos : List (List ℝ × Trajectory ℝ)) (hs : ∀ demo ∈ demos, demo.2.Shape) (names : List String)
    (c : ℝ) (lengths : List ℝ) (fa : Fa) (hfa : fa.params = .gpr c lengths)
    (h : train demos names (.inl fa) s = (.ok (), s1)) (hn : SelectsArrays names s1.dmp)
    (hu : Used d s1 s') (k : Fin demos.length) :
    ∃ one v t, Dmp.train demos[k].2 none (Dmp.setSelected names s.dmp).2 = (.ok (), one) ∧
      one.getParamVector = .ok v ∧
      setTaskParams (fun _ : Fin 1 => inputArray demos k) s' = (.ok (), { s' with dmp := t }) ∧
      t.getParamVector = .ok v := by
  obtain ⟨copies, cur, fas0, fas, c1, c2, c3, -, c5, c6, c7, c8, -⟩ := train_spec hr hs h
  have hl := c1.length_eq
  have each (k : Fin demos.length) :
      Dmp.train demos[k].2 none (Dmp.setSelected names s.dmp).2 = (.ok (), (copies.getD k cur).1) ∧
      (copies.getD k cur).1.getParamVector = .ok (copies.getD k cur).2 := by
    have := c1.get k.2 (hl ▸ k.2)
    rw [getD_lt (hl ▸ k.2 : (k : Nat) < copies.length)]
    exact this
  obtain ⟨t, h1, h2⟩ := C63_interpolates s s1 s' hr demos hs names _ h hn hu
    (fun k => (copies.getD k cur).2) (fun k => by rw [(each k).1]; exact (each k).2) fas c6 (fun i hi => by
      obtain ⟨f, f', m1, m2, m3⟩ := c8 i (by omega)
      rw [List.getElem?_eq_getElem hi] at m2
      rw [Option.some.inj m2]
      refine C38_object c lengths _ _ _ f f' ?_ m3
      obtain rfl : fas0 = _ := (Except.ok.inj c5).symm
      rw [List.getElem?_replicate] at m1
      split at m1
      · rw [← Option.some.inj m1]; exact hfa
      · cases m1) k
  exact ⟨_, _, t, (each k).1, (each k).2, h1, h2⟩

theorem train_values {s t : Dmp} (i : Dmp.Inv d s) {traj : Trajectory ℝ} (hs : traj.Shape)
    (h : Dmp.train traj none s = (.ok (), t)) :
    traj.ts.getLast? = some t.tau ∧ traj.ys.rows.getLast? = some t.yAttr := by
  obtain ⟨tau, y0, yg, range, h1, -, h3, -, -, -, -, -, h⟩ := Dmp.train_inv i hs h
  have h3' : traj.ys.rows.getLast? = some yg := by
    unfold Trajectory.yFinal at h3
    split at h3
    · rename_i e; rw [e, Except.ok.inj h3]
    · cases h3
  rcases h with ⟨-, rfl⟩ | ⟨fas0, fas1, ph, tg, -, -, -, rfl⟩
  · exact ⟨h1, h3'⟩
  · exact ⟨h1, h3'⟩

/-- C63: the time constant and the attractor after training are the means of those of the demonstrations;
the start position is the one that was passed to the constructor of the Dmp. -/
theorem C63_means (s s1 : DmpContextual) (hr : Dmp.Reachable Dmp.DefaultLike Dmp.Change.Valid d s.dmp)
    (demos : List (List ℝ × Trajectory ℝ)) (hs : ∀ demo ∈ demos, demo.2.Shape) (names : List String)
    (ppf : Fa ⊕ List Fa) (h : train demos names ppf s = (.ok (), s1)) :
    s1.dmp.tau = (demos.map fun demo => demo.2.ts.getLastD 0).sum / demos.length ∧
      (∀ j < d, s1.dmp.yAttr.getD j 0 =
        (demos.map fun demo => (demo.2.ys.rows.getLastD []).getD j 0).sum / demos.length) ∧
      s1.dmp.getYInit = .ok s.dmp.toBase.yInit ∧ s1.dmp.toBase.yInit = s.dmp.toBase.yInit := by
  obtain ⟨copies, cur, fas0, fas, c1, c2, -, -, -, -, -, -, c9, c10, c11, -, -, c12, -⟩ := train_spec hr hs h
  have hl := c1.length_eq
  have r1 : Dmp.Reachable Dmp.DefaultLike Dmp.Change.Valid d (Dmp.setSelected names s.dmp).2 :=
    .change hr (.select names) trivial
  have hv : List.Forall₂ (fun (demo : List ℝ × Trajectory ℝ) (c : Dmp × List ℝ) =>
      demo.2.ts.getLast? = some c.1.tau ∧ demo.2.ys.rows.getLast? = some c.1.yAttr ∧
      c.1.yAttr.length = d) demos copies := by
    rw [List.forall₂_iff_get] at c1 ⊢
    refine ⟨hl, fun i h1 h2 => ?_⟩
    have hm := hs _ (List.get_mem demos ⟨i, h1⟩)
    have ht := (c1.2 i h1 h2).1
    obtain ⟨v1, v2⟩ := train_values r1.inv hm ht
    have r2 := Dmp.Reachable.change r1 (.train (demos.get ⟨i, h1⟩).2 none) hm
    change Dmp.Reachable _ _ _ (Dmp.train _ none _).2 at r2
    rw [ht] at r2
    exact ⟨v1, v2, by rw [r2.inv.wf.yAttr, r2.inv.dim]⟩
  have e1 : (demos.map fun demo => demo.2.ts.getLastD 0) = copies.map fun c => c.1.tau := by
    clear c1 c2 c9 c10 c11 hl h hs
    induction hv with
    | nil => rfl
    | cons a _ ih => rw [List.map_cons, List.map_cons, ih, List.getLastD_eq_getLast?, a.1]; rfl
  have e2 (j : Nat) : (demos.map fun demo => (demo.2.ys.rows.getLastD []).getD j 0) =
      copies.map fun c => c.1.yAttr.getD j 0 := by
    clear c1 c2 c9 c10 c11 hl h hs e1
    induction hv with
    | nil => rfl
    | cons a _ ih => rw [List.map_cons, List.map_cons, ih, List.getLastD_eq_getLast?, a.2.1]; rfl
  refine ⟨by rw [c9, e1, hl], fun j hj => ?_, by unfold Dmp.getYInit; rw [c10], c12⟩
  rw [c11, e2, hl]
  unfold meanRows mean
  have hd : ((copies.map fun c => c.1.yAttr).headD []).length = d := by
    cases hv with
    | nil => cases c2
    | cons a _ => exact a.2.2
  rw [getD_range_map (by rw [hd]; exact hj), List.map_map, List.length_map]
  rfl

/-- C63, start position: after from_trajs it is the mean of the demonstrated start positions. -/
def C63_start_statement : Prop :=
  ∀ (d : Nat) (demos : List (List ℝ × Trajectory ℝ)) (fas : Option (List Fa)) (names : List String)
    (ppf : Fa ⊕ List Fa) (s : DmpContextual), (∀ demo ∈ demos, demo.2.Shape ∧ demo.2.dim = d) →
    fromTrajs demos fas names ppf = .ok s → ∃ y, s.dmp.getYInit = .ok y ∧ ∀ j < d, y.getD j 0 =
      (demos.map fun demo => (demo.2.ys.rows.headD []).getD j 0).sum / demos.length

theorem fromTrajs_inv {demos : List (List ℝ × Trajectory ℝ)} {fas : Option (List Fa)} {names : List String}
    {ppf : Fa ⊕ List Fa} {o : Dmp.Options} {s1 : DmpContextual} (hs : ∀ demo ∈ demos, demo.2.Shape)
    (h : fromTrajs demos fas names ppf o = .ok s1) :
    ∃ demo rest tau y0 yg s, demos = demo :: rest ∧ demo.2.ts.getLast? = some tau ∧ demo.2.yInit = .ok y0 ∧
      demo.2.yFinal = .ok yg ∧ Dmp.init tau y0 yg fas o = .ok s.dmp ∧ s.ppf = none ∧
      y0.length = demo.2.ys.cols ∧ yg.length = demo.2.ys.cols ∧
      train demos names ppf s = (.ok (), s1) := by
  unfold fromTrajs at h
  cases demos with
  | nil => cases h
  | cons demo rest =>
    simp only at h
    cases e1 : demo.2.ts.getLast? with
    | none => rw [e1] at h; cases h
    | some tau =>
      rw [e1] at h
      obtain ⟨y0, h2, h⟩ := except_bind_ok h
      obtain ⟨yg, h3, h⟩ := except_bind_ok h
      obtain ⟨s, h4, h⟩ := except_bind_ok h
      unfold init at h4
      obtain ⟨b, -, h4⟩ := except_bind_ok h4
      obtain ⟨dmp, h5, h4⟩ := except_bind_ok h4
      obtain rfl := Except.ok.inj h4
      unfold afterwards at h
      have hd := hs demo List.mem_cons_self
      refine ⟨demo, rest, tau, y0, yg, ⟨dmp, none⟩, rfl, e1, h2, h3, h5, rfl, Dmp.yInit_length hd h2,
        Dmp.yFinal_length hd h3, ?_⟩
      rcases e : train (demo :: rest) names ppf { dmp := dmp, ppf := none } with ⟨r, s'⟩
      rw [e] at h
      cases r with
      | error x => cases h
      | ok u => cases h; rfl

/-- C63: after from_trajs the start position is that of the first demonstration. Missing for C63: the mean
of the start positions, if the demonstrations start at different positions (`C63_start_refuted`). -/
theorem C63_start_partial (demos : List (List ℝ × Trajectory ℝ)) (hs : ∀ demo ∈ demos, demo.2.Shape)
    (fas : Option (List Fa)) (names : List String) (ppf : Fa ⊕ List Fa) (o : Dmp.Options)
    (ho : ∀ demo ∈ demos, o.Fits demo.2.dim)
    (hg : ∀ e, o.goal ≠ some (some (.exponential e)))
    (s : DmpContextual) (h : fromTrajs demos fas names ppf o = .ok s) :
    ∃ demo rest, demos = demo :: rest ∧ s.dmp.getYInit = demo.2.yInit ∧
      ((∀ b ∈ rest, b.2.yInit = demo.2.yInit) → ∃ y, s.dmp.getYInit = .ok y ∧ ∀ j < demo.2.dim,
        y.getD j 0 = (demos.map fun demo => (demo.2.ys.rows.headD []).getD j 0).sum / demos.length) := by
  obtain ⟨demo, rest, tau, y0, yg, s0, rfl, h1, h2, h3, h4, -, h5, h6, h7⟩ := fromTrajs_inv hs h
  have hd := hs demo List.mem_cons_self
  have hr : Dmp.Reachable Dmp.DefaultLike Dmp.Change.Valid demo.2.dim s0.dmp :=
    .init h4 (h5.trans hd.dim.symm) (h6.trans hd.dim.symm) (ho demo List.mem_cons_self) fun e he => absurd he (hg e)
  obtain ⟨-, -, k, -⟩ := C63_means s0 s hr (demo :: rest) hs names ppf h7
  obtain ⟨dflt, -, hseq⟩ := Dmp.init_eq h4
  have ey : s0.dmp.toBase.yInit = y0 := by
    rw [hseq]
    unfold Base.yInit
    simp
  rw [ey] at k
  refine ⟨demo, rest, rfl, k.trans h2.symm, fun hall => ⟨y0, k, fun j hj => ?_⟩⟩
  have e : ((demo :: rest).map fun demo => (demo.2.ys.rows.headD []).getD j 0) =
      List.replicate (demo :: rest).length (y0.getD j 0) := by
    rw [List.eq_replicate_iff]
    refine ⟨by simp, fun y hy => ?_⟩
    obtain ⟨b, hb, rfl⟩ := List.mem_map.mp hy
    have hb' : b.2.yInit = .ok y0 := by
      rcases List.mem_cons.mp hb with rfl | hb
      · exact h2
      · rw [hall b hb, h2]
    unfold Trajectory.yInit at hb'
    split at hb'
    · rename_i e
      rw [List.headD_eq_head?_getD, e, ← Except.ok.inj hb']
      rfl
    · cases hb'
  rw [e, List.sum_replicate, nsmul_eq_mul]
  have : ((demo :: rest).length : ℝ) ≠ 0 := by rw [List.length_cons]; positivity
  field_simp

/-- C63: from_dmp is training of a contextual Dmp that contains the given Dmp. -/
theorem C63_fromDmp (demos : List (List ℝ × Trajectory ℝ)) (dmp : Dmp) (names : List String)
    (ppf : Fa ⊕ List Fa) (s1 : DmpContextual) (h : fromDmp demos dmp names ppf = .ok s1) :
    ∃ s, s.dmp = dmp ∧ s.ppf = none ∧ train demos names ppf s = (.ok (), s1) := by
  unfold fromDmp at h
  obtain ⟨s, h1, h2⟩ := except_bind_ok h
  unfold init at h1
  obtain ⟨b, -, h1⟩ := except_bind_ok h1
  obtain ⟨dmp', -, h1⟩ := except_bind_ok h1
  obtain rfl := Except.ok.inj h1
  refine ⟨⟨dmp, none⟩, rfl, rfl, ?_⟩
  unfold afterwards at h2
  rcases e : train demos names ppf { dmp := dmp, ppf := none } with ⟨r, s'⟩
  rw [e] at h2
  cases r with
  | error x => cases h2
  | ok u => cases h2; rfl

/-- C63: without demonstrations training raises an exception; with a list of function approximators it
succeeds only if there is one for each parameter. Before training, task parameters cannot be set. -/
theorem C63_errors (s : DmpContextual) (names : List String) (ppf : Fa ⊕ List Fa) :
    (train [] names ppf s).1 = .error .attributeError ∧
    (∀ (d : Nat) (demos : List (List ℝ × Trajectory ℝ)) (fas : List Fa) (s1 : DmpContextual),
      Dmp.Reachable Dmp.DefaultLike Dmp.Change.Valid d s.dmp → (∀ demo ∈ demos, demo.2.Shape) →
      train demos names (.inr fas) s = (.ok (), s1) → SelectsArrays names s1.dmp →
      s1.dmp.paramVectorSize = .ok fas.length) ∧
    (s.ppf = none → ∀ (N k : Nat) (q : Fin N → Fin k → ℝ), ∃ e, setTaskParams q s = (.error e, s)) := by
  refine ⟨?_, fun d demos fas s1 hr hs h hn => ?_, fun hp N k q => ?_⟩
  · unfold train
    rw [PyM.bind_ok (onDmp_ok (Dmp.setSelected_run names s.dmp)), PyM.self_bind, List.mapM_nil]
    rfl
  · obtain ⟨fas1, hready⟩ := train_ready hr hs h hn
    obtain ⟨copies, cur, fas0, fas', -, -, -, -, c5, c6, c7, -⟩ := train_spec hr hs h
    obtain ⟨v, hv, hl⟩ := hready.size
    rw [Dmp.size_of_vector hready.reach.inv.wf hready.selects hv, hl]
    have e1 := hready.ppf
    rw [c6] at e1
    rw [← Option.some.inj e1, c7]
    unfold approximators at c5
    simp only at c5
    by_cases e : fas.length = cur.2.length
    · rw [e]
    · rw [if_neg e] at c5; cases c5
  · unfold setTaskParams
    rw [PyM.self_bind, hp]
    cases s.dmp.getParamVector with
    | error e => exact ⟨e, rfl⟩
    | ok v => exact ⟨_, rfl⟩

/-! ### Two demonstrations -/

/-- A demonstration from `a` to `b` with two samples. -/
def line (a b : ℝ) : Trajectory ℝ :=
  { ts := [0, 1]
    dtMean := some 1
    ys := ⟨1, [[a], [b]]⟩
    yds := ⟨1, [[0], [0]]⟩
    ydds := ⟨1, [[0], [0]]⟩
    misc := none
    dim := 1 }

theorem line_shape (a b : ℝ) : (line a b).Shape where
  ys := rfl
  yds := rfl
  ydds := rfl
  ysCols := by simp [line]
  ydsCols := by simp [line]
  yddsCols := by simp [line]
  ydsShape := rfl
  yddsShape := rfl
  dim := rfl
  misc := fun _ h => nomatch h

theorem train_line {s : Dmp} (hi : Dmp.Inv 1 s) (hfas : s.fas = none) (a b : ℝ) :
    ∃ t, Dmp.train (line a b) none s = (.ok (), t) ∧ t.fas = none ∧ t.yAttr = [b] ∧
      t.selected = s.selected ∧ t.toBase.yInit = s.toBase.yInit ∧ Dmp.Inv 1 t := by
  have hdim : s.dimY = 1 := hi.dim
  obtain ⟨range, r4⟩ : ∃ range, (line a b).rangePerDim = .ok range := ⟨_, rfl⟩
  have i1 := Dmp.inv_retimed hi 1
  have key : Dmp.train (line a b) none s = (.ok (),
      { s.prepared 1 [a] [b] range none with tsTrain := some [0, 1] }) := by
    rw [Dmp.train_eq, show (line a b).ts.getLast? = some 1 from rfl]
    simp only
    rw [PyM.bind_ok (Dmp.setTau_run s 1)]
    unfold Dmp.trainRest
    rw [show (line a b).yInit = .ok [a] from rfl, PyM.lift_ok_bind,
      PyM.bind_ok (Dmp.setYInit_run i1.wf (y := [a]) hdim.symm), show (line a b).yFinal = .ok [b] from rfl,
      PyM.lift_ok_bind, PyM.bind_ok (Dmp.setYAttr_run (Dmp.inv_placed i1 (y := [a]) hdim.symm).wf (y := [b])
        hdim.symm), r4, PyM.lift_ok_bind, PyM.modify_bind, PyM.modify_bind]
    unfold Dmp.trainLast
    rw [PyM.self_bind]
    have : (Option.getD none (((s.retimed 1).placed [a]).aimed [b]).fas) = none := hfas
    simp only [Option.getD_none] at this ⊢
    rw [this]
    rfl
  refine ⟨_, key, rfl, rfl, rfl, rfl, ?_⟩
  have := Dmp.keeps_train (d := 1) (line_shape a b) none s hi
  rwa [key] at this

theorem gpr_trains (t : Fin 2 → ℝ) : ∃ fa', Fa.train (fun (s : Fin 2) (_ : Fin 1) => (s : ℝ)) t none
    (Fa.new (.gpr 2 [1])) = (.ok (), fa') := by
  have hact : gprActivations (gprKernels [1] fun (s : Fin 2) (_ : Fin 1) => (s : ℝ)) 2
      (fun (s : Fin 2) (_ : Fin 1) => (s : ℝ)) =
      .ok fun s b => 2 * rawAct (gprKernels [1] fun (s : Fin 2) (_ : Fin 1) => (s : ℝ)) (fun s _ => (s : ℝ)) s b := by
    unfold gprActivations
    rw [activations_raw_ok _ _ (fun b i => by simp [gprKernels])]
    rfl
  have h := gprTrain_of t hact (by
    rw [Matrix.det_fin_two]
    have e : Real.exp (-1) < 1 := by rw [Real.exp_lt_one_iff]; norm_num
    have e2 : Real.exp (-1 / 2) * Real.exp (-1 / 2) = Real.exp (-1) := by rw [← Real.exp_add]; norm_num
    simp [rawAct, gprKernels, actFactor]
    norm_num
    nlinarith) (Or.inl rfl)
  obtain ⟨m, hm⟩ : ∃ m, gprTrain 2 [1] (fun (s : Fin 2) (_ : Fin 1) => (s : ℝ)) t = .ok m := ⟨_, h⟩
  refine ⟨_, train_of (by decide) (m := .gpr m) ?_⟩
  change (gprTrain 2 [1] _ t >>= _) = _
  rw [hm]
  rfl

/-- Two demonstrations: for the task parameter 0 from 0 to 1, and for 1 from 2 to 5. -/
def twoLines : List (List ℝ × Trajectory ℝ) := [([0], line 0 1), ([1], line 2 5)]

theorem twoLines_shape : ∀ demo ∈ twoLines, demo.2.Shape ∧ demo.2.dim = 1 := by
  intro demo h
  rcases List.mem_cons.mp h with rfl | h
  · exact ⟨line_shape _ _, rfl⟩
  · rw [List.mem_singleton.mp h]
    exact ⟨line_shape _ _, rfl⟩

/-- Contextual Dmp whose goal depends on the task parameter. -/
theorem twoLines_trains : ∃ s s1, Dmp.Reachable Dmp.DefaultLike Dmp.Change.Valid 1 s.dmp ∧
    train twoLines ["goal"] (.inl (Fa.new (.gpr 2 [1]))) s = (.ok (), s1) ∧
    SelectsArrays ["goal"] s1.dmp ∧ s.dmp.fas = none ∧
    fromTrajs twoLines none ["goal"] (.inl (Fa.new (.gpr 2 [1]))) = .ok s1 := by
  obtain ⟨dmp, hd⟩ := (Dmp.C16_types 1 [0] [1] none {}).1 (by simp [Dmp.known])
  have hr : Dmp.Reachable Dmp.DefaultLike Dmp.Change.Valid 1 dmp := .init hd rfl rfl
    ⟨(fun _ h => nomatch h), trivial, (fun _ h => nomatch h), (fun _ h => nomatch h),
      (fun _ h => nomatch h), (fun _ h => nomatch h), (fun _ h => nomatch h)⟩ (fun _ h => nomatch h)
  obtain ⟨dflt, -, hseq⟩ := Dmp.init_eq hd
  obtain ⟨sel, hsel⟩ : ∃ sel, sel = (Dmp.setSelected ["goal"] dmp).2 := ⟨_, rfl⟩
  have hrun : Dmp.setSelected ["goal"] dmp = (.ok (), sel) := by rw [hsel, Dmp.setSelected_run]
  have isel : Dmp.Inv 1 sel := by
    have := (Dmp.Reachable.change hr (.select ["goal"]) trivial).inv
    rwa [hsel]
  have fsel : sel.fas = none := by rw [hsel, Dmp.setSelected_run, hseq]; rfl
  have ssel : sel.selected = ["goal"] := by rw [hsel, Dmp.setSelected_run]; rfl
  have ysel : sel.toBase.yInit = [0] := by
    rw [hsel, Dmp.setSelected_run, hseq]
    unfold Base.yInit
    simp
  obtain ⟨t1, a1, a2, a3, a4, a5, -⟩ := train_line isel fsel 0 1
  obtain ⟨t2, b1, b2, b3, b4, b5, b6⟩ := train_line isel fsel 2 5
  have g1 : trainedCopy sel (line 0 1) = .ok (t1, [1]) := by
    unfold trainedCopy Dmp.getParamVector
    rw [a1]
    simp only
    rw [a2, a3, a4, ssel]
    rfl
  have g2 : trainedCopy sel (line 2 5) = .ok (t2, [5]) := by
    unfold trainedCopy Dmp.getParamVector
    rw [b1]
    simp only
    rw [b2, b3, b4, ssel]
    rfl
  obtain ⟨fa', hfa'⟩ := gpr_trains fun t => (([[1], [5]] : List (List ℝ)).getD t []).getD 0 0
  have hmap : (twoLines.mapM fun demo => trainedCopy sel demo.2) = .ok [(t1, [1]), (t2, [5])] := by
    rw [mapM_ok]
    exact .cons g1 (.cons g2 .nil)
  have i3 := Dmp.inv_retimed b6 (mean [t1.tau, t2.tau])
  have i4 := Dmp.inv_placed i3 (y := meanRows [t1.toBase.yInit, t2.toBase.yInit])
    (by rw [a5, b5, ysel]; exact i3.dim.symm)
  have ly : (meanRows [t1.yAttr, t2.yAttr]).length = 1 := by rw [a3, b3]; rfl
  obtain ⟨t5, ht5⟩ : ∃ t5, t5 = ((t2.retimed (mean [t1.tau, t2.tau])).placed
    (meanRows [t1.toBase.yInit, t2.toBase.yInit])).aimed (meanRows [t1.yAttr, t2.yAttr]) := ⟨_, rfl⟩
  have hfin : t5.fas = none := by rw [ht5]; exact b2
  have htrain : train twoLines ["goal"] (.inl (Fa.new (.gpr 2 [1]))) ⟨dmp, none⟩ = (.ok (), ⟨t5, some [fa']⟩) := by
    unfold train
    rw [PyM.bind_ok (onDmp_ok (s := ⟨dmp, none⟩) hrun), PyM.self_bind]
    simp only
    rw [hmap, PyM.lift_ok_bind]
    simp only [List.getLast?_cons_cons, List.getLast?_singleton, List.map_cons, List.map_nil]
    rw [PyM.modify_bind]
    refine (PyM.bind_ok (onDmp_ok (s := ⟨t2, none⟩) (Dmp.setTau_run _ _))).trans ?_
    refine (PyM.bind_ok (onDmp_ok (s := ⟨_, none⟩) (Dmp.setYInit_run i3.wf ?_))).trans ?_
    · rw [a5, b5, ysel]; exact i3.dim.symm
    refine (PyM.bind_ok (onDmp_ok (s := ⟨_, none⟩) (Dmp.setYAttr_run i4.wf (ly.trans i4.dim.symm)))).trans ?_
    have q1 : rectangular [[1], [5]] = .ok () := by unfold rectangular; simp
    have q2 : rectangular (twoLines.map Prod.fst) = .ok () := by unfold rectangular; simp [twoLines]
    rw [q1, q2, PyM.lift_ok_bind, PyM.lift_ok_bind]
    have q3 : approximators ([5] : List ℝ).length (.inl (Fa.new (.gpr 2 [1]))) = .ok [Fa.new (.gpr 2 [1])] := rfl
    rw [q3, PyM.lift_ok_bind, PyM.modify_bind, ← ht5]
    change (trainPpf (twoLines.map Prod.fst) [[1], [5]] 0 >>= fun _ => pure ()) ⟨t5, some [Fa.new (.gpr 2 [1])]⟩ = _
    refine (PyM.bind_ok (a := ()) (s' := ⟨t5, some [fa']⟩) ?_).trans rfl
    have q4 : Fa.train (fun (t : Fin (twoLines.map Prod.fst).length)
        (j : Fin ((twoLines.map Prod.fst).headD []).length) => ((twoLines.map Prod.fst).getD t []).getD j 0)
        (fun t => (([[1], [5]] : List (List ℝ)).getD t []).getD 0 0) none (Fa.new (.gpr 2 [1])) = (.ok (), fa') := by
      rw [← hfa']
      congr 2
      funext t j
      obtain rfl : j = ⟨0, by decide⟩ := Subsingleton.elim (α := Fin 1) _ _
      change Fin 2 at t
      fin_cases t <;> simp [twoLines]
    unfold trainPpf
    simp only [List.getElem?_cons_zero]
    rw [q4]
    rfl
  refine ⟨⟨dmp, none⟩, _, hr, htrain, ⟨by decide, fun fa hfa => ?_⟩, by rw [hseq], ?_⟩
  · change fa ∈ t5.fas.getD [] at hfa
    rw [hfin] at hfa
    exact nomatch hfa
  · have hi : init 1 [0] [1] none = .ok ⟨dmp, none⟩ := by
      unfold init
      rw [hd]
      rfl
    have h0 : fromTrajs twoLines none ["goal"] (.inl (Fa.new (.gpr 2 [1]))) =
        (init 1 [0] [1] none >>= afterwards (train twoLines ["goal"] (.inl (Fa.new (.gpr 2 [1]))))) := rfl
    rw [h0, hi, Dmp.except_ok_bind]
    unfold afterwards
    rw [htrain]

/-- A case of `C63_gpr`: for the task parameter of the second demonstration its goal is installed. -/
example : ∃ s t, fromTrajs twoLines none ["goal"] (.inl (Fa.new (.gpr 2 [1]))) = .ok s ∧
    setTaskParams (fun _ : Fin 1 => inputArray twoLines ⟨1, by decide⟩) s = (.ok (), { s with dmp := t }) ∧
    t.getParamVector = .ok [5] := by
  obtain ⟨s, s1, hr, h1, h2, hf, h3⟩ := twoLines_trains
  obtain ⟨one, v, t, k1, k2, k3, k4⟩ := C63_gpr s s1 s1 hr twoLines (fun d h => (twoLines_shape d h).1) ["goal"] 2 [1]
    (Fa.new (.gpr 2 [1])) rfl h1 h2 .here ⟨1, by decide⟩
  refine ⟨s1, t, h3, k3, k4.trans ?_⟩
  have r1 : Dmp.Reachable Dmp.DefaultLike Dmp.Change.Valid 1 (Dmp.setSelected ["goal"] s.dmp).2 :=
    .change hr (.select ["goal"]) trivial
  obtain ⟨t', m1, m2, m3, m4, -⟩ := train_line r1.inv (by rw [Dmp.setSelected_run, hf]; rfl) 2 5
  have k1 : Dmp.train (line 2 5) none (Dmp.setSelected ["goal"] s.dmp).2 = (.ok (), one) := k1
  rw [m1] at k1
  obtain rfl := (Prod.mk.inj k1).2
  rw [← k2]
  unfold Dmp.getParamVector
  rw [m2, m3, m4, Dmp.setSelected_run]
  rfl

/-- The demonstrations start at 0 and 2, the trained Dmp starts at 0. -/
theorem C63_start_refuted : ¬ C63_start_statement := by
  intro H
  obtain ⟨-, s1, -, -, -, -, h⟩ := twoLines_trains
  obtain ⟨y, h1, h2⟩ := H 1 twoLines none ["goal"] _ s1 twoLines_shape h
  obtain ⟨demo, rest, e, h3, -⟩ := C63_start_partial twoLines (fun d h => (twoLines_shape d h).1) none ["goal"] _ {}
    (fun demo hd => ⟨(fun _ h => nomatch h), trivial, (fun _ h => nomatch h), (fun _ h => nomatch h),
      (fun _ h => nomatch h), (fun _ h => nomatch h), (fun _ h => nomatch h)⟩)
    (fun e he => nomatch he) s1 h
  have e1 : demo = ([0], line 0 1) := (List.cons.inj e).1.symm
  rw [e1, h1] at h3
  have hy : y = [0] := Except.ok.inj h3
  have := h2 0 one_pos
  rw [hy] at this
  simp [twoLines, line] at this

end DmpContextual

end

end Verif
