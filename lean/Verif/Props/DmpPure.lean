import Verif.Proofs.DmpSetters

/- Dmp: queries have no side effect on later results (C25). -/

set_option autoImplicit false

namespace Verif

namespace Dmp

/-- Queries of a Dmp with their arguments. -/
inductive Call
  /-- `integrate_start()` -/
  | start
  /-- `integrate_step(dt, x)` with one of the integration methods. -/
  | step (m : DynSys.Method) (dt : ℝ) (x : List ℝ)
  /-- `differential_equation(x)` -/
  | rate (x : List ℝ)
  /-- `analytical_solution(ts, suppress_forcing_term)` -/
  | analytical (ts : Option (List ℝ)) (suppress : Bool)
  /-- `integrate(ts)` -/
  | integrate (ts : List ℝ) (m : DynSys.Method)

/-- Results of queries. -/
inductive Answer
  | pair (x xd : List ℝ)
  | vector (xd : List ℝ)
  | solution (s : Solution)
  | rows (r : List (List ℝ × List ℝ))

/-- Execution of a query. -/
noncomputable def Call.run : Call → PyM Dmp Answer
  | .start => do let r ← Dmp.integrateStart; pure (.pair r.1 r.2)
  | .step m dt x => do let r ← DynSys.step m dt x; pure (.pair r.1 r.2)
  | .rate x => do let r ← Dmp.diffEq x; pure (.vector r)
  | .analytical ts b => do let r ← Dmp.analytical ts b; pure (.solution r)
  | .integrate ts m => do let r ← Dmp.integrate ts m; pure (.rows r)

/-- The states passed to differential_equation have the size of the state of a Dmp with `d`
dimensions; they are arbitrary otherwise. (`step` checks the size itself.) -/
def Call.Sized (d : Nat) : Call → Prop
  | .rate x => x.length = 4 * d + 2
  | _ => True

/-- The results (or exceptions) of queries that are executed one after the other on the same object. -/
noncomputable def answers : List Call → Dmp → List (Except PyErr Answer)
  | [], _ => []
  | c :: cs, s => (c.run s).1 :: answers cs (c.run s).2

/-- Methods that change parameters of a Dmp. -/
inductive Change
  | tau (t : ℝ)
  | yInit (y : List ℝ)
  | yAttr (y : List ℝ)
  | startAt (y : List ℝ)
  | decouple
  | train (traj : Trajectory ℝ) (fas : Option (Option (List Fa)))
  | select (names : List String)
  | params (values : List ℝ)

/-- Execution of a change. -/
noncomputable def Change.run : Change → PyM Dmp Unit
  | .tau t => Dmp.setTau t
  | .yInit y => Dmp.setYInit y
  | .yAttr y => Dmp.setYAttr y
  | .startAt y => do let _ ← Dmp.integrateStart (some y); pure ()
  | .decouple => Dmp.decouple
  | .train traj fas => Dmp.train traj fas
  | .select names => Dmp.setSelected names
  | .params values => Dmp.setParamVector values

/-- Trajectories for training are trajectories with consistent sizes (as all trajectories, C40). -/
def Change.Valid : Change → Prop
  | .train traj _ => traj.Shape
  | _ => True

/-- Objects with `d` dimensions that can occur: constructor with arguments of fitting sizes, then any
sequence of changes and queries (also those that raise). `G` restricts the constructor, `A` the
changes. -/
inductive Reachable (G : ℝ → List ℝ → List ℝ → Options → Dmp → Prop) (A : Change → Prop) (d : Nat) :
    Dmp → Prop
  | init {tau : ℝ} {yInit yAttr : List ℝ} {fas : Option (List Fa)} {o : Options} {s : Dmp}
      (h : Dmp.init tau yInit yAttr fas o = .ok s) (hi : yInit.length = d) (ha : yAttr.length = d)
      (ho : o.Fits d) (hg : G tau yInit yAttr o s) : Reachable G A d s
  | change {s : Dmp} (h : Reachable G A d s) (c : Change) (hc : A c) : Reachable G A d (c.run s).2
  | query {s : Dmp} (h : Reachable G A d s) (c : Call) (hc : c.Sized d) : Reachable G A d (c.run s).2

/-- The goal system is the default one, or None, or not an ExponentialSystem, or an ExponentialSystem
with the attractor of the Dmp and a dmp_type whose goal is not scaled. -/
def DefaultLike (_ : ℝ) (_ yAttr : List ℝ) (o : Options) (s : Dmp) : Prop :=
  ∀ e, o.goal = some (some (.exponential e)) → e.xAttr = yAttr ∧ s.requiresScaling = false

/-- C25 for all objects. -/
def C25_statement : Prop :=
  ∀ (d : Nat) (s : Dmp), Reachable (fun _ _ _ _ _ => True) Change.Valid d s →
    ∀ cs : List Call, (∀ c ∈ cs, c.Sized d) → answers cs s = cs.map fun c => (c.run s).1

theorem Call.stable {d : Nat} {c : Call} (h : c.Sized d) : Stable d c.run := by
  cases c with
  | start => exact stable_integrateStart.bind fun _ => Stable.pure _
  | step m dt x => exact (stable_step m dt x).bind fun _ => Stable.pure _
  | rate x => exact (stable_diffEq h).bind fun _ => Stable.pure _
  | analytical ts b => exact (stable_analytical ts b).bind fun _ => Stable.pure _
  | integrate ts m => exact (stable_integrate ts m).bind fun _ => Stable.pure _

theorem Change.keeps {d : Nat} {c : Change} (h : c.Valid) : Keeps d c.run := by
  cases c with
  | tau t => exact keeps_setTau t
  | yInit y => exact keeps_setYInit y
  | yAttr y => exact keeps_setYAttr y
  | startAt y => exact (keeps_integrateStart (some y)).bind fun _ => Keeps.pure _
  | decouple => exact keeps_decouple
  | train traj fas => exact keeps_train h fas
  | select names => exact keeps_setSelected names
  | params values => exact keeps_setParamVector values

theorem Reachable.inv {d : Nat} {s : Dmp} (h : Reachable DefaultLike Change.Valid d s) : Inv d s := by
  induction h with
  | init h hi ha ho hg =>
    subst hi
    exact init_inv h ha ho hg
  | change h c hc ih => exact Change.keeps hc _ ih
  | query h c hc ih => exact (Call.stable hc).keeps _ ih

theorem answers_eq {d : Nat} (cs : List Call) : ∀ s s0 : Dmp, Good d s → Good d s0 → s.core = s0.core →
    (∀ c ∈ cs, c.Sized d) → answers cs s = cs.map fun c => (c.run s0).1 := by
  induction cs with
  | nil => intros; rfl
  | cons c cs ih =>
    intro s s0 hs hs0 hc hz
    have h1 := Call.stable (hz c List.mem_cons_self)
    obtain ⟨k1, k2, k3⟩ := h1 s s0 hs hs0 hc
    have := ih (c.run s).2 s0 k3 hs0 (k2.trans hc) fun c' hc' => hz c' (List.mem_cons_of_mem _ hc')
    simp only [answers, List.map_cons, k1, this]

/-- C25: in every sequence of queries, each query has the result (or exception) that it has on the
object as it was before the sequence. Missing for C25: goal systems of class ExponentialSystem that are
passed to the constructor and do not have the attractor of the Dmp (`C25_refuted`). -/
theorem C25_no_side_effect_partial (d : Nat) (s : Dmp) (h : Reachable DefaultLike Change.Valid d s)
    (cs : List Call) (hcs : ∀ c ∈ cs, c.Sized d) : answers cs s = cs.map fun c => (c.run s).1 :=
  answers_eq cs s s h.inv.good h.inv.good rfl hcs

/-- C25, the same for a query after any other queries. -/
theorem C25_later_partial (d : Nat) (s : Dmp) (h : Reachable DefaultLike Change.Valid d s)
    (cs : List Call) (hcs : ∀ c ∈ cs, c.Sized d) (c : Call) (hc : c.Sized d) :
    (c.run (cs.foldl (fun t q => (q.run t).2) s)).1 = (c.run s).1 := by
  have key : ∀ (cs : List Call) (t : Dmp), (∀ c ∈ cs, c.Sized d) → Good d t →
      (c.run (cs.foldl (fun t q => (q.run t).2) t)).1 = (c.run t).1 := by
    intro cs
    induction cs with
    | nil => intros; rfl
    | cons q cs ih =>
      intro t hz ht
      obtain ⟨-, k2, k3⟩ := Call.stable (hz q List.mem_cons_self) t t ht ht rfl
      rw [List.foldl_cons, ih _ (fun c' hc' => hz c' (List.mem_cons_of_mem _ hc')) k3]
      exact (Call.stable hc _ _ k3 ht k2).1
  exact key cs s hcs h.inv.good

/-- The default Dmp, trained or not, is covered; here one that is not trained. -/
example : ∃ s, init 1 [0, 1] [2, 3] none = .ok s ∧ Reachable DefaultLike Change.Valid 2 s := by
  obtain ⟨s, hs⟩ := (C16_types 1 [0, 1] [2, 3] none {}).1 (by simp [known])
  refine ⟨s, hs, .init hs rfl rfl ⟨(fun _ h => nomatch h), trivial, (fun _ h => nomatch h),
    (fun _ h => nomatch h), (fun _ h => nomatch h), (fun _ h => nomatch h), (fun _ h => nomatch h)⟩ ?_⟩
  intro e he
  cases he

/-! ### A goal system with another attractor -/

/-- Keyword arguments: a goal system from 0 to 1 that is scaled. -/
noncomputable def scaledGoal : Options :=
  { dmpType := "2022", goal := some (some (.exponential (.init 1 [0] [1] (.scalar 1)))) }

theorem scaledGoal_fits : scaledGoal.Fits 1 := by
  refine ⟨(fun _ h => nomatch h), trivial, (fun _ h => nomatch h), (fun _ h => nomatch h), ?_,
    (fun _ h => nomatch h), (fun _ h => nomatch h)⟩
  rintro t ⟨⟩
  exact ⟨exponential_fits 1 [0] [1] 1 rfl, rfl⟩

/-- The goal column of the analytical solution. -/
theorem analytical_goal {s : Dmp} (h : s.Wf) (hτ : s.SameStart) (hc : s.CanScale)
    (hf : s.CanForce) (hfa : s.fas = none) :
    ∃ sol, (analytical (some [0, 1]) false s).1 = .ok sol ∧
      pickAt (sol.xs.getD 1 []) (GOAL s.dimY) = s.goalAt 1 := by
  have hfu : ∃ fa, s.faUsed [0, 1] false = .ok fa := by
    unfold faUsed predictions
    rw [hfa]
    exact ⟨_, rfl⟩
  obtain ⟨fa, hfu⟩ := hfu
  refine ⟨_, (analytical_iff h hτ).mpr ⟨hc, hf, by simp, fa, hfu, rfl⟩, ?_⟩
  change pickAt (s.xRow [0, 1] (s.gated [0, 1] fa) 1) _ = _
  exact (xRow_sizes h [0, 1] (s.gated [0, 1] fa) 1).pick_GOAL

/-- C25 does not hold for all objects: differential_equation moves the attractor of the goal system. -/
theorem C25_refuted : ¬ C25_statement := by
  intro H
  obtain ⟨s, hs⟩ := (C16_types 1 [0] [3] none scaledGoal).1
    (.inr (.inl ⟨"", "", rfl⟩))
  have w := init_wf hs rfl scaledGoal_fits
  have hd : s.dimY = 1 := (C16_size 1 [0] [3] none scaledGoal s hs).1
  have r : Reachable (fun _ _ _ _ _ => True) Change.Valid 1 s := .init hs rfl rfl scaledGoal_fits trivial
  obtain ⟨dflt, hdf, hseq⟩ := init_eq hs
  have hn : scaledGoal.dmpType = "2022" := rfl
  rw [hn] at hdf
  unfold defaults at hdf
  simp only at hdf
  rw [if_neg (show ¬ ("2022" = "IJSPEERT_2002_MOVEMENT" ∨ "2022" = "Ijs02") by decide),
    if_neg (show ¬ ("2022" = "KULVICIUS_2012_JOINING" ∨ "2022" = "Kul12" ∨ "2022" = "COUNTDOWN_2013") by
      decide),
    if_pos (show (isIn "2022" "2022" || isIn "SCT23" "2022") = true by decide)] at hdf
  have r2 := r.change (.yInit [0]) trivial
  have w2 : (s.placed [0]).Wf := by
    refine ⟨w.dimX, w.yAttr, ?_, ?_, w.springDim, w.phase, w.phaseDim, w.gating, w.gatingDim, ?_, ?_,
      w.damping, w.dampingDim, w.amplitudes⟩
    · rintro _ ⟨⟩; exact hd.symm
    · refine ⟨w.spring.dim, ?_, w.spring.yAttr, w.spring.damping, w.spring.spring, w.spring.mass⟩
      change ([0] ++ vzeros s.dimY : List ℝ).length = s.spring.dimX
      rw [w.spring.dim, w.springDim, hd]
      rfl
    · have : (s.placed [0]).goal = s.goal := by
        rw [hseq]; cases hdf; rfl
      rw [this]; exact w.goal
    · have : (s.placed [0]).goal = s.goal := by
        rw [hseq]; cases hdf; rfl
      rw [this]; exact w.goalDim
  have e2 : (Change.run (.yInit [0]) s).2 = s.placed [0] := by
    change (setYInit [0] s).2 = _
    rw [setYInit_run w (y := [0]) hd.symm]
  rw [e2] at r2
  have hH := H 1 _ r2 [.rate (vzeros 6), .analytical (some [0, 1]) false]
    (by
      intro c hc
      rcases List.mem_cons.mp hc with rfl | hc
      · simp [Call.Sized]
      · rw [List.mem_singleton] at hc; subst hc; trivial)
  simp only [answers, List.map_cons, List.map_nil, List.cons.injEq, and_true, true_and] at hH
  -- the object after differential_equation
  have hdiff : ∃ ga, ga.length = 1 ∧ (Call.run (.rate (vzeros 6)) (s.placed [0])).2 = (s.placed [0]).touched ga (vzeros 1) := by
    have hz := zeros_sizes (s.placed [0]).dimY
    have hrun := diffEq_run w2 hz
    have e6 : (vzeros 6 : List ℝ) = vzeros (4 * (s.placed [0]).dimY + 2) := by
      change (vzeros 6 : List ℝ) = vzeros (4 * s.dimY + 2); rw [hd]
    rw [← zeros_pack, ← e6] at hrun
    have hg : ∃ ga, (s.placed [0]).springGoal (vzeros (s.placed [0]).dimY) = .ok ga := by
      unfold springGoal
      cases (s.placed [0]).goal with
      | none => exact ⟨_, rfl⟩
      | some _ => exact ⟨_, scaleGoal_ok (fun _ => Option.some_ne_none _) _⟩
    obtain ⟨ga, hg⟩ := hg
    rw [hg] at hrun
    refine ⟨ga, (springGoal_length w2 (by simp) hg).trans hd, ?_⟩
    change ((diffEq (vzeros 6) >>= fun r => pure (Answer.vector r)) (s.placed [0])).2 = _
    rw [PyM.bind_apply, hrun]
    have : (s.placed [0]).dimY = 1 := hd
    rw [this]
    cases (s.placed [0]).vf _ _ _ _ _ _ <;> rfl
  obtain ⟨ga, hgl, hdiff⟩ := hdiff
  rw [hdiff] at hH
  have hgo : s.goal = some (.exponential (.init 1 [0] [1] (.scalar 1))) := by rw [hseq]; rfl
  have hga : s.yAttr = [3] := by rw [hseq]
  have hr : s.requiresScaling = true := by rw [hseq]; cases hdf; rfl
  have w3 : ((s.placed [0]).touched ga (vzeros 1)).Wf := by
    have hd0 : s.damping = none := by rw [hseq]; cases hdf; rfl
    refine ⟨w2.dimX, w2.yAttr, w2.yInit, ?_, w2.springDim, Sub.wf_touch w2.phase, ?_,
      Sub.wf_touch w2.gating, ?_, ?_, ?_, ?_, ?_, w2.amplitudes⟩
    · obtain ⟨a, b, c, e, f, g⟩ := w2.spring
      refine ⟨a, b, hgl.trans (hd.symm.trans w2.springDim.symm), ?_, f, g⟩
      have : (s.placed [0]).dampingAt (vzeros 1) = (s.placed [0]).spring.damping := by
        unfold dampingAt
        change (match s.damping with | none => _ | some _ => _) = _
        rw [hd0]
      change ((s.placed [0]).dampingAt (vzeros 1)).Fits _
      rw [this]; exact e
    · exact (congrArg Base.dimX (Sub.base_touch _)).trans w2.phaseDim
    · exact (congrArg Base.dimX (Sub.base_touch _)).trans w2.gatingDim
    · intro g hg
      obtain ⟨g', h1, rfl⟩ := Option.map_eq_some_iff.mp hg
      exact Sub.wf_touch (Sub.wf_withAttr (w2.goal g' h1)
        (w2.yAttr.trans ((w2.goalDim g' h1).symm.trans (w2.goal g' h1).dim)))
    · intro g hg
      obtain ⟨g', h1, rfl⟩ := Option.map_eq_some_iff.mp hg
      rw [Sub.base_touch, Sub.base_withAttr]
      exact w2.goalDim g' h1
    · intro g hg
      change s.damping.map Sub.touch = some g at hg
      rw [hd0] at hg; cases hg
    · intro g hg
      change s.damping.map Sub.touch = some g at hg
      rw [hd0] at hg; cases hg
  obtain ⟨sol2, h2, g2⟩ := analytical_goal w2 (sameStart_of_tau (by rw [hseq]; rfl)) (fun _ h => nomatch h)
    (by rw [hseq]; trivial) (by rw [hseq]; rfl)
  obtain ⟨sol3, h3, g3⟩ := analytical_goal w3 (sameStart_of_tau (by rw [hseq]; rfl)) (fun _ h => nomatch h)
    (by rw [hseq]; trivial) (by rw [hseq]; rfl)
  have hsol : sol3 = sol2 := by
    have k : ∀ (t : Dmp) (sol : Solution), (analytical (some [0, 1]) false t).1 = .ok sol →
        ((Call.analytical (some [0, 1]) false).run t).1 = .ok (.solution sol) := by
      intro t sol ht
      change ((analytical (some [0, 1]) false >>= fun r => pure (Answer.solution r)) t).1 = _
      rw [PyM.bind_apply]
      rcases e : analytical (some [0, 1]) false t with ⟨r, t'⟩
      rw [e] at ht
      simp only at ht
      subst ht
      rfl
    rw [k _ _ h2, k _ _ h3] at hH
    cases hH
    rfl
  rw [hsol] at g3
  have hd2 : (s.placed [0]).dimY = 1 := hd
  have hd3 : ((s.placed [0]).touched ga (vzeros 1)).dimY = 1 := hd
  rw [hd2] at g2
  rw [hd3, g2] at g3
  have e2 : (s.placed [0]).goalAt 1 = [1 - Real.exp (-1)] := by
    have hp : (s.placed [0]).goal = some (.exponential (.init 1 [0] [1] (.scalar 1))) := by
      change (if s.requiresScaling then s.goal else _) = _
      rw [if_pos hr, hgo]
    unfold goalAt
    rw [hp]
    change [(0 - 1) * Real.exp (-1 * 1 / 1) + 1] = _
    congr 1
    rw [show (-1 * 1 / 1 : ℝ) = -1 by norm_num]
    ring
  have e3 : ((s.placed [0]).touched ga (vzeros 1)).goalAt 1 = [3 - 3 * Real.exp (-1)] := by
    have hp : ((s.placed [0]).touched ga (vzeros 1)).goal =
        some (.exponential (.init 1 [0] [3] (.scalar 1))) := by
      change (if s.requiresScaling then s.goal else _).map (fun g => (g.withAttr s.yAttr).touch) = _
      rw [if_pos hr, hgo, hga]
      rfl
    unfold goalAt
    rw [hp]
    change [(0 - 3) * Real.exp (-1 * 1 / 1) + 3] = _
    congr 1
    rw [show (-1 * 1 / 1 : ℝ) = -1 by norm_num]
    ring
  rw [e2, e3] at g3
  have : 1 - Real.exp (-1) = 3 - 3 * Real.exp (-1) := (List.cons.inj g3).1
  have h1 : Real.exp (-1 : ℝ) < 1 := by
    rw [Real.exp_lt_one_iff]; norm_num
  linarith

end Dmp

end Verif
