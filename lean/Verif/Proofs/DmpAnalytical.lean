import Verif.Proofs.DmpStart

/- Helper lemmas about a Dmp: analytical_solution as a function. -/

set_option autoImplicit false

namespace Verif

namespace Dmp

variable {d : Nat}

/-- Goal state at a time. -/
noncomputable def goalAt (s : Dmp) (t : ℝ) : List ℝ :=
  match s.goal with
  | none => s.yAttr
  | some g => g.xAt t

/-- Rate of change of the goal state at a time. -/
noncomputable def goalDotAt (s : Dmp) (t : ℝ) : List ℝ :=
  match s.goal with
  | none => vzeros s.dimY
  | some g => g.xdAt t

/-- Damping state at a time. -/
noncomputable def dampAt (s : Dmp) (t : ℝ) : List ℝ :=
  match s.damping with
  | none => full s.dimY s.spring.damping
  | some g => g.xAt t

/-- Rate of change of the damping state at a time. -/
noncomputable def dampDotAt (s : Dmp) (t : ℝ) : List ℝ :=
  match s.damping with
  | none => vzeros s.dimY
  | some g => g.xdAt t

/-- Row of the damping array before it is broadcast. -/
noncomputable def dampRow (s : Dmp) (t : ℝ) : List ℝ :=
  match s.damping with
  | none => (tile s.spring.damping 1).getD 0 []
  | some g => g.xAt t

/-- Row of the rates of the damping array before it is broadcast. -/
noncomputable def dampDotRow (s : Dmp) (t : ℝ) : List ℝ :=
  match s.damping with
  | none => vzeros ((tile s.spring.damping 1).getD 0 []).length
  | some g => g.xdAt t

theorem goalAt_length {s : Dmp} (h : s.Wf) (t : ℝ) : (s.goalAt t).length = s.dimY := by
  unfold goalAt
  cases e : s.goal with
  | none => exact h.yAttr
  | some g => exact (Sub.length_xAt (h.goal g e) t).trans (h.goalDim g e)

theorem goalDotAt_length {s : Dmp} (h : s.Wf) (t : ℝ) : (s.goalDotAt t).length = s.dimY := by
  unfold goalDotAt
  cases e : s.goal with
  | none => simp
  | some g => exact (Sub.length_xdAt (h.goal g e) t).trans (h.goalDim g e)

theorem dampAt_length {s : Dmp} (h : s.Wf) (t : ℝ) : (s.dampAt t).length = s.dimY := by
  unfold dampAt
  cases e : s.damping with
  | none => simp [full]
  | some g => exact (Sub.length_xAt (h.damping g e) t).trans (h.dampingDim g e)

theorem dampDotAt_length {s : Dmp} (h : s.Wf) (t : ℝ) : (s.dampDotAt t).length = s.dimY := by
  unfold dampDotAt
  cases e : s.damping with
  | none => simp
  | some g => exact (Sub.length_xdAt (h.damping g e) t).trans (h.dampingDim g e)

theorem broadcast_self {l : List ℝ} {d : Nat} (h : l.length = d) : broadcast d l = l := by
  match l, h with
  | [], _ => rfl
  | [c], h => simp at h; subst h; rfl
  | _ :: _ :: _, _ => rfl

theorem full_array {l : List ℝ} {d : Nat} (h : l.length = d) : full d (.array l) = l := by
  apply ext_getD 0
  · simp [full, h]
  · intro i hi
    rw [full, getD_range_map (by simpa [full] using hi)]
    rfl

theorem full_scalar (d : Nat) (c : ℝ) : full d (.scalar c) = List.replicate d c := by
  apply ext_getD 0
  · simp [full]
  · intro i hi
    have hi : i < d := by simpa [full] using hi
    rw [full, getD_range_map hi, getD_replicate' hi]
    rfl

theorem broadcast_dampRow {s : Dmp} (h : s.Wf) (t : ℝ) :
    broadcast s.dimY (s.dampRow t) = s.dampAt t := by
  unfold dampRow dampAt
  cases e : s.damping with
  | none =>
    simp only
    have hf := h.spring.damping
    cases e2 : s.spring.damping with
    | scalar c => rw [full_scalar]; rfl
    | array l =>
      rw [e2] at hf
      have hl : l.length = s.dimY := Eq.trans hf h.springDim
      rw [full_array hl]; exact broadcast_self hl
  | some g => exact broadcast_self ((Sub.length_xAt (h.damping g e) t).trans (h.dampingDim g e))

theorem broadcast_dampDotRow {s : Dmp} (h : s.Wf) (t : ℝ) :
    broadcast s.dimY (s.dampDotRow t) = s.dampDotAt t := by
  unfold dampDotRow dampDotAt
  cases e : s.damping with
  | none =>
    simp only
    have hf := h.spring.damping
    cases e2 : s.spring.damping with
    | scalar c => rfl
    | array l =>
      rw [e2] at hf
      have hl : l.length = s.dimY := Eq.trans hf h.springDim
      have : (tile (.array l : Par ℝ) 1).getD 0 [] = l := rfl
      rw [this, hl]; exact broadcast_self (by simp)
  | some g => exact broadcast_self ((Sub.length_xdAt (h.damping g e) t).trans (h.dampingDim g e))

/-- Row 0 of the damping array as a parameter of the spring-damper system. -/
theorem dampRow_at {s : Dmp} (h : s.Wf) (t : ℝ) {j : Nat} (hj : j < s.dimY) :
    (firstDamping (s.dampRow t)).at' j = (s.dampAt t).getD j 0 := by
  rw [← broadcast_dampRow h]
  match s.dampRow t with
  | [] => rfl
  | [c] => simp only [broadcast]; rw [getD_replicate' hj]; rfl
  | _ :: _ :: _ => rfl

/-- Row 0 of the damping array fits. -/
theorem dampRow_fits {s : Dmp} (h : s.Wf) (t : ℝ) : s.dampRow t = [] → s.dimY = 0 := by
  intro h0
  have := dampAt_length h t
  rw [← broadcast_dampRow h, h0] at this
  exact this.symm

/-- Outputs of the function approximators that are used. -/
noncomputable def faUsed (s : Dmp) (ts : List ℝ) (suppress : Bool) : Except PyErr (List (List ℝ)) := do
  let fa ← s.predictions (ts.map fun t => (s.phase.xAt t).getD 0 0)
  return if suppress then fa.map fun r => vzeros r.length else fa

/-- Forcing terms. -/
noncomputable def forcings (s : Dmp) (ts : List ℝ) (fa : List (List ℝ)) : Except PyErr (List (List ℝ)) :=
  s.scaleForcings (List.zipWith (fun f t => vscale ((s.gating.xAt t).getD 0 0) f) fa ts)

/-- Row before the spring-damper system is integrated. -/
noncomputable def row0 (s : Dmp) (ts : List ℝ) (F : List (List ℝ)) (i : Nat) : Row :=
  let t := ts.getD i 0
  let z : List ℝ := vzeros s.dimY
  { t := t
    x := pack z z (s.goalAt t) (s.phase.xAt t) (s.gating.xAt t) (s.dampAt t)
    xd := pack z z (s.goalDotAt t) (s.phase.xdAt t) (s.gating.xdAt t) (s.dampDotAt t)
    f := F.getD i [] }

/-- analytical_solution as a function. -/
noncomputable def solve (s : Dmp) (ts : List ℝ) (suppress : Bool) : Except PyErr Solution := do
  let fa ← s.faUsed ts suppress
  let F ← s.forcings ts fa
  let rows ← s.springRows (s.goalAt (ts.getD 0 0)) (s.dampRow (ts.getD 0 0))
    ((List.range ts.length).map (s.row0 ts F))
  return { xs := rows.map (·.1), xds := rows.map (·.2), forcing := F, fa := fa }

theorem analytical_none (s : Dmp) (suppress : Bool) :
    analytical none suppress s =
      match s.tsTrain with
      | none => (.error .valueError, s)
      | some ts => analytical (some ts) suppress s := by
  unfold analytical
  rw [PyM.self_bind]
  simp only
  cases s.tsTrain <;> rfl

/-- analytical_solution after the damping system. -/
noncomputable def solveEnd (s : Dmp) (ts : List ℝ) (xsPhase xdsPhase xsGating xdsGating fa forcing xsGoal
    xdsGoal xsDamping xdsDamping : List (List ℝ)) : PyM Dmp Solution := do
  let d := s.dimY
  let n := ts.length
  let assemble (goal phase gating damping : List ℝ) : List ℝ :=
    putAt (putAt (putAt (putAt (vzeros s.dimX) (GOAL d) goal) (PHASE d) phase) (GATING d) gating) (DAMPING d)
      (broadcast d damping)
  let row (i : Nat) : Row :=
    { t := ts.getD i 0
      x := assemble (xsGoal.getD i []) (xsPhase.getD i []) (xsGating.getD i []) (xsDamping.getD i [])
      xd := assemble (xdsGoal.getD i []) (xdsPhase.getD i []) (xdsGating.getD i []) (xdsDamping.getD i [])
      f := forcing.getD i [] }
  let rows ← PyM.lift (s.springRows (xsGoal.getD 0 []) (xsDamping.getD 0 []) ((List.range n).map row))
  pure { xs := rows.map (·.1), xds := rows.map (·.2), forcing := forcing, fa := fa }

theorem assemble_pack {s : Dmp} (h : s.Wf) {g p q c : List ℝ} (hg : g.length = s.dimY)
    (hp : p.length = 1) (hq : q.length = 1) (hc : c.length = s.dimY) :
    putAt (putAt (putAt (putAt (vzeros s.dimX) (GOAL s.dimY) g) (PHASE s.dimY) p) (GATING s.dimY) q)
      (DAMPING s.dimY) c = pack (vzeros s.dimY) (vzeros s.dimY) g p q c := by
  have h0 := zeros_sizes s.dimY
  rw [h.dimX, zeros_pack, h0.put_GOAL hg]
  have h1 : Sizes s.dimY (vzeros s.dimY) (vzeros s.dimY) g (vzeros 1) (vzeros 1) (vzeros s.dimY) :=
    ⟨h0.y, h0.z, hg, h0.p, h0.q, h0.c⟩
  rw [h1.put_PHASE hp]
  have h2 : Sizes s.dimY (vzeros s.dimY) (vzeros s.dimY) g p (vzeros 1) (vzeros s.dimY) :=
    ⟨h0.y, h0.z, hg, hp, h0.q, h0.c⟩
  rw [h2.put_GATING hq]
  have h3 : Sizes s.dimY (vzeros s.dimY) (vzeros s.dimY) g p q (vzeros s.dimY) :=
    ⟨h0.y, h0.z, hg, hp, hq, h0.c⟩
  rw [h3.put_DAMPING hc]

theorem phase_length {s : Dmp} (h : s.Wf) (t : ℝ) : (s.phase.xAt t).length = 1 :=
  (Sub.length_xAt h.phase t).trans h.phaseDim
theorem phaseDot_length {s : Dmp} (h : s.Wf) (t : ℝ) : (s.phase.xdAt t).length = 1 :=
  (Sub.length_xdAt h.phase t).trans h.phaseDim
theorem gating_length {s : Dmp} (h : s.Wf) (t : ℝ) : (s.gating.xAt t).length = 1 :=
  (Sub.length_xAt h.gating t).trans h.gatingDim
theorem gatingDot_length {s : Dmp} (h : s.Wf) (t : ℝ) : (s.gating.xdAt t).length = 1 :=
  (Sub.length_xdAt h.gating t).trans h.gatingDim

theorem solveEnd_run {s t : Dmp} (h : s.Wf) (ts : List ℝ) (fa F : List (List ℝ)) :
    solveEnd s ts (ts.map fun t => s.phase.xAt t) (ts.map fun t => s.phase.xdAt t)
      (ts.map fun t => s.gating.xAt t) (ts.map fun t => s.gating.xdAt t) fa F
      (ts.map s.goalAt) (ts.map s.goalDotAt) (ts.map s.dampRow) (ts.map s.dampDotRow) t =
    ((do
      let rows ← s.springRows (s.goalAt (ts.getD 0 0)) (s.dampRow (ts.getD 0 0))
        ((List.range ts.length).map (s.row0 ts F))
      return { xs := rows.map (·.1), xds := rows.map (·.2), forcing := F, fa := fa }), t) := by
  unfold solveEnd
  simp only
  have hrows : ((List.range ts.length).map fun i =>
      ({ t := ts.getD i 0
         x := putAt (putAt (putAt (putAt (vzeros s.dimX) (GOAL s.dimY)
           ((ts.map s.goalAt).getD i [])) (PHASE s.dimY) ((ts.map fun t => s.phase.xAt t).getD i []))
           (GATING s.dimY) ((ts.map fun t => s.gating.xAt t).getD i []))
           (DAMPING s.dimY) (broadcast s.dimY ((ts.map s.dampRow).getD i []))
         xd := putAt (putAt (putAt (putAt (vzeros s.dimX) (GOAL s.dimY)
           ((ts.map s.goalDotAt).getD i [])) (PHASE s.dimY) ((ts.map fun t => s.phase.xdAt t).getD i []))
           (GATING s.dimY) ((ts.map fun t => s.gating.xdAt t).getD i []))
           (DAMPING s.dimY) (broadcast s.dimY ((ts.map s.dampDotRow).getD i []))
         f := F.getD i [] } : Row)) = (List.range ts.length).map (s.row0 ts F) := by
    apply List.map_congr_left
    intro i hi
    have hi : i < ts.length := List.mem_range.mp hi
    simp only [getD_map' hi _ (0 : ℝ), broadcast_dampRow h, broadcast_dampDotRow h]
    rw [assemble_pack h (goalAt_length h _) (phase_length h _) (gating_length h _) (dampAt_length h _),
      assemble_pack h (goalDotAt_length h _) (phaseDot_length h _) (gatingDot_length h _)
        (dampDotAt_length h _)]
    rfl
  rw [hrows]
  cases ts with
  | nil => rfl
  | cons t0 rest =>
    simp only [List.map_cons, List.getD_cons_zero]
    cases s.springRows (s.goalAt t0) (s.dampRow t0)
      ((List.range (t0 :: rest).length).map (s.row0 (t0 :: rest) F)) <;> rfl

/-- analytical_solution from the damping system on. -/
noncomputable def solveRest (s : Dmp) (ts : List ℝ) (xsPhase xdsPhase xsGating xdsGating fa forcing xsGoal
    xdsGoal : List (List ℝ)) : PyM Dmp Solution :=
  match s.damping with
  | none => solveEnd s ts xsPhase xdsPhase xsGating xdsGating fa forcing xsGoal xdsGoal
      (tile s.spring.damping ts.length) ((tile s.spring.damping ts.length).map fun r => vzeros r.length)
  | some _ => do
    let r ← onDamping (Sub.analytical ts)
    solveEnd s ts xsPhase xdsPhase xsGating xdsGating fa forcing xsGoal xdsGoal r.1 r.2

theorem tile_eq (p : Par ℝ) (n : Nat) : tile p n = List.replicate n ((tile p 1).getD 0 []) := by
  cases p <;> rfl

theorem solveRest_run {s t : Dmp} (h : s.Wf) (ht : t.damping = s.damping) (ts : List ℝ)
    (fa F : List (List ℝ)) :
    solveRest s ts (ts.map fun t => s.phase.xAt t) (ts.map fun t => s.phase.xdAt t)
      (ts.map fun t => s.gating.xAt t) (ts.map fun t => s.gating.xdAt t) fa F
      (ts.map s.goalAt) (ts.map s.goalDotAt) t =
    ((do
      let rows ← s.springRows (s.goalAt (ts.getD 0 0)) (s.dampRow (ts.getD 0 0))
        ((List.range ts.length).map (s.row0 ts F))
      return { xs := rows.map (·.1), xds := rows.map (·.2), forcing := F, fa := fa }),
      { t with damping := s.damping.map Sub.touch }) := by
  unfold solveRest
  cases e : s.damping with
  | none =>
    have h1 : tile s.spring.damping ts.length = ts.map s.dampRow := by
      rw [tile_eq]
      refine (List.eq_replicate_iff.mpr ⟨by simp, ?_⟩).symm
      intro b hb
      obtain ⟨t, -, rfl⟩ := List.mem_map.mp hb
      simp [dampRow, e]
    have h2 : (tile s.spring.damping ts.length).map (fun r => (vzeros r.length : List ℝ)) =
        ts.map s.dampDotRow := by
      rw [h1, List.map_map]
      apply List.map_congr_left
      intro t _
      simp [dampRow, dampDotRow, e]
    simp only
    rw [h2, h1, solveEnd_run h]
    refine Prod.ext rfl ?_
    rw [e] at ht
    cases t
    simp only at ht
    subst ht
    rfl
  | some ds =>
    have h1 : (ts.map fun t => ds.xAt t) = ts.map s.dampRow := by
      apply List.map_congr_left; intro t _; simp [dampRow, e]
    have h2 : (ts.map fun t => ds.xdAt t) = ts.map s.dampDotRow := by
      apply List.map_congr_left; intro t _; simp [dampDotRow, e]
    simp only
    rw [PyM.bind_ok (onDamping_ok (ht.trans e) (Sub.analytical_run (h.damping ds e) ts))]
    simp only
    rw [h1, h2, solveEnd_run h]
    rfl

/-- analytical_solution from the goal system on. -/
noncomputable def solveGoal (s : Dmp) (ts : List ℝ) (xsPhase xdsPhase xsGating xdsGating fa forcing
    : List (List ℝ)) : PyM Dmp Solution :=
  match s.goal with
  | none => solveRest s ts xsPhase xdsPhase xsGating xdsGating fa forcing
      (List.replicate ts.length s.yAttr) (List.replicate ts.length (vzeros s.yAttr.length))
  | some _ => do
    let r ← onGoal (Sub.analytical ts)
    solveRest s ts xsPhase xdsPhase xsGating xdsGating fa forcing r.1 r.2

theorem solveGoal_run {s t : Dmp} (h : s.Wf) (ht : t.damping = s.damping) (hg : t.goal = s.goal)
    (ts : List ℝ) (fa F : List (List ℝ)) :
    solveGoal s ts (ts.map fun t => s.phase.xAt t) (ts.map fun t => s.phase.xdAt t)
      (ts.map fun t => s.gating.xAt t) (ts.map fun t => s.gating.xdAt t) fa F t =
    ((do
      let rows ← s.springRows (s.goalAt (ts.getD 0 0)) (s.dampRow (ts.getD 0 0))
        ((List.range ts.length).map (s.row0 ts F))
      return { xs := rows.map (·.1), xds := rows.map (·.2), forcing := F, fa := fa }),
      { t with goal := s.goal.map Sub.touch, damping := s.damping.map Sub.touch }) := by
  unfold solveGoal
  cases e : s.goal with
  | none =>
    have h1 : List.replicate ts.length s.yAttr = ts.map s.goalAt := by
      refine (List.eq_replicate_iff.mpr ⟨by simp, ?_⟩).symm
      intro b hb
      obtain ⟨t, -, rfl⟩ := List.mem_map.mp hb
      simp [goalAt, e]
    have h2 : List.replicate ts.length (vzeros s.yAttr.length : List ℝ) = ts.map s.goalDotAt := by
      refine (List.eq_replicate_iff.mpr ⟨by simp, ?_⟩).symm
      intro b hb
      obtain ⟨t, -, rfl⟩ := List.mem_map.mp hb
      simp [goalDotAt, e, h.yAttr]
    simp only
    rw [h1, h2, solveRest_run h ht]
    refine Prod.ext rfl ?_
    rw [e] at hg
    cases t
    simp only at hg
    subst hg
    rfl
  | some gs =>
    have h1 : (ts.map fun t => gs.xAt t) = ts.map s.goalAt := by
      apply List.map_congr_left; intro t _; simp [goalAt, e]
    have h2 : (ts.map fun t => gs.xdAt t) = ts.map s.goalDotAt := by
      apply List.map_congr_left; intro t _; simp [goalDotAt, e]
    simp only
    rw [PyM.bind_ok (onGoal_ok (hg.trans e) (Sub.analytical_run (h.goal gs e) ts))]
    simp only
    rw [h1, h2]
    refine (solveRest_run h ?_ ts fa F).trans ?_
    · exact ht
    · rfl

/-- The result of analytical_solution, and the object afterwards. -/
theorem analytical_run {s : Dmp} (h : s.Wf) (ts : List ℝ) (suppress : Bool) :
    analytical (some ts) suppress s = (s.solve ts suppress,
      match s.faUsed ts suppress >>= s.forcings ts with
      | .error _ => { s with phase := s.phase.touch, gating := s.gating.touch }
      | .ok _ => { s with
          phase := s.phase.touch
          gating := s.gating.touch
          goal := s.goal.map Sub.touch
          damping := s.damping.map Sub.touch }) := by
  change (do
    let r1 ← onPhase (Sub.analytical ts)
    let r2 ← onGating (Sub.analytical ts)
    let fa ← PyM.lift (s.predictions (r1.1.map fun r => r.getD 0 0))
    let fa := if suppress then fa.map fun r => vzeros r.length else fa
    let forcing ← PyM.lift (s.scaleForcings (List.zipWith (fun f g => vscale (g.getD 0 0) f) fa r2.1))
    (match s.goal with
    | none => (match s.damping with
      | none => solveEnd s ts r1.1 r1.2 r2.1 r2.2 fa forcing
          (List.replicate ts.length s.yAttr) (List.replicate ts.length (vzeros s.yAttr.length))
          (tile s.spring.damping ts.length) ((tile s.spring.damping ts.length).map fun r => vzeros r.length)
      | some _ => do
        let r ← onDamping (Sub.analytical ts)
        solveEnd s ts r1.1 r1.2 r2.1 r2.2 fa forcing (List.replicate ts.length s.yAttr)
          (List.replicate ts.length (vzeros s.yAttr.length)) r.1 r.2)
    | some _ => do
      let r ← onGoal (Sub.analytical ts)
      (match s.damping with
      | none => solveEnd s ts r1.1 r1.2 r2.1 r2.2 fa forcing r.1 r.2
          (tile s.spring.damping ts.length) ((tile s.spring.damping ts.length).map fun r => vzeros r.length)
      | some _ => do
        let r' ← onDamping (Sub.analytical ts)
        solveEnd s ts r1.1 r1.2 r2.1 r2.2 fa forcing r.1 r.2 r'.1 r'.2)) : PyM Dmp Solution) s = _
  change (do
    let r1 ← onPhase (Sub.analytical ts)
    let r2 ← onGating (Sub.analytical ts)
    let fa ← PyM.lift (s.predictions (r1.1.map fun r => r.getD 0 0))
    let fa := if suppress then fa.map fun r => vzeros r.length else fa
    let forcing ← PyM.lift (s.scaleForcings (List.zipWith (fun f g => vscale (g.getD 0 0) f) fa r2.1))
    solveGoal s ts r1.1 r1.2 r2.1 r2.2 fa forcing : PyM Dmp Solution) s = _
  rw [PyM.bind_ok (onPhase_ok (Sub.analytical_run h.phase ts))]
  have hq : Sub.analytical ts ({ s with phase := s.phase.touch } : Dmp).gating =
    (.ok (ts.map fun t => s.gating.xAt t, ts.map fun t => s.gating.xdAt t), s.gating.touch) :=
    Sub.analytical_run h.gating ts
  rw [PyM.bind_ok (onGating_ok hq)]
  simp only [List.map_map, List.zipWith_map_right]
  unfold solve
  change (PyM.lift (s.predictions (ts.map fun t => (s.phase.xAt t).getD 0 0)) >>= _).run _ = _
  cases e1 : s.predictions (ts.map fun t => (s.phase.xAt t).getD 0 0) with
  | error er =>
    have : s.faUsed ts suppress = .error er := by unfold faUsed; rw [e1]; rfl
    rw [this, PyM.lift_error_bind]
    rfl
  | ok fa =>
    have : s.faUsed ts suppress = .ok (if suppress then fa.map fun r => vzeros r.length else fa) := by
      unfold faUsed; rw [e1]; rfl
    rw [this, PyM.lift_ok_bind]
    generalize hfa : (if suppress then fa.map fun r => vzeros r.length else fa) = fa'
    have e3 : (Except.ok fa' >>= s.forcings ts) = s.forcings ts fa' := rfl
    rw [e3]
    change (PyM.lift (s.forcings ts fa') >>= _).run _ = _
    cases e2 : s.forcings ts fa' with
    | error er =>
      rw [PyM.lift_error_bind]
      refine Prod.ext ?_ rfl
      change _ = (s.forcings ts fa' >>= _)
      rw [e2]; rfl
    | ok F =>
      rw [PyM.lift_ok_bind]
      refine (solveGoal_run h ?_ ?_ ts fa' F).trans ?_
      · rfl
      · rfl
      · refine Prod.ext ?_ rfl
        change _ = (s.forcings ts fa' >>= _)
        rw [e2]; rfl

end Dmp

end Verif
