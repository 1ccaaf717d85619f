import Verif.Props.DmpTraining

/- Dmp: translation of start and goal (C21), scaling of the distance between start and goal (C22). -/

set_option autoImplicit false

namespace Verif

namespace Dmp

variable {d : Nat}

/-- The Dmp with start `y` and goal `g`. -/
noncomputable def moved (s : Dmp) (y g : List ℝ) : Dmp := (s.placed y).aimed g

/-- Goal systems for which the movement moves with start and goal: a scaled goal system; no goal system; or
an ExponentialSystem. -/
def FreeGoal (s : Dmp) : Prop :=
  (s.requiresScaling = true ∧ s.goal ≠ none) ∨
    (s.requiresScaling = false ∧ (s.goal = none ∨ ∃ e, s.goal = some (.exponential e)))

section

variable {s : Dmp} {y g y' g' : List ℝ} {a : Nat → ℝ}

theorem scaled_moved (w : s.Wf) (hf : s.FreeGoal) (hy : y.length = s.dimY) (hg : g.length = s.dimY)
    (hy' : y'.length = s.dimY) (hg' : g'.length = s.dimY)
    (ha : ∀ j, j < s.dimY → g'.getD j 0 - y'.getD j 0 = a j * (g.getD j 0 - y.getD j 0)) (t : ℝ) {j : Nat}
    (hj : j < s.dimY) :
    ((s.moved y' g').scaled ((s.moved y' g').goalAt t)).getD j 0 = y'.getD j 0 +
      a j * (((s.moved y g).scaled ((s.moved y g).goalAt t)).getD j 0 - y.getD j 0) := by
  rcases hf with ⟨hr, hn⟩ | ⟨hr, hn⟩
  · obtain ⟨gs, hgs⟩ := Option.ne_none_iff_exists'.mp hn
    have e : ∀ u v : List ℝ, (s.moved u v).goal = some gs := by
      intro u v
      change (if s.requiresScaling then (if s.requiresScaling then s.goal else _) else _) = some gs
      rw [if_pos hr, if_pos hr, hgs]
    have e2 : ∀ u v : List ℝ, u.length = s.dimY → v.length = s.dimY →
        ((s.moved u v).scaled ((s.moved u v).goalAt t)).getD j 0 =
          u.getD j 0 + (v.getD j 0 - u.getD j 0) * (gs.xAt t).getD j 0 := by
      intro u v hu hv
      unfold scaled goalAt
      rw [e u v]
      have hr' : (s.moved u v).requiresScaling = true := hr
      rw [if_pos hr']
      change (vadd u (vmul (vsub v u) (gs.xAt t))).getD j 0 = _
      have hx : (gs.xAt t).length = s.dimY := by
        rw [Sub.length_xAt (w.goal gs hgs), w.goalDim gs hgs]
      have l1 : j < (vsub v u).length := by simp [hu, hv, hj]
      have l2 : j < (vmul (vsub v u) (gs.xAt t)).length := by simp [hu, hv, hx, hj]
      rw [getD_vadd (by omega) l2, getD_vmul l1 (by omega), getD_vsub (by omega) (by omega)]
    rw [e2 _ _ hy' hg', e2 _ _ hy hg, ha j hj]
    ring
  · have hr' : ∀ u v, (s.moved u v).requiresScaling = false := fun _ _ => hr
    have e1 : ∀ u v (x : List ℝ), (s.moved u v).scaled x = x := by
      intro u v x
      unfold scaled
      rw [hr' u v]
      rfl
    rw [e1, e1]
    rcases hn with hn | ⟨e, he⟩
    · have e2 : ∀ u v : List ℝ, (s.moved u v).goalAt t = v := by
        intro u v
        have : (s.moved u v).goal = none := by
          change (if s.requiresScaling then (if s.requiresScaling then s.goal else _) else
            Option.map _ (if s.requiresScaling then s.goal else s.goal.map _)) = none
          rw [hr, hn]; rfl
        unfold goalAt
        rw [this]
        rfl
      rw [e2, e2]
      linarith [ha j hj]
    · have e2 : ∀ u v : List ℝ, ((s.moved u v).goalAt t).getD j 0 =
          (u.getD j 0 - v.getD j 0) * Real.exp (-(e.alpha.at' j) * t / e.tau) + v.getD j 0 := by
        intro u v
        have : (s.moved u v).goal = some (.exponential { e with xInit := u, xAttr := v }) := by
          change (if s.requiresScaling then (if s.requiresScaling then s.goal else _) else
            Option.map _ (if s.requiresScaling then s.goal else s.goal.map _)) = _
          rw [hr, he]; rfl
        unfold goalAt
        rw [this]
        change (({ e with xInit := u, xAttr := v } : Exponential).xAt t).getD j 0 = _
        have hd : e.dimY = s.dimY := by
          have := w.goalDim _ he
          have h2 := Exponential.Wf.dim (w.goal _ he)
          exact h2.symm.trans this
        unfold Exponential.xAt
        rw [getD_range_map (by change j < e.dimY; omega)]
        rfl
      rw [e2, e2]
      have := ha j hj
      linear_combination (1 - Real.exp (-(e.alpha.at' j) * t / e.tau)) * this

theorem mot_moved (w : s.Wf) (hf : s.FreeGoal) (hy : y.length = s.dimY) (hg : g.length = s.dimY)
    (hy' : y'.length = s.dimY) (hg' : g'.length = s.dimY)
    (ha : ∀ j, j < s.dimY → g'.getD j 0 - y'.getD j 0 = a j * (g.getD j 0 - y.getD j 0)) (ts : List ℝ)
    {F F' : List (List ℝ)} {j : Nat} (hj : j < s.dimY)
    (hF : ∀ k, (F'.getD k []).getD j 0 = a j * (F.getD k []).getD j 0) (k : Nat) :
    (s.moved y' g').mot ts F' j k = (y'.getD j 0 + a j * (((s.moved y g).mot ts F j k).1 - y.getD j 0),
      a j * ((s.moved y g).mot ts F j k).2) := by
  induction k with
  | zero =>
    have e : ∀ u v : List ℝ, u.length = s.dimY → (s.moved u v).mot ts F' j 0 = (u.getD j 0, 0) := by
      intro u v hu
      change ((u ++ vzeros s.dimY).getD j 0, (u ++ vzeros s.dimY).getD (s.dimY + j) 0) = _
      rw [getD_append_left' (by omega), ← hu, getD_append_right', getD_vzeros]
    have e' : (s.moved y g).mot ts F j 0 = (y.getD j 0, 0) := by
      change ((y ++ vzeros s.dimY).getD j 0, (y ++ vzeros s.dimY).getD (s.dimY + j) 0) = _
      rw [getD_append_left' (by omega), ← hy, getD_append_right', getD_vzeros]
    rw [e _ _ hy', e']
    simp
  | succ k ih =>
    unfold mot
    simp only
    rw [ih, scaled_moved w hf hy hg hy' hg' ha _ hj, hF]
    have ed : (s.moved y' g').dampAt = (s.moved y g).dampAt := rfl
    have et : (s.moved y' g').tau = (s.moved y g).tau := rfl
    rw [ed, et]
    unfold acc
    have es : (s.moved y' g').spring.spring = (s.moved y g).spring.spring := rfl
    have em : (s.moved y' g').spring.mass = (s.moved y g).spring.mass := rfl
    have eτ : (s.moved y' g').spring.tau = (s.moved y g).spring.tau := rfl
    rw [es, em, eτ, et]
    refine Prod.ext ?_ ?_
    · simp only; ring
    · simp only; ring

theorem motAcc_moved (w : s.Wf) (hf : s.FreeGoal) (hy : y.length = s.dimY) (hg : g.length = s.dimY)
    (hy' : y'.length = s.dimY) (hg' : g'.length = s.dimY)
    (ha : ∀ j, j < s.dimY → g'.getD j 0 - y'.getD j 0 = a j * (g.getD j 0 - y.getD j 0)) (ts : List ℝ)
    {F F' : List (List ℝ)} {j : Nat} (hj : j < s.dimY)
    (hF : ∀ k, (F'.getD k []).getD j 0 = a j * (F.getD k []).getD j 0) (k : Nat) :
    (s.moved y' g').motAcc ts F' j k = a j * (s.moved y g).motAcc ts F j k := by
  unfold motAcc
  simp only
  rw [mot_moved w hf hy hg hy' hg' ha ts hj hF, scaled_moved w hf hy hg hy' hg' ha _ hj, hF]
  have ed : (s.moved y' g').dampAt = (s.moved y g).dampAt := rfl
  have et : (s.moved y' g').tau = (s.moved y g).tau := rfl
  rw [ed]
  unfold acc
  have es : (s.moved y' g').spring.spring = (s.moved y g).spring.spring := rfl
  have em : (s.moved y' g').spring.mass = (s.moved y g).spring.mass := rfl
  have eτ : (s.moved y' g').spring.tau = (s.moved y g).spring.tau := rfl
  rw [es, em, eτ, et]
  simp only
  ring

theorem forcingFactor_moved (hs : s.scaling = .gMinusY0 ∨ ∀ j, j < s.dimY → a j = 1)
    (ha : ∀ j, j < s.dimY → g'.getD j 0 - y'.getD j 0 = a j * (g.getD j 0 - y.getD j 0)) {j : Nat}
    (hj : j < s.dimY) :
    (s.moved y' g').forcingFactor j = a j * (s.moved y g).forcingFactor j := by
  unfold forcingFactor
  have e : ∀ u v, (s.moved u v).scaling = s.scaling := fun _ _ => rfl
  rw [e, e]
  rcases hs with hs | hs
  · rw [hs]
    exact ha j hj
  · have h1 := ha j hj
    rw [hs j hj, one_mul] at h1 ⊢
    cases s.scaling with
    | noScaling => rfl
    | gMinusY0 => exact h1
    | amplitude => rfl

theorem gated_moved (hs : s.scaling = .gMinusY0 ∨ ∀ j, j < s.dimY → a j = 1)
    (ha : ∀ j, j < s.dimY → g'.getD j 0 - y'.getD j 0 = a j * (g.getD j 0 - y.getD j 0)) (ts : List ℝ)
    (fa : List (List ℝ)) : (s.moved y' g').gated ts fa = ((s.moved y g).gated ts fa).map fun f =>
      (List.range s.dimY).map fun j => a j * f.getD j 0 := by
  unfold gated
  rw [List.map_map]
  refine List.map_congr_left fun f _ => ?_
  unfold forced
  change (List.range s.dimY).map _ = _
  simp only [Function.comp]
  refine List.map_congr_left fun j hj => ?_
  have hj := List.mem_range.mp hj
  have hj' : j < (s.moved y g).dimY := hj
  rw [getD_range_map hj', forcingFactor_moved hs ha hj, mul_assoc]

theorem gated_moved_getD (hs : s.scaling = .gMinusY0 ∨ ∀ j, j < s.dimY → a j = 1)
    (ha : ∀ j, j < s.dimY → g'.getD j 0 - y'.getD j 0 = a j * (g.getD j 0 - y.getD j 0)) (ts : List ℝ)
    (fa : List (List ℝ)) (k : Nat) {j : Nat} (hj : j < s.dimY) :
    (((s.moved y' g').gated ts fa).getD k []).getD j 0 =
      a j * (((s.moved y g).gated ts fa).getD k []).getD j 0 := by
  rw [gated_moved hs ha]
  by_cases hk : k < ((s.moved y g).gated ts fa).length
  · rw [getD_map' hk [] [], getD_range_map hj]
  · have h1 : ((s.moved y g).gated ts fa).getD k [] = [] := List.getD_eq_default _ _ (not_lt.mp hk)
    rw [List.getD_eq_default (l := List.map _ _) _ (by rw [List.length_map]; exact not_lt.mp hk), h1]
    simp

/-- Solutions for two pairs of start and goal. -/
theorem solution_moved (hT : Timed d s) (hf : s.FreeGoal) (hy : y.length = s.dimY) (hg : g.length = s.dimY)
    (hy' : y'.length = s.dimY) (hg' : g'.length = s.dimY)
    (hs : s.scaling = .gMinusY0 ∨ ∀ j, j < s.dimY → a j = 1)
    (ha : ∀ j, j < s.dimY → g'.getD j 0 - y'.getD j 0 = a j * (g.getD j 0 - y.getD j 0)) {ts : List ℝ}
    {b : Bool} {sol : Solution} (h : (analytical (some ts) b (s.moved y g)).1 = .ok sol) :
    ∃ sol', (analytical (some ts) b (s.moved y' g')).1 = .ok sol' ∧ sol'.fa = sol.fa ∧
      sol'.forcing = (sol.forcing.map fun f => (List.range s.dimY).map fun j => a j * f.getD j 0) ∧
      sol'.xs.length = ts.length ∧ sol'.xds.length = ts.length ∧
      sol.xs.length = ts.length ∧ sol.xds.length = ts.length ∧
      ∀ k, k < ts.length →
        pickAt (sol'.xs.getD k []) (PHASE s.dimY) = pickAt (sol.xs.getD k []) (PHASE s.dimY) ∧
        pickAt (sol'.xs.getD k []) (GATING s.dimY) = pickAt (sol.xs.getD k []) (GATING s.dimY) ∧
        pickAt (sol'.xs.getD k []) (SPRING_Y s.dimY) = ((List.range s.dimY).map fun j => y'.getD j 0 +
          a j * ((pickAt (sol.xs.getD k []) (SPRING_Y s.dimY)).getD j 0 - y.getD j 0)) ∧
        pickAt (sol'.xds.getD k []) (SPRING_Y s.dimY) = ((List.range s.dimY).map fun j =>
          a j * (pickAt (sol.xds.getD k []) (SPRING_Y s.dimY)).getD j 0) ∧
        pickAt (sol'.xds.getD k []) (SPRING_Z s.dimY) = ((List.range s.dimY).map fun j =>
          a j * (pickAt (sol.xds.getD k []) (SPRING_Z s.dimY)).getD j 0) := by
  have hT1 : Timed d (s.moved y g) :=
    kept_timed.aim _ _ (kept_timed.place _ _ hT hy) hg
  have hT2 : Timed d (s.moved y' g') :=
    kept_timed.aim _ _ (kept_timed.place _ _ hT hy') hg'
  have w := hT.inv.wf
  have w1 := hT1.inv.wf
  have w2 := hT2.inv.wf
  obtain ⟨h1, h2, h3, fa, h4, rfl⟩ := (analytical_iff w1 (sameStart_of_tau hT1.springTau)).mp h
  have h2' : (s.moved y' g').CanForce := by
    unfold CanForce at h2 ⊢
    have e : ∀ u v, (s.moved u v).scaling = s.scaling := fun _ _ => rfl
    rw [e] at h2 ⊢
    revert h2
    cases s.scaling with
    | noScaling => exact id
    | gMinusY0 => exact fun _ h => nomatch h
    | amplitude => exact id
  refine ⟨_, (analytical_iff w2 (sameStart_of_tau hT2.springTau)).mpr
    ⟨(fun _ h => nomatch h), h2', h3, fa, h4, rfl⟩, rfl, gated_moved hs ha ts fa, by simp, by simp, by simp,
    by simp, fun k hk => ?_⟩
  simp only
  rw [getD_range_map hk, getD_range_map hk, getD_range_map hk, getD_range_map hk]
  have d1 : (s.moved y g).dimY = s.dimY := rfl
  have d2 : (s.moved y' g').dimY = s.dimY := rfl
  have hF := fun j (hj : j < s.dimY) k => gated_moved_getD hs ha ts fa k hj
  refine ⟨?_, ?_, ?_, ?_, ?_⟩
  · have p1 := (xRow_sizes w1 ts ((s.moved y g).gated ts fa) k).pick_PHASE
    have p2 := (xRow_sizes w2 ts ((s.moved y' g').gated ts fa) k).pick_PHASE
    exact p2.trans p1.symm
  · have p1 := (xRow_sizes w1 ts ((s.moved y g).gated ts fa) k).pick_GATING
    have p2 := (xRow_sizes w2 ts ((s.moved y' g').gated ts fa) k).pick_GATING
    exact p2.trans p1.symm
  · have p1 := pick_xRow_Y w1 ts ((s.moved y g).gated ts fa) k
    have p2 := pick_xRow_Y w2 ts ((s.moved y' g').gated ts fa) k
    rw [d1] at p1
    rw [d2] at p2
    rw [p1, p2]
    refine List.map_congr_left fun j hj => ?_
    have hj := List.mem_range.mp hj
    rw [getD_range_map hj, mot_moved w hf hy hg hy' hg' ha ts hj (hF j hj)]
  · have p1 := pick_xdRow_Y w1 ts ((s.moved y g).gated ts fa) k
    have p2 := pick_xdRow_Y w2 ts ((s.moved y' g').gated ts fa) k
    rw [d1] at p1
    rw [d2] at p2
    rw [p1, p2]
    refine List.map_congr_left fun j hj => ?_
    have hj := List.mem_range.mp hj
    rw [getD_range_map hj, mot_moved w hf hy hg hy' hg' ha ts hj (hF j hj), mul_div_assoc]
    rfl
  · have p1 := pick_xdRow_Z w1 ts ((s.moved y g).gated ts fa) k
    have p2 := pick_xdRow_Z w2 ts ((s.moved y' g').gated ts fa) k
    rw [d1] at p1
    rw [d2] at p2
    rw [p1, p2]
    refine List.map_congr_left fun j hj => ?_
    have hj := List.mem_range.mp hj
    rw [getD_range_map hj, motAcc_moved w hf hy hg hy' hg' ha ts hj (hF j hj)]

end

/-- The object after `dmp.y_init = y` and `dmp.y_attr = g`. -/
noncomputable def withStartGoal (s : Dmp) (y g : List ℝ) : Dmp :=
  ((Change.yAttr g).run ((Change.yInit y).run s).2).2

theorem withStartGoal_eq {s : Dmp} (hT : Timed d s) {y g : List ℝ} (hy : y.length = s.dimY)
    (hg : g.length = s.dimY) : s.withStartGoal y g = s.moved y g := by
  unfold withStartGoal
  have e : ((Change.yInit y).run s).2 = s.placed y := by
    change (setYInit y s).2 = _
    rw [setYInit_run hT.inv.wf hy]
  rw [e]
  change (setYAttr g (s.placed y)).2 = _
  rw [setYAttr_run (kept_timed.place _ _ hT hy).inv.wf (y := g) hg]
  rfl

/-- What C21 says of an object. -/
def Translates (d : Nat) (s : Dmp) : Prop :=
  ∀ y g v : List ℝ, y.length = d → g.length = d → v.length = d →
    ∀ (ts : List ℝ) (b : Bool) (sol : Solution) (r : Trajectory ℝ),
      (analytical (some ts) b (s.withStartGoal y g)).1 = .ok sol →
      (s.withStartGoal y g).asTrajectory ts sol.xs sol.xds = .ok r →
      ∃ sol' r', (analytical (some ts) b (s.withStartGoal (vadd y v) (vadd g v))).1 = .ok sol' ∧
        (s.withStartGoal (vadd y v) (vadd g v)).asTrajectory ts sol'.xs sol'.xds = .ok r' ∧
        r'.ts = r.ts ∧ r'.ys.rows = r.ys.rows.map (fun row => vadd row v) ∧ r'.yds.rows = r.yds.rows ∧
        r'.ydds.rows = r.ydds.rows ∧ sol'.forcing = sol.forcing ∧ sol'.fa = sol.fa ∧
        ∀ k, k < ts.length →
          pickAt (sol'.xs.getD k []) (PHASE d) = pickAt (sol.xs.getD k []) (PHASE d) ∧
          pickAt (sol'.xs.getD k []) (GATING d) = pickAt (sol.xs.getD k []) (GATING d)

/-- C21 for all objects with exponential, absent or scaled goal system. -/
def C21_statement : Prop :=
  ∀ (d : Nat) (s : Dmp), Reachable Consistent Change.Forward d s →
    (s.requiresScaling = true ∨ s.goal = none ∨ ∃ e, s.goal = some (.exponential e)) → Translates d s

theorem length_pickAt (x : List ℝ) (l : List Nat) : (pickAt x l).length = l.length := by
  unfold pickAt
  simp

/-- C21 except for the case that the goal is to be scaled and there is no goal system
(`C21_refuted`). -/
theorem C21_translates_partial (d : Nat) (s : Dmp) (h : Reachable Consistent Change.Forward d s)
    (hf : s.FreeGoal) : Translates d s := by
  have hT := kept_timed.reachable init_timed h
  obtain rfl : s.dimY = d := hT.inv.dim
  intro y g v hy hg hv ts b sol r h1 h2
  have hy' : (vadd y v).length = s.dimY := by simp [hy, hv]
  have hg' : (vadd g v).length = s.dimY := by simp [hg, hv]
  rw [withStartGoal_eq hT hy hg] at h1 h2
  rw [withStartGoal_eq hT hy' hg']
  have ev : ∀ u : List ℝ, u.length = s.dimY → ∀ j, j < s.dimY →
      (vadd u v).getD j 0 = u.getD j 0 + v.getD j 0 := fun u hu j hj =>
    getD_vadd (by omega) (by omega)
  obtain ⟨sol', a1, a2, a3, l1, l2, l3, l4, a4⟩ := solution_moved (a := fun _ => 1) hT hf hy hg hy' hg'
    (Or.inr fun _ _ => rfl) (fun j hj => by rw [ev y hy j hj, ev g hg j hj]; ring) h1
  rw [asTrajectory_ok _ l3 l4] at h2
  cases h2
  have one : ∀ l : List ℝ, l.length = s.dimY → ((List.range s.dimY).map fun j => 1 * l.getD j 0) = l := by
    intro l hl
    simp only [one_mul]
    exact range_getD hl
  have dY : ∀ u w, (s.moved u w).dimY = s.dimY := fun _ _ => rfl
  refine ⟨sol', _, a1, asTrajectory_ok _ l1 l2, rfl, ?_, ?_, ?_, ?_, a2, fun k hk => ⟨(a4 k hk).1, (a4 k hk).2.1⟩⟩
  · simp only [dY, List.map_map]
    apply ext_getD []
    · simp [l1, l3]
    intro k hk
    have hk : k < ts.length := by simpa [l1] using hk
    rw [getD_map' (by omega) [] [], getD_map' (by omega) [] [], (a4 k hk).2.2.1]
    simp only [Function.comp]
    have lp : (pickAt (sol.xs.getD k []) (SPRING_Y s.dimY)).length = s.dimY := by
      rw [length_pickAt]; simp [SPRING_Y]
    apply ext_getD 0
    · rw [length_vadd, lp, hv, min_self]; simp
    intro j hj
    have hj : j < s.dimY := by simpa using hj
    rw [getD_range_map hj, ev y hy j hj, ev _ lp j hj]
    ring
  · simp only [dY]
    apply ext_getD []
    · simp [l2, l4]
    intro k hk
    have hk : k < ts.length := by simpa [l2] using hk
    rw [getD_map' (by omega) [] [], getD_map' (by omega) [] [], (a4 k hk).2.2.2.1]
    exact one _ (by rw [length_pickAt]; simp [SPRING_Y])
  · simp only [dY]
    apply ext_getD []
    · simp [l2, l4]
    intro k hk
    have hk : k < ts.length := by simpa [l2] using hk
    rw [getD_map' (by omega) [] [], getD_map' (by omega) [] [], (a4 k hk).2.2.2.2,
      one _ (by rw [length_pickAt]; simp [SPRING_Z])]
    rfl
  · rw [a3]
    have w1 := (kept_timed.aim _ g (kept_timed.place _ y hT hy) hg)
    obtain ⟨-, -, -, fa, -, rfl⟩ := (analytical_iff w1.inv.wf (sameStart_of_tau w1.springTau)).mp h1
    refine (List.map_congr_left fun f hf => ?_).trans (List.map_id _)
    refine one f ?_
    obtain ⟨f0, -, rfl⟩ := List.mem_map.mp hf
    simp [forced, dY]
    rfl

/-- What C22 says of an object. -/
def Stretches (d : Nat) (s : Dmp) : Prop :=
  ∀ y g a : List ℝ, y.length = d → g.length = d → a.length = d →
    ∀ (ts : List ℝ) (b : Bool) (sol : Solution) (r : Trajectory ℝ),
      (analytical (some ts) b (s.withStartGoal y g)).1 = .ok sol →
      (s.withStartGoal y g).asTrajectory ts sol.xs sol.xds = .ok r →
      ∃ sol' r', (analytical (some ts) b (s.withStartGoal y (vadd y (vmul a (vsub g y))))).1 = .ok sol' ∧
        (s.withStartGoal y (vadd y (vmul a (vsub g y)))).asTrajectory ts sol'.xs sol'.xds = .ok r' ∧
        r'.ts = r.ts ∧
        (r'.ys.rows.map fun row => vsub row y) = (r.ys.rows.map fun row => vmul a (vsub row y)) ∧
        r'.yds.rows = r.yds.rows.map (fun row => vmul a row) ∧
        r'.ydds.rows = r.ydds.rows.map (fun row => vmul a row)

/-- C22 for all objects with forcing-term scaling G_MINUS_Y0_SCALING and exponential, absent or scaled
goal system. -/
def C22_statement : Prop :=
  ∀ (d : Nat) (s : Dmp), Reachable Consistent Change.Forward d s → s.scaling = .gMinusY0 →
    (s.requiresScaling = true ∨ s.goal = none ∨ ∃ e, s.goal = some (.exponential e)) → Stretches d s

/-- C22 except for the case that the goal is to be scaled and there is no goal system
(`C22_refuted`). -/
theorem C22_stretches_partial (d : Nat) (s : Dmp) (h : Reachable Consistent Change.Forward d s)
    (hs : s.scaling = .gMinusY0) (hf : s.FreeGoal) : Stretches d s := by
  have hT := kept_timed.reachable init_timed h
  obtain rfl : s.dimY = d := hT.inv.dim
  intro y g a hy hg hla ts b sol r h1 h2
  have lb : (vsub g y).length = s.dimY := by simp [hg, hy]
  have lc : (vmul a (vsub g y)).length = s.dimY := by rw [length_vmul, lb, hla, min_self]
  have hg' : (vadd y (vmul a (vsub g y))).length = s.dimY := by rw [length_vadd, lc, hy, min_self]
  rw [withStartGoal_eq hT hy hg] at h1 h2
  rw [withStartGoal_eq hT hy hg']
  obtain ⟨sol', a1, a2, a3, l1, l2, l3, l4, a4⟩ := solution_moved (a := fun j => a.getD j 0) hT hf hy hg hy hg'
    (Or.inl hs) (fun j hj => by
      rw [getD_vadd (by omega) (by omega), getD_vmul (by omega) (by omega), getD_vsub (by omega) (by omega)]
      ring) h1
  rw [asTrajectory_ok _ l3 l4] at h2
  cases h2
  have em : ∀ u : List ℝ, u.length = s.dimY →
      ((List.range s.dimY).map fun j => a.getD j 0 * u.getD j 0) = vmul a u := by
    intro u hu
    apply ext_getD 0
    · simp [hu, hla]
    intro j hj
    have hj : j < s.dimY := by simpa using hj
    rw [getD_range_map hj, getD_vmul (by omega) (by omega)]
  have dY : ∀ u w, (s.moved u w).dimY = s.dimY := fun _ _ => rfl
  refine ⟨sol', _, a1, asTrajectory_ok _ l1 l2, rfl, ?_, ?_, ?_⟩
  · simp only [dY, List.map_map]
    apply ext_getD []
    · simp [l1, l3]
    intro k hk
    have hk : k < ts.length := by simpa [l1] using hk
    rw [getD_map' (by omega) [] [], getD_map' (by omega) [] []]
    simp only [Function.comp]
    rw [(a4 k hk).2.2.1]
    have lp : (pickAt (sol.xs.getD k []) (SPRING_Y s.dimY)).length = s.dimY := by
      rw [length_pickAt]; simp [SPRING_Y]
    have lq : (vsub (pickAt (sol.xs.getD k []) (SPRING_Y s.dimY)) y).length = s.dimY := by
      rw [length_vsub, lp, hy, min_self]
    apply ext_getD 0
    · rw [length_vsub, length_vmul, lq]; simp [hy, hla]
    intro j hj
    have hj : j < s.dimY := by rw [length_vsub] at hj; simpa [hy] using hj
    rw [getD_vsub (by simpa using hj) (by omega), getD_range_map hj, getD_vmul (by omega) (by omega),
      getD_vsub (by omega) (by omega)]
    ring
  · simp only [dY, List.map_map]
    apply ext_getD []
    · simp [l2, l4]
    intro k hk
    have hk : k < ts.length := by simpa [l2] using hk
    rw [getD_map' (by omega) [] [], getD_map' (by omega) [] [], (a4 k hk).2.2.2.1]
    exact em _ (by rw [length_pickAt]; simp [SPRING_Y])
  · simp only [dY, List.map_map]
    apply ext_getD []
    · simp [l2, l4]
    intro k hk
    have hk : k < ts.length := by simpa [l2] using hk
    rw [getD_map' (by omega) [] [], getD_map' (by omega) [] [], (a4 k hk).2.2.2.2]
    have lp : (pickAt (sol.xds.getD k []) (SPRING_Z s.dimY)).length = s.dimY := by
      rw [length_pickAt]; simp [SPRING_Z]
    rw [em _ lp]
    simp only [Function.comp]
    have lq := lp
    apply ext_getD 0
    · rw [length_vdivs, length_vmul, length_vmul, length_vdivs]
    intro j hj
    have hj : j < s.dimY := by rw [length_vdivs, length_vmul, lp, hla, min_self] at hj; exact hj
    rw [getD_vdivs, getD_vmul (by omega) (by omega), getD_vmul (by omega) (by rw [length_vdivs]; omega), getD_vdivs]
    exact mul_div_assoc _ _ _

/-- Default objects of types with exponential, absent and scaled goal system are covered; so is any
scaling of the forcing term. -/
example (sc : ForcingScaling) : ∀ n ∈ ["KULVICIUS_2012_JOINING", "Ijs02", "2022"], ∃ s,
    init 1 [0] [1] none { dmpType := n, scaling := sc } = .ok s ∧
    Reachable Consistent Change.Forward 1 s ∧ s.FreeGoal ∧ s.scaling = sc := by
  intro n hn
  have hk : known n := by
    simp only [List.mem_cons, List.not_mem_nil, or_false] at hn
    rcases hn with rfl | rfl | rfl
    · simp [known]
    · exact Or.inl (by simp)
    · exact Or.inr (Or.inl ⟨"", "", rfl⟩)
  obtain ⟨s, hs⟩ := (C16_types 1 [0] [1] none { dmpType := n, scaling := sc }).1 hk
  refine ⟨s, hs, .init hs rfl rfl ⟨(fun _ h => nomatch h), trivial, (fun _ h => nomatch h),
    (fun _ h => nomatch h), (fun _ h => nomatch h), (fun _ h => nomatch h), (fun _ h => nomatch h)⟩
    ⟨(fun _ h => nomatch h), one_pos, (fun _ h => nomatch h)⟩, ?_⟩
  obtain ⟨dflt, hd, rfl⟩ := init_eq hs
  unfold defaults at hd
  simp only [List.mem_cons, List.not_mem_nil, or_false] at hn
  rcases hn with rfl | rfl | rfl
  · rw [if_neg (by simp only; decide), if_pos (by simp only; decide)] at hd
    cases hd
    exact ⟨Or.inr ⟨rfl, Or.inr ⟨_, rfl⟩⟩, rfl⟩
  · rw [if_pos (by simp only; decide)] at hd
    cases hd
    exact ⟨Or.inr ⟨rfl, Or.inl rfl⟩, rfl⟩
  · rw [if_neg (by simp only; decide), if_neg (by simp only; decide), if_pos (by simp only; decide), if_neg (by simp only; decide)] at hd
    cases hd
    have hreq : (!isIn "NO_SCALING" "2022") = true := by decide
    exact ⟨Or.inl ⟨by simp only; exact hreq, (fun h => nomatch h)⟩, rfl⟩

/-! ### The goal is to be scaled, but there is no goal system -/

/-- Type 2022 without goal system. -/
noncomputable def goalless (sc : ForcingScaling) : Options :=
  { dmpType := "2022"
    goal := some none
    scaling := sc }

/-- Acceleration at the start. -/
theorem goalless_acc (sc : ForcingScaling) (hsc0 : sc ≠ .amplitude) : ∃ s, Reachable Consistent Change.Forward 1 s ∧
    s.requiresScaling = true ∧ s.scaling = sc ∧ ∀ y g : ℝ, ∃ sol r,
      (analytical (some [0]) false (s.withStartGoal [y] [g])).1 = .ok sol ∧
      (s.withStartGoal [y] [g]).asTrajectory [0] sol.xs sol.xds = .ok r ∧
      r.ydds.rows = [[100 * ((g - y) * g)]] := by
  obtain ⟨s, hs⟩ := (C16_types 1 [0] [1] none (goalless sc)).1 (Or.inr (Or.inl ⟨"", "", rfl⟩))
  have hfit : (goalless sc).Fits 1 := ⟨(fun _ h => nomatch h), trivial, (fun _ h => nomatch h),
    (fun _ h => nomatch h), (fun _ h => nomatch h), (fun _ h => nomatch h), (fun _ h => nomatch h)⟩
  have hc : Consistent 1 [0] [1] (goalless sc) s :=
    ⟨(fun _ h => nomatch h), one_pos, (fun _ h => nomatch h)⟩
  have hr : Reachable Consistent Change.Forward 1 s := .init hs rfl rfl hfit hc
  have hT := kept_timed.reachable init_timed hr
  obtain ⟨dflt, hd, hseq⟩ := init_eq hs
  have hdim : s.dimY = 1 := by rw [hseq]; rfl
  unfold defaults goalless at hd
  simp only at hd
  rw [if_neg (by decide), if_neg (by decide), if_pos (by decide)] at hd
  have hd := Except.ok.inj hd
  have hreq : s.requiresScaling = true := by
    rw [hseq]; simp only; rw [← hd]
    have : (!isIn "NO_SCALING" "2022") = true := by decide
    exact this
  have hgoal : s.goal = none := by rw [hseq]; rfl
  have hdamp : s.damping = none := by
    rw [hseq]; simp only; rw [← hd]; simp only [goalless]; rw [if_neg (by decide)]; rfl
  have hsc : s.scaling = sc := by rw [hseq]; rfl
  have hfas : s.fas = none := by rw [hseq]
  have htau : s.tau = 1 := by rw [hseq]
  have hk : s.spring.spring.at' 0 = 100 := by
    rw [hseq]; simp [goalless, SpringDamper.init, SpringDamper.criticalSpring, Par.at']; norm_num
  have hm : s.spring.mass.at' 0 = 1 := by
    rw [hseq]; simp [goalless, SpringDamper.init, Par.at']
  have hst : s.spring.tau = 1 := by rw [hT.springTau, htau]
  clear hseq hd hc hs
  refine ⟨s, hr, hreq, hsc, fun y g => ?_⟩
  rw [withStartGoal_eq hT (by simp [hdim]) (by simp [hdim])]
  have hT1 : Timed 1 (s.moved [y] [g]) :=
    kept_timed.aim _ _ (kept_timed.place _ _ hT (by simp [hdim])) (by simp [placed, hdim])
  have hg : (s.moved [y] [g]).goal = none := by
    change (if s.requiresScaling then (if s.requiresScaling then s.goal else _) else _) = none
    rw [if_pos hreq, if_pos hreq, hgoal]
  have hd1 : (s.moved [y] [g]).dimY = 1 := hdim
  have hfa : (s.moved [y] [g]).faUsed [0] false = .ok [[0]] := by
    unfold faUsed predictions
    have : (s.moved [y] [g]).fas = none := hfas
    rw [this, hd1]
    rfl
  have hcf : (s.moved [y] [g]).CanForce := by
    unfold CanForce
    have : (s.moved [y] [g]).scaling = sc := hsc
    rw [this]
    cases sc with
    | noScaling => trivial
    | gMinusY0 => exact fun h => nomatch h
    | amplitude => exact absurd rfl hsc0
  refine ⟨_, _, (analytical_iff hT1.inv.wf (sameStart_of_tau hT1.springTau)).mpr
    ⟨(fun _ h => nomatch h), hcf, by simp, _, hfa, rfl⟩, asTrajectory_ok _ (by simp) (by simp), ?_⟩
  simp only [List.length_singleton, List.range_one, List.map_cons, List.map_nil]
  rw [pick_xdRow_Z hT1.inv.wf, hd1]
  simp only [List.range_one, List.map_cons, List.map_nil]
  have e1 : (s.moved [y] [g]).tau = 1 := htau
  have hF : ((((s.moved [y] [g]).gated [0] [[0]]).getD 0 []).getD 0 0) = 0 := by
    unfold gated forced
    rw [hd1]
    simp [vscale]
  have hsca : ((s.moved [y] [g]).scaled ((s.moved [y] [g]).goalAt 0)).getD 0 0 = y + (g - y) * g := by
    have e2 : (s.moved [y] [g]).goalAt 0 = [g] := by unfold goalAt; rw [hg]; rfl
    rw [e2]
    unfold scaled
    have : (s.moved [y] [g]).requiresScaling = true := hreq
    rw [if_pos this]
    rfl
  have hz : (s.moved [y] [g]).mot [0] ((s.moved [y] [g]).gated [0] [[0]]) 0 0 = (y, 0) := by
    change (([y] ++ vzeros s.dimY).getD 0 0, ([y] ++ vzeros s.dimY).getD (s.dimY + 0) 0) = _
    rw [hdim]
    rfl
  unfold motAcc acc
  simp only
  have et : ([0] : List ℝ).getD 0 0 = 0 := rfl
  have es : (s.moved [y] [g]).spring.spring = s.spring.spring := rfl
  have em : (s.moved [y] [g]).spring.mass = s.spring.mass := rfl
  have eτ : (s.moved [y] [g]).spring.tau = s.spring.tau := rfl
  rw [et, hF, hsca, hz, es, em, eτ, hk, hm, hst, e1]
  simp [vdivs]

/-- C21 is false if the goal is to be scaled and there is no goal system: `analytical_solution` then
scales the attractor itself (Dmp.py:187-191, 358-362). -/
theorem C21_refuted : ¬ C21_statement := by
  intro H
  obtain ⟨s, hr, hq, -, h⟩ := goalless_acc .noScaling (fun h => nomatch h)
  obtain ⟨sol, r, h1, h2, h3⟩ := h 0 1
  obtain ⟨sol2, r2, h4, h5, h6⟩ := h 1 2
  obtain ⟨sol', r', h7, h8, -, -, -, h9, -⟩ := H 1 s hr (Or.inl hq) [0] [1] [1] rfl rfl rfl [0] false sol r h1 h2
  have e1 : vadd [(0 : ℝ)] [1] = [1] := by simp [vadd]
  have e2 : vadd [(1 : ℝ)] [1] = [2] := by simp [vadd]; norm_num
  rw [e1, e2] at h7 h8
  cases h4.symm.trans h7
  cases h5.symm.trans h8
  rw [h3, h6] at h9
  norm_num at h9

/-- C22 is false if the goal is to be scaled and there is no goal system. -/
theorem C22_refuted : ¬ C22_statement := by
  intro H
  obtain ⟨s, hr, hq, hs, h⟩ := goalless_acc .gMinusY0 (fun h => nomatch h)
  obtain ⟨sol, r, h1, h2, h3⟩ := h 0 1
  obtain ⟨sol2, r2, h4, h5, h6⟩ := h 0 2
  obtain ⟨sol', r', h7, h8, -, -, -, h9⟩ := H 1 s hr hs (Or.inl hq) [0] [1] [2] rfl rfl rfl [0] false sol r h1 h2
  have e1 : vadd [(0 : ℝ)] (vmul [2] (vsub [1] [0])) = [2] := by simp [vadd, vmul, vsub]
  rw [e1] at h7 h8
  cases h4.symm.trans h7
  cases h5.symm.trans h8
  rw [h3, h6] at h9
  norm_num [vmul] at h9

end Dmp

end Verif
