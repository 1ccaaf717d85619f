import Verif.Props.DmpMotions
import Verif.Props.SchedulesParams

/-! Claims about Dmps made from a demonstration: C87. -/

set_option autoImplicit false

namespace Verif

open Filter Topology

namespace Dmp

variable {d : Nat}

/-- First and last position and last time of a demonstration. -/
structure Ends (traj : Trajectory ℝ) (tau : ℝ) (y0 yg : List ℝ) : Prop where
  last : traj.ts.getLast? = some tau
  first : traj.ys.rows.head? = some y0
  final : traj.ys.rows.getLast? = some yg

theorem ends_of_shape {traj : Trajectory ℝ} (hs : traj.Shape) (hne : traj.ts ≠ []) :
    ∃ tau y0 yg, Ends traj tau y0 yg := by
  have hr : traj.ys.rows ≠ [] := fun h => hne (List.length_eq_zero_iff.mp (by
    rw [← hs.ys, h]; rfl))
  exact ⟨_, _, _, List.getLast?_eq_some_getLast hne, List.head?_eq_some_head hr,
    List.getLast?_eq_some_getLast hr⟩

theorem Ends.yInit {traj : Trajectory ℝ} {tau : ℝ} {y0 yg : List ℝ} (h : Ends traj tau y0 yg) :
    traj.yInit = .ok y0 := by
  unfold Trajectory.yInit; rw [h.first]

theorem Ends.yFinal {traj : Trajectory ℝ} {tau : ℝ} {y0 yg : List ℝ} (h : Ends traj tau y0 yg) :
    traj.yFinal = .ok yg := by
  unfold Trajectory.yFinal; rw [h.final]

theorem Ends.rows {traj : Trajectory ℝ} {tau : ℝ} {y0 yg : List ℝ} (h : Ends traj tau y0 yg) :
    traj.ys.rows ≠ [] := fun e => by have := h.first; rw [e] at this; cases this

theorem Ends.lengths {traj : Trajectory ℝ} {tau : ℝ} {y0 yg : List ℝ} (h : Ends traj tau y0 yg)
    (hs : traj.Shape) : y0.length = traj.ys.cols ∧ yg.length = traj.ys.cols :=
  ⟨yInit_length hs h.yInit, yFinal_length hs h.yFinal⟩

/-- The result of from_traj is the constructor's Dmp for the last time and the ends of the demonstration,
after training. -/
theorem fromTraj_eq {traj : Trajectory ℝ} {tau : ℝ} {y0 yg : List ℝ} (h : Ends traj tau y0 yg)
    (fas : Option (List Fa)) (o : Options) :
    fromTraj traj fas o = (match init tau y0 yg fas o with
      | .error e => .error e
      | .ok s => match train traj none s with
        | (.ok _, t) => .ok t
        | (.error e, _) => .error e) := by
  unfold fromTraj
  rw [h.last]
  simp only
  rw [h.yInit, h.yFinal]
  change Except.bind (init tau y0 yg fas o) _ = _
  cases init tau y0 yg fas o <;> rfl

theorem fromTraj_ok {traj : Trajectory ℝ} {fas : Option (List Fa)} {o : Options} {t : Dmp}
    (h : fromTraj traj fas o = .ok t) : ∃ tau y0 yg s, Ends traj tau y0 yg ∧
      init tau y0 yg fas o = .ok s ∧ train traj none s = (.ok (), t) := by
  have h' := h
  unfold fromTraj at h
  cases e1 : traj.ts.getLast? with
  | none => rw [e1] at h; cases h
  | some tau =>
    rw [e1] at h
    simp only at h
    obtain ⟨y0, e2, h⟩ := except_bind_ok h
    obtain ⟨yg, e3, h⟩ := except_bind_ok h
    have he : Ends traj tau y0 yg := by
      refine ⟨e1, ?_, ?_⟩
      · unfold Trajectory.yInit at e2
        split at e2
        · cases e2; assumption
        · cases e2
      · unfold Trajectory.yFinal at e3
        split at e3
        · cases e3; assumption
        · cases e3
    rw [fromTraj_eq he] at h'
    refine ⟨tau, y0, yg, ?_⟩
    cases e4 : init tau y0 yg fas o with
    | error e => rw [e4] at h'; cases h'
    | ok s =>
      rw [e4] at h'
      simp only at h'
      rcases e5 : train traj none s with ⟨r, t'⟩
      rw [e5] at h'
      cases r with
      | error e => cases h'
      | ok u => cases h'; exact ⟨s, he, rfl, by rw [e5]⟩

theorem foldl_extreme {f : ℝ → ℝ → ℝ} {le : ℝ → ℝ → Prop} (refl : ∀ a, le a a) (trans : ∀ a b c, le a b → le b c → le a c)
    (left : ∀ a b, le a (f a b)) (right : ∀ a b, le b (f a b)) (choice : ∀ a b, f a b = a ∨ f a b = b)
    (l : List ℝ) : ∀ a, (l.foldl f a = a ∨ l.foldl f a ∈ l) ∧ le a (l.foldl f a) ∧ ∀ b ∈ l, le b (l.foldl f a) := by
  induction l with
  | nil => exact fun a => ⟨.inl rfl, refl a, fun b h => nomatch h⟩
  | cons c l ih =>
    intro a
    rw [List.foldl_cons]
    obtain ⟨h1, h2, h3⟩ := ih (f a c)
    refine ⟨?_, trans _ _ _ (left a c) h2, fun b hb => ?_⟩
    · rcases h1 with h1 | h1
      · rcases choice a c with e | e
        · exact .inl (h1.trans e)
        · exact .inr (by rw [h1, e]; exact List.mem_cons_self)
      · exact .inr (List.mem_cons_of_mem _ h1)
    · rcases List.mem_cons.mp hb with rfl | hb
      · exact trans _ _ _ (right a b) h2
      · exact h3 b hb

/-- get_range_per_dim is the difference of the largest and the smallest position. -/
theorem rangePerDim_spec {traj : Trajectory ℝ} {range : List ℝ} (h : traj.rangePerDim = .ok range) {j : Nat}
    (hj : j < traj.ys.cols) : ∃ r1 ∈ traj.ys.rows, ∃ r2 ∈ traj.ys.rows,
      range.getD j 0 = r1.getD j 0 - r2.getD j 0 ∧
      ∀ r ∈ traj.ys.rows, r2.getD j 0 ≤ r.getD j 0 ∧ r.getD j 0 ≤ r1.getD j 0 := by
  unfold Trajectory.rangePerDim at h
  cases e : traj.ys.rows with
  | nil => rw [e] at h; cases h
  | cons a l =>
    rw [e] at h
    have h := Except.ok.inj h
    subst h
    rw [getD_range_map hj]
    have pick : ∀ v : ℝ, (v = a.getD j 0 ∨ v ∈ l.map fun q => q.getD j 0) → ∃ r ∈ a :: l, r.getD j 0 = v := by
      rintro v (rfl | hv)
      · exact ⟨a, List.mem_cons_self, rfl⟩
      · obtain ⟨r, hr, rfl⟩ := List.mem_map.mp hv
        exact ⟨r, List.mem_cons_of_mem _ hr, rfl⟩
    obtain ⟨m1, m2, m3⟩ := foldl_extreme (f := max) (le := fun x y => x ≤ y) (fun _ => le_refl _)
      (fun _ _ _ => le_trans) le_max_left le_max_right max_choice (l.map fun q => q.getD j 0) (a.getD j 0)
    obtain ⟨n1, n2, n3⟩ := foldl_extreme (f := min) (le := fun x y => y ≤ x) (fun _ => le_refl _)
      (fun _ _ _ h1 h2 => le_trans h2 h1) min_le_left min_le_right min_choice (l.map fun q => q.getD j 0) (a.getD j 0)
    obtain ⟨r1, q1, e1⟩ := pick _ m1
    obtain ⟨r2, q2, e2⟩ := pick _ n1
    refine ⟨r1, q1, r2, q2, by rw [e1, e2], fun r hr => ?_⟩
    rw [e1, e2]
    rcases List.mem_cons.mp hr with rfl | hr
    · exact ⟨n2, m2⟩
    · exact ⟨n3 _ (List.mem_map.mpr ⟨r, hr, rfl⟩), m3 _ (List.mem_map.mpr ⟨r, hr, rfl⟩)⟩

/-- C87: which Dmp from_traj makes. It is one that can occur by use of the constructor and the methods, so
that all claims about these hold for it; its time constant, and that of the transformation system, is the
last time of the demonstration; integration and analytical solution start at the first sample with
velocity zero; the attractor is the last sample; the training times are those of the demonstration; and the
amplitudes are the differences of the largest and smallest positions. -/
theorem C87_made {G : ℝ → List ℝ → List ℝ → Options → Dmp → Prop} {A : Change → Prop}
    {traj : Trajectory ℝ} (hs : traj.Shape) {fas : Option (List Fa)} {o : Options} {t : Dmp}
    (h : fromTraj traj fas o = .ok t) (ho : o.Fits traj.ys.cols)
    (hG : ∀ tau y0 yg s, Ends traj tau y0 yg → init tau y0 yg fas o = .ok s →
      Consistent tau y0 yg o s ∧ G tau y0 yg o s) (hA : A (.train traj none)) :
    ∃ tau y0 yg, Ends traj tau y0 yg ∧ Reachable G A traj.ys.cols t ∧ t.tau = tau ∧ t.spring.tau = tau ∧
      StartsAt t y0 ∧ t.yAttr = yg ∧ t.tsTrain = some traj.ts ∧ ∃ range, t.amplitudes = some range ∧
        range.length = traj.ys.cols ∧ ∀ j, j < traj.ys.cols → ∃ r1 ∈ traj.ys.rows, ∃ r2 ∈ traj.ys.rows,
          range.getD j 0 = r1.getD j 0 - r2.getD j 0 ∧ ∀ r ∈ traj.ys.rows, r2.getD j 0 ≤ r.getD j 0 ∧ r.getD j 0 ≤ r1.getD j 0 := by
  obtain ⟨tau, y0, yg, s, he, h1, h2⟩ := fromTraj_ok h
  obtain ⟨l0, lg⟩ := he.lengths hs
  obtain ⟨hc, hg⟩ := hG tau y0 yg s he h1
  have hT := init_timed tau y0 yg fas o s h1 l0 lg ho hc
  refine ⟨tau, y0, yg, he, ?_, ?_⟩
  · have := Reachable.change (.init h1 l0 lg ho hg) (.train traj none) hA
    change Reachable G A traj.ys.cols (train traj none s).2 at this
    rwa [h2] at this
  · obtain ⟨tau', y0', yg', range, k1, k2, k3, k4, -, k6, k7, ki, hcase⟩ := train_inv hT.inv hs h2
    rw [he.last] at k1
    rw [he.yInit] at k2
    rw [he.yFinal] at k3
    cases k1; cases k2; cases k3
    have hT' : Timed traj.ys.cols t := by
      have := kept_timed.change (c := .train traj none) ⟨hs, fun T hT => by
        rw [he.last] at hT; cases hT; exact hc.2.1⟩ s hT
      change Timed traj.ys.cols (train traj none s).2 at this
      rwa [h2] at this
    have hx : t.spring.xInit = y0 ++ vzeros t.dimY ∧ t.tau = tau ∧ t.yAttr = yg ∧ t.tsTrain = some traj.ts ∧
        t.amplitudes = some range := by
      rcases hcase with ⟨-, rfl⟩ | ⟨_, _, _, _, -, -, -, rfl⟩ <;> exact ⟨rfl, rfl, rfl, rfl, rfl⟩
    obtain ⟨x1, x2, x3, x4, x5⟩ := hx
    refine ⟨x2, hT'.springTau.trans x2, starts_of hT'.inv.good (hT'.inv.dim.trans k6.symm) x1, x3, x4, ?_⟩
    exact ⟨range, x5, rangePerDim_length k4, fun j hj => rangePerDim_spec k4 hj⟩

/-! ### Movement of the subsystems -/

/-- A subsystem with time constant `tau` for which nothing is cached. -/
def Fresh (tau : ℝ) : Sub → Prop
  | .time s => s.tau = tau
  | .exponential s => s.tau = tau
  | .sigmoid s => s.tau = tau ∧ s.ksCached = none
  | .richards s => s.tau = tau

theorem Fresh.same {tau : ℝ} (h0 : tau ≠ 0) {s : Sub} (h : Fresh tau s) :
    s.withTau (s.base.tau * (tau / tau)) = s := by
  cases s with
  | time s => cases h; simp [Sub.withTau, Sub.base, div_self h0]
  | exponential s => cases h; simp [Sub.withTau, Sub.base, div_self h0]
  | sigmoid s =>
    obtain ⟨rfl, h2⟩ := h
    simp [Sub.withTau, Sub.base, div_self h0, ← h2]
  | richards s => cases h; simp [Sub.withTau, Sub.base, div_self h0]

/-- The subsystems after from_traj are those of the constructor for the last time, except for what is
cached. -/
theorem fromTraj_subs {traj : Trajectory ℝ} (hs : traj.Shape) {fas : Option (List Fa)} {o : Options} {t : Dmp}
    (h : fromTraj traj fas o = .ok t) (ho : o.Fits traj.ys.cols) (hp : o.phase = none) (hq : o.gating = none)
    (hg : o.goal = none) (hlast : ∀ T, traj.ts.getLast? = some T → 0 < T)
    (htr : ∀ T u, traj.ts.getLast? = some T → o.transformation = some u → u.tau = T) :
    ∃ tau y0 yg dflt damping, Ends traj tau y0 yg ∧ defaults o.dmpType tau y0 yg damping = .ok dflt ∧
      Timed traj.ys.cols t ∧ t.dimY = traj.ys.cols ∧ t.yAttr = yg ∧
      (Fresh tau dflt.phase → ∀ u, t.phase.xAt u = dflt.phase.xAt u) ∧
      (Fresh tau dflt.gating → ∀ u, t.gating.xAt u = dflt.gating.xAt u) ∧
      (∀ e, dflt.goal = some (.exponential e) → dflt.requiresScaling = false → e.tau = tau → e.xInit = y0 →
        e.xAttr = yg → ∀ u, t.goalAt u = e.xAt u) ∧
      (dflt.goal = none → ∀ u, t.goalAt u = yg) := by
  obtain ⟨tau, y0, yg, s, he, h1, h2⟩ := fromTraj_ok h
  obtain ⟨l0, lg⟩ := he.lengths hs
  have h0 := hlast tau he.last
  have hc : Consistent tau y0 yg o s :=
    ⟨(fun e k => by rw [hg] at k; cases k), h0, fun u hu => htr tau u he.last hu⟩
  have hT := init_timed tau y0 yg fas o s h1 l0 lg ho hc
  obtain ⟨tau', y0', yg', range, k1, k2, k3, k4, -, k6, k7, ki, hcase⟩ := train_inv hT.inv hs h2
  rw [he.last] at k1
  rw [he.yInit] at k2
  rw [he.yFinal] at k3
  cases k1; cases k2; cases k3
  have hT' : Timed traj.ys.cols t := by
    have := kept_timed.change (c := .train traj none) ⟨hs, fun T hT => by
      rw [he.last] at hT; cases hT; exact hc.2.1⟩ s hT
    change Timed traj.ys.cols (train traj none s).2 at this
    rwa [h2] at this
  obtain ⟨dflt, hd, hseq⟩ := init_eq h1
  have hx : (∀ u, t.phase.xAt u = (s.prepared tau y0 yg range none).phase.xAt u) ∧
      (∀ u, t.gating.xAt u = (s.prepared tau y0 yg range none).gating.xAt u) ∧
      (∀ u, t.goalAt u = (s.prepared tau y0 yg range none).goalAt u) ∧ t.yAttr = yg := by
    rcases hcase with ⟨-, rfl⟩ | ⟨f, _, _, _, -, -, -, rfl⟩
    · exact ⟨fun _ => rfl, fun _ => rfl, fun _ => rfl, rfl⟩
    · exact ⟨fun u => Sub.xAt_touch _ u, fun u => Sub.xAt_touch _ u,
        fun u => congrFun (goalAt_refreshed (s.prepared tau y0 yg range (some f)) _ _) u, rfl⟩
  obtain ⟨x1, x2, x3, x4⟩ := hx
  have e1 : s.phase = dflt.phase := by rw [hseq, hp]; rfl
  have e2 : s.gating = dflt.gating := by rw [hseq, hq]; rfl
  have e3 : s.goal = dflt.goal := by rw [hseq, hg]; rfl
  have e4 : s.requiresScaling = dflt.requiresScaling := by rw [hseq]
  have e5 : s.tau = tau := by rw [hseq]
  refine ⟨tau, y0, yg, dflt, _, he, hd, hT', hT'.inv.dim, x4, fun hf u => ?_, fun hf u => ?_,
    fun e hge hr he1 he2 he3 u => ?_, fun hn u => ?_⟩
  · rw [x1]
    change (s.phase.withTau (s.phase.base.tau * (tau / s.tau))).xAt u = _
    rw [e1, e5, hf.same h0.ne']
  · rw [x2]
    change (s.gating.withTau (s.gating.base.tau * (tau / s.tau))).xAt u = _
    rw [e2, e5, hf.same h0.ne']
  · rw [x3]
    have : (s.prepared tau y0 yg range none).goal = some (.exponential e) := by
      change (if s.requiresScaling then (if s.requiresScaling then
          s.goal.map fun g => g.withTau (g.base.tau * (tau / s.tau)) else
          (s.goal.map fun g => g.withTau (g.base.tau * (tau / s.tau))).map (Sub.withInit y0)) else
        (if s.requiresScaling then
          s.goal.map fun g => g.withTau (g.base.tau * (tau / s.tau)) else
          (s.goal.map fun g => g.withTau (g.base.tau * (tau / s.tau))).map (Sub.withInit y0)).map
            (Sub.withAttr yg)) = _
      rw [e4, hr, e3, hge, e5]
      have : (Sub.exponential e).withTau ((Sub.exponential e).base.tau * (tau / tau)) = .exponential e :=
        Fresh.same h0.ne' (show Fresh tau (.exponential e) from he1)
      simp only [Option.map_some, Bool.false_eq_true, if_false, this]
      subst he2; subst he3
      rfl
    unfold goalAt
    rw [this]
    rfl
  · rw [x3]
    have : (s.prepared tau y0 yg range none).goal = none := by
      change (if s.requiresScaling then (if s.requiresScaling then
          s.goal.map fun g => g.withTau (g.base.tau * (tau / s.tau)) else
          (s.goal.map fun g => g.withTau (g.base.tau * (tau / s.tau))).map (Sub.withInit y0)) else
        (if s.requiresScaling then
          s.goal.map fun g => g.withTau (g.base.tau * (tau / s.tau)) else
          (s.goal.map fun g => g.withTau (g.base.tau * (tau / s.tau))).map (Sub.withInit y0)).map
            (Sub.withAttr yg)) = _
      rw [e3, hn]
      simp
    unfold goalAt
    rw [this]
    rfl

/-- Rows of an analytical solution, by parts. -/
theorem analytical_parts {t : Dmp} (hT : Timed d t) {ts : List ℝ} {b : Bool} {sol : Solution}
    (h : (analytical (some ts) b t).1 = .ok sol) {i : Nat} (hi : i < ts.length) :
    (∀ j, j < d → (sol.xs.getD i []).getD (2 * d + j) 0 = (t.goalAt (ts.getD i 0)).getD j 0) ∧
    (sol.xs.getD i []).getD (3 * d) 0 = (t.phase.xAt (ts.getD i 0)).getD 0 0 ∧
    (sol.xs.getD i []).getD (3 * d + 1) 0 = (t.gating.xAt (ts.getD i 0)).getD 0 0 := by
  have w := hT.inv.wf
  obtain ⟨-, -, -, fa, -, rfl⟩ := (analytical_iff w (sameStart_of_tau hT.springTau)).mp h
  simp only
  rw [getD_range_map hi]
  have sz := xRow_sizes w ts (t.gated ts fa) i
  have p1 := sz.pick_GOAL
  have p2 := sz.pick_PHASE
  have p3 := sz.pick_GATING
  change pickAt (t.xRow ts (t.gated ts fa) i) _ = _ at p1 p2 p3
  have hd := hT.inv.dim
  refine ⟨fun j hj => ?_, ?_, ?_⟩
  · rw [← p1]
    simp only [GOAL, pickAt, hd]
    rw [getD_map' (by simpa using hj) 0 0]
    simp [List.getElem?_range', hj, two_mul]
  · rw [← p2]
    simp only [PHASE, pickAt, hd]
    simp; congr 2; ring_nf
  · rw [← p3]
    simp only [GATING, pickAt, hd]
    simp; congr 2; ring_nf

/-- C87: how the phase, the gate and the delayed goal of a Dmp move that is made from a demonstration with
the default systems, in terms of the last time of the demonstration and its ends. -/
theorem C87_curves {traj : Trajectory ℝ} (hs : traj.Shape) {fas : Option (List Fa)} {o : Options} {t : Dmp}
    (h : fromTraj traj fas o = .ok t) (ho : o.Fits traj.ys.cols) (hp : o.phase = none) (hq : o.gating = none)
    (hg : o.goal = none) (hlast : ∀ T, traj.ts.getLast? = some T → 0 < T)
    (htr : ∀ T u, traj.ts.getLast? = some T → o.transformation = some u → u.tau = T) :
    ∃ tau y0 yg, Ends traj tau y0 yg ∧ ∀ ts b sol, (analytical (some ts) b t).1 = .ok sol →
      ∀ i, i < ts.length →
      (o.dmpType ∈ ["KULVICIUS_2012_JOINING", "Kul12", "COUNTDOWN_2013"] →
        (∀ j, j < traj.ys.cols → (sol.xs.getD i []).getD (2 * traj.ys.cols + j) 0 =
          yg.getD j 0 + (y0.getD j 0 - yg.getD j 0) * Real.exp (-15 * (ts.getD i 0 / tau))) ∧
        (sol.xs.getD i []).getD (3 * traj.ys.cols) 0 = (if o.dmpType = "COUNTDOWN_2013" then
          max 0 (1 - ts.getD i 0 / tau) else min 1 (ts.getD i 0 / tau)) ∧
        (sol.xs.getD i []).getD (3 * traj.ys.cols + 1) 0 = (1 + 1 / 10 ^ 6) / (1 + 1 / 10 ^ 6 *
          Real.exp (ts.getD i 0 / tau * Real.log (((1 + 1 / 10 ^ 6) / (1 / 10) - 1) * 10 ^ 6)))) ∧
      (o.dmpType ∈ ["IJSPEERT_2002_MOVEMENT", "Ijs02"] →
        (∀ j, j < traj.ys.cols → (sol.xs.getD i []).getD (2 * traj.ys.cols + j) 0 = yg.getD j 0) ∧
        (sol.xs.getD i []).getD (3 * traj.ys.cols) 0 = Real.exp (-4 * (ts.getD i 0 / tau)) ∧
        (sol.xs.getD i []).getD (3 * traj.ys.cols + 1) 0 = Real.exp (-4 * (ts.getD i 0 / tau))) := by
  obtain ⟨tau, y0, yg, dflt, damping, he, hd, hT, hdim, -, k1, k2, k3, k4⟩ :=
    fromTraj_subs hs h ho hp hq hg hlast htr
  have h0 := hlast tau he.last
  obtain ⟨l0, lg⟩ := he.lengths hs
  refine ⟨tau, y0, yg, he, fun ts b sol hsol i hi => ?_⟩
  obtain ⟨p1, p2, p3⟩ := analytical_parts hT hsol hi
  generalize ts.getD i 0 = u at p1 p2 p3 ⊢
  constructor
  · intro ht
    have hd' : dflt = { goal := some (.exponential (.init tau y0 yg (.scalar 15)))
                        gating := .sigmoid (.forGating tau 0.1)
                        phase := .time (.init tau (o.dmpType = "COUNTDOWN_2013"))
                        damping := none
                        requiresScaling := false } := by
      unfold defaults at hd
      simp only at hd
      simp only [List.mem_cons, List.not_mem_nil, or_false] at ht
      rw [if_neg (by rcases ht with e | e | e <;> rw [e] <;> decide), if_pos ht] at hd
      exact (Except.ok.inj hd).symm
    subst hd'
    refine ⟨fun j hj => ?_, ?_, ?_⟩
    · rw [p1 j hj, k3 _ rfl rfl rfl rfl rfl u]
      change ((List.range y0.length).map _).getD j 0 = _
      rw [getD_range_map (by omega)]
      change (y0.getD j 0 - yg.getD j 0) * Real.exp (-15 * u / tau) + yg.getD j 0 = _
      rw [mul_div_assoc]
      ring
    · rw [p2, k1 rfl u]
      change ((TimeSystem.init tau (o.dmpType = "COUNTDOWN_2013")).xAt u).getD 0 0 = _
      unfold TimeSystem.xAt
      by_cases hcd : o.dmpType = "COUNTDOWN_2013"
      · rw [if_pos hcd, if_pos (by simp [TimeSystem.init, hcd])]
        change (if 1 - u / tau < 0 then (0 : ℝ) else 1 - u / tau) = _
        by_cases hn : 1 - u / tau < 0
        · rw [if_pos hn, max_eq_left hn.le]
        · rw [if_neg hn, max_eq_right (not_lt.mp hn)]
      · rw [if_neg hcd, if_neg (by simp [TimeSystem.init, hcd])]
        change (if u / tau > 1 then (1 : ℝ) else u / tau) = _
        by_cases hn : u / tau > 1
        · rw [if_pos hn, min_eq_left (le_of_lt hn)]
        · rw [if_neg hn, min_eq_right (not_lt.mp hn)]
    · rw [p3, k2 ⟨rfl, rfl⟩ u]
      change ((Sigmoid.forGating tau 0.1).xAt u).getD 0 0 = _
      rw [Sigmoid.gating_form tau 0.1 1 h0 (by norm_num) (by norm_num) one_pos]
      have e1 : Sigmoid.gatingD = 1 / 10 ^ 6 := by norm_num [Sigmoid.gatingD]
      have e2 : (0.1 : ℝ) = 1 / 10 := by norm_num
      rw [e1, e2, div_div_eq_mul_div _ (1 : ℝ) (10 ^ 6), div_one]
  · intro ht
    have hd' : dflt = { goal := none
                        gating := .exponential (.init tau [1] [0] (.scalar 4))
                        phase := .exponential (.init tau [1] [0] (.scalar 4))
                        damping := none
                        requiresScaling := false } := by
      unfold defaults at hd
      simp only at hd
      simp only [List.mem_cons, List.not_mem_nil, or_false] at ht
      rw [if_pos ht] at hd
      exact (Except.ok.inj hd).symm
    subst hd'
    have hx : ((Sub.exponential (.init tau [1] [0] (.scalar 4))).xAt u).getD 0 0 = Real.exp (-4 * (u / tau)) := by
      change ((1 : ℝ) - 0) * Real.exp (-4 * u / tau) + 0 = _
      rw [mul_div_assoc]
      ring
    refine ⟨fun j hj => ?_, ?_, ?_⟩
    · rw [p1 j hj, k4 rfl u]
    · rw [p2, k1 rfl u, hx]
    · rw [p3, k2 rfl u, hx]

/-- C87: from_traj of the default systems moves from the first sample to rest at the last sample: each
exact motion from the state of integrate_start tends to the last sample. -/
theorem C87_arrives {traj : Trajectory ℝ} (hs : traj.Shape) {fas : Option (List Fa)} {o : Options} {t : Dmp}
    (h : fromTraj traj fas o = .ok t) (ho : o.Fits traj.ys.cols)
    (hlast : ∀ T, traj.ts.getLast? = some T → 0 < T)
    (hα : ∀ j, j < traj.ys.cols → 0 < o.alphaSpring.at' j) (htr : o.transformation = none)
    (hp : o.phase = none) (hq : o.gating = none) (hg : o.goal = none) (hc : o.damping = none)
    (hn : isIn "NO_SCALING" o.dmpType = false) :
    ∃ tau y0 yg, Ends traj tau y0 yg ∧ Reachable DefaultScaled Change.Forward traj.ys.cols t ∧
      ∀ x : ℝ → List ℝ, Obeys t x → (∃ xd, (integrateStart none t).1 = .ok (x 0, xd)) →
        (∀ j, j < traj.ys.cols → (x 0).getD j 0 = y0.getD j 0) ∧ ComesToRest traj.ys.cols x yg := by
  obtain ⟨tau, y0, yg, he, hr, -, -, hst, hyg, -⟩ := C87_made (G := DefaultScaled) (A := Change.Forward) hs h ho
    (fun tau y0 yg s he hi => by
      have h0 := hlast tau he.last
      refine ⟨⟨(fun e k => by rw [hg] at k; cases k), h0, (fun u hu => by rw [htr] at hu; cases hu)⟩,
        ⟨h0, fun j hj => hα j (by rw [← (he.lengths hs).1]; exact hj), htr, hg, hq, hp, hc⟩, hn⟩)
    ⟨hs, hlast⟩
  have hdim := (kept_standard.reachable init_standard hr).inv.dim
  refine ⟨tau, y0, yg, he, hr, fun x hx ⟨xd, h0⟩ => ⟨fun j hj => ?_, ?_⟩⟩
  · have := (hst.1 _ _ h0).1
    change pickAt (x 0) (SPRING_Y t.dimY) = y0 at this
    rw [← this, hdim]
    simp [pickAt, SPRING_Y, List.getElem?_range', hj]
  · rw [← hyg]
    exact C19_defaults _ t hr x hx ⟨_, _, h0, fun _ _ => rfl⟩

/-- C87: with function approximators of type GPR, from_traj returns a Dmp that makes exactly the
demonstration, if that starts at rest and follows by Euler steps from its accelerations. -/
theorem C87_reproduces {traj : Trajectory ℝ} (hs : traj.Shape) {fas : List Fa} {o : Options} {t : Dmp}
    (h : fromTraj traj (some fas) o = .ok t) (ho : o.Fits traj.ys.cols)
    (hc : ∀ tau y0 yg s, Ends traj tau y0 yg → init tau y0 yg (some fas) o = .ok s → Consistent tau y0 yg o s)
    (hg : ∀ fa ∈ fas, ∃ c lengths, fa.params = .gpr c lengths) (he : EulerConsistent traj) :
    ∃ sol r, (analytical none false t).1 = .ok sol ∧ t.asTrajectory traj.ts sol.xs sol.xds = .ok r ∧
      r.ts = traj.ts ∧ r.ys = traj.ys ∧ r.yds = traj.yds ∧ r.ydds = traj.ydds := by
  obtain ⟨tau, y0, yg, s, hE, h1, h2⟩ := fromTraj_ok h
  obtain ⟨l0, lg⟩ := hE.lengths hs
  have hcs := hc tau y0 yg s hE h1
  have hf : s.fas = some fas := by
    obtain ⟨dflt, hd, rfl⟩ := init_eq h1
    rfl
  obtain ⟨sol, r, k1, k2, k3⟩ := C18_gpr _ s (.init h1 l0 lg ho hcs) traj hs (fun T hT => by
    rw [hE.last] at hT; cases hT; exact hcs.2.1) none fas hf hg t h2 he
  refine ⟨sol, r, ?_, k2, k3⟩
  obtain ⟨-, -, -, -, -, -, -, -, -, hts, -⟩ := C87_made (G := fun _ _ _ _ _ => True) (A := fun _ => True) hs h ho
    (fun tau y0 yg s a b => ⟨hc tau y0 yg s a b, trivial⟩) trivial
  rw [analytical_none, hts]
  exact k1

/-! ### When from_traj succeeds -/

theorem train_without {s : Dmp} (i : Inv d s) {traj : Trajectory ℝ} (hs : traj.Shape) (hd : traj.ys.cols = d)
    {tau : ℝ} {y0 yg : List ℝ} (he : Ends traj tau y0 yg) (hf : s.fas = none) :
    ∃ t, train traj none s = (.ok (), t) := by
  obtain ⟨l0, lg⟩ := he.lengths hs
  have hr : ∃ range, traj.rangePerDim = .ok range := by
    unfold Trajectory.rangePerDim
    cases e : traj.ys.rows with
    | nil => exact absurd e he.rows
    | cons a l => exact ⟨_, rfl⟩
  obtain ⟨range, hr⟩ := hr
  have i1 := inv_retimed i tau
  have k0 : y0.length = (s.retimed tau).dimY := by rw [l0, hd]; exact i1.dim.symm
  have i2 := inv_placed i1 k0
  have kg : yg.length = ((s.retimed tau).placed y0).dimY := by rw [lg, hd]; exact i2.dim.symm
  refine ⟨{ s.prepared tau y0 yg range none with tsTrain := some traj.ts }, ?_⟩
  rw [train_eq, he.last]
  simp only
  rw [PyM.bind_ok (setTau_run s tau)]
  unfold trainRest
  rw [he.yInit, PyM.lift_ok_bind, PyM.bind_ok (setYInit_run i1.wf k0), he.yFinal, PyM.lift_ok_bind,
    PyM.bind_ok (setYAttr_run i2.wf kg), hr, PyM.lift_ok_bind, PyM.modify_bind, PyM.modify_bind]
  unfold trainLast
  rw [PyM.self_bind]
  have : (({ ((s.retimed tau).placed y0).aimed yg with amplitudes := some range } : Dmp).fas) = none := hf
  simp only [Option.getD_none]
  rw [this]
  change (Except.ok (), _) = (Except.ok (), _)
  congr 1

/-- C87: which exceptions from_traj raises: IndexError for a trajectory without samples, ValueError for an
unknown dmp_type. -/
theorem C87_raises (traj : Trajectory ℝ) (hs : traj.Shape) (fas : Option (List Fa)) (o : Options) :
    (traj.ts = [] → fromTraj traj fas o = .error .indexError) ∧
    (traj.ts ≠ [] → ¬ known o.dmpType → fromTraj traj fas o = .error .valueError) := by
  refine ⟨fun h => ?_, fun hne hk => ?_⟩
  · unfold fromTraj
    rw [h]
    rfl
  · obtain ⟨tau, y0, yg, he⟩ := ends_of_shape hs hne
    rw [fromTraj_eq he, (C16_types tau y0 yg fas o).2 hk]

/-- C87: without function approximators, from_traj succeeds for each demonstration with samples. -/
theorem C87_succeeds (traj : Trajectory ℝ) (hs : traj.Shape) (hne : traj.ts ≠ []) (o : Options)
    (hk : known o.dmpType) (ho : o.Fits traj.ys.cols) (hg : o.goal = none) :
    ∃ t, fromTraj traj none o = .ok t := by
  obtain ⟨tau, y0, yg, he⟩ := ends_of_shape hs hne
  obtain ⟨l0, lg⟩ := he.lengths hs
  obtain ⟨s, h1⟩ := (C16_types tau y0 yg none o).1 hk
  have i : Inv y0.length s := init_inv h1 (lg.trans l0.symm) (by rw [l0]; exact ho)
    (fun e k => by rw [hg] at k; cases k)
  obtain ⟨t, h2⟩ := train_without i hs l0.symm he (by obtain ⟨dflt, -, rfl⟩ := init_eq h1; rfl)
  exact ⟨t, by rw [fromTraj_eq he, h1]; simp only; rw [h2]⟩

/-! ### The duration -/

/-- C87, for the duration: the time constant is the duration of the demonstration. -/
def C87_statement : Prop :=
  ∀ (traj : Trajectory ℝ) (fas : Option (List Fa)) (o : Options) (t : Dmp), traj.Shape → o.Fits traj.ys.cols →
    o.goal = none → o.transformation = none → (∀ T, traj.ts.getLast? = some T → 0 < T) →
    fromTraj traj fas o = .ok t → traj.duration = .ok t.tau

/-- C87, for demonstrations that start at time zero. Missing: other demonstrations (`C87_refuted`). -/
theorem C87_duration_partial (traj : Trajectory ℝ) (fas : Option (List Fa)) (o : Options) (t : Dmp)
    (hs : traj.Shape) (ho : o.Fits traj.ys.cols) (hg : o.goal = none) (htr : o.transformation = none)
    (hlast : ∀ T, traj.ts.getLast? = some T → 0 < T) (h : fromTraj traj fas o = .ok t)
    (h0 : traj.ts.head? = some 0) : traj.duration = .ok t.tau := by
  obtain ⟨tau, y0, yg, he, -, h1, -⟩ := C87_made (G := fun _ _ _ _ _ => True) (A := fun _ => True) hs h ho
    (fun tau y0 yg s a b => ⟨⟨(fun e k => by rw [hg] at k; cases k), hlast tau a.last,
      (fun u hu => by rw [htr] at hu; cases hu)⟩, trivial⟩) trivial
  unfold Trajectory.duration
  rw [he.last, h0, h1]
  simp

/-- A demonstration from 0 to 4, with samples at times 1 and 3. -/
noncomputable def lateDemo : Trajectory ℝ :=
  { ts := [1, 3]
    dtMean := some 2
    ys := ⟨1, [[0], [4]]⟩
    yds := ⟨1, [[0], [4]]⟩
    ydds := ⟨1, [[2], [0]]⟩
    misc := none
    dim := 1 }

theorem lateDemo_shape : lateDemo.Shape where
  ys := rfl
  ysCols := by simp [lateDemo]
  yds := rfl
  ydsCols := by simp [lateDemo]
  ydds := rfl
  yddsCols := by simp [lateDemo]
  ydsShape := rfl
  yddsShape := rfl
  dim := rfl
  misc := fun _ h => nomatch h

theorem fits_default (n : Nat) : Options.Fits {} n :=
  ⟨(fun _ h => nomatch h), trivial, (fun _ h => nomatch h),
    (fun _ h => nomatch h), (fun _ h => nomatch h), (fun _ h => nomatch h), (fun _ h => nomatch h)⟩

theorem lateDemo_made : ∃ t, fromTraj lateDemo none {} = .ok t :=
  C87_succeeds lateDemo lateDemo_shape (by simp [lateDemo]) {} (by simp [known]) (fits_default 1) rfl

theorem lateDemo_last (T : ℝ) (h : lateDemo.ts.getLast? = some T) : 0 < T := by
  cases h; norm_num

/-- C87 is false for a demonstration that starts after time zero: the time constant is the last time
(Dmp.py:170, 447), not the duration. -/
theorem C87_refuted : ¬ C87_statement := by
  intro H
  obtain ⟨t, h⟩ := lateDemo_made
  have h1 := H lateDemo none {} t lateDemo_shape (fits_default 1) rfl rfl lateDemo_last h
  obtain ⟨tau, y0, yg, he, -, h2, -⟩ := C87_made (G := fun _ _ _ _ _ => True) (A := fun _ => True)
    lateDemo_shape h (fits_default 1) (fun tau y0 yg s a b => ⟨⟨(fun e k => nomatch k), lateDemo_last tau a.last,
      (fun u hu => nomatch hu)⟩, trivial⟩) trivial
  have e1 : tau = 3 := by
    have := he.last
    exact (Option.some.inj this).symm
  have e2 : (3 : ℝ) - 1 = t.tau := Except.ok.inj h1
  rw [h2, e1] at e2
  norm_num at e2

/-- The hypotheses of `C87_made`, `C87_curves` and `C87_arrives` hold for the default Dmp of this
demonstration. -/
example : ∃ t, fromTraj lateDemo none {} = .ok t ∧ lateDemo.Shape ∧ Options.Fits {} lateDemo.ys.cols ∧
    (∀ T, lateDemo.ts.getLast? = some T → 0 < T) ∧
    (∀ j, j < lateDemo.ys.cols → 0 < ({} : Options).alphaSpring.at' j) ∧
    ({} : Options).dmpType ∈ ["KULVICIUS_2012_JOINING", "Kul12", "COUNTDOWN_2013"] ∧
    isIn "NO_SCALING" ({} : Options).dmpType = false := by
  obtain ⟨t, h⟩ := lateDemo_made
  refine ⟨t, h, lateDemo_shape, fits_default 1, lateDemo_last, fun j _ => ?_, by simp, by decide⟩
  change (0 : ℝ) < 20
  norm_num

/-- The gate of this Dmp is nearly closed at time 3, when the demonstration ends. -/
example : ∃ t, fromTraj lateDemo none {} = .ok t ∧ ∀ ts b sol, (analytical (some ts) b t).1 = .ok sol →
    ∀ i, i < ts.length → ts.getD i 0 = 3 → (sol.xs.getD i []).getD 4 0 = 1 / 10 := by
  obtain ⟨t, h⟩ := lateDemo_made
  refine ⟨t, h, fun ts b sol hsol i hi ht => ?_⟩
  obtain ⟨tau, y0, yg, he, k⟩ := C87_curves lateDemo_shape h (fits_default 1) rfl rfl rfl lateDemo_last
    (fun T u _ hu => nomatch hu)
  have e1 : tau = 3 := (Option.some.inj he.last).symm
  have := ((k ts b sol hsol i hi).1 (by simp)).2.2
  rw [ht, e1] at this
  refine this.trans ?_
  rw [div_self (by norm_num), one_mul, Real.exp_log (by norm_num)]
  norm_num

/-- The hypotheses of `C87_reproduces` hold for the demonstration of C18. -/
example : ∃ t, fromTraj demo (some [Fa.new (.gpr 1 [1])]) { dmpType := "Ijs02" } = .ok t ∧ demo.Shape ∧
    EulerConsistent demo ∧ ∀ tau y0 yg s, Ends demo tau y0 yg → Consistent tau y0 yg { dmpType := "Ijs02" } s := by
  obtain ⟨s, t, h1, -, -, h2⟩ := demo_trains 3 3 (some [Fa.new (.gpr 1 [1])]) none rfl
  refine ⟨t, ?_, demo_shape, demo_euler, fun tau y0 yg s h => ⟨(fun _ h => nomatch h), ?_, (fun _ h => nomatch h)⟩⟩
  · rw [fromTraj_eq (tau := 1) (y0 := [3]) (yg := [3]) ⟨rfl, rfl, rfl⟩, h1]
    simp only
    rw [h2]
  · have : tau = 1 := (Option.some.inj h.last).symm
    rw [this]
    exact one_pos

end Dmp

namespace DmpWithSchedules

/-- C87: from_traj_sched makes the Dmp of from_traj (as far as any query can tell), with the schedules and
bounds that the constructor and train_sched make. -/
theorem C87_sched {traj : Trajectory ℝ} (hs : traj.Shape) {fas : Option (List Fa)} {sched : List Fa}
    {lo hi : Option BoundArg} {schedules : Option (Arr2 ℝ)} {o : Dmp.Options} {s : DmpWithSchedules}
    (h : fromTrajSched traj fas sched lo hi schedules o = .ok s) (ho : o.Fits traj.ys.cols)
    (hg : o.goal = none) :
    ∃ t s0 tau y0 yg, Dmp.fromTraj traj fas o = .ok t ∧
      (∀ c : Dmp.Call, c.Sized traj.ys.cols → (c.run s.dmp).1 = (c.run t).1) ∧
      Dmp.Ends traj tau y0 yg ∧ init tau y0 yg fas sched lo hi o = .ok s0 ∧
      s = s0.after [.train traj schedules] ∧ s.sched.length = sched.length := by
  unfold fromTrajSched at h
  cases e1 : traj.ts.getLast? with
  | none => rw [e1] at h; cases h
  | some tau =>
    rw [e1] at h
    simp only at h
    have hne : traj.ts ≠ [] := fun e => by rw [e] at e1; cases e1
    obtain ⟨tau', y0, yg, he⟩ := Dmp.ends_of_shape hs hne
    obtain rfl : tau' = tau := Option.some.inj (he.last.symm.trans e1)
    rw [he.yInit, he.yFinal] at h
    change Except.bind (init tau' y0 yg fas sched lo hi o) _ = _ at h
    obtain ⟨s0, h1, h⟩ := except_bind_ok h
    rcases e5 : trainSched traj schedules s0 with ⟨r, s'⟩
    rw [e5] at h
    cases r with
    | error e => cases h
    | ok u =>
      cases h
      obtain ⟨dmp, sol, targets, k1, k2, -, -, -, -, -, -, k3, -⟩ := C69_train s0 s traj schedules e5
      have h1' := h1
      unfold init at h1
      obtain ⟨dmp0, g1, g2⟩ := except_bind_ok h1
      cases g2
      have hT : Dmp.fromTraj traj fas o = .ok dmp := by
        rw [Dmp.fromTraj_eq he, g1]
        simp only
        rw [k1]
      obtain ⟨l0, lg⟩ := he.lengths hs
      have i0 : Dmp.Inv traj.ys.cols dmp0 := by
        rw [← l0]
        exact Dmp.init_inv g1 (lg.trans l0.symm) (by rw [l0]; exact ho) (fun e k => by rw [hg] at k; cases k)
      have i1 : Dmp.Inv traj.ys.cols dmp := by
        have := Dmp.Change.keeps (c := .train traj none) hs dmp0 i0
        change Dmp.Inv traj.ys.cols (Dmp.train traj none dmp0).2 at this
        rwa [k1] at this
      obtain ⟨-, c1, c2⟩ := Dmp.stable_analytical none false dmp dmp i1.good i1.good rfl
      rw [k2] at c1 c2
      refine ⟨dmp, _, tau', y0, yg, hT, fun c hc => (Dmp.Call.stable hc _ _ c2 i1.good c1).1, he, h1', ?_, k3⟩
      change s = (trainSched traj schedules _).2
      rw [e5]

/-- A case of `C87_sched`: one schedule, given as misc variable of the demonstration. -/
example : ∃ s, fromTrajSched { Dmp.demo with misc := some ⟨1, [[1], [2]]⟩ } none [Fa.new (.wls false 1)] none none none
    = .ok s := by
  obtain ⟨s, s', h1, h2⟩ := demo_trains 3 3
  refine ⟨s', ?_⟩
  obtain ⟨traj, ht⟩ : ∃ t : Trajectory ℝ, t = { Dmp.demo with misc := some ⟨1, [[1], [2]]⟩ } := ⟨_, rfl⟩
  rw [← ht] at h2 ⊢
  have e1 : traj.ts.getLast? = some 1 := by rw [ht]; rfl
  have e2 : traj.yInit = .ok [3] := by rw [ht]; rfl
  have e3 : traj.yFinal = .ok [3] := by rw [ht]; rfl
  unfold fromTrajSched
  rw [e1]
  simp only
  rw [e2, e3]
  simp only [Dmp.except_ok_bind, h1]
  rw [h2]

end DmpWithSchedules

end Verif
