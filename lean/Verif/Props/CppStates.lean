import Verif.Model.CppStates
import Verif.Props.CppDmp
import Verif.Props.CppTrajectory
import Verif.Props.DmpStepsRates
import Verif.Props.DmpCloseRun
import Verif.Props.TrainScript

/-
C104: the trajectories that C++ makes of states are those of Python.
-/

set_option autoImplicit false

noncomputable section

namespace Verif.Cpp.Dmp

open Spec

/-! ### What the functions do -/

theorem block_ok {m : Arr2 ℝ} {j T n : Nat} (h1 : m.rows.length = T) (h2 : j + n ≤ m.cols) :
    block m j T n = .ok ⟨n, m.rows.map fun r => (r.drop j).take n⟩ := by
  unfold block
  rw [if_neg (by omega), List.take_of_length_le (by omega)]

theorem block_narrow {m : Arr2 ℝ} {j T n : Nat} (h : m.cols < j + n) : block m j T n = .error .assertion := by
  unfold block
  rw [if_pos (Or.inr h)]

/-- C104: positions, velocities and accelerations of a time step are those of `stateAsPosVelAcc` of this time step. -/
def RowWise (s : Dmp) (x xd y yd ydd : List (List ℝ)) : Prop :=
  y.length = x.length ∧ yd.length = x.length ∧ ydd.length = x.length ∧
    ∀ k, k < x.length → s.posVelAcc (x.getD k []) (xd.getD k []) = .ok (y.getD k [], yd.getD k [], ydd.getD k [])

theorem rowWise {s : Dmp} {x xd : Arr2 ℝ} (hx : x.Wf) (hxd : xd.Wf) (hl : xd.rows.length = x.rows.length)
    (h1 : s.dimY ≤ x.cols) (h2 : 2 * s.dimY ≤ xd.cols) :
    RowWise s x.rows xd.rows (x.rows.map fun r => (r.drop (0 * s.dimY + 0)).take s.dimY)
      (xd.rows.map fun r => (r.drop (0 * s.dimY + 0)).take s.dimY)
      ((xd.rows.map fun r => (r.drop (1 * s.dimY + 0)).take s.dimY).map fun r => vdivs r s.tau) := by
  refine ⟨by simp, by simp [hl], by simp [hl], fun k hk => ?_⟩
  have hk' : k < xd.rows.length := by omega
  have l1 : (x.rows[k]).length = x.cols := hx _ (List.getElem_mem hk)
  have l2 : (xd.rows[k]).length = xd.cols := hxd _ (List.getElem_mem hk')
  unfold posVelAcc seg
  simp only [List.getD_eq_getElem?_getD, List.getElem?_map, List.getElem?_eq_getElem hk,
    List.getElem?_eq_getElem hk', Option.getD_some, Option.map_some, l1, l2]
  rw [if_neg (by omega), if_neg (by omega), if_neg (by omega)]
  rfl

/-- C104: when the matrices of positions, velocities and accelerations can be made, and what they are. -/
theorem C104_matrices {s : Dmp} {x xd : Arr2 ℝ} (hx : x.Wf) (hxd : xd.Wf) :
    ((∃ r, statesAsMatrices x xd s = .ok r) ↔
      x.rows.length ≤ xd.rows.length ∧ s.dimY ≤ x.cols ∧ 2 * s.dimY ≤ xd.cols) ∧
    (∀ e, statesAsMatrices x xd s = .error e → e = .assertion) ∧
    ∀ y yd ydd, xd.rows.length = x.rows.length → statesAsMatrices x xd s = .ok (y, yd, ydd) →
      y.cols = s.dimY ∧ yd.cols = s.dimY ∧ ydd.cols = s.dimY ∧ RowWise s x.rows xd.rows y.rows yd.rows ydd.rows := by
  unfold statesAsMatrices
  dsimp only
  by_cases a1 : s.dimY ≤ x.cols
  swap
  · rw [show block x (0 * s.dimY + 0) x.rows.length s.dimY = .error .assertion from block_narrow (by omega)]
    refine ⟨⟨fun ⟨r, h⟩ => (nomatch h), fun h => absurd h.2.1 a1⟩, fun e h => ?_, fun _ _ _ _ h => (nomatch h)⟩
    cases h
    rfl
  rw [show block x (0 * s.dimY + 0) x.rows.length s.dimY = _ from block_ok rfl (by omega)]
  by_cases a2 : x.rows.length ≤ xd.rows.length ∧ 2 * s.dimY ≤ xd.cols
  · have b1 : block xd (0 * s.dimY + 0) x.rows.length s.dimY = .ok ⟨s.dimY, (xd.rows.take x.rows.length).map
        fun r => (r.drop (0 * s.dimY + 0)).take s.dimY⟩ := by
      unfold block; rw [if_neg (by omega)]
    have b2 : block xd (1 * s.dimY + 0) x.rows.length s.dimY = .ok ⟨s.dimY, (xd.rows.take x.rows.length).map
        fun r => (r.drop (1 * s.dimY + 0)).take s.dimY⟩ := by
      unfold block; rw [if_neg (by omega)]
    rw [b1, b2]
    refine ⟨⟨fun _ => ⟨a2.1, a1, a2.2⟩, fun _ => ⟨_, rfl⟩⟩, fun _ h => (nomatch h), fun y yd ydd hl h => ?_⟩
    cases h
    refine ⟨rfl, rfl, rfl, ?_⟩
    rw [List.take_of_length_le (by omega)]
    exact rowWise hx hxd hl a1 a2.2
  · have b : ∀ f : Arr2 ℝ → Arr2 ℝ → CppResult (Arr2 ℝ × Arr2 ℝ × Arr2 ℝ),
        (block xd (0 * s.dimY + 0) x.rows.length s.dimY >>= fun yd =>
          block xd (1 * s.dimY + 0) x.rows.length s.dimY >>= fun zd => f yd zd) = .error .assertion := by
      intro f
      have b2 : block xd (1 * s.dimY + 0) x.rows.length s.dimY = .error .assertion := by
        unfold block; rw [if_pos (by omega)]
      rw [b2]
      unfold block
      split <;> rfl
    have b' := b fun yd zd => .ok (⟨s.dimY, x.rows.map fun r => (r.drop (0 * s.dimY + 0)).take s.dimY⟩, yd,
      ⟨zd.cols, zd.rows.map fun r => vdivs r s.tau⟩)
    refine ⟨⟨fun ⟨r, h⟩ => ?_, fun h => absurd ⟨h.1, h.2.2⟩ a2⟩, fun e h => ?_, fun _ _ _ _ h => ?_⟩
    · have := b'.symm.trans h
      cases this
    · have := b'.symm.trans h
      cases this
      rfl
    · have := b'.symm.trans h
      cases this

/-- C104: when a Trajectory can be made, and what it is. -/
theorem C104_trajectory {s : Dmp} {ts : List ℝ} {x xd : Arr2 ℝ} (hx : x.Wf) (hxd : xd.Wf) :
    ((∃ r, statesAsTrajectory ts x xd s = .ok r) ↔
      x.rows.length = ts.length ∧ xd.rows.length = ts.length ∧ xd.cols = x.cols ∧ 2 * s.dimY ≤ x.cols) ∧
    (∀ e, statesAsTrajectory ts x xd s = .error e → e = .assertion) ∧
    ∀ r, statesAsTrajectory ts x xd s = .ok r → r.ts = ts ∧ r.dim = s.dimY ∧ r.yds.cols = s.dimY ∧
      r.ydds.cols = s.dimY ∧ r.dimMisc = 0 ∧ r.misc.rows.length = ts.length ∧
      RowWise s x.rows xd.rows r.ys.rows r.yds.rows r.ydds.rows ∧
      statesAsMatrices x xd s = .ok (r.ys, r.yds, r.ydds) := by
  by_cases c1 : ts.length = x.rows.length
  swap
  · have e : statesAsTrajectory ts x xd s = .error .assertion := by
      unfold statesAsTrajectory; simp only [ne_eq, c1, not_false_eq_true, if_true]; rfl
    rw [e]
    exact ⟨⟨fun ⟨r, h⟩ => (nomatch h), fun h => absurd h.1.symm c1⟩, fun _ h => by cases h; rfl, fun _ h => (nomatch h)⟩
  by_cases c2 : ts.length = xd.rows.length
  swap
  · have e : statesAsTrajectory ts x xd s = .error .assertion := by
      unfold statesAsTrajectory; simp only [ne_eq, ← c1, c2, not_true_eq_false, not_false_eq_true, if_true, if_false]; rfl
    rw [e]
    exact ⟨⟨fun ⟨r, h⟩ => (nomatch h), fun h => absurd h.2.1.symm c2⟩, fun _ h => by cases h; rfl, fun _ h => (nomatch h)⟩
  by_cases c3 : x.cols = xd.cols
  swap
  · have e : statesAsTrajectory ts x xd s = .error .assertion := by
      unfold statesAsTrajectory; simp only [ne_eq, ← c1, ← c2, c3, not_true_eq_false, not_false_eq_true, if_true, if_false]; rfl
    rw [e]
    exact ⟨⟨fun ⟨r, h⟩ => (nomatch h), fun h => absurd h.2.2.1.symm c3⟩, fun _ h => by cases h; rfl, fun _ h => (nomatch h)⟩
  have e0 : statesAsTrajectory ts x xd s = (do
      let y ← block x (0 * s.dimY + 0) ts.length s.dimY
      let yd ← block xd (0 * s.dimY + 0) ts.length s.dimY
      let zd ← block xd (1 * s.dimY + 0) ts.length s.dimY
      Trajectory.init ts y yd ⟨zd.cols, zd.rows.map fun r => vdivs r s.tau⟩) := by
    unfold statesAsTrajectory
    simp only [ne_eq, ← c1, ← c2, c3, not_true_eq_false, if_false]
  by_cases c4 : 2 * s.dimY ≤ x.cols
  swap
  · have e : statesAsTrajectory ts x xd s = .error .assertion := by
      rw [e0, show block xd (1 * s.dimY + 0) ts.length s.dimY = .error .assertion from block_narrow (by omega)]
      unfold block
      split
      · rfl
      · split <;> rfl
    rw [e]
    exact ⟨⟨fun ⟨r, h⟩ => (nomatch h), fun h => absurd h.2.2.2 c4⟩, fun _ h => by cases h; rfl, fun _ h => (nomatch h)⟩
  have e : statesAsTrajectory ts x xd s = .ok ⟨ts, ⟨s.dimY, x.rows.map fun r => (r.drop (0 * s.dimY + 0)).take s.dimY⟩,
      ⟨s.dimY, xd.rows.map fun r => (r.drop (0 * s.dimY + 0)).take s.dimY⟩,
      ⟨s.dimY, (xd.rows.map fun r => (r.drop (1 * s.dimY + 0)).take s.dimY).map fun r => vdivs r s.tau⟩,
      ⟨0, List.replicate ts.length []⟩⟩ := by
    rw [e0, block_ok c1.symm (by omega), block_ok c2.symm (by omega), block_ok c2.symm (by omega)]
    exact Trajectory.init_ok (by simp [c1]) (by simp [c2]) (by simp [c2]) rfl rfl
  rw [e]
  refine ⟨⟨fun _ => ⟨c1.symm, c2.symm, c3.symm, c4⟩, fun _ => ⟨_, rfl⟩⟩, fun _ h => (nomatch h), fun r h => ?_⟩
  cases h
  refine ⟨rfl, rfl, rfl, rfl, rfl, by simp, rowWise hx hxd (by omega) (by omega) (by omega), ?_⟩
  unfold statesAsMatrices
  dsimp only
  rw [block_ok rfl (by omega), block_ok (by omega) (by omega), block_ok (by omega) (by omega)]
  rfl

/-! ### The same as in Python -/

theorem segs {d : Nat} {x : List ℝ} (hx : x.length = 4 * d + 2) :
    ((x.take (3 * d + 2)).drop (0 * d + 0)).take d = pickAt x (Verif.Dmp.SPRING_Y d) ∧
    ((x.take (3 * d + 2)).drop (1 * d + 0)).take d = pickAt x (Verif.Dmp.SPRING_Z d) := by
  obtain ⟨y, z, g, p, q, cc, sz, rfl⟩ := Verif.Dmp.exists_pack hx
  rw [take_pack sz.csizes, sz.pick_SPRING_Y, sz.pick_SPRING_Z]
  have h1 := sz.csizes.seg_y
  have h2 := sz.csizes.seg_z
  unfold seg at h1 h2
  split at h1
  · cases h1
  split at h2
  · cases h2
  exact ⟨by injection h1, by injection h2⟩

theorem states_same {d : Nat} {c : Dmp} {s : Verif.Dmp} (hd : s.dimY = d) (hc : c.dimY = d) (ht : c.tau = s.tau)
    {ts : List ℝ} {xs xds : List (List ℝ)} (h1 : xs.length = ts.length) (h2 : xds.length = ts.length)
    (l1 : ∀ x ∈ xs, x.length = 4 * d + 2) (l2 : ∀ x ∈ xds, x.length = 4 * d + 2) :
    ∃ r, s.asTrajectory ts xs xds = .ok r ∧
      statesAsTrajectory ts ⟨3 * d + 2, xs.map (List.take (3 * d + 2))⟩ ⟨3 * d + 2, xds.map (List.take (3 * d + 2))⟩ c =
        .ok (Trajectory.ofPy r) := by
  refine ⟨_, Verif.Dmp.asTrajectory_ok s h1 h2, ?_⟩
  unfold statesAsTrajectory
  have a1 : ¬ ts.length ≠ (xs.map (List.take (3 * d + 2))).length := by simp [h1]
  have a2 : ¬ ts.length ≠ (xds.map (List.take (3 * d + 2))).length := by simp [h2]
  simp only [if_neg a1, if_neg a2, ne_eq, not_true_eq_false, if_false, hc]
  have b1 := block_ok (m := ⟨3 * d + 2, xs.map (List.take (3 * d + 2))⟩) (j := 0 * d + 0) (T := ts.length) (n := d)
    (by simp [h1]) (by change 0 * d + 0 + d ≤ 3 * d + 2; omega)
  have b2 := block_ok (m := ⟨3 * d + 2, xds.map (List.take (3 * d + 2))⟩) (j := 0 * d + 0) (T := ts.length) (n := d)
    (by simp [h2]) (by change 0 * d + 0 + d ≤ 3 * d + 2; omega)
  have b3 := block_ok (m := ⟨3 * d + 2, xds.map (List.take (3 * d + 2))⟩) (j := 1 * d + 0) (T := ts.length) (n := d)
    (by simp [h2]) (by change 1 * d + 0 + d ≤ 3 * d + 2; omega)
  rw [b1, b2, b3]
  change Trajectory.init ts _ _ _ = _
  rw [Trajectory.init_ok ?_ ?_ ?_ ?_ ?_]
  rotate_left
  · simp [h1]
  · simp [h2]
  · simp [h2]
  · rfl
  · rfl
  unfold Trajectory.ofPy
  simp only [hd, ht, List.map_map, Option.getD_none]
  have e1 : xs.map ((fun r => (r.drop (0 * d + 0)).take d) ∘ List.take (3 * d + 2)) =
      xs.map fun x => pickAt x (Verif.Dmp.SPRING_Y d) := List.map_congr_left fun x hx => (segs (l1 x hx)).1
  have e2 : xds.map ((fun r => (r.drop (0 * d + 0)).take d) ∘ List.take (3 * d + 2)) =
      xds.map fun x => pickAt x (Verif.Dmp.SPRING_Y d) := List.map_congr_left fun x hx => (segs (l2 x hx)).1
  have e3 : xds.map ((fun r => vdivs r s.tau) ∘ (fun r => (r.drop (1 * d + 0)).take d) ∘ List.take (3 * d + 2)) =
      xds.map fun x => vdivs (pickAt x (Verif.Dmp.SPRING_Z d)) s.tau :=
    List.map_congr_left fun x hx => congrArg (fun v => vdivs v s.tau) (segs (l2 x hx)).2
  rw [e1, e2, e3]

theorem analytical_lengths {s : Verif.Dmp} (w : s.Wf) (hs : s.SameStart) {ts : List ℝ} {b : Bool}
    {sol : Verif.Dmp.Solution} (h : (Verif.Dmp.analytical (some ts) b s).1 = .ok sol) :
    sol.xs.length = ts.length ∧ sol.xds.length = ts.length ∧ (∀ x ∈ sol.xs, x.length = 4 * s.dimY + 2) ∧
      ∀ x ∈ sol.xds, x.length = 4 * s.dimY + 2 := by
  obtain ⟨-, -, -, fa, -, rfl⟩ := (Verif.Dmp.analytical_iff w hs).mp h
  refine ⟨by simp, by simp, fun x hx => ?_, fun x hx => ?_⟩
  · obtain ⟨k, -, rfl⟩ := List.mem_map.mp hx
    exact (Verif.Dmp.xRow_sizes w ts _ k).length
  · obtain ⟨k, -, rfl⟩ := List.mem_map.mp hx
    exact (Verif.Dmp.xdRow_sizes w ts _ k).length

theorem integrate_lengths {d : Nat} {s : Verif.Dmp} (g : Verif.Dmp.Good d s) {ts : List ℝ}
    {rows : List (List ℝ × List ℝ)} (h : (Verif.Dmp.integrate ts .rungeKutta s).1 = .ok rows) :
    rows.length = ts.length ∧ ∀ r ∈ rows, r.1.length = 4 * d + 2 ∧ r.2.length = 4 * d + 2 := by
  obtain ⟨hn, l, -, -⟩ := Verif.Dmp.integrate_rows g h
  obtain ⟨u, hu, -, -⟩ := Verif.Dmp.integrate_run g h
  refine ⟨l, fun r hr => ?_⟩
  obtain ⟨k, hk, rfl⟩ := List.mem_iff_getElem.mp hr
  have hx : (rows[k]).1.length = 4 * d + 2 := by
    have := hu k (by omega)
    rw [Verif.Dmp.good_length g] at this
    simpa [List.getD_eq_getElem?_getD, List.getElem?_eq_getElem hk] using this
  exact ⟨hx, Verif.Dmp.vf_pack_length g hx (Verif.Dmp.integrate_rates g h _ hr)⟩

end Verif.Cpp.Dmp

namespace Verif

open Spec

/-- C104: a Dmp that has been trained in Python and is read by C++ gives the same trajectories. -/
theorem C104_same {d : Nat} {s : Dmp} (h : Deployable d s)
    (hs : ∀ l, s.fas = some l → ∀ fa ∈ l, Cpp.Dmp.Smooth fa) :
    ∃ c, Cpp.Dmp.fromJson s.json = .ok c ∧
    (∀ ts : List ℝ, ts ≠ [] → ts.Pairwise (· ≤ ·) → ∃ sol csol r,
      (Dmp.analytical (some ts) false s).1 = .ok sol ∧ s.asTrajectory ts sol.xs sol.xds = .ok r ∧
      c.analytical ts = .ok csol ∧
      c.statesAsTrajectory ts ⟨c.dimX, csol.xs⟩ ⟨c.dimX, csol.xds⟩ = .ok (Cpp.Trajectory.ofPy r)) ∧
    ∀ ts : List ℝ, ts ≠ [] → ts.Pairwise (· < ·) → ∃ rows crows c' r,
      (Dmp.integrate ts .rungeKutta s).1 = .ok rows ∧ s.asTrajectory ts (rows.map (·.1)) (rows.map (·.2)) = .ok r ∧
      c.run ts = .ok (crows, c') ∧
      c.statesAsTrajectory ts ⟨c.dimX, crows.map (·.1)⟩ ⟨c.dimX, crows.map (·.2)⟩ = .ok (Cpp.Trajectory.ofPy r) := by
  obtain ⟨c, hc, hr, hu⟩ := h.cpp
  have hcm := Cpp.Dmp.reachable_common h.reachable
  obtain ⟨c1, hr1, m⟩ := Cpp.Dmp.read_prepared hcm h.prepared h.pos
  rw [hr] at hr1
  cases hr1
  have hdim : s.dimY = d := hcm.inv.dim
  have sm := m.sameMotions (Cpp.Dmp.read_critical hr) hcm.tau
  have hX : c.dimX = 3 * d + 2 := by rw [m.dimX, hdim]
  have hY : c.dimY = d := by rw [m.dimY, hdim]
  rw [hdim] at sm
  refine ⟨c, hc, fun ts hne hts => ?_, fun ts hne hts => ?_⟩
  · obtain ⟨sol, hsol, -, -⟩ := Dmp.analytical_total h hs (ts := ts) hne
    obtain ⟨l1, l2, l3, l4⟩ := Cpp.Dmp.analytical_lengths m.wf (Dmp.sameStart_of_tau m.springTau) hsol
    rw [hdim] at l3 l4
    obtain ⟨r, e1, e2⟩ := Cpp.Dmp.states_same hdim hY m.tau l1 l2 l3 l4
    refine ⟨sol, _, r, hsol, e1, sm.analytical hts hsol, ?_⟩
    rw [hX]
    exact e2
  · have hf := Cpp.Dmp.forced_of hcm.inv.wf h.prepared (by rw [hdim]; exact h.pos) hs
    obtain ⟨rows, hrows⟩ : ∃ rows, (Dmp.integrate ts .rungeKutta s).1 = .ok rows := by
      cases ts with
      | nil => exact absurd rfl hne
      | cons t0 ts =>
        obtain ⟨rows, s', e⟩ := Cpp.Dmp.integrate_total m hf .rungeKutta t0 ts
        exact ⟨rows, by rw [e]⟩
    obtain ⟨l1, l2⟩ := Cpp.Dmp.integrate_lengths hcm.inv.good hrows
    obtain ⟨c', e⟩ := sm.run hts (Prod.ext hrows rfl)
    obtain ⟨r, e1, e2⟩ := Cpp.Dmp.states_same (ts := ts) (xs := rows.map (·.1)) (xds := rows.map (·.2)) hdim hY m.tau
      (by simp [l1]) (by simp [l1])
      (fun x hx => by obtain ⟨q, hq, rfl⟩ := List.mem_map.mp hx; exact (l2 q hq).1)
      (fun x hx => by obtain ⟨q, hq, rfl⟩ := List.mem_map.mp hx; exact (l2 q hq).2)
    refine ⟨rows, _, c', r, hrows, e1, e, ?_⟩
    rw [hX]
    simpa [List.map_map, Function.comp_def] using e2

/-- The hypotheses of C104 can be met; numbers of rows that differ and narrow matrices are rejected. -/
example : ∃ (s : Dmp) (c : Cpp.Dmp), Deployable 2 s ∧ (∀ l, s.fas = some l → ∀ fa ∈ l, Cpp.Dmp.Smooth fa) ∧
    Cpp.Dmp.fromJson s.json = .ok c ∧ (⟨4, [[1, 2, 3, 4], [5, 6, 7, 8]]⟩ : Arr2 ℝ).Wf ∧
    (∃ r, c.statesAsTrajectory [0, 1] ⟨4, [[1, 2, 3, 4], [5, 6, 7, 8]]⟩ ⟨4, [[1, 2, 3, 4], [5, 6, 7, 8]]⟩ = .ok r ∧
      r.ys.rows.getD 1 [] = [5, 6]) ∧
    c.statesAsTrajectory [0] ⟨4, [[1, 2, 3, 4], [5, 6, 7, 8]]⟩ ⟨4, [[1, 2, 3, 4], [5, 6, 7, 8]]⟩ = .error .assertion ∧
    c.statesAsMatrices ⟨2, [[1, 2]]⟩ ⟨3, [[1, 2, 3]]⟩ = .error .assertion := by
  obtain ⟨s, h, hs, -⟩ := TunableDmp.example_robot
  obtain ⟨c, hc, hr, hu⟩ := h.cpp
  obtain ⟨c1, hr1, m⟩ := Cpp.Dmp.read_prepared (Cpp.Dmp.reachable_common h.reachable) h.prepared h.pos
  rw [hr] at hr1
  cases hr1
  have hd : c.dimY = 2 := by rw [m.dimY, h.inv.dim]
  refine ⟨s.dmp, c, h, fun l hl fa hfa => (hs l hl fa hfa).1, hc, ?_,
    ⟨⟨[0, 1], ⟨2, [[1, 2], [5, 6]]⟩, ⟨2, [[1, 2], [5, 6]]⟩, ⟨2, [vdivs [3, 4] c.tau, vdivs [7, 8] c.tau]⟩, ⟨0, [[], []]⟩⟩,
      ?_, rfl⟩, ?_, ?_⟩
  · intro r hr
    simp only [List.mem_cons, List.not_mem_nil, or_false] at hr
    rcases hr with rfl | rfl <;> rfl
  · unfold Cpp.Dmp.statesAsTrajectory Cpp.block
    rw [hd]
    rfl
  · rfl
  · unfold Cpp.Dmp.statesAsMatrices Cpp.block
    rw [hd]
    rfl

end Verif
