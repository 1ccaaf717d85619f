import Verif.Model.Arm2D
import Verif.Spec.Arm
import Verif.Props.TaskSolverDmp
import Verif.Props.TaskViapoint
import Verif.Props.DmpConverges
import Mathlib.Analysis.InnerProductSpace.PiL2
import Mathlib.Analysis.Complex.Trigonometric

/- The planar arm: positions of links (C76), rollouts and their evaluation (C77). -/

set_option autoImplicit false

namespace Verif

namespace Arm2D

open Finset Spec

noncomputable section

theorem linkLoop_short : ∀ (angles lengths : List ℝ) (sum x y : ℝ), lengths.length < angles.length →
    linkLoop sum x y angles lengths = .error .indexError := by
  intro angles
  induction angles with
  | nil => intro lengths sum x y h; simp at h
  | cons a angles ih =>
    intro lengths sum x y h
    cases lengths with
    | nil => rfl
    | cons l lengths =>
      unfold linkLoop
      simp only
      rw [ih lengths _ _ _ (by simpa using h)]

theorem linkLoop_ok : ∀ (angles lengths : List ℝ) (sum x y : ℝ), angles.length ≤ lengths.length →
    ∃ ps, linkLoop sum x y angles lengths = .ok ps ∧ ps.length = angles.length ∧
      ∀ k, k < angles.length → ps.getD k (0, 0) =
        (x + ∑ i ∈ range (k + 1), lengths.getD i 0 * Real.cos (sum + direction angles i),
          y + ∑ i ∈ range (k + 1), lengths.getD i 0 * Real.sin (sum + direction angles i)) := by
  intro angles
  induction angles with
  | nil => intro lengths sum x y _; exact ⟨[], rfl, rfl, fun k hk => by simp at hk⟩
  | cons a angles ih =>
    intro lengths sum x y h
    cases lengths with
    | nil => simp at h
    | cons l lengths =>
      obtain ⟨ps, h1, h2, h3⟩ := ih lengths (sum + a) (x + Real.cos (sum + a) * l) (y + Real.sin (sum + a) * l)
        (by simpa using h)
      refine ⟨_, by unfold linkLoop; simp only; rw [h1], by simp [h2], fun k hk => ?_⟩
      have d0 : direction (a :: angles) 0 = a := by simp [direction]
      have ds : ∀ i, direction (a :: angles) (i + 1) = a + direction angles i := fun i => by
        unfold direction
        rw [Finset.sum_range_succ']
        simp [add_comm]
      cases k with
      | zero => simp [d0, mul_comm]
      | succ k =>
        rw [List.getD_cons_succ, h3 k (by simpa using hk), Finset.sum_range_succ' _ (k + 1),
          Finset.sum_range_succ' _ (k + 1)]
        simp only [List.getD_cons_succ, List.getD_cons_zero, d0, ds]
        refine Prod.ext ?_ ?_ <;> simp only
        · rw [add_assoc]
          congr 1
          rw [add_comm, mul_comm (Real.cos (sum + a))]
          congr 1
          exact Finset.sum_congr rfl fun i _ => by rw [add_assoc]
        · rw [add_assoc]
          congr 1
          rw [add_comm, mul_comm (Real.sin (sum + a))]
          congr 1
          exact Finset.sum_congr rfl fun i _ => by rw [add_assoc]

/-! ### C76 -/

/-- C76: the positions for one row of angles. There is one more position than there are joints; the call
fails exactly if there are fewer link lengths than joints. -/
theorem C76_positions (angles lengths : List ℝ) :
    (lengths.length < angles.length → linkPositions angles lengths = .error .indexError) ∧
    (angles.length ≤ lengths.length → ∃ ps, linkPositions angles lengths = .ok ps ∧
      ps = (List.range (angles.length + 1)).map (joint lengths angles)) := by
  unfold linkPositions
  refine ⟨fun h => by rw [linkLoop_short _ _ _ _ _ h], fun h => ?_⟩
  obtain ⟨ps, h1, h2, h3⟩ := linkLoop_ok angles lengths 0 0 0 h
  refine ⟨_, by rw [h1], ?_⟩
  refine ext_getD (0, 0) (by simp [h2]) fun i hi => ?_
  have hi : i < angles.length + 1 := by simpa [h2] using hi
  rw [getD_range_map hi]
  cases i with
  | zero => simp [joint]
  | succ i =>
    rw [List.getD_cons_succ, h3 i (by omega)]
    simp [joint]

theorem flatMap_getD : ∀ (ps : List (ℝ × ℝ)) (k : Nat), k < ps.length →
    (ps.flatMap fun p => [p.1, p.2]).getD (2 * k) 0 = (ps.getD k (0, 0)).1 ∧
    (ps.flatMap fun p => [p.1, p.2]).getD (2 * k + 1) 0 = (ps.getD k (0, 0)).2 := by
  intro ps
  induction ps with
  | nil => intro k hk; simp at hk
  | cons p ps ih =>
    intro k hk
    cases k with
    | zero => exact ⟨rfl, rfl⟩
    | succ k =>
      rw [List.flatMap_cons, Nat.mul_add, Nat.mul_one, List.getD_cons_succ]
      exact ih k (by simpa using hk)

theorem flatMap_length (ps : List (ℝ × ℝ)) : (ps.flatMap fun p => [p.1, p.2]).length = 2 * ps.length := by
  induction ps with
  | nil => rfl
  | cons p ps ih => simp [ih]; omega

/-- The row for the angles of one time step. -/
def linkRow (lengths angles : List ℝ) : List ℝ :=
  ((List.range (angles.length + 1)).map (joint lengths angles)).flatMap fun p => [p.1, p.2]

theorem linkRow_length (lengths angles : List ℝ) : (linkRow lengths angles).length = 2 * (angles.length + 1) := by
  unfold linkRow
  rw [flatMap_length, List.length_map, List.length_range]

theorem anglesToLinkPositions_ok {angles : Arr2 ℝ} {lengths : List ℝ}
    (h : ∀ a ∈ angles.rows, a.length ≤ lengths.length) : anglesToLinkPositions angles lengths =
      .ok ⟨2 * (angles.cols + 1), angles.rows.map (linkRow lengths)⟩ := by
  unfold anglesToLinkPositions
  rw [Fa.mapM_ok_of (g := fun a => (List.range (a.length + 1)).map (joint lengths a)) fun a ha => by
    obtain ⟨ps, h1, rfl⟩ := (C76_positions a lengths).2 (h a ha)
    exact h1]
  change Except.ok _ = _
  rw [List.map_map]
  rfl

/-- C76: the rows are x_0, y_0, x_1, y_1, ... of the joints; the last two entries are the position of the end
effector. -/
theorem C76_matrix (angles : Arr2 ℝ) (lengths : List ℝ) (w : angles.Wf) (h : angles.cols ≤ lengths.length) :
    ∃ m, anglesToLinkPositions angles lengths = .ok m ∧ m.Wf ∧ m.cols = 2 * (angles.cols + 1) ∧
      m.rows.length = angles.rows.length ∧ ∀ i, i < angles.rows.length → ∀ k, k ≤ angles.cols →
        (m.rows.getD i []).getD (2 * k) 0 = (joint lengths (angles.rows.getD i []) k).1 ∧
        (m.rows.getD i []).getD (2 * k + 1) 0 = (joint lengths (angles.rows.getD i []) k).2 := by
  refine ⟨_, anglesToLinkPositions_ok fun a ha => by rw [w a ha]; exact h, ?_, rfl, by simp, fun i hi k hk => ?_⟩
  · intro r hr
    obtain ⟨a, ha, rfl⟩ := List.mem_map.mp hr
    rw [linkRow_length, w a ha]
  · rw [getD_map' hi [] []]
    have hl : (angles.rows.getD i []).length = angles.cols := by
      rw [getD_lt hi]
      exact w _ (List.getElem_mem _)
    obtain ⟨h1, h2⟩ := flatMap_getD ((List.range (angles.cols + 1)).map (joint lengths (angles.rows.getD i []))) k
      (by simp; omega)
    unfold linkRow
    rw [hl, h1, h2, getD_range_map (by omega)]
    exact ⟨rfl, rfl⟩

/-- C76: links have the given lengths, whatever the angles. -/
theorem C76_link_length (lengths angles : List ℝ) (k : Nat) :
    dist2 (joint lengths angles (k + 1)) (joint lengths angles k) = |lengths.getD k 0| := by
  unfold dist2 joint
  simp only [Finset.sum_range_succ, add_sub_cancel_left]
  rw [show ∀ a c s : ℝ, (a * c) ^ 2 + (a * s) ^ 2 = a ^ 2 * (s ^ 2 + c ^ 2) by intros; ring,
    Real.sin_sq_add_cos_sq, mul_one, Real.sqrt_sq_eq_abs]

/-- C76: no joint is farther from the base than the arm is long. -/
theorem C76_reach (lengths angles : List ℝ) (k : Nat) :
    dist2 (joint lengths angles k) (0, 0) ≤ ∑ i ∈ range k, |lengths.getD i 0| := by
  have key : ∀ k, dist2 (joint lengths angles k) (0, 0) =
      ‖∑ i ∈ range k, (lengths.getD i 0 : ℂ) * Complex.exp (direction angles i * Complex.I)‖ := by
    intro k
    have e : (∑ i ∈ range k, (lengths.getD i 0 : ℂ) * Complex.exp (direction angles i * Complex.I)) =
        ⟨(joint lengths angles k).1, (joint lengths angles k).2⟩ := by
      unfold joint
      refine Complex.ext ?_ ?_
      · rw [Complex.re_sum]
        refine Finset.sum_congr rfl fun i _ => ?_
        rw [Complex.re_ofReal_mul, Complex.exp_ofReal_mul_I_re]
      · rw [Complex.im_sum]
        refine Finset.sum_congr rfl fun i _ => ?_
        rw [Complex.im_ofReal_mul, Complex.exp_ofReal_mul_I_im]
    rw [e, Complex.norm_def, Complex.normSq_mk]
    unfold dist2
    congr 1
    ring
  rw [key]
  refine (norm_sum_le _ _).trans (le_of_eq (Finset.sum_congr rfl fun i _ => ?_))
  rw [norm_mul, Complex.norm_exp_ofReal_mul_I, mul_one, Complex.norm_real, Real.norm_eq_abs]

/-- C76: moving a joint does not move the joints before it, nor itself. -/
theorem C76_bend (lengths angles angles' : List ℝ) (k : Nat)
    (h : ∀ i, i < k → angles.getD i 0 = angles'.getD i 0) :
    ∀ i, i ≤ k → joint lengths angles i = joint lengths angles' i := by
  intro i hi
  have hd : ∀ j, j < i → direction angles j = direction angles' j := fun j hj =>
    Finset.sum_congr rfl fun l hl => h l (by have := Finset.mem_range.mp hl; omega)
  unfold joint
  exact congrArg₂ Prod.mk (Finset.sum_congr rfl fun j hj => by rw [hd j (Finset.mem_range.mp hj)])
    (Finset.sum_congr rfl fun j hj => by rw [hd j (Finset.mem_range.mp hj)])

/-- C76: moving the first joint rotates the arm. -/
theorem C76_rotate (lengths angles : List ℝ) (first turn : ℝ) (k : Nat) :
    joint lengths ((first + turn) :: angles) k = rotate turn (joint lengths (first :: angles) k) := by
  have hd : ∀ j, direction ((first + turn) :: angles) j = turn + direction (first :: angles) j := fun j => by
    unfold direction
    rw [Finset.sum_range_succ', Finset.sum_range_succ']
    simp only [List.getD_cons_succ, List.getD_cons_zero]
    ring
  unfold joint rotate
  simp only [hd, Real.cos_add, Real.sin_add, Finset.mul_sum]
  rw [← Finset.sum_sub_distrib, ← Finset.sum_add_distrib]
  exact congrArg₂ Prod.mk (Finset.sum_congr rfl fun j _ => by ring) (Finset.sum_congr rfl fun j _ => by ring)

/-- A stretched arm with two links, and the same arm with a right angle at the elbow. -/
example : joint [1, 2] [0, 0] 2 = (3, 0) ∧ joint [1, 2] [0, Real.pi / 2] 2 = (1, 2) := by
  simp [joint, direction, Finset.sum_range_succ]
  norm_num

end

end Arm2D

/-! ### C77: the solver -/

namespace ArmSolver

open Spec

/-- C77: without link lengths the constructor fails. -/
theorem C77_default (r : Nat) (dt factor : ℝ) (mem : Memory) :
    ∃ e, (init r dt factor none mem).1 = .error e := by
  unfold init
  rw [PyM.bind_apply]
  rcases h : TaskSolverDmp.init r dt factor mem with ⟨x, t⟩
  cases x with
  | error e => exact ⟨e, rfl⟩
  | ok b => exact ⟨_, rfl⟩

/-- The constructor. -/
theorem init_run {r : Nat} {dt factor : ℝ} {l : Option (List ℝ)} {mem mem' : Memory} {solver : ArmSolver}
    (h : init r dt factor l mem = (.ok solver, mem')) : ∃ s, mem.dmps[r]? = some s ∧ l ≠ none ∧ s.dimY ≠ 0 ∧
      TaskSolverDmp.init r dt factor mem = (.ok solver.base, mem') ∧
      solver.linkLengths = List.replicate s.dimY (1 / (s.dimY : ℝ)) := by
  unfold init at h
  rw [PyM.bind_apply] at h
  rcases e : TaskSolverDmp.init r dt factor mem with ⟨x, t⟩
  rw [e] at h
  cases x with
  | error e => cases h
  | ok b =>
    obtain ⟨s, h1, -, rfl, -⟩ := TaskSolverDmp.init_run e
    have h1' : (⟨mem.dmps ++ [s]⟩ : Memory).dmps[r]? = some s := by
      obtain ⟨hl, -⟩ := List.getElem?_eq_some_iff.mp h1
      simp only
      rw [List.getElem?_append_left hl, h1]
    refine ⟨s, h1, ?_⟩
    cases l with
    | none => cases h
    | some l =>
      simp only at h
      rw [PyM.bind_apply, Memory.onDmp_run h1'] at h
      simp only [PyM.reads_apply] at h
      by_cases hn : s.dimY = 0
      · rw [if_pos hn] at h; cases h
      · rw [if_neg hn, if_neg (by simp)] at h
        have hs : (mem.dmps ++ [s]).set r s = mem.dmps ++ [s] := Memory.set_self h1'
        rw [hs] at h
        cases h
        exact ⟨(fun h => nomatch h), hn, rfl, rfl⟩

/-- C77, the full statement about lengths: links have the lengths that were passed to the constructor. -/
def C77_lengths_statement : Prop :=
  ∀ (mem mem' : Memory) (r : Nat) (dt factor : ℝ) (l : List ℝ) (solver : ArmSolver) (s : Dmp),
    mem.dmps[r]? = some s → l.length = s.dimY → init r dt factor (some l) mem = (.ok solver, mem') →
    solver.linkLengths = l

/-- C77: what the constructor does instead: for any list of lengths, also one of a wrong size, the links get
the same length, and their sum is 1. -/
theorem C77_lengths_partial (mem mem' : Memory) (r : Nat) (dt factor : ℝ) (l : List ℝ) (solver : ArmSolver)
    (s : Dmp) (hr : mem.dmps[r]? = some s) (h : init r dt factor (some l) mem = (.ok solver, mem')) :
    solver.linkLengths.length = s.dimY ∧ (∀ x ∈ solver.linkLengths, x = 1 / (s.dimY : ℝ)) ∧
      solver.linkLengths.sum = 1 := by
  obtain ⟨s', h1, -, hn, -, h2⟩ := init_run h
  cases hr.symm.trans h1
  rw [h2]
  refine ⟨by simp, fun x hx => List.eq_of_mem_replicate hx, ?_⟩
  rw [List.sum_replicate, nsmul_eq_mul]
  field_simp

/-- C77: when the constructor succeeds. -/
theorem C77_init (mem : Memory) (r : Nat) (dt factor : ℝ) (l : Option (List ℝ)) :
    (∃ solver, (init r dt factor l mem).1 = .ok solver) ↔
      l ≠ none ∧ dt ≠ 0 ∧ ∃ s, mem.dmps[r]? = some s ∧ s.dimY ≠ 0 := by
  constructor
  · rintro ⟨solver, h⟩
    obtain ⟨s, h1, h2, h3, h4, -⟩ := init_run (mem' := (init r dt factor l mem).2) (Prod.ext h rfl)
    obtain ⟨-, -, -, -, h5⟩ := TaskSolverDmp.init_run h4
    exact ⟨h2, h5, s, h1, h3⟩
  · rintro ⟨h2, h5, s, h1, h3⟩
    cases l with
    | none => exact absurd rfl h2
    | some l =>
      have e : TaskSolverDmp.init r dt factor mem =
          (.ok ⟨mem.dmps.length, s.tau * factor, ⌊s.tau * factor / dt⌋ + 1⟩, ⟨mem.dmps ++ [s]⟩) := by
        have hc : Memory.deepcopy r mem = (.ok mem.dmps.length, ⟨mem.dmps ++ [s]⟩) := by
          change (match mem.dmps[r]? with
            | none => _
            | some s => _) = _
          rw [h1]
        have h1' : (⟨mem.dmps ++ [s]⟩ : Memory).dmps[r]? = some s := by
          obtain ⟨hl, -⟩ := List.getElem?_eq_some_iff.mp h1
          simp only
          rw [List.getElem?_append_left hl, h1]
        have hs : (mem.dmps ++ [s]).set r s = mem.dmps ++ [s] := Memory.set_self h1'
        unfold TaskSolverDmp.init
        rw [PyM.bind_ok hc, PyM.bind_apply, Memory.onDmp_run h1']
        simp only [PyM.reads_apply, if_neg h5, hs]
        rfl
      have h1' : (⟨mem.dmps ++ [s]⟩ : Memory).dmps[r]? = some s := by
        obtain ⟨hl, -⟩ := List.getElem?_eq_some_iff.mp h1
        simp only
        rw [List.getElem?_append_left hl, h1]
      unfold init
      rw [PyM.bind_ok e]
      simp only
      rw [PyM.bind_apply, Memory.onDmp_run h1']
      simp only [PyM.reads_apply, if_neg h3]
      rw [if_neg (by simp)]
      exact ⟨_, rfl⟩

theorem C77_lengths_refuted : ¬ C77_lengths_statement := by
  intro h
  obtain ⟨s, hs, hr, -, -⟩ := Dmp.C19_example
  have hd : s.dimY = 1 := by
    obtain ⟨dflt, -, e⟩ := Dmp.init_eq hs
    rw [e]
    rfl
  obtain ⟨solver, h1⟩ := (C77_init ⟨[s]⟩ 0 1 1 (some [2])).mpr ⟨(fun h => nomatch h), one_ne_zero, s, rfl, by omega⟩
  have h2 := h ⟨[s]⟩ _ 0 1 1 [2] solver s rfl (by rw [hd]; rfl) (Prod.ext h1 rfl)
  have h3 := (C77_lengths_partial ⟨[s]⟩ _ 0 1 1 [2] solver s rfl (Prod.ext h1 rfl)).2.2
  rw [h2] at h3
  norm_num at h3

/-! ### C77: rollouts -/

/-- The cost-relevant variables of the arm, from those of its joints. -/
noncomputable def extend (lengths : List ℝ) (m : Arr2 ℝ) : Except PyErr (Arr2 ℝ) := do
  let n := (m.cols - 1) / 3
  let links ← Arm2D.anglesToLinkPositions ⟨n, TaskViapoint.columns 1 (1 + n) m⟩ lengths
  Arm2D.columnStack m links

theorem asMatrix_rows {s : Trajectory ℝ} (hs : s.Shape) (hm : s.misc = none) : s.asMatrix = .ok
    ⟨1 + 3 * s.ys.cols, (List.range s.ts.length).map fun i =>
      s.ts.getD i 0 :: (s.ys.rows.getD i [] ++ s.yds.rows.getD i [] ++ s.ydds.rows.getD i [])⟩ := by
  unfold Trajectory.asMatrix
  rw [if_pos ⟨hs.ys, hs.yds, hs.ydds⟩, hm]
  simp only [hs.ydsShape, hs.yddsShape]
  congr 2
  omega

theorem row_length {n : Nat} {l : List (List ℝ)} (h : ∀ r ∈ l, r.length = n) {i : Nat} (hi : i < l.length) :
    (l.getD i []).length = n := by
  rw [getD_lt hi]
  exact h _ (List.getElem_mem _)

/-- The angles are recovered from the matrix. -/
theorem extend_matrix {s : Trajectory ℝ} (hs : s.Shape) (hm : s.misc = none) {m : Arr2 ℝ} (h : s.asMatrix = .ok m)
    (lengths : List ℝ) : extend lengths m = (do
      let links ← Arm2D.anglesToLinkPositions s.ys lengths
      Arm2D.columnStack m links) := by
  rw [asMatrix_rows hs hm] at h
  obtain rfl := Except.ok.inj h
  unfold extend
  have hn : (1 + 3 * s.ys.cols - 1) / 3 = s.ys.cols := by omega
  simp only [hn]
  have : TaskViapoint.columns 1 (1 + s.ys.cols) ⟨1 + 3 * s.ys.cols, (List.range s.ts.length).map fun i =>
      s.ts.getD i 0 :: (s.ys.rows.getD i [] ++ s.yds.rows.getD i [] ++ s.ydds.rows.getD i [])⟩ = s.ys.rows := by
    unfold TaskViapoint.columns
    refine ext_getD [] (by simp [hs.ys]) fun i hi => ?_
    have hi : i < s.ts.length := by simpa using hi
    rw [List.map_map, getD_range_map hi]
    have := (TaskViapoint.columns_take (i := i) (t := s.ts.getD i 0) (d := [])
      (row_length hs.ysCols (by rw [hs.ys]; exact hi)) (row_length hs.ydsCols (by rw [hs.yds]; exact hi))
      (row_length hs.yddsCols (by rw [hs.ydds]; exact hi))).1
    rw [List.append_nil] at this
    exact this
  rw [this]

theorem lift_bind_lift {σ α β : Type} (e : Except PyErr α) (f : α → Except PyErr β) :
    ((PyM.lift e : PyM σ α) >>= fun a => PyM.lift (f a)) = PyM.lift (e >>= f) := by
  cases e <;> rfl

/-- A trajectory of a Dmp has the right shape. -/
theorem asTrajectory_shape {s : Dmp} {ts : List ℝ} {xs xds : List (List ℝ)} {traj : Trajectory ℝ}
    (h : s.asTrajectory ts xs xds = .ok traj) : traj.Shape ∧ traj.misc = none := by
  have wf : ∀ (l : List (List ℝ)) (f : List ℝ → List ℝ), (∀ x, (f x).length = s.dimY) →
      (Arr.two ⟨s.dimY, l.map f⟩ : Arr ℝ).Wf := fun l f hf r hr => by
    obtain ⟨x, -, rfl⟩ := List.mem_map.mp hr
    exact hf x
  have hp : ∀ x : List ℝ, (pickAt x (Dmp.SPRING_Y s.dimY)).length = s.dimY := fun x => by
    rw [length_pick]; simp [Dmp.SPRING_Y]
  have hp' : ∀ x : List ℝ, (pickAt x (Dmp.SPRING_Z s.dimY)).length = s.dimY := fun x => by
    rw [length_pick]; simp [Dmp.SPRING_Z]
  unfold Dmp.asTrajectory at h
  refine ⟨Trajectory.init_shape h (wf _ _ hp) ?_ ?_ (fun _ h => nomatch h), ?_⟩
  · rintro _ ⟨⟩
    exact wf _ _ hp
  · rintro _ ⟨⟩
    exact wf _ _ fun x => by simp [hp']
  · unfold Trajectory.init at h
    simp only at h
    by_cases hn : ts.length ≠ (Arr.two ⟨s.dimY, xs.map fun x => pickAt x (Dmp.SPRING_Y s.dimY)⟩ : Arr ℝ).len
    · rw [if_pos hn] at h; cases h
    · rw [if_neg hn] at h
      obtain ⟨_, -, h⟩ := except_bind_ok h
      obtain ⟨_, -, h⟩ := except_bind_ok h
      obtain ⟨_, -, h⟩ := except_bind_ok h
      cases h
      rfl

/-- Rollouts of the arm are rollouts of the joints, with the positions of the links as further columns. -/
theorem performRollout_eq (solver : ArmSolver) (sample : List ℝ) : performRollout solver sample =
    (do let m ← TaskSolverDmp.performRollout solver.base sample
        PyM.lift (extend solver.linkLengths m)) := by
  unfold performRollout TaskSolverDmp.performRollout performRolloutDmp TaskSolverDmp.performRolloutDmp
  simp only [bind_assoc]
  refine bind_congr fun _ => bind_congr fun ts => bind_congr fun sol => bind_congr fun dmp => ?_
  cases e : dmp.asTrajectory ts sol.xs sol.xds with
  | error er => rfl
  | ok traj =>
    simp only [PyM.lift_ok_bind]
    obtain ⟨hs, hm⟩ := asTrajectory_shape e
    have h1 := asMatrix_rows hs hm
    rw [h1]
    simp only [PyM.lift_ok_bind]
    rw [lift_bind_lift, extend_matrix hs hm h1]

/-- C77: the result of a rollout, in terms of rollouts of the joints (C29): to each row, the positions of the
links for the joint angles in the row are appended. -/
theorem C77_rollout (mem mem' : Memory) (r : Nat) (dt factor : ℝ) (l : Option (List ℝ)) (solver : ArmSolver)
    (s : Dmp) (hr : mem.dmps[r]? = some s) (h : init r dt factor l mem = (.ok solver, mem'))
    (sample : List ℝ) (mem1 : Memory) :
    ∀ m0 mem2, TaskSolverDmp.performRollout solver.base sample mem1 = (.ok m0, mem2) →
      m0.cols = 1 + 3 * s.dimY → m0.Wf →
      ∃ m, performRollout solver sample mem1 = (.ok m, mem2) ∧ m.Wf ∧ m.cols = 1 + 3 * s.dimY + 2 * (s.dimY + 1) ∧
        m.rows = m0.rows.map fun row => row ++ Arm2D.linkRow solver.linkLengths ((row.take (1 + s.dimY)).drop 1) := by
  obtain ⟨s', h1, -, -, -, h2⟩ := init_run h
  cases hr.symm.trans h1
  intro m0 mem2 h3 hc hw
  have hn : (m0.cols - 1) / 3 = s.dimY := by omega
  have hrow : ∀ row ∈ m0.rows, ((row.take (1 + s.dimY)).drop 1).length = s.dimY := fun row hrow => by
    rw [List.length_drop, List.length_take, hw row hrow, hc]
    omega
  have hl : solver.linkLengths.length = s.dimY := by rw [h2]; simp
  have e : extend solver.linkLengths m0 = .ok ⟨m0.cols + 2 * (s.dimY + 1), List.zipWith (· ++ ·) m0.rows
      ((TaskViapoint.columns 1 (1 + s.dimY) m0).map (Arm2D.linkRow solver.linkLengths))⟩ := by
    unfold extend
    simp only [hn]
    rw [Arm2D.anglesToLinkPositions_ok (by
      intro a ha
      obtain ⟨row, hrow', rfl⟩ := List.mem_map.mp ha
      rw [hrow row hrow', hl])]
    change Arm2D.columnStack _ _ = _
    unfold Arm2D.columnStack
    rw [if_pos (by simp [TaskViapoint.columns])]
  refine ⟨_, by rw [performRollout_eq, PyM.bind_ok h3, e]; rfl, ?_, by simp only [hc], ?_⟩
  · intro row hrow'
    simp only at hrow'
    unfold TaskViapoint.columns at hrow'
    rw [List.map_map, List.zipWith_map_right, List.zipWith_self] at hrow'
    obtain ⟨row0, h4, rfl⟩ := List.mem_map.mp hrow'
    simp only [Function.comp_apply]
    rw [List.length_append, hw row0 h4, Arm2D.linkRow_length, hrow row0 h4]
  · simp only
    unfold TaskViapoint.columns
    rw [List.map_map, List.zipWith_map_right, List.zipWith_self]
    rfl

/-- C77: as for rollouts of the joints, the result does not depend on what has happened before (C29). -/
theorem C77_same_result (mem mem' : Memory) (r : Nat) (dt factor : ℝ) (l : Option (List ℝ)) (solver : ArmSolver)
    (s : Dmp) (hr : mem.dmps[r]? = some s) (w : s.Wf) (h : init r dt factor l mem = (.ok solver, mem'))
    (history : List TaskSolverDmp.Event) (hf : ∀ e ∈ history, e.Fair solver.base) (sample : List ℝ) :
    (performRollout solver sample (TaskSolverDmp.after solver.base history mem')).1 =
      (performRollout solver sample mem').1 := by
  obtain ⟨s', h1, -, -, h2, -⟩ := init_run h
  have key := TaskSolverDmp.C29_same_result mem mem' r dt factor solver.base s hr w h2 history hf sample
  rw [performRollout_eq, PyM.bind_apply, PyM.bind_apply]
  rcases e : TaskSolverDmp.performRollout solver.base sample (TaskSolverDmp.after solver.base history mem') with
    ⟨x, t⟩
  rcases e' : TaskSolverDmp.performRollout solver.base sample mem' with ⟨x', t'⟩
  rw [e, e'] at key
  simp only at key
  subst key
  cases x <;> rfl

end ArmSolver

/-! ### C77: the task -/

namespace ArmTask

open Finset

/-- C77: the constructor. -/
theorem C77_task (n : Nat) (viapoint : List ℝ) (o : TaskViapoint.Options) (t : ArmTask) :
    init n viapoint o = .ok t ↔ TaskViapoint.init viapoint o = .ok t.task ∧ t.nDofs = n := by
  unfold init
  cases e : TaskViapoint.init viapoint o with
  | error er => exact ⟨(fun h => nomatch h), fun h => nomatch h.1⟩
  | ok task =>
    constructor
    · intro h
      cases h
      exact ⟨rfl, rfl⟩
    · rintro ⟨h1, h2⟩
      cases h1
      rw [← h2]
      rfl

/-- C77: a rollout with another number of joints is rejected. -/
theorem C77_reject (t : ArmTask) (m : Arr2 ℝ) (sample : List ℝ)
    (h : m.cols ≠ 1 + 3 * t.nDofs + 2 * (t.nDofs + 1)) : t.evaluateRollout m sample = .error .runtimeError := by
  unfold evaluateRollout
  simp only
  rw [if_pos (by omega)]

/-- C77: what is evaluated: the positions of the end effector, which are the ends of the last links, and the
accelerations of the joints. -/
theorem C77_evaluate (t : ArmTask) (lengths : List ℝ) (s : Trajectory ℝ) (hs : s.Shape) (hn : s.dim = t.nDofs)
    (hm : s.misc = none) (m0 m : Arr2 ℝ) (h0 : s.asMatrix = .ok m0) (hl : lengths.length = t.nDofs)
    (h : ArmSolver.extend lengths m0 = .ok m) (sample : List ℝ) :
    t.evaluateRollout m sample = t.task.evaluateLocal s.ts (s.ys.rows.map fun angles =>
      [(Spec.joint lengths angles t.nDofs).1, (Spec.joint lengths angles t.nDofs).2]) s.ydds.rows sample := by
  have hd : s.ys.cols = t.nDofs := hs.dim ▸ hn
  rw [ArmSolver.extend_matrix hs hm h0] at h
  rw [ArmSolver.asMatrix_rows hs hm] at h0
  obtain rfl := Except.ok.inj h0
  rw [Arm2D.anglesToLinkPositions_ok (fun a ha => by rw [hs.ysCols a ha, hl, hd])] at h
  change Arm2D.columnStack _ _ = _ at h
  unfold Arm2D.columnStack at h
  rw [if_pos (by simp [hs.ys])] at h
  obtain rfl := Except.ok.inj h
  have hrows : List.zipWith (· ++ ·) ((List.range s.ts.length).map fun i =>
      s.ts.getD i 0 :: (s.ys.rows.getD i [] ++ s.yds.rows.getD i [] ++ s.ydds.rows.getD i []))
      (s.ys.rows.map (Arm2D.linkRow lengths)) = (List.range s.ts.length).map fun i =>
      (s.ts.getD i 0 :: (s.ys.rows.getD i [] ++ s.yds.rows.getD i [] ++ s.ydds.rows.getD i [])) ++
        Arm2D.linkRow lengths (s.ys.rows.getD i []) := by
    refine ext_getD [] (by simp [hs.ys]) fun i hi => ?_
    have hi : i < s.ts.length := by simpa [hs.ys] using hi
    rw [getD_zipWith' (by simpa using hi) (by simp [hs.ys, hi]) [] [] [], getD_range_map hi, getD_range_map hi,
      getD_map' (by rw [hs.ys]; exact hi) [] []]
  unfold evaluateRollout
  simp only [hrows, hd]
  rw [if_neg (by omega)]
  unfold TaskViapoint.columns
  simp only [List.map_map]
  congr 1
  · refine ext_getD 0 (by simp) fun i hi => ?_
    have hi : i < s.ts.length := by simpa using hi
    rw [getD_range_map hi]
    rfl
  · refine ext_getD [] (by simp [hs.ys]) fun i hi => ?_
    have hi : i < s.ts.length := by simpa using hi
    have l1 := ArmSolver.row_length hs.ysCols (i := i) (by rw [hs.ys]; exact hi)
    have l2 := ArmSolver.row_length hs.ydsCols (i := i) (by rw [hs.yds]; exact hi)
    have l3 := ArmSolver.row_length hs.yddsCols (i := i) (by rw [hs.ydds]; exact hi)
    rw [getD_range_map hi, getD_map' (by rw [hs.ys]; exact hi) [] []]
    simp only [Function.comp_apply]
    have l4 := Arm2D.linkRow_length lengths (s.ys.rows.getD i [])
    rw [l1, hd] at l4
    rw [List.take_of_length_le (by simp only [List.length_append, List.length_cons]; omega)]
    have e : Arm2D.linkRow lengths (s.ys.rows.getD i []) =
        (((List.range t.nDofs).map (Spec.joint lengths (s.ys.rows.getD i []))).flatMap fun p => [p.1, p.2]) ++
          [(Spec.joint lengths (s.ys.rows.getD i []) t.nDofs).1,
            (Spec.joint lengths (s.ys.rows.getD i []) t.nDofs).2] := by
      unfold Arm2D.linkRow
      rw [l1, hd, List.range_succ, List.map_append, List.flatMap_append]
      rfl
    rw [e, ← List.append_assoc]
    refine List.drop_left' ?_
    rw [List.length_append, Arm2D.flatMap_length]
    simp only [List.length_append, List.length_cons, List.length_map, List.length_range]
    omega
  · refine ext_getD [] (by simp [hs.ydds]) fun i hi => ?_
    have hi : i < s.ts.length := by simpa using hi
    rw [getD_range_map hi]
    simp only [Function.comp_apply]
    have l1 := ArmSolver.row_length hs.ysCols (i := i) (by rw [hs.ys]; exact hi)
    have l2 := ArmSolver.row_length hs.ydsCols (i := i) (by rw [hs.yds]; exact hi)
    have l3 := ArmSolver.row_length hs.yddsCols (i := i) (by rw [hs.ydds]; exact hi)
    have := (TaskViapoint.columns_take (i := i) (t := s.ts.getD i 0)
      (d := Arm2D.linkRow lengths (s.ys.rows.getD i [])) l1 l2 l3).2
    rw [hd] at this
    rw [show 1 + t.nDofs * 2 + t.nDofs = 1 + t.nDofs * 3 by omega]
    exact this

/-- C77: the costs. The first is the sum of the others; the cost of the viapoint is the distance of the end
effector; the cost of accelerations is the mean over time steps of half the sum of squared accelerations of
the joints. -/
theorem C77_costs (t : ArmTask) (lengths : List ℝ) (s : Trajectory ℝ) (hs : s.Shape) (hn : s.dim = t.nDofs)
    (hm : s.misc = none) (m0 m : Arr2 ℝ) (h0 : s.asMatrix = .ok m0) (hl : lengths.length = t.nDofs)
    (h : ArmSolver.extend lengths m0 = .ok m) (sample costs : List ℝ) (hv : t.task.viapoint.length = 2)
    (hg : t.task.goal = none) (hc : t.evaluateRollout m sample = .ok costs) :
    let hand := s.ys.rows.map fun angles =>
      [(Spec.joint lengths angles t.nDofs).1, (Spec.joint lengths angles t.nDofs).2]
    ∃ c1 c2 c4, costs = [c1 + c2 + c4, c1, c2, 0, c4] ∧
      (if 0 < t.task.viapointWeight then ∃ k < s.ts.length, t.task.IsWaypoint s.ts hand k ∧
          c1 = t.task.viapointWeight *
            max 0 (Spec.distance 2 (hand.getD k []) t.task.viapoint - max 0 t.task.viapointRadius)
        else c1 = 0) ∧
      c2 = (if 0 < t.task.accelerationWeight then t.task.accelerationWeight *
          ((∑ i ∈ range s.ts.length, ∑ j ∈ range t.nDofs, ((s.ydds.rows.getD i []).getD j 0) ^ 2) / 2) /
            s.ts.length
        else 0) ∧
      c4 = (if 0 < t.task.regularizationWeight then t.task.regularizationWeight *
          Real.sqrt (∑ i ∈ range sample.length, (sample.getD i 0) ^ 2)
        else 0) := by
  intro hand
  rw [C77_evaluate t lengths s hs hn hm m0 m h0 hl h] at hc
  have hd : s.ys.cols = t.nDofs := hs.dim ▸ hn
  obtain ⟨d, a, g, n, e1, e2, e3, hn0, rfl⟩ := TaskViapoint.evaluateLocal_ok hc
  have n2 : t.task.nDims = 2 := hv
  have sized : t.task.Sized s.ts hand hand := by
    have hdim : ∀ y ∈ hand, y.length = t.task.nDims := fun y hy => by
      obtain ⟨x, -, rfl⟩ := List.mem_map.mp hy
      rw [n2]
      rfl
    refine ⟨by simp [hand, hs.ys], by simp [hand, hs.ys], hdim, hdim, fun g hg' => ?_⟩
    rw [hg] at hg'
    cases hg'
  have v1 := TaskViapoint.viapointDist_spec sized e1
  have e4 : g = 0 ∧ n = s.ts.length := by
    unfold TaskViapoint.delayCost at e3
    rw [hg] at e3
    cases e3
    exact ⟨rfl, rfl⟩
  obtain ⟨rfl, rfl⟩ := e4
  refine ⟨t.task.viapointWeight * d, t.task.accelerationWeight * a / s.ts.length, t.task.regularizationWeight *
    (if t.task.regularizationWeight > 0 then TaskViapoint.l2norm sample else 0), ?_, ?_, ?_, ?_⟩
  · simp [add_assoc]
  · by_cases hw : 0 < t.task.viapointWeight
    · rw [if_pos hw] at v1 ⊢
      obtain ⟨k, hk, h1, h2⟩ := v1
      rw [n2] at h2
      exact ⟨k, hk, h1, by rw [h2]⟩
    · rw [if_neg hw] at v1 ⊢
      rw [v1, mul_zero]
  · unfold TaskViapoint.sumYdd at e2
    by_cases hw : 0 < t.task.accelerationWeight
    · rw [if_pos hw, n2, if_neg (by norm_num)] at e2
      rw [if_pos hw, ← Except.ok.inj e2]
      congr 3
      rw [List.map_flatten, List.sum_flatten, TaskViapoint.sum_getD, List.length_map, List.length_map, hs.ydds]
      refine Finset.sum_congr rfl fun i hi => ?_
      have hi : i < s.ydds.rows.length := by rw [hs.ydds]; exact Finset.mem_range.mp hi
      have hrow := ArmSolver.row_length hs.yddsCols hi
      rw [getD_map' (by simpa using hi) 0 [], getD_map' hi [] [], TaskViapoint.sum_getD, List.length_map, hrow, hd]
      refine Finset.sum_congr rfl fun j hj => ?_
      rw [getD_map' (by rw [hrow, hd]; exact Finset.mem_range.mp hj) 0 0]
    · rw [if_neg hw] at e2 ⊢
      rw [← Except.ok.inj e2]
      simp
  · by_cases hw : 0 < t.task.regularizationWeight
    · rw [if_pos hw, if_pos hw, TaskViapoint.l2norm_eq]
    · rw [if_neg hw, if_neg hw, mul_zero]

/-- An arm with two joints that stays stretched. -/
noncomputable def still : Trajectory ℝ :=
  { ts := [0, 1]
    dtMean := some 1
    ys := ⟨2, [[0, 0], [0, 0]]⟩
    yds := ⟨2, [[0, 0], [0, 0]]⟩
    ydds := ⟨2, [[0, 0], [0, 0]]⟩
    misc := none
    dim := 2 }

theorem still_shape : still.Shape := by
  constructor <;> simp [still]

/-- The hypotheses of `C77_costs` are met. -/
example : ∃ (t : ArmTask) (m0 m : Arr2 ℝ) (costs : List ℝ), init 2 [1, 1] { goal := some none } = .ok t ∧
    still.Shape ∧ still.dim = t.nDofs ∧ still.misc = none ∧ still.asMatrix = .ok m0 ∧
    ArmSolver.extend [1 / 2, 1 / 2] m0 = .ok m ∧ t.task.viapoint.length = 2 ∧ t.task.goal = none ∧
    t.evaluateRollout m [] = .ok costs := by
  obtain ⟨task, ht, hv, hg⟩ : ∃ task, TaskViapoint.init [1, 1] { goal := some none } = .ok task ∧
      task.viapoint = [1, 1] ∧ task.goal = none := ⟨_, rfl, rfl, rfl⟩
  have h0 := ArmSolver.asMatrix_rows still_shape rfl
  have h1 : ∃ m, ArmSolver.extend [1 / 2, 1 / 2] ⟨1 + 3 * still.ys.cols, (List.range still.ts.length).map fun i =>
      still.ts.getD i 0 :: (still.ys.rows.getD i [] ++ still.yds.rows.getD i [] ++ still.ydds.rows.getD i [])⟩ =
      .ok m := by
    rw [ArmSolver.extend_matrix still_shape rfl h0, Arm2D.anglesToLinkPositions_ok (by simp [still])]
    exact ⟨_, rfl⟩
  obtain ⟨m, h1⟩ := h1
  let t : ArmTask := { task := task, nDofs := 2 }
  have h2 := C77_evaluate t [1 / 2, 1 / 2] still still_shape rfl rfl _ m h0 rfl h1 []
  have n2 : task.nDims = 2 := by unfold TaskViapoint.nDims; rw [hv]; rfl
  have sized : task.Sized still.ts (still.ys.rows.map fun angles =>
      [(Spec.joint [1 / 2, 1 / 2] angles 2).1, (Spec.joint [1 / 2, 1 / 2] angles 2).2]) still.ydds.rows := by
    refine ⟨by simp [still], by simp [still], fun y hy => ?_, fun y hy => ?_, fun g hg' => ?_⟩
    · obtain ⟨x, -, rfl⟩ := List.mem_map.mp hy
      rw [n2]
      rfl
    · rw [n2]
      exact still_shape.yddsCols y hy
    · rw [hg] at hg'
      cases hg'
  obtain ⟨costs, hc⟩ := (TaskViapoint.C64_succeeds [] sized (by simp [still]) (by rw [n2]; norm_num)).mpr
    fun h => absurd hg h
  exact ⟨t, _, m, costs, (C77_task _ _ _ _).mpr ⟨ht, rfl⟩, still_shape, rfl, rfl, h0, h1, by rw [hv]; rfl, hg,
    h2.trans hc⟩

end ArmTask

end Verif
