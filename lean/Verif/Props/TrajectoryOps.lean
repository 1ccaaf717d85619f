import Verif.Props.TrajectoryShape
import Verif.Proofs.Lists
import Verif.Spec.Trajectory
import Mathlib.Tactic.NormNum

/- C41, C42, C43, C47: matrices, concatenation, cropping and padding of trajectories. -/

set_option autoImplicit false
set_option linter.unusedSectionVars false

namespace Verif

namespace Trajectory

open Spec

section

variable {K : Type} [Field K] [LinearOrder K] [IsStrictOrderedRing K]

/-! ### C41: matrices -/

/-- Columns `a ≤ j < b`. -/
theorem colSlice_nat {m : Arr2 K} {a b : Nat} (ha : a ≤ m.cols) (hb : b ≤ m.cols) :
    colSlice m (a : Int) (b : Int) = ⟨b - a, m.rows.map fun r => (r.take b).drop a⟩ := by
  unfold colSlice
  rw [sliceIndex_nat, sliceIndex_nat, min_eq_left ha, min_eq_left hb]
  congr 1
  exact List.map_congr_left fun r _ => pySlice_nat a b r

/-- `from_matrix` of a matrix with the right number of columns. -/
theorem fromMatrix_run {m : Arr2 K} {n k : Nat} (hc : m.cols = 1 + 3 * n + k) :
    fromMatrix m k = .ok
      ⟨m.rows.map fun r => r.getD 0 0, meanDiff (m.rows.map fun r => r.getD 0 0),
        ⟨n, m.rows.map fun r => (r.take (n + 1)).drop 1⟩,
        ⟨n, m.rows.map fun r => (r.take (2 * n + 1)).drop (n + 1)⟩,
        ⟨n, m.rows.map fun r => (r.take (3 * n + 1)).drop (2 * n + 1)⟩,
        some ⟨k, m.rows.map fun r => (r.take m.cols).drop (3 * n + 1)⟩, n⟩ := by
  have hd : Int.fdiv ((m.cols : Int) - 1 - k) 3 = n := by
    rw [hc]
    have : ((1 + 3 * n + k : Nat) : Int) - 1 - k = 3 * n := by push_cast; ring
    rw [this, Int.mul_fdiv_cancel_left _ (by norm_num)]
  unfold fromMatrix
  dsimp only
  rw [hd, if_neg (by omega)]
  have e1 : colSlice m 1 (1 * (n : Int) + 1) = ⟨n, m.rows.map fun r => (r.take (n + 1)).drop 1⟩ := by
    have := colSlice_nat (m := m) (a := 1) (b := n + 1) (by omega) (by omega)
    push_cast at this
    rw [one_mul, this]
  have e2 : colSlice m (1 * (n : Int) + 1) (2 * n + 1) =
      ⟨n, m.rows.map fun r => (r.take (2 * n + 1)).drop (n + 1)⟩ := by
    have := colSlice_nat (m := m) (a := n + 1) (b := 2 * n + 1) (by omega) (by omega)
    push_cast at this
    rw [one_mul, this]
    simp only [Arr2.mk.injEq, and_true]; omega
  have e3 : colSlice m (2 * (n : Int) + 1) (3 * n + 1) =
      ⟨n, m.rows.map fun r => (r.take (3 * n + 1)).drop (2 * n + 1)⟩ := by
    have := colSlice_nat (m := m) (a := 2 * n + 1) (b := 3 * n + 1) (by omega) (by omega)
    push_cast at this
    rw [this]
    simp only [Arr2.mk.injEq, and_true]; omega
  have e4 : colSlice m (3 * (n : Int) + 1) m.cols =
      ⟨k, m.rows.map fun r => (r.take m.cols).drop (3 * n + 1)⟩ := by
    have := colSlice_nat (m := m) (a := 3 * n + 1) (b := m.cols) (by omega) le_rfl
    push_cast at this
    rw [this]
    simp only [Arr2.mk.injEq, and_true]; omega
  rw [e1, e2, e3, e4]
  exact init_two (by simp) (by simp [Arr2.shape]) (by simp [Arr2.shape])
    (by intro m' hm'; cases hm'; simp)

/-- A row of length `1 + 3 * n + k` is the concatenation of the parts `from_matrix` takes. -/
theorem row_split {r : List K} {n k : Nat} (h : r.length = 1 + 3 * n + k) :
    r.getD 0 0 :: ((r.take (n + 1)).drop 1 ++ (r.take (2 * n + 1)).drop (n + 1) ++
      (r.take (3 * n + 1)).drop (2 * n + 1)) ++ (r.take (1 + 3 * n + k)).drop (3 * n + 1) = r := by
  have hjoin : ∀ (a b : Nat), a ≤ b → r.take a ++ (r.take b).drop a = r.take b := by
    intro a b hab
    conv_rhs => rw [← List.take_append_drop a (r.take b)]
    rw [List.take_take, min_eq_left hab]
  have h0 : r.getD 0 0 :: (r.take (n + 1)).drop 1 = r.take (n + 1) := by
    cases r with
    | nil => simp at h; omega
    | cons x l => simp
  rw [← List.cons_append, ← List.cons_append, h0, hjoin _ _ (by omega), hjoin _ _ (by omega),
    hjoin _ _ (by omega), List.take_of_length_le (by omega)]

/-- C41: `as_matrix(from_matrix(m)) = m` for every matrix with `1 + 3 * n + n_dims_misc` columns. -/
theorem C41_matrix_roundtrip (m : Arr2 K) (hm : m.Wf) (n k : Nat) (hc : m.cols = 1 + 3 * n + k) :
    ∃ s, fromMatrix m k = .ok s ∧ s.dim = n ∧ asMatrix s = .ok m := by
  refine ⟨_, fromMatrix_run hc, rfl, ?_⟩
  unfold asMatrix
  dsimp only
  rw [if_pos (by simp), if_pos (by simp)]
  congr 1
  obtain ⟨c, rows⟩ := m
  dsimp only at hc
  subst hc
  simp only [Arr2.mk.injEq]
  refine ⟨by omega, ?_⟩
  apply List.ext_getElem
  · simp
  · intro i h1 h2
    have hr : rows[i].length = 1 + 3 * n + k := hm _ (List.getElem_mem h2)
    have hg : ∀ {β : Type} (f : List K → β) (d : β), (rows.map f).getD i d = f rows[i] := by
      intro β f d
      rw [List.getD_eq_getElem?_getD, List.getElem?_map, List.getElem?_eq_getElem h2]
      rfl
    rw [List.getElem_zipWith, List.getElem_map, List.getElem_range, List.getElem_map]
    rw [hg, hg, hg, hg]
    exact row_split hr

theorem split_row {t : K} {a b c d : List K} {n : Nat} (ha : a.length = n) (hb : b.length = n)
    (hc : c.length = n) (N : Nat) (hN : N = 1 + 3 * n + d.length) :
    (t :: (a ++ b ++ c) ++ d).getD 0 0 = t ∧
    ((t :: (a ++ b ++ c) ++ d).take (n + 1)).drop 1 = a ∧
    ((t :: (a ++ b ++ c) ++ d).take (2 * n + 1)).drop (n + 1) = b ∧
    ((t :: (a ++ b ++ c) ++ d).take (3 * n + 1)).drop (2 * n + 1) = c ∧
    ((t :: (a ++ b ++ c) ++ d).take N).drop (3 * n + 1) = d := by
  subst ha
  refine ⟨rfl, ?_, ?_, ?_, ?_⟩
  · simp [List.take_append]
  · rw [show t :: (a ++ b ++ c) ++ d = (t :: a) ++ (b ++ (c ++ d)) by simp]
    rw [List.take_append, List.take_of_length_le (by simp; omega)]
    rw [List.drop_append, List.drop_eq_nil_of_le (by simp), List.nil_append]
    simp only [List.length_cons, Nat.sub_self, List.drop_zero]
    rw [show 2 * a.length + 1 - (a.length + 1) = b.length by omega]
    simp
  · rw [show t :: (a ++ b ++ c) ++ d = (t :: (a ++ b)) ++ (c ++ d) by simp]
    rw [List.take_append, List.take_of_length_le (by simp; omega)]
    rw [List.drop_append, List.drop_eq_nil_of_le (by simp; omega), List.nil_append]
    simp only [List.length_cons, List.length_append]
    rw [show 2 * a.length + 1 - (a.length + b.length + 1) = 0 by omega, List.drop_zero,
      show 3 * a.length + 1 - (a.length + b.length + 1) = c.length by omega]
    simp
  · rw [List.take_of_length_le (by simp; omega), List.drop_append,
      List.drop_eq_nil_of_le (by simp; omega), List.nil_append]
    simp only [List.length_cons, List.length_append]
    rw [show 3 * a.length + 1 - (a.length + b.length + c.length + 1) = 0 by omega, List.drop_zero]

/-- The misc columns of a trajectory; a trajectory without misc has zero columns. -/
def miscColumns (s : Trajectory K) : Arr2 K :=
  s.misc.getD ⟨0, List.replicate s.ts.length []⟩

/-- C41: `from_matrix(as_matrix(s))` has the times, positions, velocities, accelerations and misc of
`s`. A trajectory without misc comes back with a misc array of zero columns. -/
theorem C41_trajectory_roundtrip (s : Trajectory K) (hs : s.Shape) :
    ∃ m s', asMatrix s = .ok m ∧ m.Wf ∧ fromMatrix m s.miscColumns.cols = .ok s' ∧
      s'.ts = s.ts ∧ s'.ys = s.ys ∧ s'.yds = s.yds ∧ s'.ydds = s.ydds ∧
      s'.misc = some s.miscColumns := by
  -- a uniform description of the matrix
  have hM : ∀ i < s.ts.length, (s.miscColumns.rows.getD i []).length = s.miscColumns.cols := by
    intro i hi
    unfold miscColumns
    cases hm : s.misc with
    | none =>
      simp only [Option.getD_none]
      rw [List.getD_eq_getElem?_getD, List.getElem?_replicate]
      simp [hi]
    | some m =>
      obtain ⟨h1, h2⟩ := hs.misc m hm
      simp only [Option.getD_some]
      apply h2
      rw [List.getD_eq_getElem?_getD, List.getElem?_eq_getElem (by omega)]
      exact List.getElem_mem _
  have hML : s.miscColumns.rows.length = s.ts.length := by
    unfold miscColumns
    cases hm : s.misc with
    | none => simp
    | some m => exact (hs.misc m hm).1
  have hmat : asMatrix s = .ok ⟨1 + 3 * s.ys.cols + s.miscColumns.cols,
      (List.range s.ts.length).map fun i =>
        s.ts.getD i 0 :: (s.ys.rows.getD i [] ++ s.yds.rows.getD i [] ++ s.ydds.rows.getD i []) ++
          s.miscColumns.rows.getD i []⟩ := by
    unfold asMatrix miscColumns
    dsimp only
    rw [if_pos ⟨hs.ys, hs.yds, hs.ydds⟩]
    cases hm : s.misc with
    | none =>
      simp only [Option.getD_none, hs.ydsShape, hs.yddsShape, Except.ok.injEq, Arr2.mk.injEq]
      refine ⟨by omega, List.map_congr_left fun i hi => ?_⟩
      have hi := List.mem_range.mp hi
      have : (List.replicate s.ts.length ([] : List K)).getD i [] = [] := by
        rw [List.getD_eq_getElem?_getD, List.getElem?_replicate]
        simp [hi]
      rw [this, List.append_nil]
    | some m =>
      have hml := (hs.misc m hm).1
      simp only [hml, if_true, Option.getD_some, hs.ydsShape, hs.yddsShape, Except.ok.injEq,
        Arr2.mk.injEq]
      refine ⟨by omega, ?_⟩
      apply List.ext_getElem
      · simp [hml]
      · intro i h1 h2
        rw [List.getElem_zipWith, List.getElem_map, List.getElem_map, List.getElem_range]
        congr 1
        have hi : i < m.rows.length := by
          simp only [List.length_zipWith, List.length_map, List.length_range] at h1; omega
        rw [List.getD_eq_getElem?_getD, List.getElem?_eq_getElem hi]
        rfl
  have hrow : ∀ (a : Arr2 K), a.rows.length = s.ts.length → (∀ r ∈ a.rows, r.length = s.ys.cols) →
      ∀ i < s.ts.length, (a.rows.getD i []).length = s.ys.cols := by
    intro a h1 h2 i hi
    apply h2
    rw [List.getD_eq_getElem?_getD, List.getElem?_eq_getElem (by omega)]
    exact List.getElem_mem _
  have hback : ∀ {β : Type} (l : List β) (d : β), l.length = s.ts.length →
      (List.range s.ts.length).map (fun i => l.getD i d) = l := by
    intro β l d hl
    apply List.ext_getElem
    · simp [hl]
    · intro i h1 h2
      rw [List.getElem_map, List.getElem_range, List.getD_eq_getElem?_getD,
        List.getElem?_eq_getElem h2]
      rfl
  refine ⟨_, _, hmat, ?_, fromMatrix_run (n := s.ys.cols) rfl, ?_, ?_, ?_, ?_, ?_⟩
  · intro r hr
    obtain ⟨i, hi, rfl⟩ := List.mem_map.mp hr
    have hi := List.mem_range.mp hi
    simp only [List.length_cons, List.length_append, hrow s.ys hs.ys hs.ysCols i hi,
      hrow s.yds hs.yds hs.ydsCols i hi, hrow s.ydds hs.ydds hs.yddsCols i hi, hM i hi]
    omega
  all_goals
    have hsplit : ∀ i < s.ts.length, _ := fun i hi =>
      split_row (t := s.ts.getD i 0) (d := s.miscColumns.rows.getD i [])
        (hrow s.ys hs.ys hs.ysCols i hi)
        (hrow s.yds hs.yds hs.ydsCols i hi) (hrow s.ydds hs.ydds hs.yddsCols i hi)
        (1 + 3 * s.ys.cols + s.miscColumns.cols) (by rw [hM i hi])
    dsimp only
    rw [List.map_map]
  · conv_rhs => rw [← hback s.ts 0 rfl]
    exact List.map_congr_left fun i hi => (hsplit i (List.mem_range.mp hi)).1
  · have : s.ys = ⟨s.ys.cols, (List.range s.ts.length).map fun i => s.ys.rows.getD i []⟩ := by
      rw [hback s.ys.rows [] hs.ys]
    rw [this]
    congr 1
    exact List.map_congr_left fun i hi => by
      rw [← this]; exact (hsplit i (List.mem_range.mp hi)).2.1
  · have : s.yds = ⟨s.ys.cols, (List.range s.ts.length).map fun i => s.yds.rows.getD i []⟩ := by
      rw [hback s.yds.rows [] hs.yds, ← hs.ydsShape]
    rw [this]
    congr 1
    exact List.map_congr_left fun i hi => by
      rw [← this]; exact (hsplit i (List.mem_range.mp hi)).2.2.1
  · have : s.ydds = ⟨s.ys.cols, (List.range s.ts.length).map fun i => s.ydds.rows.getD i []⟩ := by
      rw [hback s.ydds.rows [] hs.ydds, ← hs.yddsShape]
    rw [this]
    congr 1
    exact List.map_congr_left fun i hi => by
      rw [← this]; exact (hsplit i (List.mem_range.mp hi)).2.2.2.1
  · have : s.miscColumns =
        ⟨s.miscColumns.cols, (List.range s.ts.length).map fun i => s.miscColumns.rows.getD i []⟩ := by
      rw [hback s.miscColumns.rows [] hML]
    rw [Option.some.injEq]
    conv_rhs => rw [this]
    congr 1
    exact List.map_congr_left fun i hi => (hsplit i (List.mem_range.mp hi)).2.2.2.2

/-- C41: a trajectory that came back without misc columns counts as having none. -/
theorem C41_no_misc (s s' : Trajectory K) (h : s.misc = none)
    (h' : s'.misc = some s.miscColumns) : s'.hasMisc = false ∧ s'.dimMisc = 0 := by
  have h1 : s'.hasMisc = false := by
    simp [hasMisc, h', miscColumns, h]
  exact ⟨h1, by simp [dimMisc, h1]⟩

/-- C41: exactly the trajectories with samples and at least one additional column count as having additional
variables, and the number of these columns is reported. -/
theorem C41_has_misc (s : Trajectory K) (m : Arr2 K) (h : s.misc = some m) (n : Nat) (hn : m.rows.length = n + 1) :
    (s.hasMisc = true ↔ m.cols ≠ 0) ∧ s.dimMisc = m.cols := by
  have h1 : s.hasMisc = true ↔ m.cols ≠ 0 := by
    simp only [hasMisc, h, hn, decide_eq_true_eq]
    constructor
    · intro h2 h3
      simp [h3] at h2
    · intro h2
      positivity
  refine ⟨h1, ?_⟩
  unfold dimMisc
  rw [h]
  split_ifs with h2
  · rfl
  · by_contra h3
    exact h2 (h1.mpr (Ne.symm h3))

example : ∃ s : Trajectory ℚ, s.misc = some ⟨3, [[1, 2, 3], [4, 5, 6]]⟩ ∧ s.hasMisc = true ∧ s.dimMisc = 3 := by
  refine ⟨⟨[0, 1], none, ⟨0, [[], []]⟩, ⟨0, [[], []]⟩, ⟨0, [[], []]⟩, some ⟨3, [[1, 2, 3], [4, 5, 6]]⟩, 0⟩, rfl, ?_⟩
  have h := C41_has_misc (⟨[0, 1], none, ⟨0, [[], []]⟩, ⟨0, [[], []]⟩, ⟨0, [[], []]⟩, some ⟨3, [[1, 2, 3], [4, 5, 6]]⟩, 0⟩ : Trajectory ℚ) _ rfl 1 rfl
  exact ⟨h.1.mpr (by norm_num), h.2⟩

/-! ### C42: concatenation -/

/-- Two trajectories whose arrays can be concatenated. -/
structure Compatible (s o : Trajectory K) : Prop where
  dim : s.ys.cols = o.ys.cols
  misc : ∀ a b, s.misc = some a → o.misc = some b → a.cols = b.cols

/-- The result of `concatData`. -/
def joinedTraj (swap : Bool) (s o : Trajectory K) (ts' : List K) : Trajectory K :=
  { s with
      ts := ts'
      ys := joined swap s.ys o.ys, yds := joined swap s.yds o.yds
      ydds := joined swap s.ydds o.ydds
      misc := match s.misc, o.misc with
        | some a, some b => some (joined swap a b)
        | _, _ => none }

/-- `concatData` succeeds on compatible trajectories. -/
theorem concatData_run {swap : Bool} {s o : Trajectory K} (hs : s.Shape) (ho : o.Shape)
    (hc : Compatible s o) (ts' : List K) :
    concatData swap o { s with ts := ts' } = (.ok (), joinedTraj swap s o ts') := by
  have key : ∀ a b : Arr2 K, ((if swap then concat b a else concat a b) =
      if a.cols = b.cols then .ok (joined swap a b) else .error .valueError) := by
    intro a b
    cases swap
    · simp [concat, joined]
    · by_cases hc : a.cols = b.cols
      · simp [concat, joined, hc]
      · simp [concat, hc, Ne.symm hc]
  have h2 : s.yds.cols = o.yds.cols := by rw [hs.ydsShape, ho.ydsShape, hc.dim]
  have h3 : s.ydds.cols = o.ydds.cols := by rw [hs.yddsShape, ho.yddsShape, hc.dim]
  unfold concatData joinedTraj
  simp only [key]
  simp only [PyM.self_bind, hc.dim, h2, h3, if_true, lift, PyM.pure_bind, PyM.modify_bind]
  cases hm : s.misc with
  | none => rfl
  | some a =>
    cases ho : o.misc with
    | none => rfl
    | some b => simp [hc.misc a b hm ho]

/-- The concatenation of two trajectories: the data of `a` followed by the data of `b`. -/
structure DataConcat (a b r : Trajectory K) : Prop where
  ys : r.ys.rows = a.ys.rows ++ b.ys.rows
  yds : r.yds.rows = a.yds.rows ++ b.yds.rows
  ydds : r.ydds.rows = a.ydds.rows ++ b.ydds.rows
  misc : ∀ ma mb, a.misc = some ma → b.misc = some mb →
    ∃ m, r.misc = some m ∧ m.rows = ma.rows ++ mb.rows ∧ m.cols = ma.cols
  miscNone : a.misc = none ∨ b.misc = none → r.misc = none
  dim : r.dim = a.dim

/-- C42, append: on two compatible trajectories with strictly increasing times it succeeds, the
times stay strictly increasing, the durations add up together with one mean time step, and the
samples of both are kept in order, with the time differences of both. -/
theorem C42_append (s o : Trajectory K) (hs : s.Shape) (ho : o.Shape) (hc : Compatible s o)
    (hsi : Increasing s.ts) (hoi : Increasing o.ts) (dt ds d : K) (hdt : s.dtMean = some dt)
    (hpos : 0 < dt) (hds : s.duration = .ok ds) (hd : o.duration = .ok d) :
    ∃ s', append o s = (.ok (), s') ∧ Increasing s'.ts ∧ s'.duration = .ok (ds + dt + d) ∧
      (∃ c, s'.ts = s.ts ++ o.ts.map (fun t => t + c)) ∧ DataConcat s o s' ∧
      s'.dtMean = some dt ∧ s'.Shape := by
  obtain ⟨x, l, hx⟩ : ∃ x l, s.ts = x :: l := by
    unfold duration at hds
    cases hts : s.ts with
    | nil => rw [hts] at hds; cases hds
    | cons x l => exact ⟨x, l, rfl⟩
  obtain ⟨y, k, hy⟩ : ∃ x l, o.ts = x :: l := by
    unfold duration at hd
    cases hts : o.ts with
    | nil => rw [hts] at hd; cases hd
    | cons x l => exact ⟨x, l, rfl⟩
  obtain ⟨last, hlast⟩ : ∃ b, s.ts.getLast? = some b :=
    ⟨_, List.getLast?_eq_getLast_of_ne_nil (by rw [hx]; exact List.cons_ne_nil _ _)⟩
  obtain ⟨olast, holast⟩ : ∃ b, o.ts.getLast? = some b :=
    ⟨_, List.getLast?_eq_getLast_of_ne_nil (by rw [hy]; exact List.cons_ne_nil _ _)⟩
  have hhead : s.ts.head? = some x := by rw [hx]; rfl
  have hohead : o.ts.head? = some y := by rw [hy]; rfl
  have hds' : ds = last - x := by
    rw [duration, hlast, hhead] at hds; exact (Except.ok.inj hds).symm
  have hd' : d = olast - y := by
    rw [duration, holast, hohead] at hd; exact (Except.ok.inj hd).symm
  have hrun : append o s = (.ok (), joinedTraj false s o
      (s.ts ++ o.ts.map fun t => (t - y) + (last + dt))) := by
    unfold append
    rw [PyM.self_bind]
    simp only [hohead, hlast]
    have := concatData_run (swap := false) hs ho hc
      (s.ts ++ o.ts.map fun t => (t - y) + (last + dt))
    rw [hdt] at this
    simp only [hdt, PyM.modify_bind]
    exact this
  refine ⟨_, hrun, ?_, ?_, ⟨last + dt - y, ?_⟩, ?_, hdt, hs.append ho hrun⟩
  · show (s.ts ++ o.ts.map fun t => (t - y) + (last + dt)).Pairwise (· < ·)
    rw [List.pairwise_append]
    refine ⟨hsi, sorted_shift hoi _ fun a b hab => by linarith, ?_⟩
    intro a ha b hb
    obtain ⟨t, ht, rfl⟩ := List.mem_map.mp hb
    have h1 := sorted_le_last hsi hlast ha
    have h2 := sorted_head_le hoi hohead ht
    linarith
  · have e1 : (s.ts ++ o.ts.map fun t => (t - y) + (last + dt)).getLast? =
        some ((olast - y) + (last + dt)) := by
      rw [List.getLast?_append, List.getLast?_map, holast]; rfl
    have e2 : (s.ts ++ o.ts.map fun t => (t - y) + (last + dt)).head? = some x := by
      rw [hx]; rfl
    simp only [duration, joinedTraj, e1, e2, Except.ok.injEq]
    rw [hds', hd']; ring
  · show s.ts ++ o.ts.map (fun t => (t - y) + (last + dt)) = _
    congr 1
    exact List.map_congr_left fun t _ => by ring
  · refine ⟨rfl, rfl, rfl, ?_, ?_, rfl⟩
    · intro ma mb ha hb
      simp only [joinedTraj, ha, hb]
      exact ⟨_, rfl, rfl, rfl⟩
    · rintro (h | h)
      · simp only [joinedTraj, h]
      · simp only [joinedTraj, h]
        cases s.misc <;> rfl

/-- C42 for prepend, as claimed. -/
def C42_prepend_statement : Prop := ∀ (s o s' : Trajectory ℚ), s.Shape → o.Shape →
  Compatible s o → Increasing s.ts → Increasing o.ts → 2 ≤ s.ts.length → 2 ≤ o.ts.length →
  s.dtMean = meanDiff s.ts → o.dtMean = meanDiff o.ts → prepend o s = (.ok (), s') →
  Increasing s'.ts

/-- C42, prepend: it succeeds, the samples of both are kept in order, with the time differences of
both; the times are strictly increasing exactly if the prepended trajectory starts before its mean
time step (in particular if it starts at 0), and the durations add up together with one mean time
step, minus the start time of the prepended trajectory.
Missing compared to the full claim: prepended trajectories with later start times. -/
theorem C42_prepend_partial (s o : Trajectory K) (hs : s.Shape) (ho : o.Shape)
    (hc : Compatible s o) (hsi : Increasing s.ts) (hoi : Increasing o.ts) (dt ds d o0 : K)
    (hdt : o.dtMean = some dt) (hds : s.duration = .ok ds)
    (hd : o.duration = .ok d) (ho0 : o.ts.head? = some o0) :
    ∃ s', prepend o s = (.ok (), s') ∧ (Increasing s'.ts ↔ o0 < dt) ∧
      s'.duration = .ok (ds + dt + d - o0) ∧
      (∃ c, s'.ts = o.ts ++ s.ts.map (fun t => t + c)) ∧
      s'.ys.rows = o.ys.rows ++ s.ys.rows ∧ s'.yds.rows = o.yds.rows ++ s.yds.rows ∧
      s'.ydds.rows = o.ydds.rows ++ s.ydds.rows ∧
      (∀ ma mb, s.misc = some ma → o.misc = some mb →
        ∃ m, s'.misc = some m ∧ m.rows = mb.rows ++ ma.rows ∧ m.cols = ma.cols) ∧
      (s.misc = none ∨ o.misc = none → s'.misc = none) ∧
      s'.dtMean = s.dtMean ∧ s'.dim = s.dim ∧ s'.Shape := by
  obtain ⟨x, l, hx⟩ : ∃ x l, s.ts = x :: l := by
    unfold duration at hds
    cases hts : s.ts with
    | nil => rw [hts] at hds; cases hds
    | cons x l => exact ⟨x, l, rfl⟩
  have hone : o.ts ≠ [] := by
    intro h; rw [h] at ho0; cases ho0
  obtain ⟨last, hlast⟩ : ∃ b, s.ts.getLast? = some b :=
    ⟨_, List.getLast?_eq_getLast_of_ne_nil (by rw [hx]; exact List.cons_ne_nil _ _)⟩
  obtain ⟨olast, holast⟩ : ∃ b, o.ts.getLast? = some b :=
    ⟨_, List.getLast?_eq_getLast_of_ne_nil hone⟩
  have hhead : s.ts.head? = some x := by rw [hx]; rfl
  have hds' : ds = last - x := by
    rw [duration, hlast, hhead] at hds; exact (Except.ok.inj hds).symm
  have hd' : d = olast - o0 := by
    rw [duration, holast, ho0] at hd; exact (Except.ok.inj hd).symm
  have hrun : prepend o s = (.ok (), joinedTraj true s o
      (o.ts ++ s.ts.map fun t => (t - x) + (d + dt))) := by
    unfold prepend
    rw [PyM.bind_apply]
    have e : setStartTimeToZero s = (.ok (), { s with ts := s.ts.map fun t => t - x }) := by
      simp [setStartTimeToZero, hhead]
    rw [e]
    simp only [hd, hdt, lift, PyM.pure_bind, PyM.modify_bind, List.map_map]
    exact concatData_run (swap := true) hs ho hc _
  refine ⟨_, hrun, ?_, ?_, ⟨d + dt - x, ?_⟩, rfl, rfl, rfl, ?_, ?_, rfl, rfl, hs.prepend ho hrun⟩
  · show (o.ts ++ s.ts.map fun t => (t - x) + (d + dt)).Pairwise (· < ·) ↔ _
    rw [List.pairwise_append]
    constructor
    · rintro ⟨-, -, h⟩
      have h1 := h olast (List.mem_of_getLast? holast) ((x - x) + (d + dt))
        (List.mem_map.mpr ⟨x, by rw [hx]; simp, rfl⟩)
      linarith
    · intro h
      refine ⟨hoi, sorted_shift hsi _ fun a b hab => by linarith, ?_⟩
      intro a ha b hb
      obtain ⟨t, ht, rfl⟩ := List.mem_map.mp hb
      have h1 := sorted_le_last hoi holast ha
      have h2 := sorted_head_le hsi hhead ht
      linarith
  · have e1 : (o.ts ++ s.ts.map fun t => (t - x) + (d + dt)).getLast? =
        some ((last - x) + (d + dt)) := by
      rw [List.getLast?_append, List.getLast?_map, hlast]; rfl
    have e2 : (o.ts ++ s.ts.map fun t => (t - x) + (d + dt)).head? = some o0 := by
      rw [List.head?_append, ho0]; rfl
    have : duration { s with ts := o.ts ++ s.ts.map fun t => (t - x) + (d + dt) } =
        .ok (ds + dt + d - o0) := by
      simp only [duration, e1, e2, Except.ok.injEq]
      rw [hds']; ring
    exact this
  · show o.ts ++ s.ts.map (fun t => (t - x) + (d + dt)) = _
    congr 1
    exact List.map_congr_left fun t _ => by ring
  · intro ma mb ha hb
    simp only [joinedTraj, ha, hb]
    exact ⟨_, rfl, rfl, rfl⟩
  · rintro (h | h)
    · simp only [joinedTraj, h]
    · simp only [joinedTraj, h]
      cases s.misc <;> rfl

/-- The mean time step of a trajectory built from strictly increasing times is positive, so the
hypotheses of `C42_append` on it are met. -/
theorem C42_mean_step {ts : List K} {ys : Arr K} {yds ydds : Option (Arr K)}
    {misc : Option (Arr2 K)} {s : Trajectory K} (h : init ts ys yds ydds misc = .ok s)
    (hts : Increasing ts) (hn : 2 ≤ ts.length) :
    ∃ dt d, s.dtMean = some dt ∧ 0 < dt ∧ s.duration = .ok d ∧
      d = dt * ((ts.length - 1 : Nat) : K) := by
  obtain ⟨-, h1, h2, -⟩ := init_ok h
  obtain ⟨dt, hdt, hpos⟩ := meanDiff_pos hts hn
  obtain ⟨a, ha⟩ : ∃ a, ts.head? = some a := by
    cases ts with
    | nil => simp at hn
    | cons x l => exact ⟨x, rfl⟩
  obtain ⟨b, hb⟩ : ∃ b, ts.getLast? = some b := by
    cases ts with
    | nil => simp at hn
    | cons x l => exact ⟨_, List.getLast?_eq_getLast_of_ne_nil (List.cons_ne_nil _ _)⟩
  refine ⟨dt, b - a, h2.trans hdt, hpos, by simp [duration, h1, ha, hb], ?_⟩
  have := meanDiff_eq ha hb hn
  rw [hdt, Option.some.injEq] at this
  have hne : ((ts.length - 1 : Nat) : K) ≠ 0 := by exact_mod_cast (by omega : ts.length - 1 ≠ 0)
  rw [this]
  field_simp

end

/-- A small trajectory over the rationals: two samples in one dimension. -/
def two (a b : ℚ) : Trajectory ℚ :=
  ⟨[a, b], meanDiff [a, b], ⟨1, [[0], [1]]⟩, ⟨1, [[1], [1]]⟩, ⟨1, [[0], [0]]⟩, none, 1⟩

theorem two_shape (a b : ℚ) : (two a b).Shape :=
  ⟨rfl, rfl, rfl, by simp [two], by simp [two], by simp [two], rfl, rfl, rfl, by simp [two]⟩

theorem two_dtMean (a b : ℚ) : (two a b).dtMean = some (b - a) := by
  simp [two, meanDiff, diff]

theorem two_increasing {a b : ℚ} (h : a < b) : Increasing (two a b).ts := by
  simp [two, Increasing, h]

theorem two_duration (a b : ℚ) : (two a b).duration = .ok (b - a) := rfl

/-- C42 fails for prepend: prepending a trajectory that starts at time 10. -/
theorem C42_refuted : ¬ C42_prepend_statement := by
  intro h
  have hc : Compatible (two 0 1) (two 10 11) := ⟨rfl, by simp [two]⟩
  obtain ⟨s', hs', hiff, -⟩ := C42_prepend_partial (two 0 1) (two 10 11) (two_shape _ _)
    (two_shape _ _) hc (two_increasing (by norm_num)) (two_increasing (by norm_num)) _ _ _ 10
    (two_dtMean _ _) (two_duration _ _) (two_duration _ _) rfl
  have := h _ _ _ (two_shape _ _) (two_shape _ _) hc (two_increasing (by norm_num))
    (two_increasing (by norm_num)) le_rfl le_rfl rfl rfl hs'
  rw [hiff] at this
  norm_num at this

/-- The hypotheses of the append theorem are met by two concrete trajectories. -/
example : ∃ s', append (two 5 7) (two 0 1) = (.ok (), s') ∧ Increasing s'.ts ∧
    s'.duration = .ok ((1 - 0) + (1 - 0) + (7 - 5)) := by
  obtain ⟨s', h1, h2, h3, -⟩ := C42_append (two 0 1) (two 5 7) (two_shape _ _) (two_shape _ _)
    ⟨rfl, by simp [two]⟩ (two_increasing (by norm_num)) (two_increasing (by norm_num)) _ _ _
    (two_dtMean _ _) (by norm_num) (two_duration _ _) (two_duration _ _)
  exact ⟨s', h1, h2, h3⟩

end Trajectory

end Verif
