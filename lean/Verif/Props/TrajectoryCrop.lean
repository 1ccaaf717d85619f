import Verif.Props.TrajectoryOps

/- C43, C47: cropping and padding of trajectories. -/

set_option autoImplicit false
set_option linter.unusedSectionVars false

namespace Verif

namespace Trajectory

open Spec

section

variable {K : Type} [Field K] [LinearOrder K] [IsStrictOrderedRing K]

/-! ### C43: cropping by index -/

theorem pySlice_isSlice {α : Type} (a b : Int) (l : List α) :
    IsSlice (pyIndex l.length a) (pyIndex l.length b) l (pySlice a b l) := by
  have hs : ∀ i : Int, sliceIndex l.length i = min (pyIndex l.length i) l.length := by
    intro i
    unfold sliceIndex pyIndex
    by_cases hi : i < 0
    · rw [if_pos hi, if_neg (by omega)]; omega
    · rw [if_neg hi, if_pos (by omega)]
  constructor
  · simp only [pySlice, hs, List.length_drop, List.length_take]
    omega
  · intro i hi
    simp only [pySlice, hs]
    rw [List.getElem?_drop]
    by_cases hlt : pyIndex l.length a + i < l.length
    · rw [min_eq_left (by omega : pyIndex l.length a ≤ l.length), List.getElem?_take]
      rw [if_pos (by omega)]
    · rw [List.getElem?_eq_none (by omega : l.length ≤ pyIndex l.length a + i)]
      rw [List.getElem?_eq_none]
      rw [List.length_take]
      omega

/-- C43, crop by index: exactly the samples `start .. stop-1` (Python slice indices) are kept. -/
theorem C43_crop_indices (s : Trajectory K) (hs : s.Shape) (hne : s.ts ≠ []) (start stop : Int)
    (hlt : start < stop) :
    ∃ s', cropIndices start stop s = (.ok (), s') ∧
      IsSlice (pyIndex s.ts.length start) (pyIndex s.ts.length stop) s.ts s'.ts ∧
      IsSlice (pyIndex s.ts.length start) (pyIndex s.ts.length stop) s.ys.rows s'.ys.rows ∧
      IsSlice (pyIndex s.ts.length start) (pyIndex s.ts.length stop) s.yds.rows s'.yds.rows ∧
      IsSlice (pyIndex s.ts.length start) (pyIndex s.ts.length stop) s.ydds.rows s'.ydds.rows ∧
      (∀ m, s.misc = some m → ∃ m', s'.misc = some m' ∧ m'.cols = m.cols ∧
        IsSlice (pyIndex s.ts.length start) (pyIndex s.ts.length stop) m.rows m'.rows) ∧
      (s.misc = none → s'.misc = none) ∧ s'.dtMean = s.dtMean ∧ s'.Shape := by
  refine ⟨cropRows start stop s, ?_, pySlice_isSlice _ _ _, ?_, ?_, ?_, ?_, ?_, rfl,
    hs.cropRows _ _⟩
  · simp only [cropIndices, PyM.self_bind]
    rw [if_neg (by simpa using hne), if_neg (by omega)]
    rfl
  · rw [← hs.ys]; exact pySlice_isSlice _ _ _
  · rw [← hs.yds]; exact pySlice_isSlice _ _ _
  · rw [← hs.ydds]; exact pySlice_isSlice _ _ _
  · intro m hm
    refine ⟨rowSlice start stop m, by simp [cropRows, hm], rfl, ?_⟩
    rw [← (hs.misc m hm).1]; exact pySlice_isSlice _ _ _
  · intro h; simp [cropRows, h]

/-- C43: `start >= end` raises ValueError and changes nothing; an empty trajectory stays empty. -/
theorem C43_crop_rejected (s : Trajectory K) :
    (∀ start stop : Int, s.ts ≠ [] → stop ≤ start →
      cropIndices start stop s = (.error .valueError, s)) ∧
    (∀ start stop : K, s.ts ≠ [] → stop ≤ start →
      cropTimes start stop s = (.error .valueError, s)) ∧
    (∀ start stop : Int, s.ts = [] → cropIndices start stop s = (.ok (), s)) ∧
    (∀ start stop : K, s.ts = [] → cropTimes start stop s = (.ok (), s)) := by
  refine ⟨?_, ?_, ?_, ?_⟩
  · intro a b hne h
    simp only [cropIndices, PyM.self_bind]
    rw [if_neg (by simpa using hne), if_pos h]
    rfl
  · intro a b hne h
    simp only [cropTimes, PyM.self_bind]
    cases hts : s.ts with
    | nil => exact absurd hts hne
    | cons x l =>
      rw [List.head?_cons, List.getLast?_eq_getLast_of_ne_nil (List.cons_ne_nil _ _)]
      simp only [ge_iff_le, h, if_true, PyM.raise_apply]
  · intro a b h; simp [cropIndices, h]
  · intro a b h; simp [cropTimes, h]

/-! ### C43: cropping by time -/

/-- C43 for cropping by time, as claimed. -/
def C43_times_statement : Prop := ∀ (s s' : Trajectory ℚ) (start stop : ℚ), s.Shape →
  Increasing s.ts → start < stop → cropTimes start stop s = (.ok (), s') →
  samples s' = (samples s).filter fun x => decide (start ≤ x.1 ∧ x.1 ≤ stop)

theorem findIdx_zip {β : Type} (ts : List K) (r : List β) (h : r.length = ts.length)
    (p : K → Bool) : (ts.zip r).findIdx (fun x => p x.1) = ts.findIdx p := by
  have h1 : (ts.zip r).map Prod.fst = ts := by
    rw [List.map_fst_zip]; omega
  conv_rhs => rw [← h1, List.findIdx_map]
  rfl

/-- Cropping the times and some rows by the same indices is filtering the pairs. -/
theorem crop_zip {β : Type} (ts : List K) (r : List β) (h : r.length = ts.length)
    (hts : ts.Pairwise (· < ·)) (c d : K) (a b : Nat)
    (ha : a = ts.findIdx fun x => decide (x ≥ c)) (hb : b = ts.findIdx fun x => decide (x ≥ d)) :
    ((ts.take b).drop a).zip ((r.take b).drop a) =
      (ts.zip r).filter fun x => decide (c ≤ x.1 ∧ x.1 < d) := by
  have hsorted : (ts.zip r).Pairwise fun x y => x.1 < y.1 := by
    rw [← List.pairwise_map (f := Prod.fst) (R := (· < ·)), List.map_fst_zip (by omega)]
    exact hts
  rw [filter_between_sorted Prod.fst c d _ hsorted, findIdx_zip ts r h fun x => decide (x ≥ d),
    findIdx_zip ts r h fun x => decide (x ≥ c), ← ha, ← hb]
  simp only [List.zip, List.take_zipWith, List.drop_zipWith]

/-- C43, crop by time: exactly the samples with `start ≤ t < stop` are kept, except for the last
sample, which is never kept. If no sample time is at or after `start`, or all are after `stop`,
nothing is removed.
Missing compared to the full claim: the sample at `stop`, the last sample, and the two cases in
which the interval lies outside the trajectory. -/
theorem C43_crop_times_partial (s : Trajectory K) (hs : s.Shape) (hi : Increasing s.ts)
    (start stop first last : K) (hfirst : s.ts.head? = some first)
    (hlast : s.ts.getLast? = some last) (hlt : start < stop) :
    ∃ s', cropTimes start stop s = (.ok (), s') ∧
      ((last < start ∨ stop < first) → s' = s) ∧
      (start ≤ last → first ≤ stop →
        samples s' = (samples s).filter (fun x => decide (start ≤ x.1 ∧ x.1 < min stop last)) ∧
        s'.ts = s.ts.filter (fun t => decide (start ≤ t ∧ t < min stop last)) ∧
        (∀ m, s.misc = some m → ∃ m', s'.misc = some m' ∧ s'.ts.zip m'.rows =
          (s.ts.zip m.rows).filter fun x => decide (start ≤ x.1 ∧ x.1 < min stop last)) ∧
        (s.misc = none → s'.misc = none)) := by
  by_cases hout : last < start ∨ stop < first
  · refine ⟨s, ?_, fun _ => rfl, ?_⟩
    · simp only [cropTimes, PyM.self_bind, hfirst, hlast]
      rw [if_neg (not_le.mpr hlt)]
      rcases hout with h | h
      · rw [if_pos h]; rfl
      · by_cases h' : start > last
        · rw [if_pos h']; rfl
        · rw [if_neg h', if_pos h]; rfl
    · intro h1 h2
      rcases hout with h | h
      · exact absurd h1 (not_le.mpr h)
      · exact absurd h2 (not_le.mpr h)
  · rw [not_or, not_lt, not_lt] at hout
    obtain ⟨h1, h2⟩ := hout
    obtain ⟨a, ha⟩ : ∃ a, a = s.ts.findIdx fun x => decide (x ≥ start) := ⟨_, rfl⟩
    obtain ⟨b, hb⟩ : ∃ b, b = s.ts.findIdx fun x => decide (x ≥ min stop last) := ⟨_, rfl⟩
    have hlm : last ∈ s.ts := List.mem_of_getLast? hlast
    have ea : (if start ≤ first then 0 else argmaxBool (s.ts.map fun t => decide (t ≥ start))) =
        a := by
      rw [ha]
      split_ifs with h
      · clear hlast hlm hi hb
        cases hts : s.ts with
        | nil => rfl
        | cons x l =>
          rw [hts] at hfirst
          cases hfirst
          rw [List.findIdx_cons]
          have h' : decide (first ≥ start) = true := by simpa using h
          rw [h']; rfl
      · exact argmaxBool_map _ _ ⟨last, hlm, by simpa using h1⟩
    have eb : (if stop ≥ last then s.ts.length - 1
        else argmaxBool (s.ts.map fun t => decide (t ≥ stop))) = b := by
      rw [hb]
      split_ifs with h
      · rw [min_eq_right h, findIdx_last hi hlast]
      · rw [min_eq_left (le_of_not_ge h)]
        exact argmaxBool_map _ _ ⟨last, hlm, by simpa using le_of_not_ge h⟩
    refine ⟨cropRows a b s, ?_, fun h => ?_, fun _ _ => ⟨?_, ?_, ?_, ?_⟩⟩
    · simp only [cropTimes, PyM.self_bind, hfirst, hlast]
      rw [if_neg (not_le.mpr hlt), if_neg (not_lt.mpr h1), if_neg (not_lt.mpr h2), ea, eb]
      rfl
    · rcases h with h | h
      · exact absurd h1 (not_le.mpr h)
      · exact absurd h2 (not_le.mpr h)
    · have hz : (s.ys.rows.zip (s.yds.rows.zip s.ydds.rows)).length = s.ts.length := by
        simp [hs.ys, hs.yds, hs.ydds]
      have := crop_zip s.ts _ hz hi start (min stop last) a b ha hb
      unfold samples
      rw [← this]
      simp only [cropRows, rowSlice, pySlice_nat, List.zip, List.take_zipWith, List.drop_zipWith]
    · have := filter_between_sorted id start (min stop last) s.ts hi
      simp only [id] at this
      rw [this, ← ha, ← hb]
      exact pySlice_nat a b s.ts
    · intro m hm
      refine ⟨rowSlice a b m, by simp [cropRows, hm], ?_⟩
      rw [← crop_zip s.ts m.rows (hs.misc m hm).1 hi start (min stop last) a b ha hb]
      simp only [cropRows, rowSlice, pySlice_nat]
    · intro hm; simp [cropRows, hm]

/-! ### C47: padding -/

/-- The stationary trajectory that the pad functions build. -/
def padTraj (n : Nat) (s : Trajectory K) (dt : K) (y : List K) : Trajectory K :=
  ⟨(List.range n).map fun (i : Nat) => (i : K) * dt,
    meanDiff ((List.range n).map fun (i : Nat) => (i : K) * dt),
    ⟨s.ys.cols, List.replicate n y⟩,
    ⟨s.ys.cols, List.replicate n (List.replicate s.ys.cols 0)⟩,
    ⟨s.ys.cols, List.replicate n (List.replicate s.ys.cols 0)⟩, none, s.ys.cols⟩

theorem padTraj_ts (n : Nat) (s : Trajectory K) (dt : K) (y : List K) :
    (padTraj n s dt y).ts = (List.range n).map fun (i : Nat) => (i : K) * dt := rfl

theorem padding_run {s : Trajectory K} (hs : s.Shape) {dt : K} (hdt : s.dtMean = some dt)
    (hpos : 0 < dt) (n : Nat) {y : List K} (hy : y.length = s.ys.cols) :
    padding n s (.ok y) = .ok (padTraj n s dt y) := by
  have ha : arange n s.dtMean = .ok ((List.range n).map fun (i : Nat) => (i : K) * dt) := by
    simp only [arange, hdt]
    rw [if_neg hpos.ne']
  unfold padding
  rw [ha, hs.ydsShape, hs.yddsShape]
  simp only [bind, Except.bind, hy]
  exact init_two (by simp) (by simp [Arr2.shape]) (by simp [Arr2.shape]) (by simp)

/-- C47, pad_end. The misc columns, if any, are dropped. -/
theorem C47_pad_end (s : Trajectory K) (hs : s.Shape) (hi : Increasing s.ts) (n : Nat) (hn : 1 ≤ n)
    (dt last : K) (hdt : s.dtMean = some dt) (hpos : 0 < dt) (hlast : s.ts.getLast? = some last)
    (y : List K) (hy : s.ys.rows.getLast? = some y) :
    ∃ s', padEnd n s = (.ok (), s') ∧ Increasing s'.ts ∧
      s'.ts = s.ts ++ (List.range n).map (fun (i : Nat) => last + ((i : K) + 1) * dt) ∧
      s'.ys.rows = s.ys.rows ++ List.replicate n y ∧
      s'.yds.rows = s.yds.rows ++ List.replicate n (List.replicate s.ys.cols 0) ∧
      s'.ydds.rows = s.ydds.rows ++ List.replicate n (List.replicate s.ys.cols 0) ∧
      s'.misc = none ∧ s'.dtMean = s.dtMean ∧ s'.Shape := by
  have hyl : y.length = s.ys.cols := hs.ysCols y (List.mem_of_getLast? hy)
  have hp := padding_run hs hdt hpos n hyl
  have hpad := padding_shape hp
  have hc : Compatible s (padTraj n s dt y) :=
    ⟨rfl, by simp [padTraj]⟩
  have hfinal : s.yFinal = .ok y := by simp [yFinal, hy]
  have hrun : padEnd n s = (.ok (), joinedTraj false s (padTraj n s dt y) (s.ts ++ (List.map (fun (i : Nat) =>
      (i : K) * dt) (List.range n)).map fun t => (t - 0) + (last + dt))) := by
    unfold padEnd
    rw [PyM.self_bind, hfinal, hp]
    simp only [lift, PyM.pure_bind]
    unfold append
    rw [PyM.self_bind]
    simp only [padTraj_ts, arange_head (K := K) (by omega : n ≠ 0) dt, hlast]
    have := concatData_run (swap := false) hs hpad hc
      (s.ts ++ (List.map (fun (i : Nat) => (i : K) * dt) (List.range n)).map
        fun t => (t - 0) + (last + dt))
    rw [hdt] at this
    simp only [hdt, PyM.modify_bind]
    exact this
  have hts : s.ts ++ (List.map (fun (i : Nat) => (i : K) * dt) (List.range n)).map
      (fun t => (t - 0) + (last + dt)) =
      s.ts ++ (List.range n).map (fun (i : Nat) => last + ((i : K) + 1) * dt) := by
    rw [List.map_map]
    congr 1
    exact List.map_congr_left fun i _ => by simp only [Function.comp]; ring
  refine ⟨_, hrun, ?_, hts, rfl, rfl, rfl, ?_, rfl, ?_⟩
  · show Increasing (s.ts ++ _)
    unfold Increasing
    rw [List.pairwise_append]
    refine ⟨hi, sorted_shift (arange_sorted n hpos) _ fun a b hab => by linarith, ?_⟩
    intro a ha b hb
    obtain ⟨t, ht, rfl⟩ := List.mem_map.mp hb
    have h1 := sorted_le_last hi hlast ha
    have h2 := sorted_head_le (arange_sorted n hpos) (arange_head (by omega) dt) ht
    linarith
  · simp only [joinedTraj]
    cases s.misc <;> rfl
  · have := concatData_run (swap := false) hs hpad hc
      (s.ts ++ (List.map (fun (i : Nat) => (i : K) * dt) (List.range n)).map
        fun t => (t - 0) + (last + dt))
    exact hs.concatData hpad (by simp [padTraj_ts]) rfl this

/-- C47 for pad_front, as claimed (that it succeeds and keeps the times increasing). -/
def C47_pad_front_statement : Prop := ∀ (s : Trajectory ℚ) (n : Nat) (dt : ℚ), s.Shape →
  Increasing s.ts → s.ts ≠ [] → 1 ≤ n → s.dtMean = some dt → 0 < dt →
  ∃ s', padFront n s = (.ok (), s') ∧ Increasing s'.ts

/-- C47, pad_front with at least two samples. The start time becomes 0, the misc columns, if any,
are dropped. Missing compared to the full claim: padding with one sample. -/
theorem C47_pad_front_partial (s : Trajectory K) (hs : s.Shape) (hi : Increasing s.ts) (n : Nat)
    (hn : 2 ≤ n) (dt first : K) (hdt : s.dtMean = some dt) (hpos : 0 < dt)
    (hfirst : s.ts.head? = some first) (y : List K) (hy : s.ys.rows.head? = some y) :
    ∃ s', padFront n s = (.ok (), s') ∧ Increasing s'.ts ∧
      s'.ts = (List.range n).map (fun (i : Nat) => (i : K) * dt) ++
        s.ts.map (fun t => t - first + (n : K) * dt) ∧
      s'.ys.rows = List.replicate n y ++ s.ys.rows ∧
      s'.yds.rows = List.replicate n (List.replicate s.ys.cols 0) ++ s.yds.rows ∧
      s'.ydds.rows = List.replicate n (List.replicate s.ys.cols 0) ++ s.ydds.rows ∧
      s'.misc = none ∧ s'.dtMean = s.dtMean ∧ s'.Shape := by
  have hyl : y.length = s.ys.cols := hs.ysCols y (List.mem_of_head? hy)
  have hp := padding_run hs hdt hpos n hyl
  have hpad := padding_shape hp
  have hinit : s.yInit = .ok y := by simp [yInit, hy]
  have hne : s.ts ≠ [] := by intro h; rw [h] at hfirst; cases hfirst
  obtain ⟨last, hlast⟩ : ∃ b, s.ts.getLast? = some b :=
    ⟨_, List.getLast?_eq_getLast_of_ne_nil hne⟩
  have hn1 : ((n - 1 : Nat) : K) = (n : K) - 1 := by
    rw [Nat.cast_sub (by omega)]; simp
  obtain ⟨s', h1, h2, h3, ⟨c, h4⟩, h5, h6, h7, -, h9, h10, h11, h12⟩ :=
    C42_prepend_partial s (padTraj n s dt y) hs hpad
      ⟨rfl, by simp [padTraj]⟩ hi (arange_sorted n hpos) dt (last - first) (((n - 1 : Nat) : K) * dt - 0) 0
      (arange_meanDiff hn dt) (by simp [duration, hlast, hfirst])
      (by simp only [duration, padTraj_ts]; rw [arange_last (by omega) dt, arange_head (by omega) dt])
      (arange_head (by omega) dt)
  refine ⟨s', ?_, h2.mpr hpos, ?_, h5, h6, h7, h9 (.inr rfl), h10, h12⟩
  · unfold padFront
    rw [PyM.self_bind, hinit, hp]
    exact h1
  · rw [h4]
    rw [padTraj_ts] at h4 ⊢
    congr 1
    -- the shift follows from the duration
    have hl : s'.ts.getLast? = some (last + c) := by
      rw [h4, List.getLast?_append, List.getLast?_map, hlast]; rfl
    have hh : s'.ts.head? = some 0 := by
      rw [h4, List.head?_append, arange_head (by omega) dt]; rfl
    rw [duration, hl, hh, Except.ok.injEq] at h3
    have hc : c = (n : K) * dt - first := by rw [hn1] at h3; linarith
    exact List.map_congr_left fun t _ => by rw [hc]; ring

/-- C47 fails for pad_front with one sample: the mean time step of the padding is `nan`, and with
it all times. -/
theorem C47_pad_front_one (s : Trajectory K) (hs : s.Shape) (hne : s.ts ≠ []) (dt : K)
    (hdt : s.dtMean = some dt) (hpos : 0 < dt) : (padFront 1 s).1 = .error .nanResult := by
  obtain ⟨x, l, hx⟩ := List.exists_cons_of_ne_nil hne
  obtain ⟨y, r, hy⟩ : ∃ y r, s.ys.rows = y :: r := by
    apply List.exists_cons_of_ne_nil
    intro h
    have := hs.ys
    rw [h, hx] at this
    simp at this
  have hyl : y.length = s.ys.cols := hs.ysCols y (by rw [hy]; simp)
  unfold padFront
  rw [PyM.self_bind, show s.yInit = .ok y by simp [yInit, hy], padding_run hs hdt hpos 1 hyl]
  simp only [lift, PyM.pure_bind]
  unfold prepend
  rw [PyM.bind_apply]
  have e : setStartTimeToZero s = (.ok (), { s with ts := s.ts.map fun t => t - x }) := by
    simp [setStartTimeToZero, hx]
  rw [e]
  simp [duration, lift, meanDiff, diff, padTraj]

end

/-- C43 fails for cropping by time: an interval that contains all times drops the last sample. -/
theorem C43_times_refuted : ¬ C43_times_statement := by
  intro h
  obtain ⟨s', h1, -, h3⟩ := C43_crop_times_partial (two 0 1) (two_shape _ _)
    (two_increasing (by norm_num)) (-1) 5 0 1 rfl rfl (by norm_num)
  have e := h _ _ _ _ (two_shape _ _) (two_increasing (by norm_num)) (by norm_num) h1
  rw [(h3 (by norm_num) (by norm_num)).1] at e
  have := congrArg List.length e
  norm_num [samples, two, List.filter_cons] at this

theorem C47_refuted : ¬ C47_pad_front_statement := by
  intro h
  obtain ⟨s', h1, -⟩ := h (two 0 1) 1 (1 - 0) (two_shape _ _) (two_increasing (by norm_num))
    (by simp [two]) le_rfl (two_dtMean _ _) (by norm_num)
  have := C47_pad_front_one (two 0 1) (two_shape _ _) (by simp [two]) _ (two_dtMean _ _)
    (by norm_num)
  rw [h1] at this
  cases this

/-- Cropping the middle of three samples by index and by time. -/
def three : Trajectory ℚ :=
  ⟨[0, 1, 2], some 1, ⟨1, [[5], [6], [7]]⟩, ⟨1, [[1], [1], [1]]⟩, ⟨1, [[0], [0], [0]]⟩, none, 1⟩

theorem three_shape : three.Shape :=
  ⟨rfl, rfl, rfl, by simp [three], by simp [three], by simp [three], rfl, rfl, rfl, by simp [three]⟩

theorem three_increasing : Increasing three.ts := by
  simp only [three, Increasing]; norm_num

example : ∃ s', cropIndices 1 (-1) three = (.error .valueError, s') ∧ s' = three :=
  ⟨_, (C43_crop_rejected three).1 1 (-1) (by simp [three]) (by omega), rfl⟩

example : ∃ s', cropIndices (-2) (-1) three = (.ok (), s') ∧ s'.ts = [1] := by
  refine ⟨cropRows (-2) (-1) three, ?_, ?_⟩
  · simp [cropIndices, three]
  · simp [cropRows, three, pySlice, sliceIndex]

example : ∃ s', cropTimes (1 / 2) (3 / 2) three = (.ok (), s') ∧ s'.ts = [1] := by
  obtain ⟨s', h1, -, h3⟩ := C43_crop_times_partial three three_shape three_increasing (1 / 2)
    (3 / 2) 0 2 rfl rfl (by norm_num)
  refine ⟨s', h1, ?_⟩
  rw [(h3 (by norm_num) (by norm_num)).2.1]
  norm_num [three, List.filter_cons]

/-- The hypotheses of the padding theorems are met by `three`. -/
example : (∃ s', padEnd 1 three = (.ok (), s') ∧ s'.ys.rows = [[5], [6], [7], [7]]) ∧
    ∃ s', padFront 2 three = (.ok (), s') ∧ s'.ys.rows = [[5], [5], [5], [6], [7]] := by
  obtain ⟨s1, h1, -, -, h2, -⟩ := C47_pad_end three three_shape three_increasing 1 le_rfl 1 2 rfl
    one_pos rfl [7] rfl
  obtain ⟨s2, h3, -, -, h4, -⟩ := C47_pad_front_partial three three_shape three_increasing 2 le_rfl
    1 0 rfl one_pos rfl [5] rfl
  exact ⟨⟨s1, h1, h2⟩, ⟨s2, h3, h4⟩⟩

end Trajectory

end Verif
