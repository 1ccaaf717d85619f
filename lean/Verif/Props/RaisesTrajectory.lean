import Verif.Spec.Raises
import Verif.Props.TrajectoryShape

/-
C88 for Trajectory.py: which exceptions the constructor, the factories and the methods raise.
-/

set_option autoImplicit false

namespace Verif

open Spec

variable {K : Type} [Field K] [LinearOrder K]

/-- C88: the outcome of diffnc, for each number of samples and each time step (`none` is nan). -/
theorem C88_diffnc (xs : Arr2 K) (dt : Option K) :
    (xs.rows.length = 0 → xs.cols = 0 → diffnc xs dt = .error .indexError) ∧
    (xs.rows.length = 0 → xs.cols ≠ 0 → diffnc xs dt = .error .valueError) ∧
    (xs.rows.length = 1 → diffnc xs dt = .error .indexError) ∧
    (2 ≤ xs.rows.length → (∀ h, dt = some h → h = 0) → diffnc xs dt = .error .nanResult) ∧
    (2 ≤ xs.rows.length → ∀ h, dt = some h → h ≠ 0 → ∃ a, diffnc xs dt = .ok a ∧ a.cols = xs.cols ∧
      a.rows.length = xs.rows.length) := by
  refine ⟨fun h hc => ?_, fun h hc => ?_, fun h => ?_, fun h hd => ?_, fun h d hd h0 => ?_⟩
  · unfold diffnc
    rw [if_pos h, if_pos hc]
  · unfold diffnc
    rw [if_pos h, if_neg hc]
  · unfold diffnc
    rw [if_neg (by omega), if_pos h]
  · unfold diffnc
    rw [if_neg (by omega), if_neg (by omega)]
    cases dt with
    | none => rfl
    | some d => simp only; rw [if_pos (hd d rfl)]
  · unfold diffnc
    rw [if_neg (by omega), if_neg (by omega), hd]
    simp only
    rw [if_neg h0]
    refine ⟨_, rfl, rfl, ?_⟩
    simp

namespace Trajectory

/-- C88: the constructor raises ValueError for each array of the wrong size: positions; velocities; and, if
the arrays before are accepted, accelerations and misc. -/
theorem C88_init (ts : List K) (ys : Arr2 K) (misc : Option (Arr2 K)) :
    (∀ yds ydds, ys.rows.length ≠ ts.length → init ts (.two ys) yds ydds misc = .error .valueError) ∧
    (∀ l yds ydds, l.length ≠ ts.length → init ts (.one l) yds ydds misc = .error .valueError) ∧
    (∀ a ydds, ys.rows.length = ts.length → a.shape ≠ ys.shape →
      init ts (.two ys) (some (.two a)) ydds misc = .error .valueError) ∧
    (∀ l ydds, ys.rows.length = ts.length → l.length ≠ ts.length →
      init ts (.two ys) (some (.one l)) ydds misc = .error .valueError) ∧
    (∀ v a, ys.rows.length = ts.length → v.shape = ys.shape → a.shape ≠ ys.shape →
      init ts (.two ys) (some (.two v)) (some (.two a)) misc = .error .valueError) ∧
    (∀ v l, ys.rows.length = ts.length → v.shape = ys.shape → l.length ≠ ts.length →
      init ts (.two ys) (some (.two v)) (some (.one l)) misc = .error .valueError) ∧
    (∀ v a m, ys.rows.length = ts.length → v.shape = ys.shape → a.shape = ys.shape → misc = some m →
      m.rows.length ≠ ts.length → init ts (.two ys) (some (.two v)) (some (.two a)) misc = .error .valueError) := by
  have hy : ∀ (yds ydds : Option (Arr K)), ys.rows.length = ts.length → init ts (.two ys) yds ydds misc =
      (derivative ys ys (meanDiff ts) ts.length yds).bind fun v =>
        (derivative ys v (meanDiff ts) ts.length ydds).bind fun a =>
          if (misc.any fun m => ts.length != m.rows.length) then .error .valueError
          else .ok ⟨ts, meanDiff ts, ys, v, a, misc, ys.cols⟩ := by
    intro yds ydds h
    unfold init
    rw [if_neg (by simp [Arr.len, h])]
    rfl
  have hd : ∀ (v a : Arr2 K), a.shape = ys.shape →
      derivative ys v (meanDiff ts) ts.length (some (.two a)) = .ok a := by
    intro v a h
    change (if ys.shape ≠ a.shape then Except.error PyErr.valueError else Except.ok a) = _
    rw [if_neg (by rw [h]; simp)]
  have hd' : ∀ (v a : Arr2 K), a.shape ≠ ys.shape →
      derivative ys v (meanDiff ts) ts.length (some (.two a)) = .error .valueError := by
    intro v a h
    change (if ys.shape ≠ a.shape then Except.error PyErr.valueError else Except.ok a) = _
    rw [if_pos (Ne.symm h)]
  have hl : ∀ (v : Arr2 K) (l : List K), l.length ≠ ts.length →
      derivative ys v (meanDiff ts) ts.length (some (.one l)) = .error .valueError := by
    intro v l h
    unfold derivative
    simp only [Arr.asColumns]
    rw [if_neg h]
    rfl
  refine ⟨fun yds ydds h => ?_, fun l yds ydds h => ?_, fun a ydds h1 h2 => ?_, fun l ydds h1 h2 => ?_,
    fun v a h1 h2 h3 => ?_, fun v l h1 h2 h3 => ?_, fun v a m h1 h2 h3 h4 h5 => ?_⟩
  · exact if_pos (Ne.symm h)
  · exact if_pos (Ne.symm h)
  · rw [hy _ _ h1, hd' _ _ h2]; rfl
  · rw [hy _ _ h1, hl _ _ h2]; rfl
  · rw [hy _ _ h1, hd _ _ h2]
    simp only [Except.bind]
    rw [hd' _ _ h3]
  · rw [hy _ _ h1, hd _ _ h2]
    simp only [Except.bind]
    rw [hl _ _ h3]
  · rw [hy _ _ h1, hd _ _ h2]
    simp only [Except.bind]
    rw [hd _ _ h3, h4]
    simp only
    rw [if_pos (by simpa using Ne.symm h5)]

/-- C88: without derivatives, the constructor raises the exceptions of diffnc: for no samples, for one
sample, and nan for time steps with mean zero. -/
theorem C88_init_derivatives (ts : List K) (ys : Arr2 K) (ydds : Option (Arr K)) (misc : Option (Arr2 K))
    (h : ys.rows.length = ts.length) :
    (ts = [] → ys.cols ≠ 0 → init ts (.two ys) none ydds misc = .error .valueError) ∧
    (ts = [] → ys.cols = 0 → init ts (.two ys) none ydds misc = .error .indexError) ∧
    (∀ t, ts = [t] → init ts (.two ys) none ydds misc = .error .indexError) ∧
    (2 ≤ ts.length → (∀ d, meanDiff ts = some d → d = 0) →
      init ts (.two ys) none ydds misc = .error .nanResult) := by
  have hy : init ts (.two ys) none ydds misc = (diffnc ys (meanDiff ts)).bind fun v =>
        (derivative ys v (meanDiff ts) ts.length ydds).bind fun a =>
          if (misc.any fun m => ts.length != m.rows.length) then .error .valueError
          else .ok ⟨ts, meanDiff ts, ys, v, a, misc, ys.cols⟩ := by
    unfold init
    rw [if_neg (by simp [Arr.len, h])]
    rfl
  obtain ⟨d1, d2, d3, d4, -⟩ := C88_diffnc ys (meanDiff ts)
  rw [hy]
  refine ⟨fun e hc => ?_, fun e hc => ?_, fun t e => ?_, fun e hd => ?_⟩
  · rw [d2 (by rw [h, e]; rfl) hc]; rfl
  · rw [d1 (by rw [h, e]; rfl) hc]; rfl
  · rw [d3 (by rw [h, e]; rfl)]; rfl
  · rw [d4 (by rw [h]; exact e) hd]; rfl

/-- C88: trajectories without samples have no start, no end, no duration and no range; the methods raise
and the time shift does not change them. With samples, these methods succeed. -/
theorem C88_empty (s : Trajectory K) :
    (s.ts = [] → s.duration = .error .indexError ∧ Raises setStartTimeToZero .indexError s) ∧
    (s.ys.rows = [] → s.yInit = .error .indexError ∧ s.yFinal = .error .indexError ∧
      s.rangePerDim = .error .valueError) ∧
    (s.ts ≠ [] → (∃ d, s.duration = .ok d) ∧ ∃ t, setStartTimeToZero s = (.ok (), t) ∧ t.ts.head? = some 0 ∧
      t.ts.length = s.ts.length) ∧
    (s.ys.rows ≠ [] → (∃ y, s.yInit = .ok y) ∧ (∃ y, s.yFinal = .ok y) ∧ ∃ r, s.rangePerDim = .ok r) := by
  refine ⟨fun h => ⟨?_, ?_⟩, fun h => ⟨?_, ?_, ?_⟩, fun h => ?_, fun h => ?_⟩
  · simp [duration, h]
  · simp [Raises, setStartTimeToZero, h]
  · simp [yInit, h]
  · simp [yFinal, h]
  · simp [rangePerDim, h]
  · obtain ⟨a, l, e⟩ := List.exists_cons_of_ne_nil h
    refine ⟨?_, ?_⟩
    · have e' : s.ts.head? = some a := by rw [e]; rfl
      unfold duration
      rw [List.getLast?_eq_some_getLast h, e']
      exact ⟨_, rfl⟩
    · refine ⟨{ s with ts := s.ts.map fun t => t - a }, ?_, ?_, ?_⟩
      · simp [setStartTimeToZero, e]
      · simp [e]
      · simp
  · obtain ⟨a, l, e⟩ := List.exists_cons_of_ne_nil h
    refine ⟨⟨a, by simp [yInit, e]⟩, ⟨s.ys.rows.getLast h, by simp [yFinal, List.getLast?_eq_some_getLast h]⟩, ?_⟩
    unfold rangePerDim
    rw [e]
    exact ⟨_, rfl⟩

/-- C88: append raises IndexError if one of the trajectories has no samples, and gives nan if the mean time
step is not defined; the trajectory is not changed. For another number of dimensions it raises ValueError. -/
theorem C88_append (s o : Trajectory K) :
    (s.ts = [] ∨ o.ts = [] → Raises (append o) .indexError s) ∧
    (s.ts ≠ [] → o.ts ≠ [] → s.dtMean = none → Raises (append o) .nanResult s) ∧
    (∀ d, s.ts ≠ [] → o.ts ≠ [] → s.dtMean = some d → s.ys.cols ≠ o.ys.cols →
      (append o s).1 = .error .valueError) := by
  refine ⟨?_, ?_, ?_⟩
  · intro h
    unfold Raises append
    simp only [PyM.self_bind]
    rcases h with h | h
    · rw [h]; cases o.ts.head? <;> rfl
    · rw [h]; rfl
  · intro h1 h2 hd
    obtain ⟨a, l, e⟩ := List.exists_cons_of_ne_nil h2
    unfold Raises append
    simp only [PyM.self_bind]
    rw [List.getLast?_eq_some_getLast h1, e]
    simp only [List.head?_cons]
    rw [hd]
    rfl
  · intro d h1 h2 hd hc
    obtain ⟨a, l, e⟩ := List.exists_cons_of_ne_nil h2
    unfold append
    simp only [PyM.self_bind]
    rw [List.getLast?_eq_some_getLast h1, e]
    simp only [List.head?_cons]
    rw [hd]
    simp only [PyM.modify_bind]
    unfold concatData
    simp only [PyM.self_bind]
    have : concat s.ys o.ys = .error .valueError := if_neg hc
    simp only [Bool.false_eq_true, if_false, this]
    rfl

/-- C88: prepend raises IndexError if one of the trajectories has no samples, and gives nan if the mean time
step of the other is not defined. -/
theorem C88_prepend (s o : Trajectory K) :
    (s.ts = [] → Raises (prepend o) .indexError s) ∧
    (s.ts ≠ [] → o.ts = [] → (prepend o s).1 = .error .indexError) ∧
    (s.ts ≠ [] → o.ts ≠ [] → o.dtMean = none → (prepend o s).1 = .error .nanResult) := by
  obtain ⟨h1, -, h3, -⟩ := C88_empty s
  obtain ⟨g1, -, g3, -⟩ := C88_empty o
  refine ⟨fun h => PyM.bind_error (h1 h).2, fun h ho => ?_, fun h ho hd => ?_⟩
  · obtain ⟨-, t, ht, -⟩ := h3 h
    unfold prepend
    rw [PyM.bind_ok ht, (g1 ho).1]
    rfl
  · obtain ⟨-, t, ht, -⟩ := h3 h
    obtain ⟨⟨d, hdur⟩, -⟩ := g3 ho
    unfold prepend
    rw [PyM.bind_ok ht, hdur, hd]
    rfl

/-- C88 for append: a call that is rejected leaves the trajectory as it was. -/
def C88_append_statement : Prop :=
  ∀ (s o : Trajectory ℚ) (e : PyErr), s.Shape → o.Shape → (append o s).1 = .error e → (append o s).2 = s

/-- C88 is false for append: for a trajectory with another number of dimensions the times are already
appended when np.concatenate raises ValueError (Trajectory.py:437-438). -/
theorem C88_append_refuted : ¬ C88_append_statement := by
  intro H
  let s : Trajectory ℚ := ⟨[0, 1], some 1, ⟨1, [[0], [1]]⟩, ⟨1, [[1], [1]]⟩, ⟨1, [[0], [0]]⟩, none, 1⟩
  let o : Trajectory ℚ := ⟨[0, 1], some 1, ⟨2, [[0, 0], [1, 1]]⟩, ⟨2, [[1, 1], [1, 1]]⟩, ⟨2, [[0, 0], [0, 0]]⟩,
    none, 2⟩
  have hs : s.Shape := by constructor <;> simp [s, Arr2.Wf, Arr2.shape]
  have ho : o.Shape := by constructor <;> simp [o, Arr2.Wf, Arr2.shape]
  have h := H s o .valueError hs ho rfl
  have h2 : (append o s).2.ts.length = 4 := rfl
  rw [h] at h2
  exact absurd h2 (by decide)

/-- C88: padding raises ValueError if the mean time step is zero or not defined, and IndexError if there is
no sample to repeat; the trajectory is not changed. -/
theorem C88_pad (s : Trajectory K) (n : Nat) :
    ((∀ d, s.dtMean = some d → d = 0) → Raises (padFront n) .valueError s ∧ Raises (padEnd n) .valueError s) ∧
    (∀ d, s.dtMean = some d → d ≠ 0 → s.ys.rows = [] →
      Raises (padFront n) .indexError s ∧ Raises (padEnd n) .indexError s) := by
  have hp : ∀ y, (∀ d, s.dtMean = some d → d = 0) → padding n s y = .error .valueError := by
    intro y h
    unfold padding arange
    cases hd : s.dtMean with
    | none => rfl
    | some d =>
      simp only
      rw [if_pos (h d hd)]
      rfl
  have hq : ∀ e d, s.dtMean = some d → d ≠ 0 → padding n s (.error e) = .error e := by
    intro e d hd h0
    unfold padding arange
    rw [hd]
    simp only
    rw [if_neg h0]
    rfl
  refine ⟨fun h => ⟨?_, ?_⟩, fun d hd h0 he => ⟨?_, ?_⟩⟩
  · unfold Raises padFront
    rw [PyM.self_bind, hp _ h]
    rfl
  · unfold Raises padEnd
    rw [PyM.self_bind, hp _ h]
    rfl
  · unfold Raises padFront
    rw [PyM.self_bind, ((C88_empty s).2.1 he).1, hq _ d hd h0]
    rfl
  · unfold Raises padEnd
    rw [PyM.self_bind, ((C88_empty s).2.1 he).2.1, hq _ d hd h0]
    rfl

/-- C88: the factories raise IndexError without times (or without columns), ValueError for vectors of
different sizes, and give nan for movements that take no time. -/
theorem C88_factories (ts y0 v0 a0 y1 v1 a1 : List K) :
    (fromMinJerk [] y0 y1 = .error .indexError) ∧
    (ts ≠ [] → y1.length ≠ y0.length → fromMinJerk ts y0 y1 = .error .valueError) ∧
    (ts.getLast? = some 0 → y1.length = y0.length → fromMinJerk ts y0 y1 = .error .nanResult) ∧
    (v0.length = y0.length → a0.length = y0.length → y1.length = y0.length → v1.length = y0.length →
      a1.length = y0.length → fromPolynomial [] y0 v0 a0 y1 v1 a1 = .error .indexError ∧
      (∀ t, ts.head? = some t → ts.getLast? = some t →
        fromPolynomial ts y0 v0 a0 y1 v1 a1 = .error .nanResult)) ∧
    (∀ (rows : List (List K)) n, fromMatrix ⟨0, rows⟩ n = .error .indexError) := by
  refine ⟨rfl, fun h hl => ?_, fun h hl => ?_, fun h1 h2 h3 h4 h5 => ⟨?_, fun t e1 e2 => ?_⟩, fun rows n => ?_⟩
  · unfold fromMinJerk
    rw [List.getLast?_eq_some_getLast h]
    simp only
    rw [if_pos hl]
  · unfold fromMinJerk
    rw [h]
    simp only
    rw [if_neg (by simpa using hl), if_pos trivial]
  · unfold fromPolynomial
    rw [if_neg (by simp [h1, h2, h3, h4, h5])]
    rfl
  · unfold fromPolynomial
    rw [if_neg (by simp [h1, h2, h3, h4, h5]), e1, e2]
    simp only
    rw [if_pos (sub_self t)]
  · simp [fromMatrix]

/-- C88: as_matrix raises ValueError if the numbers of rows differ. -/
theorem C88_matrix (s : Trajectory K) :
    (s.ys.rows.length ≠ s.ts.length ∨ s.yds.rows.length ≠ s.ts.length ∨ s.ydds.rows.length ≠ s.ts.length →
      s.asMatrix = .error .valueError) ∧
    (∀ m, s.misc = some m → m.rows.length ≠ s.ts.length → s.asMatrix = .error .valueError) := by
  constructor
  · intro h
    unfold asMatrix
    simp only
    rw [if_neg (by tauto)]
  · intro m hm h
    unfold asMatrix
    simp only
    split
    · rw [hm]
      simp only
      rw [if_neg h]
    · rfl

/-- The hypotheses hold for small trajectories. -/
example : ([1, 1] : List ℚ).getLast? = some 1 ∧ ([1, 1] : List ℚ).head? = some 1 ∧
    meanDiff ([1, 1] : List ℚ) = some 0 ∧ meanDiff ([1] : List ℚ) = none ∧
    (init ([1] : List ℚ) (.one [3]) (some (.one [0])) (some (.one [0])) none).toOption.isSome := by
  refine ⟨rfl, rfl, ?_, rfl, rfl⟩
  norm_num [meanDiff, diff]

end Trajectory

end Verif
