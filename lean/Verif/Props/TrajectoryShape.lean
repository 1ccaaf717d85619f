import Verif.Model.Trajectory
import Mathlib.Tactic.Ring
import Mathlib.Tactic.Linarith
import Mathlib.Algebra.Order.Ring.Rat
import Mathlib.Data.Rat.Cast.Order

/- C40: shape invariant of trajectories. -/

set_option autoImplicit false
set_option linter.unusedSectionVars false

namespace Verif

namespace Trajectory

variable {K : Type} [Field K] [LinearOrder K]

/-- The shape claim of C40. -/
structure Shape (s : Trajectory K) : Prop where
  ys : s.ys.rows.length = s.ts.length
  yds : s.yds.rows.length = s.ts.length
  ydds : s.ydds.rows.length = s.ts.length
  ysCols : ∀ r ∈ s.ys.rows, r.length = s.ys.cols
  ydsCols : ∀ r ∈ s.yds.rows, r.length = s.ys.cols
  yddsCols : ∀ r ∈ s.ydds.rows, r.length = s.ys.cols
  ydsShape : s.yds.cols = s.ys.cols
  yddsShape : s.ydds.cols = s.ys.cols
  dim : s.dim = s.ys.cols
  misc : ∀ m, s.misc = some m → m.rows.length = s.ts.length ∧ ∀ r ∈ m.rows, r.length = m.cols

/-! ### Shapes of the building blocks -/

theorem asColumns_wf {n : Nat} {a : Arr K} {b : Arr2 K} (ha : a.Wf) (h : a.asColumns n = .ok b) :
    b.Wf := by
  cases a with
  | one l =>
    simp only [Arr.asColumns] at h
    split_ifs at h
    cases h
    intro r hr
    obtain ⟨x, -, rfl⟩ := List.mem_map.mp hr
    rfl
  | two a => cases h; exact ha

theorem asColumns_len {n : Nat} {a : Arr K} {b : Arr2 K} (h : a.asColumns n = .ok b) :
    b.rows.length = a.len := by
  cases a with
  | one l =>
    simp only [Arr.asColumns] at h
    split_ifs at h
    cases h
    simp [Arr.len]
  | two a => cases h; rfl

/-- `diffnc` returns an array of the same shape. -/
theorem diffnc_shape {xs r : Arr2 K} {dt : Option K} (h : diffnc xs dt = .ok r) :
    r.rows.length = xs.rows.length ∧ r.cols = xs.cols ∧ r.Wf := by
  unfold diffnc at h
  split_ifs at h with h0 h1
  cases dt with
  | none => cases h
  | some dt =>
    dsimp only at h
    split_ifs at h with h2
    cases h
    refine ⟨by simp, rfl, ?_⟩
    generalize hm : ((List.range (xs.rows.length + 2)).map _ |>.drop 1 |>.take xs.rows.length) = mid
    have hrow : ∀ q ∈ mid, q.length = xs.cols := by
      intro q hq
      rw [← hm] at hq
      obtain ⟨k, -, rfl⟩ := List.mem_map.mp (List.mem_of_mem_drop (List.mem_of_mem_take hq))
      simp
    have hlen : mid.length = xs.rows.length := by rw [← hm]; simp
    have hset : ∀ (m : List (List K)) (i j : Nat), j < m.length → (∀ q ∈ m, q.length = xs.cols) →
        ∀ q ∈ m.set i (m.getD j []), q.length = xs.cols := by
      intro m i j hj hq q hmem
      rcases List.mem_or_eq_of_mem_set hmem with h | h
      · exact hq q h
      · subst h
        apply hq
        rw [List.getD_eq_getElem?_getD, List.getElem?_eq_getElem hj]
        exact List.getElem_mem hj
    exact hset _ _ _ (by simp; omega) (hset mid 0 1 (by omega) hrow)

theorem derivative_shape {ys fr r : Arr2 K} {dt : Option K} {n : Nat} {a : Option (Arr K)}
    (hfr : fr.shape = ys.shape) (ha : ∀ b, a = some b → b.Wf)
    (h : derivative ys fr dt n a = .ok r) : r.shape = ys.shape ∧ r.Wf := by
  cases a with
  | none =>
    obtain ⟨h1, h2, h3⟩ := diffnc_shape h
    refine ⟨?_, h3⟩
    rw [← hfr, Arr2.shape, Arr2.shape, h1, h2]
  | some a =>
    change (a.asColumns n >>= fun a =>
      if ys.shape ≠ a.shape then Except.error PyErr.valueError else Except.ok a) = _ at h
    cases hb : a.asColumns n with
    | error e => rw [hb] at h; cases h
    | ok b =>
      rw [hb] at h
      change (if ys.shape ≠ b.shape then Except.error PyErr.valueError else Except.ok b) = _ at h
      split_ifs at h with hne
      cases h
      exact ⟨(not_not.mp hne).symm, asColumns_wf (ha a rfl) hb⟩

/-- What a successful constructor call does. -/
theorem init_ok {ts : List K} {ys : Arr K} {yds ydds : Option (Arr K)} {misc : Option (Arr2 K)}
    {s : Trajectory K} (h : init ts ys yds ydds misc = .ok s) :
    ts.length = ys.len ∧ s.ts = ts ∧ s.dtMean = meanDiff ts ∧ ys.asColumns ts.length = .ok s.ys ∧
    derivative s.ys s.ys (meanDiff ts) ts.length yds = .ok s.yds ∧
    derivative s.ys s.yds (meanDiff ts) ts.length ydds = .ok s.ydds ∧
    s.misc = misc ∧ s.dim = s.ys.cols ∧ ∀ m, misc = some m → m.rows.length = ts.length := by
  unfold init at h
  by_cases h0 : ts.length = ys.len
  swap
  · simp [h0] at h
  rw [if_neg (not_not.mpr h0)] at h
  cases h1 : ys.asColumns ts.length with
  | error e => rw [h1] at h; cases h
  | ok y =>
    rw [h1] at h
    change (derivative y y (meanDiff ts) ts.length yds >>= _) = _ at h
    cases h2 : derivative y y (meanDiff ts) ts.length yds with
    | error e => rw [h2] at h; cases h
    | ok yd =>
      rw [h2] at h
      change (derivative y yd (meanDiff ts) ts.length ydds >>= _) = _ at h
      cases h3 : derivative y yd (meanDiff ts) ts.length ydds with
      | error e => rw [h3] at h; cases h
      | ok ydd =>
        rw [h3] at h
        change (if (misc.any fun m => ts.length != m.rows.length) = true then
          Except.error PyErr.valueError else _) = _ at h
        split_ifs at h with h4
        cases h
        refine ⟨h0, rfl, rfl, rfl, h2, h3, rfl, rfl, ?_⟩
        rintro m rfl
        simpa using Eq.symm (a := ts.length) (b := m.rows.length) (by simpa using h4)

theorem init_shape {ts : List K} {ys : Arr K} {yds ydds : Option (Arr K)} {misc : Option (Arr2 K)}
    {s : Trajectory K} (h : init ts ys yds ydds misc = .ok s) (hys : ys.Wf)
    (hyds : ∀ a, yds = some a → a.Wf) (hydds : ∀ a, ydds = some a → a.Wf)
    (hmisc : ∀ m, misc = some m → m.Wf) : s.Shape := by
  obtain ⟨h0, h1, -, h3, h4, h5, h6, h7, h8⟩ := init_ok h
  have hy := asColumns_wf hys h3
  have hyl := asColumns_len h3
  obtain ⟨e1, w1⟩ := derivative_shape rfl hyds h4
  obtain ⟨e2, w2⟩ := derivative_shape e1 hydds h5
  have e1r : s.yds.rows.length = s.ys.rows.length := congrArg Prod.fst e1
  have e1c : s.yds.cols = s.ys.cols := congrArg Prod.snd e1
  have e2r : s.ydds.rows.length = s.ys.rows.length := congrArg Prod.fst e2
  have e2c : s.ydds.cols = s.ys.cols := congrArg Prod.snd e2
  refine ⟨by rw [h1, hyl, h0], by rw [h1, e1r, hyl, h0], by rw [h1, e2r, hyl, h0], hy,
    fun r hr => (w1 r hr).trans e1c, fun r hr => (w2 r hr).trans e2c, e1c, e2c, h7, ?_⟩
  intro m hm
  rw [h6] at hm
  exact ⟨by rw [h1]; exact h8 m hm, hmisc m hm⟩

/-- An object built by the constructor from explicitly given arrays. -/
theorem init_two {ts : List K} {ys yds ydds : Arr2 K} {misc : Option (Arr2 K)}
    (h0 : ys.rows.length = ts.length) (h1 : yds.shape = ys.shape) (h2 : ydds.shape = ys.shape)
    (h3 : ∀ m, misc = some m → m.rows.length = ts.length) :
    init ts (.two ys) (some (.two yds)) (some (.two ydds)) misc =
      .ok ⟨ts, meanDiff ts, ys, yds, ydds, misc, ys.cols⟩ := by
  unfold init
  dsimp only
  rw [if_neg (by simp [Arr.len, h0])]
  change ((Except.ok ys : Except PyErr (Arr2 K)) >>= _) = _
  change (derivative ys ys _ _ _ >>= _) = _
  have hd : derivative ys ys (meanDiff ts) ts.length (some (.two yds)) = .ok yds := by
    change (if ys.shape ≠ yds.shape then _ else _) = _
    rw [if_neg (by rw [h1]; simp)]
  rw [hd]
  change (derivative ys yds _ _ _ >>= _) = _
  have hd : derivative ys yds (meanDiff ts) ts.length (some (.two ydds)) = .ok ydds := by
    change (if ys.shape ≠ ydds.shape then _ else _) = _
    rw [if_neg (by rw [h2]; simp)]
  rw [hd]
  change (if (misc.any fun m => ts.length != m.rows.length) = true then
    Except.error PyErr.valueError else _) = _
  rw [if_neg]
  cases misc with
  | none => simp
  | some m => simp [h3 m rfl]

theorem colSlice_wf {m : Arr2 K} (h : m.Wf) (a b : Int) : (colSlice m a b).Wf := by
  intro r hr
  obtain ⟨q, hq, rfl⟩ := List.mem_map.mp hr
  have hb : sliceIndex m.cols b ≤ m.cols ∨ True := Or.inr trivial
  have hle : ∀ i : Int, i < 0 → sliceIndex m.cols i ≤ m.cols := by
    intro i hi; unfold sliceIndex; rw [if_pos hi]; omega
  have hle' : sliceIndex m.cols b ≤ m.cols := by
    by_cases hb : b < 0
    · exact hle b hb
    · unfold sliceIndex; rw [if_neg hb]; exact min_le_right _ _
  simp only [pySlice, colSlice, List.length_drop, List.length_take, h q hq]
  rw [min_eq_left hle']

theorem fromMatrix_shape {m : Arr2 K} {k : Nat} {s : Trajectory K} (hm : m.Wf)
    (h : fromMatrix m k = .ok s) : s.Shape := by
  unfold fromMatrix at h
  dsimp only at h
  split_ifs at h
  refine init_shape h (colSlice_wf hm _ _) ?_ ?_ ?_
  · rintro a ha; cases ha; exact colSlice_wf hm _ _
  · rintro a ha; cases ha; exact colSlice_wf hm _ _
  · rintro a ha; cases ha; exact colSlice_wf hm _ _

theorem fromPolynomial_shape {ts y0 v0 a0 y1 v1 a1 : List K} {s : Trajectory K}
    (h : fromPolynomial ts y0 v0 a0 y1 v1 a1 = .ok s) : s.Shape := by
  unfold fromPolynomial at h
  split_ifs at h with h0
  have hw : ∀ f : K → List K, (∀ t, (f t).length = y0.length) →
      (⟨y0.length, ts.map f⟩ : Arr2 K).Wf := by
    intro f hf r hr
    obtain ⟨t, -, rfl⟩ := List.mem_map.mp hr
    exact hf t
  split at h
  · dsimp only at h
    split_ifs at h
    refine init_shape h (hw _ fun t => by simp) ?_ ?_ (fun m hm => by cases hm)
    · rintro a ha; cases ha; exact hw _ fun t => by simp
    · rintro a ha; cases ha; exact hw _ fun t => by simp
  · cases h

theorem fromMinJerk_shape {ts y0 y1 : List K} {s : Trajectory K}
    (h : fromMinJerk ts y0 y1 = .ok s) : s.Shape := by
  unfold fromMinJerk at h
  have hw : ∀ f : K → List K, (∀ t, (f t).length = y0.length) →
      (⟨y0.length, ts.map f⟩ : Arr2 K).Wf := by
    intro f hf r hr
    obtain ⟨t, -, rfl⟩ := List.mem_map.mp hr
    exact hf t
  split at h
  · cases h
  · dsimp only at h
    split_ifs at h
    refine init_shape h (hw _ fun t => by simp) ?_ ?_ (fun m hm => by cases hm)
    · rintro a ha; cases ha; exact hw _ fun t => by simp
    · rintro a ha; cases ha; exact hw _ fun t => by simp

/-! ### Shapes under the operations -/

theorem pySlice_length {α β : Type} {a b : Int} {l : List α} {l' : List β}
    (h : l.length = l'.length) : (pySlice a b l).length = (pySlice a b l').length := by
  simp [pySlice, h]

theorem mem_pySlice {α : Type} {a b : Int} {l : List α} {x : α} (h : x ∈ pySlice a b l) : x ∈ l :=
  List.mem_of_mem_take (List.mem_of_mem_drop h)

theorem Shape.cropRows {s : Trajectory K} (h : s.Shape) (a b : Int) : (cropRows a b s).Shape :=
  ⟨pySlice_length h.ys, pySlice_length h.yds, pySlice_length h.ydds,
    fun r hr => h.ysCols r (mem_pySlice hr), fun r hr => h.ydsCols r (mem_pySlice hr),
    fun r hr => h.yddsCols r (mem_pySlice hr), h.ydsShape, h.yddsShape, h.dim, by
      intro m hm
      simp only [Trajectory.cropRows, Option.map_eq_some_iff] at hm
      obtain ⟨m0, hm0, rfl⟩ := hm
      exact ⟨pySlice_length (h.misc m0 hm0).1, fun r hr => (h.misc m0 hm0).2 r (mem_pySlice hr)⟩⟩

/-- The array that `concatData` builds from two arrays. -/
def joined (swap : Bool) (a b : Arr2 K) : Arr2 K :=
  ⟨a.cols, if swap then b.rows ++ a.rows else a.rows ++ b.rows⟩

/-- What a successful concatenation does. -/
theorem concatData_ok {swap : Bool} {o s s' : Trajectory K}
    (h : concatData swap o s = (.ok (), s')) :
    s.ys.cols = o.ys.cols ∧ s.yds.cols = o.yds.cols ∧ s.ydds.cols = o.ydds.cols ∧
    (∀ a b, s.misc = some a → o.misc = some b → a.cols = b.cols) ∧
    s' = { s with
      ys := joined swap s.ys o.ys, yds := joined swap s.yds o.yds
      ydds := joined swap s.ydds o.ydds
      misc := match s.misc, o.misc with
        | some a, some b => some (joined swap a b)
        | _, _ => none } := by
  have key : ∀ a b : Arr2 K, ((if swap then concat b a else concat a b) =
      if a.cols = b.cols then .ok (joined swap a b) else .error .valueError) := by
    intro a b
    cases swap
    · simp [concat, joined]
    · by_cases hc : a.cols = b.cols
      · simp [concat, joined, hc]
      · simp [concat, hc, Ne.symm hc]
  unfold concatData at h
  simp only [key] at h
  by_cases h1 : s.ys.cols = o.ys.cols
  · by_cases h2 : s.yds.cols = o.yds.cols
    · by_cases h3 : s.ydds.cols = o.ydds.cols
      · simp only [PyM.self_bind, h1, h2, h3, if_true, lift, PyM.pure_bind, PyM.modify_bind] at h
        refine ⟨h1, h2, h3, ?_⟩
        cases hm : s.misc with
        | none =>
          simp only [hm, PyM.modify_apply] at h
          refine ⟨by simp, ?_⟩
          exact (congrArg Prod.snd h).symm
        | some a =>
          cases ho : o.misc with
          | none =>
            simp only [hm, ho, PyM.modify_apply] at h
            refine ⟨by simp, ?_⟩
            exact (congrArg Prod.snd h).symm
          | some b =>
            simp only [hm, ho] at h
            by_cases h4 : a.cols = b.cols
            · simp only [h4, if_true, PyM.pure_bind, PyM.modify_apply] at h
              refine ⟨?_, (congrArg Prod.snd h).symm⟩
              intro a' b' ha hb; cases ha; cases hb; exact h4
            · simp [h4] at h
      · simp [h1, h2, h3, lift] at h
    · simp [h1, h2, lift] at h
  · simp [h1, lift] at h

theorem joined_rows_length (swap : Bool) (a b : Arr2 K) :
    (joined swap a b).rows.length = a.rows.length + b.rows.length := by
  cases swap <;> simp [joined, Nat.add_comm]

theorem mem_joined {swap : Bool} {a b : Arr2 K} {r : List K} (h : r ∈ (joined swap a b).rows) :
    r ∈ a.rows ∨ r ∈ b.rows := by
  cases swap <;> simp only [joined, if_true, Bool.false_eq_true, if_false, List.mem_append] at h
  · exact h
  · exact h.symm

/-- Concatenated data have the right shape once the times have been extended. -/
theorem Shape.concatData {swap : Bool} {o s s1 s' : Trajectory K} (hs : s.Shape) (ho : o.Shape)
    {ts' : List K} (hts : ts'.length = s.ts.length + o.ts.length)
    (h1 : s1 = { s with ts := ts' }) (h : concatData swap o s1 = (.ok (), s')) : s'.Shape := by
  subst h1
  obtain ⟨c1, c2, c3, c4, rfl⟩ := concatData_ok h
  have jl := fun a b : Arr2 K => joined_rows_length swap a b
  refine ⟨by rw [jl]; simp [hs.ys, ho.ys, hts], by rw [jl]; simp [hs.yds, ho.yds, hts],
    by rw [jl]; simp [hs.ydds, ho.ydds, hts], ?_, ?_, ?_, hs.ydsShape, hs.yddsShape, hs.dim, ?_⟩
  · intro r hr
    rcases mem_joined hr with hr | hr
    · exact hs.ysCols r hr
    · exact (ho.ysCols r hr).trans c1.symm
  · intro r hr
    rcases mem_joined hr with hr | hr
    · exact hs.ydsCols r hr
    · exact (ho.ydsCols r hr).trans c1.symm
  · intro r hr
    rcases mem_joined hr with hr | hr
    · exact hs.yddsCols r hr
    · exact (ho.yddsCols r hr).trans c1.symm
  · intro m hm
    dsimp only at hm
    cases hsm : s.misc with
    | none => rw [hsm] at hm; simp at hm
    | some a =>
      cases hom : o.misc with
      | none => rw [hsm, hom] at hm; simp at hm
      | some b =>
        rw [hsm, hom] at hm
        simp only [Option.some.injEq] at hm
        subst hm
        refine ⟨by rw [jl]; simp [(hs.misc a hsm).1, (ho.misc b hom).1, hts], ?_⟩
        intro r hr
        rcases mem_joined hr with hr | hr
        · exact (hs.misc a hsm).2 r hr
        · exact ((ho.misc b hom).2 r hr).trans (c4 a b hsm hom).symm

/-- What a successful `append` does to the times, and that the rest is a concatenation. -/
theorem append_ok {o s s' : Trajectory K} (h : append o s = (.ok (), s')) :
    ∃ o0 last dt, o.ts.head? = some o0 ∧ s.ts.getLast? = some last ∧ s.dtMean = some dt ∧
      concatData false o { s with ts := s.ts ++ o.ts.map fun t => (t - o0) + (last + dt) } =
        (.ok (), s') := by
  unfold append at h
  rw [PyM.self_bind] at h
  cases h1 : o.ts.head? with
  | none => simp [h1] at h
  | some o0 =>
    cases h2 : s.ts.getLast? with
    | none => simp [h1, h2] at h
    | some last =>
      cases h3 : s.dtMean with
      | none => simp [h1, h2, h3] at h
      | some dt =>
        simp only [h1, h2, h3, PyM.modify_bind] at h
        exact ⟨o0, last, dt, rfl, rfl, rfl, h⟩

theorem Shape.append {o s s' : Trajectory K} (hs : s.Shape) (ho : o.Shape)
    (h : append o s = (.ok (), s')) : s'.Shape := by
  obtain ⟨o0, last, dt, -, -, -, h'⟩ := append_ok h
  exact hs.concatData ho (by simp) rfl h'

/-- What a successful `prepend` does to the times, and that the rest is a concatenation. -/
theorem prepend_ok {o s s' : Trajectory K} (h : prepend o s = (.ok (), s')) :
    ∃ t0 d dt, s.ts.head? = some t0 ∧ o.duration = .ok d ∧ o.dtMean = some dt ∧
      concatData true o { s with ts := o.ts ++ s.ts.map fun t => (t - t0) + (d + dt) } =
        (.ok (), s') := by
  unfold prepend at h
  rw [PyM.bind_apply] at h
  cases h1 : s.ts.head? with
  | none => simp [setStartTimeToZero, h1] at h
  | some t0 =>
    have e : setStartTimeToZero s = (.ok (), { s with ts := s.ts.map fun t => t - t0 }) := by
      simp [setStartTimeToZero, h1]
    rw [e] at h
    dsimp only at h
    cases h2 : o.duration with
    | error e => simp [h2, lift] at h
    | ok d =>
      cases h3 : o.dtMean with
      | none => simp [h2, h3, lift] at h
      | some dt =>
        simp only [h2, h3, lift, PyM.pure_bind, PyM.modify_bind, List.map_map] at h
        exact ⟨t0, d, dt, rfl, rfl, rfl, h⟩

theorem Shape.prepend {o s s' : Trajectory K} (hs : s.Shape) (ho : o.Shape)
    (h : prepend o s = (.ok (), s')) : s'.Shape := by
  obtain ⟨t0, d, dt, -, -, -, h'⟩ := prepend_ok h
  exact hs.concatData ho (by simp [Nat.add_comm]) rfl h'

theorem padding_shape {n : Nat} {s p : Trajectory K} {y : Except PyErr (List K)}
    (h : padding n s y = .ok p) : p.Shape := by
  unfold padding at h
  cases h1 : arange n s.dtMean with
  | error e => rw [h1] at h; cases h
  | ok ts =>
    cases h2 : y with
    | error e => rw [h1, h2] at h; cases h
    | ok y =>
      rw [h1, h2] at h
      change init _ _ _ _ _ = _ at h
      have hw : ∀ (c : Nat) (r : List K), r.length = c → (⟨c, List.replicate n r⟩ : Arr2 K).Wf := by
        intro c r hr q hq
        rw [List.eq_of_mem_replicate hq]; exact hr
      refine init_shape h (hw _ _ rfl) ?_ ?_ (fun m hm => by cases hm)
      · rintro a ha; cases ha; exact hw _ _ (by simp)
      · rintro a ha; cases ha; exact hw _ _ (by simp)

theorem lift_bind_ok {α : Type} {e : Except PyErr α} {f : α → PyM (Trajectory K) Unit}
    {s s' : Trajectory K} (h : (lift e >>= f) s = (.ok (), s')) :
    ∃ a, e = .ok a ∧ f a s = (.ok (), s') := by
  cases e with
  | error e => simp [lift] at h
  | ok a => exact ⟨a, rfl, h⟩

theorem recompute_ok {s s' : Trajectory K} (h : recomputeDerivatives s = (.ok (), s')) :
    ∃ yd ydd, diffnc s.ys s.dtMean = .ok yd ∧ diffnc yd s.dtMean = .ok ydd ∧
      s' = { s with yds := yd, ydds := ydd } := by
  unfold recomputeDerivatives at h
  rw [PyM.self_bind] at h
  obtain ⟨yd, h1, h⟩ := lift_bind_ok h
  rw [PyM.modify_bind] at h
  obtain ⟨ydd, h2, h⟩ := lift_bind_ok h
  exact ⟨yd, ydd, h1, h2, (congrArg Prod.snd h).symm⟩

theorem cropTimes_ok {s s' : Trajectory K} {a b : K} (h : cropTimes a b s = (.ok (), s')) :
    s' = s ∨ ∃ i j : Int, s' = cropRows i j s := by
  unfold cropTimes at h
  rw [PyM.self_bind] at h
  cases h1 : s.ts.head? with
  | none => simp [h1] at h; exact .inl h.symm
  | some x =>
    cases h2 : s.ts.getLast? with
    | none => simp [h1, h2] at h; exact .inl h.symm
    | some y =>
      simp only [h1, h2] at h
      split_ifs at h with c1 c2 c3
      · simp at h
      · exact .inl (congrArg Prod.snd h).symm
      · exact .inl (congrArg Prod.snd h).symm
      all_goals exact .inr ⟨_, _, (congrArg Prod.snd h).symm⟩

/-! ### The invariant -/

/-- The operations of C40. -/
inductive Op (K : Type)
  | setMisc (m : Arr2 K)
  | startTimeToZero
  | cropIndices (start stop : Int)
  | cropTimes (start stop : K)
  | append (o : Trajectory K)
  | prepend (o : Trajectory K)
  | padFront (n : Nat)
  | padEnd (n : Nat)
  | recompute

/-- The call of an operation. -/
def Op.run : Op K → PyM (Trajectory K) Unit
  | .setMisc m => Trajectory.setMisc m
  | .startTimeToZero => setStartTimeToZero
  | .cropIndices a b => Trajectory.cropIndices a b
  | .cropTimes a b => Trajectory.cropTimes a b
  | .append o => Trajectory.append o
  | .prepend o => Trajectory.prepend o
  | .padFront n => Trajectory.padFront n
  | .padEnd n => Trajectory.padEnd n
  | .recompute => recomputeDerivatives

/-- Trajectories that a program can obtain without an exception: by a constructor from rectangular
arrays, then any number of operations, where the other trajectory of `append`/`prepend` has been
obtained in the same way. -/
inductive Reachable : Trajectory K → Prop
  | init {ts ys yds ydds misc s} (hy : Arr.Wf ys) (hyd : ∀ a, yds = some a → Arr.Wf a)
      (hydd : ∀ a, ydds = some a → Arr.Wf a) (hm : ∀ m, misc = some m → Arr2.Wf m)
      (h : Trajectory.init ts ys yds ydds misc = .ok s) : Reachable s
  | fromMatrix {m k s} (hm : Arr2.Wf m) (h : Trajectory.fromMatrix m k = .ok s) : Reachable s
  | fromPolynomial {ts y0 v0 a0 y1 v1 a1 s}
      (h : Trajectory.fromPolynomial ts y0 v0 a0 y1 v1 a1 = .ok s) : Reachable s
  | fromViapointPolynomial {ts y0 via t y1 s}
      (h : Trajectory.fromViapointPolynomial ts y0 via t y1 = .ok s) : Reachable s
  | fromMinJerk {ts y0 y1 s} (h : Trajectory.fromMinJerk ts y0 y1 = .ok s) : Reachable s
  | append {o s s'} (hs : Reachable s) (ho : Reachable o)
      (h : (Op.append o).run s = (.ok (), s')) : Reachable s'
  | prepend {o s s'} (hs : Reachable s) (ho : Reachable o)
      (h : (Op.prepend o).run s = (.ok (), s')) : Reachable s'
  | setMisc {m s s'} (hs : Reachable s) (hm : Arr2.Wf m)
      (h : (Op.setMisc m).run s = (.ok (), s')) : Reachable s'
  | other {s s'} (op : Op K) (hs : Reachable s)
      (hop : match op with
        | .setMisc _ => False
        | .append _ => False
        | .prepend _ => False
        | _ => True)
      (h : op.run s = (.ok (), s')) : Reachable s'

/-- C40. -/
theorem C40_shape {s : Trajectory K} (h : Reachable s) : s.Shape := by
  induction h with
  | init hy hyd hydd hm h => exact init_shape h hy hyd hydd hm
  | fromMatrix hm h => exact fromMatrix_shape hm h
  | fromPolynomial h => exact fromPolynomial_shape h
  | fromMinJerk h => exact fromMinJerk_shape h
  | @fromViapointPolynomial ts y0 via t y1 s h =>
    unfold Trajectory.fromViapointPolynomial at h
    dsimp only at h
    generalize h1 : Trajectory.fromPolynomial (ts.take (viapointStep ts t)) _ _ _ _ _ _ = r1 at h
    cases r1 with
    | error e => cases h
    | ok t1 =>
      change (Trajectory.fromPolynomial _ _ _ _ _ _ _ >>= _) = _ at h
      generalize h2 : Trajectory.fromPolynomial (ts.drop (viapointStep ts t)) _ _ _ _ _ _ = r2 at h
      cases r2 with
      | error e => cases h
      | ok t2 =>
        change (match Trajectory.append t2 t1 with
          | (.ok _, t) => Except.ok t
          | (.error e, _) => .error e) = _ at h
        cases h3 : Trajectory.append t2 t1 with
        | mk r t3 =>
          rw [h3] at h
          cases r with
          | error e => cases h
          | ok u =>
            cases h
            exact (fromPolynomial_shape h1).append (fromPolynomial_shape h2) h3
  | append _ _ h ihs iho => exact ihs.append iho h
  | prepend _ _ h ihs iho => exact ihs.prepend iho h
  | @setMisc m s s' _ hm h ih =>
    change Trajectory.setMisc m s = _ at h
    unfold Trajectory.setMisc at h
    rw [PyM.self_bind] at h
    split_ifs at h with hl
    · cases congrArg Prod.fst h
    · rw [not_not] at hl
      cases congrArg Prod.snd h
      exact ⟨ih.ys, ih.yds, ih.ydds, ih.ysCols, ih.ydsCols, ih.yddsCols, ih.ydsShape, ih.yddsShape,
        ih.dim, fun m' hm' => by cases hm'; exact ⟨hl, hm⟩⟩
  | @other s s' op _ hop h ih =>
    cases op with
    | setMisc m => exact hop.elim
    | append o => exact hop.elim
    | prepend o => exact hop.elim
    | startTimeToZero =>
      change setStartTimeToZero s = _ at h
      unfold setStartTimeToZero at h
      rw [PyM.self_bind] at h
      split at h
      · cases congrArg Prod.fst h
      · cases congrArg Prod.snd h
        exact ⟨by simpa using ih.ys, by simpa using ih.yds, by simpa using ih.ydds, ih.ysCols,
          ih.ydsCols, ih.yddsCols, ih.ydsShape, ih.yddsShape, ih.dim, by simpa using ih.misc⟩
    | cropIndices a b =>
      change Trajectory.cropIndices a b s = _ at h
      unfold Trajectory.cropIndices at h
      rw [PyM.self_bind] at h
      split_ifs at h
      · cases congrArg Prod.snd h; exact ih
      · cases congrArg Prod.fst h
      · cases congrArg Prod.snd h; exact ih.cropRows a b
    | cropTimes a b =>
      rcases cropTimes_ok h with rfl | ⟨i, j, rfl⟩
      · exact ih
      · exact ih.cropRows i j
    | padFront n =>
      change Trajectory.padFront n s = _ at h
      unfold Trajectory.padFront at h
      rw [PyM.self_bind] at h
      obtain ⟨p, hp, h⟩ := lift_bind_ok h
      exact ih.prepend (padding_shape hp) h
    | padEnd n =>
      change Trajectory.padEnd n s = _ at h
      unfold Trajectory.padEnd at h
      rw [PyM.self_bind] at h
      obtain ⟨p, hp, h⟩ := lift_bind_ok h
      exact ih.append (padding_shape hp) h
    | recompute =>
      obtain ⟨yd, ydd, h1, h2, rfl⟩ := recompute_ok h
      obtain ⟨a1, a2, a3⟩ := diffnc_shape h1
      obtain ⟨b1, b2, b3⟩ := diffnc_shape h2
      exact ⟨ih.ys, a1.trans ih.ys, (b1.trans a1).trans ih.ys, ih.ysCols,
        fun r hr => (a3 r hr).trans a2, fun r hr => (b3 r hr).trans (b2.trans a2), a2, b2.trans a2,
        ih.dim, ih.misc⟩

/-- Constructor arguments of the wrong shape are rejected. -/
theorem C40_init_rejects (ts : List K) (ys : Arr K) (yds ydds : Option (Arr K))
    (misc : Option (Arr2 K)) (h : ts.length ≠ ys.len) :
    init ts ys yds ydds misc = .error .valueError := by
  simp [init, h]

theorem C40_init_rejects_misc (ts : List K) (ys : Arr K) (yds ydds : Option (Arr K)) (m : Arr2 K)
    (h : m.rows.length ≠ ts.length) (s : Trajectory K) : init ts ys yds ydds (some m) ≠ .ok s := by
  intro hs
  exact h ((init_ok hs).2.2.2.2.2.2.2.2 m rfl)

theorem C40_init_rejects_yds (ts : List K) (ys yds : Arr2 K) (ydds : Option (Arr K))
    (misc : Option (Arr2 K)) (h : yds.shape ≠ ys.shape) (s : Trajectory K) :
    init ts (.two ys) (some (.two yds)) ydds misc ≠ .ok s := by
  intro hs
  obtain ⟨-, -, -, h3, h4, -⟩ := init_ok hs
  cases h3
  change (if s.ys.shape ≠ yds.shape then Except.error PyErr.valueError else Except.ok yds) = _ at h4
  rw [if_pos (Ne.symm h)] at h4
  cases h4

theorem C40_init_rejects_ydds (ts : List K) (ys ydds : Arr2 K) (yds : Option (Arr K))
    (misc : Option (Arr2 K)) (h : ydds.shape ≠ ys.shape) (s : Trajectory K) :
    init ts (.two ys) yds (some (.two ydds)) misc ≠ .ok s := by
  intro hs
  obtain ⟨-, -, -, h3, -, h4, -⟩ := init_ok hs
  cases h3
  change (if s.ys.shape ≠ ydds.shape then Except.error PyErr.valueError else Except.ok ydds) = _
    at h4
  rw [if_pos (Ne.symm h)] at h4
  cases h4

theorem C40_setMisc_rejects (s : Trajectory K) (m : Arr2 K) (h : m.rows.length ≠ s.ts.length) :
    setMisc m s = (.error .valueError, s) := by
  simp [setMisc, length, h]

theorem Reachable.crop {s : Trajectory K} (h : Reachable s) (hne : s.ts.length ≠ 0) {a b : Int}
    (hab : a < b) : Reachable (cropRows a b s) := by
  refine .other (.cropIndices a b) h trivial ?_
  simp only [Op.run, Trajectory.cropIndices, PyM.self_bind]
  rw [if_neg hne, if_neg (by omega)]
  rfl

/-- A reachable trajectory with three samples in two dimensions, of which two are left after
cropping. -/
example : ∃ s : Trajectory ℚ, Reachable s ∧ s.ts = [1, 2] ∧ s.ys.rows = [[1, 2], [2, 4]] := by
  have h0 : Trajectory.init (K := ℚ) [0, 1, 2] (.two ⟨2, [[0, 0], [1, 2], [2, 4]]⟩)
      (some (.two ⟨2, [[1, 2], [1, 2], [1, 2]]⟩)) (some (.two ⟨2, [[0, 0], [0, 0], [0, 0]]⟩)) none
      = .ok _ := init_two rfl rfl rfl (by simp)
  have hw : ∀ r : List (List ℚ), (∀ x ∈ r, x.length = 2) → Arr.Wf (.two ⟨2, r⟩) := fun r h => h
  have r0 := Reachable.init (hw _ (by simp)) (fun a ha => by cases ha; exact hw _ (by simp))
    (fun a ha => by cases ha; exact hw _ (by simp)) (by simp) h0
  refine ⟨_, r0.crop (by simp) (a := 1) (b := 3) (by omega), ?_, ?_⟩
  · simp [cropRows, pySlice, sliceIndex]
  · simp [cropRows, rowSlice, pySlice, sliceIndex]

end Trajectory

end Verif
