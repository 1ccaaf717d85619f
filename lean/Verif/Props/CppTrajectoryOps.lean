import Verif.Props.TrajectoryFiles

/- C74: constructing, changing and appending trajectories in C++; error branches of C72. -/

set_option autoImplicit false

namespace Verif

open Spec

namespace Cpp

namespace Trajectory

/-! ### C72: viapoints for which there is no trajectory -/

theorem viapointStep_all {ts : List ℝ} {v : ℝ} (h : ∀ x ∈ ts, x < v) : viapointStep ts v = ts.length := by
  refine viapointStep_eq (fun i x _ hx => h x (List.mem_of_getElem? hx)) (fun x hx => ?_) le_rfl
  simp at hx

/-- C72: trajectories through a viapoint that cannot be made. Wrong sizes fail an assertion; if all times
are before the viapoint, the trajectory is empty (and not a minimum-jerk trajectory as the message says); if the
viapoint is at the first or the last time step, there is a division by zero. -/
theorem C72_viapoint_errors (ts yFrom via yTo : List ℝ) (tv : ℝ) :
    (yTo.length ≠ yFrom.length ∨ via.length ≠ 3 * yFrom.length →
      viapoint ts yFrom via tv yTo = .error .assertion) ∧
    (yTo.length = yFrom.length → via.length = 3 * yFrom.length → (∀ x ∈ ts, x < tv) →
      viapoint ts yFrom via tv yTo = .ok empty) ∧
    (∀ x l, yTo.length = yFrom.length → via.length = 3 * yFrom.length → ts = x :: l → tv ≤ x →
      viapoint ts yFrom via tv yTo = .error .nan) ∧
    (∀ x y l, yTo.length = yFrom.length → via.length = 3 * yFrom.length → ts = x :: (l ++ [y]) → x ≠ y →
      (∀ z ∈ x :: l, z < tv) → tv ≤ y → viapoint ts yFrom via tv yTo = .error .nan) := by
  refine ⟨fun h => ?_, fun h1 h2 h => ?_, fun x l h1 h2 e h => ?_, fun x y l h1 h2 e hxy h h' => ?_⟩
  · unfold viapoint
    dsimp only
    by_cases h1 : yFrom.length ≠ yTo.length
    · rw [if_pos h1]
    · rw [if_neg h1, if_pos]
      rcases h with h | h
      · exact absurd (Ne.symm h) h1
      · exact Ne.symm h
  · unfold viapoint
    dsimp only
    rw [if_neg (by simp [h1]), if_neg (by simp [h2]), viapointStep_all h, if_pos le_rfl]
  · subst e
    have hs : viapointStep (x :: l) tv = 0 := by rw [viapointStep, if_neg (not_lt.mpr h)]
    unfold viapoint
    dsimp only
    rw [if_neg (by simp [h1]), if_neg (by simp [h2]), hs, if_neg (by simp)]
    have : polynomial ((x :: l).take (0 + 1)) yFrom (List.replicate yFrom.length 0)
        (List.replicate yFrom.length 0) (via.take yFrom.length) ((via.drop yFrom.length).take yFrom.length)
        ((via.drop (2 * yFrom.length)).take yFrom.length) = .error .nan := by
      unfold polynomial
      rw [if_neg (by simp; omega)]
      simp
    rw [this]
    rfl
  · subst e
    have hs : viapointStep (x :: (l ++ [y])) tv = l.length + 1 := by
      refine viapointStep_eq (fun i z hi hz => ?_) (fun z hz => ?_) (by simp)
      · refine h z ?_
        rw [← List.cons_append, List.getElem?_append_left (by simpa using hi)] at hz
        exact List.mem_of_getElem? hz
      · simp at hz
        rw [← hz]
        exact h'
    unfold viapoint
    dsimp only
    rw [if_neg (by simp [h1]), if_neg (by simp [h2]), hs, if_neg (by simp)]
    obtain ⟨t1, e1, -⟩ := polynomial_ends (ts := (x :: (l ++ [y])).take (l.length + 1 + 1)) (y0 := yFrom)
      (v0 := List.replicate yFrom.length 0) (a0 := List.replicate yFrom.length 0)
      (y1 := via.take yFrom.length) (v1 := (via.drop yFrom.length).take yFrom.length)
      (a1 := (via.drop (2 * yFrom.length)).take yFrom.length) (first := x) (last := y) (by simp)
      (by rw [List.take_of_length_le (by simp), List.getLast?_cons, List.getLast?_append]; simp) (Ne.symm hxy)
      (by simp) (by simp) (by simp; omega) (by simp; omega) (by simp; omega)
    rw [e1]
    have : polynomial ((x :: (l ++ [y])).drop (l.length + 1)) (via.take yFrom.length)
        ((via.drop yFrom.length).take yFrom.length) ((via.drop (2 * yFrom.length)).take yFrom.length) yTo
        (List.replicate yFrom.length 0) (List.replicate yFrom.length 0) = .error .nan := by
      unfold polynomial
      rw [if_neg (by simp; omega)]
      simp
    change (polynomial _ _ _ _ _ _ _ >>= _) = _
    rw [this]
    rfl

/-! ### C74 -/

/-- C74: the constructor accepts exactly matrices of the same sizes, and stores them. -/
theorem C74_init (ts : List ℝ) (ys yds ydds misc : Arr2 ℝ) :
    (∀ t, init ts ys yds ydds misc = .ok t ↔
      (ys.rows.length = ts.length ∧ yds.rows.length = ts.length ∧ ydds.rows.length = ts.length ∧
        yds.cols = ys.cols ∧ ydds.cols = ys.cols ∧ (misc.cols = 0 ∨ misc.rows.length = ts.length)) ∧
      t.ts = ts ∧ t.ys = ys ∧ t.yds = yds ∧ t.ydds = ydds ∧
      (misc.cols = 0 → t.misc = ⟨0, List.replicate ts.length []⟩) ∧ (misc.cols ≠ 0 → t.misc = misc)) ∧
    ((∀ t, init ts ys yds ydds misc ≠ .ok t) → init ts ys yds ydds misc = .error .assertion) := by
  unfold init
  dsimp only
  by_cases hm : misc.cols = 0
  · simp only [hm, if_true, List.length_replicate]
    split_ifs with hc
    · refine ⟨fun t => ?_, fun h => absurd rfl (h _)⟩
      obtain ⟨c1, c2, c3, -, c4, c5⟩ := hc
      simp only [Except.ok.injEq, c1.symm, c2.symm, c3.symm, c4.symm, c5.symm, true_and, and_true]
      constructor
      · rintro rfl
        simp
      · rcases t with ⟨_, _, _, _, _⟩
        rintro ⟨-, rfl, rfl, rfl, rfl, h, -⟩
        rw [← h trivial]
    · refine ⟨fun t => ⟨(fun h => nomatch h), fun h => absurd ?_ hc⟩, fun _ => rfl⟩
      obtain ⟨⟨c1, c2, c3, c4, c5, -⟩, -⟩ := h
      exact ⟨c1.symm, c2.symm, c3.symm, trivial, c4.symm, c5.symm⟩
  · simp only [hm, if_false]
    split_ifs with hc
    · refine ⟨fun t => ?_, fun h => absurd rfl (h _)⟩
      obtain ⟨c1, c2, c3, c6, c4, c5⟩ := hc
      simp only [Except.ok.injEq, c1.symm, c2.symm, c3.symm, c4.symm, c5.symm, c6.symm, true_and, and_true]
      constructor
      · rintro rfl
        simp
      · rcases t with ⟨_, _, _, _, _⟩
        rintro ⟨-, rfl, rfl, rfl, rfl, -, h⟩
        rw [← h hm]
    · refine ⟨fun t => ⟨(fun h => nomatch h), fun h => absurd ?_ hc⟩, fun _ => rfl⟩
      obtain ⟨⟨c1, c2, c3, c4, c5, c6⟩, -⟩ := h
      exact ⟨c1.symm, c2.symm, c3.symm, (c6.resolve_left not_false).symm, c4.symm, c5.symm⟩

/-- C74: duration and ends. An empty trajectory lasts 0 (in Python this is an IndexError). -/
theorem C74_ends (t : Trajectory) :
    (∀ a b, t.ts.head? = some a → t.ts.getLast? = some b → t.duration = b - a) ∧
    (t.ts = [] → t.duration = 0) ∧
    (∀ y l, t.ys.rows = y :: l → t.initialY = .ok y) ∧
    (∀ y l, t.ys.rows = l ++ [y] → t.finalY = .ok y) ∧
    (t.ys.rows = [] → t.initialY = .error .assertion ∧ t.finalY = .error .assertion) := by
  refine ⟨fun a b h1 h2 => ?_, fun h => ?_, fun y l h => ?_, fun y l h => ?_, fun h => ?_⟩
  · simp [duration, h1, h2]
  · simp [duration, h]
  · simp [initialY, h]
  · simp [finalY, h]
  · simp [initialY, finalY, h]

/-- C74: ranges are those of Python. -/
theorem C74_range (s : Verif.Trajectory ℝ) :
    (∀ l, (ofPy s).rangePerDim = .ok l ↔ s.rangePerDim = .ok l) ∧
    ((ofPy s).rangePerDim = .error .assertion ↔ s.rangePerDim = .error .valueError) := by
  unfold rangePerDim Verif.Trajectory.rangePerDim
  cases h : s.ys.rows with
  | nil => simp [ofPy, h]
  | cons r rs => simp [ofPy, h]

/-- C74: what `set_misc` does. -/
theorem C74_set_misc (m : Arr2 ℝ) (t : Trajectory) :
    let u := t.setMisc m
    u.ts = t.ts ∧ u.ys = t.ys ∧ u.yds = t.yds ∧ u.ydds = t.ydds ∧
    (m.rows.length = t.ts.length → u.misc = m) ∧
    (∀ r, m.rows = [r] → t.ts.length ≠ 1 → u.misc = ⟨m.cols, List.replicate t.ts.length r⟩) ∧
    (m.rows.length ≠ t.ts.length → m.rows.length ≠ 1 → u = t) := by
  intro u
  have hu : u = t.setMisc m := rfl
  unfold setMisc at hu
  by_cases h1 : m.rows.length = t.ts.length
  · rw [if_pos h1] at hu
    rw [hu]
    refine ⟨rfl, rfl, rfl, rfl, fun _ => rfl, fun r hr h => ?_, fun h => absurd h1 h⟩
    rw [hr] at h1
    exact absurd h1.symm h
  · rw [if_neg h1] at hu
    by_cases h2 : m.rows.length = 1
    · rw [if_pos h2] at hu
      rw [hu]
      refine ⟨rfl, rfl, rfl, rfl, fun h => absurd h h1, fun r hr _ => ?_, fun _ h => absurd h2 h⟩
      simp [hr]
    · rw [if_neg h2] at hu
      rw [hu]
      refine ⟨rfl, rfl, rfl, rfl, fun h => absurd h h1, fun r hr _ => ?_, fun _ _ => rfl⟩
      exact absurd (by simp [hr]) h2

/-- C74: `append` succeeds if and only if the trajectories have the same numbers of dimensions and
miscellaneous variables, one starts when the other stops, and there with the same position, velocity and acceleration. -/
theorem C74_append {t o : Trajectory} (ht : t.Shape) (ho : o.Shape) :
    (∀ u, append o t = .ok u ↔
      (o.dim = t.dim ∧ o.dimMisc = t.dimMisc ∧
        (∃ x, t.ts.getLast? = some x ∧ o.ts.head? = some x) ∧
        (∃ v w, t.ys.rows.getLast? = some v ∧ o.ys.rows.head? = some w ∧ Close v w) ∧
        (∃ v w, t.yds.rows.getLast? = some v ∧ o.yds.rows.head? = some w ∧ Close v w) ∧
        (∃ v w, t.ydds.rows.getLast? = some v ∧ o.ydds.rows.head? = some w ∧ Close v w)) ∧
      u.ts = t.ts ++ o.ts.tail ∧ u.ys = ⟨t.dim, t.ys.rows ++ o.ys.rows.tail⟩ ∧
      u.yds = ⟨t.dim, t.yds.rows ++ o.yds.rows.tail⟩ ∧ u.ydds = ⟨t.dim, t.ydds.rows ++ o.ydds.rows.tail⟩ ∧
      u.misc = ⟨t.dimMisc, t.misc.rows ++ o.misc.rows.tail⟩) ∧
    ((∀ u, append o t ≠ .ok u) → append o t = .error .assertion) := by
  have ends : ∀ {a b : Arr2 ℝ}, continues a b = true ↔
      ∃ v w, a.rows.getLast? = some v ∧ b.rows.head? = some w ∧ Close v w := by
    intro a b
    cases ha : a.rows.getLast? with
    | none => simp [continues, ha]
    | some v =>
      cases hb : b.rows.head? with
      | none => simp [continues, ha, hb]
      | some w => simp [continues_iff ha hb]
  rw [← ends, ← ends, ← ends]
  unfold append
  by_cases hd : t.dim ≠ o.dim
  · rw [if_pos hd]
    exact ⟨fun u => ⟨(fun h => nomatch h), fun h => absurd h.1.1.symm hd⟩, fun _ => rfl⟩
  rw [if_neg hd]
  push Not at hd
  cases hl : t.ts.getLast? with
  | none => simp
  | some a =>
    cases hh : o.ts.head? with
    | none => simp
    | some b =>
      dsimp only
      by_cases hab : a ≠ b
      · rw [if_pos hab]
        refine ⟨fun u => ⟨(fun h => nomatch h), ?_⟩, fun _ => rfl⟩
        rintro ⟨⟨-, -, ⟨x, e1, e2⟩, -⟩, -⟩
        cases e1
        cases e2
        exact absurd rfl hab
      rw [if_neg hab]
      push Not at hab
      by_cases hc : (continues t.ys o.ys && continues t.yds o.yds && continues t.ydds o.ydds) = true
      · rw [if_pos hc]
        by_cases hm : t.dimMisc ≠ o.dimMisc
        · rw [if_pos hm]
          exact ⟨fun u => ⟨(fun h => nomatch h), fun h => absurd h.1.2.1.symm hm⟩, fun _ => rfl⟩
        rw [if_neg hm]
        push Not at hm
        simp only [Bool.and_eq_true] at hc
        refine ⟨fun u => ?_, fun h => absurd rfl (h _)⟩
        have hpos : 0 < o.ts.length := by
          rcases ho' : o.ts with _ | _
          · rw [ho'] at hh; cases hh
          · simp
        have emp : ∀ l : List (List ℝ), (∀ r ∈ l, r.length = 0) → l = List.replicate l.length [] := by
          intro l h
          exact List.eq_replicate_of_mem fun r hr => List.length_eq_zero_iff.mp (h r hr)
        have hmisc : (if t.dimMisc = 0 then (⟨0, List.replicate (t.length + o.length - 1) []⟩ : Arr2 ℝ)
            else join t.misc o.misc) = ⟨t.dimMisc, t.misc.rows ++ o.misc.rows.tail⟩ := by
          by_cases h0 : t.dimMisc = 0
          · rw [if_pos h0, h0]
            have h0' : o.dimMisc = 0 := hm ▸ h0
            have := emp (t.misc.rows ++ o.misc.rows.tail) (by
              intro r hr
              rcases List.mem_append.mp hr with hr | hr
              · rw [ht.miscCols r hr]; exact h0
              · rw [ho.miscCols r (List.mem_of_mem_tail hr)]; exact h0')
            rw [this]
            congr 2
            simp [ht.misc, ho.misc, length]
            omega
          · rw [if_neg h0]
            simp [join, dimMisc]
        rw [hmisc]
        have c2 : t.yds.cols = t.dim := ht.ydsShape
        have c3 : t.ydds.cols = t.dim := ht.yddsShape
        constructor
        · intro h
          cases h
          refine ⟨⟨hd.symm, hm.symm, ⟨a, rfl, by rw [hab]⟩, hc.1.1, hc.1.2, hc.2⟩, ?_, ?_, ?_, ?_, rfl⟩
          · simp
          · simp [join, dim]
          · simp [join, c2]
          · simp [join, c3]
        · rcases u with ⟨_, _, _, _, _⟩
          rintro ⟨-, h1, h2, h3, h4, h5⟩
          dsimp only at h1 h2 h3 h4 h5
          subst h1 h2 h3 h4 h5
          simp [join, c2, c3, dim]
      · rw [if_neg hc]
        refine ⟨fun u => ⟨(fun h => nomatch h), ?_⟩, fun _ => rfl⟩
        rintro ⟨⟨-, -, -, c1, c2, c3⟩, -⟩
        exact absurd (by simp [c1, c2, c3]) hc

/-- C74: appending keeps the shape; times stay increasing and durations add up. -/
theorem C74_append_kept {t o u : Trajectory} (ht : t.Shape) (ho : o.Shape) (h : append o t = .ok u) :
    u.Shape ∧ u.dim = t.dim ∧ u.dimMisc = t.dimMisc ∧ u.length + 1 = t.length + o.length ∧
    u.duration = t.duration + o.duration ∧
    (Increasing t.ts → Increasing o.ts → Increasing u.ts) := by
  obtain ⟨⟨hd, hm, ⟨x, hx1, hx2⟩, -⟩, e1, e2, e3, e4, e5⟩ := ((C74_append ht ho).1 u).mp h
  obtain ⟨tt, htt⟩ : ∃ l, t.ts = l ++ [x] := by
    refine ⟨t.ts.dropLast, ?_⟩
    rw [List.getLast?_eq_some_iff] at hx1
    obtain ⟨l, hl⟩ := hx1
    rw [hl]
    simp
  obtain ⟨ot, hot⟩ : ∃ l, o.ts = x :: l := by
    cases ho' : o.ts with
    | nil => rw [ho'] at hx2; cases hx2
    | cons a l => rw [ho'] at hx2; cases hx2; exact ⟨l, rfl⟩
  have hto : o.ts.length = ot.length + 1 := by simp [hot]
  refine ⟨?_, ?_, ?_, ?_, ?_, ?_⟩
  · constructor
    · simp [e1, e2, ht.ys, ho.ys]
    · simp [e1, e3, ht.yds, ho.yds]
    · simp [e1, e4, ht.ydds, ho.ydds]
    · simp [e1, e5, ht.misc, ho.misc]
    all_goals
      simp only [e2, e3, e4, e5, List.mem_append]
    · rintro r (hr | hr)
      · exact ht.ysCols r hr
      · rw [ho.ysCols r (List.mem_of_mem_tail hr)]; exact hd
    · rintro r (hr | hr)
      · exact ht.ydsCols r hr
      · rw [ho.ydsCols r (List.mem_of_mem_tail hr)]; exact hd
    · rintro r (hr | hr)
      · exact ht.yddsCols r hr
      · rw [ho.yddsCols r (List.mem_of_mem_tail hr)]; exact hd
    · rintro r (hr | hr)
      · exact ht.miscCols r hr
      · rw [ho.miscCols r (List.mem_of_mem_tail hr)]; exact hm
  · simp [dim, e2]
  · simp [dimMisc, e5]
  · simp [length, e1, hot]
    omega
  · have hu : u.ts = tt ++ o.ts := by rw [e1, htt, hot]; simp
    have h0 : u.ts.head? = t.ts.head? := by rw [hu, htt, hot]; cases tt <;> rfl
    have h1 : u.ts.getLast? = o.ts.getLast? := by
      rw [hu, List.getLast?_append, hot, List.getLast?_cons]
      rfl
    obtain ⟨a, ha⟩ : ∃ a, t.ts.head? = some a := by rw [htt]; cases tt <;> simp
    obtain ⟨b, hb⟩ : ∃ b, o.ts.getLast? = some b := by rw [hot, List.getLast?_cons]; simp
    rw [(C74_ends u).1 a b (h0.trans ha) (h1.trans hb), (C74_ends t).1 a x ha hx1, (C74_ends o).1 x b hx2 hb]
    ring
  · intro h1 h2
    have hu : u.ts = t.ts ++ ot := by rw [e1, hot]; simp
    rw [hot] at h2
    obtain ⟨h2a, h2b⟩ := List.pairwise_cons.mp h2
    unfold Increasing
    rw [hu, List.pairwise_append]
    refine ⟨h1, h2b, fun a ha b hb => ?_⟩
    rw [htt] at h1 ha
    rcases List.mem_append.mp ha with ha | ha
    · exact ((List.pairwise_append.mp h1).2.2 a ha x (by simp)).trans (h2a b hb)
    · rw [List.mem_singleton.mp ha]
      exact h2a b hb

/-- C74: it does not matter in which order trajectories are appended (if the one in the middle has at least
two samples). -/
theorem C74_append_assoc {t o p : Trajectory} (ht : t.Shape) (ho : o.Shape) (hp : p.Shape) (h2 : 2 ≤ o.length) :
    (append o t >>= append p) = (append p o >>= fun u => append u t) := by
  have two : ∀ {α : Type} (l : List α), l.length = o.ts.length → ∃ (a : α) (b : List α) (c : α), l = a :: (b ++ [c]) := by
    intro α l hl
    have : 2 ≤ l.length := by rw [hl]; exact h2
    rcases l with _ | ⟨a, l⟩
    · simp at this
    · have hne : l ≠ [] := by rintro rfl; simp at this
      exact ⟨a, l.dropLast, l.getLast hne, by rw [List.dropLast_append_getLast hne]⟩
  obtain ⟨x0, xs, x1, ets⟩ := two o.ts rfl
  obtain ⟨y0, ym, y1, eys⟩ := two o.ys.rows ho.ys
  obtain ⟨v0, vm, v1, evs⟩ := two o.yds.rows ho.yds
  obtain ⟨a0, am, a1, eas⟩ := two o.ydds.rows ho.ydds
  obtain ⟨m0, mm, m1, ems⟩ := two o.misc.rows ho.misc
  -- last row after appending `o`, first row after appending to `o`
  have hlast : ∀ {α : Type} (l b : List α) (a c : α), (l ++ (a :: (b ++ [c])).tail).getLast? = some c := by
    intro α l b a c
    rw [List.tail_cons, ← List.append_assoc, List.getLast?_append]
    rfl
  have glast : ∀ {α : Type} (b : List α) (a c : α), (a :: (b ++ [c])).getLast? = some c := by
    intro α b a c
    rw [← List.cons_append, List.getLast?_append]
    rfl
  have err : ∀ {q r : Trajectory}, q.Shape → r.Shape → (∃ u, append r q = .ok u) ∨ append r q = .error .assertion := by
    intro q r hq hr
    by_cases h : ∃ u, append r q = .ok u
    · exact Or.inl h
    · push Not at h
      exact Or.inr ((C74_append hq hr).2 h)
  rcases err ht ho with ⟨u, hu⟩ | hu <;> rcases err ho hp with ⟨w, hw⟩ | hw
  · have su := (C74_append_kept ht ho hu).1
    have sw := (C74_append_kept ho hp hw).1
    obtain ⟨⟨d1, d2, d3, d4, d5, d6⟩, u1, u2, u3, u4, u5⟩ := ((C74_append ht ho).1 u).mp hu
    obtain ⟨⟨g1, g2, g3, g4, g5, g6⟩, w1, w2, w3, w4, w5⟩ := ((C74_append ho hp).1 w).mp hw
    rw [hu, hw]
    change append p u = append w t
    have hok : ∃ z, append w t = .ok z ∧ append p u = .ok z := by
      refine ⟨⟨t.ts ++ w.ts.tail, ⟨t.dim, t.ys.rows ++ w.ys.rows.tail⟩, ⟨t.dim, t.yds.rows ++ w.yds.rows.tail⟩,
        ⟨t.dim, t.ydds.rows ++ w.ydds.rows.tail⟩, ⟨t.dimMisc, t.misc.rows ++ w.misc.rows.tail⟩⟩, ?_, ?_⟩
      · refine ((C74_append ht sw).1 _).mpr ⟨⟨?_, ?_, ?_, ?_, ?_, ?_⟩, rfl, rfl, rfl, rfl, rfl⟩
        · rw [show w.dim = o.dim by simp [dim, w2]]; exact d1
        · rw [show w.dimMisc = o.dimMisc by simp [dimMisc, w5]]; exact d2
        · rw [w1, ets] at *; exact d3
        · rw [w2]; rw [eys] at d4 ⊢; exact d4
        · rw [w3]; rw [evs] at d5 ⊢; exact d5
        · rw [w4]; rw [eas] at d6 ⊢; exact d6
      · refine ((C74_append su hp).1 _).mpr ⟨⟨?_, ?_, ?_, ?_, ?_, ?_⟩, ?_, ?_, ?_, ?_, ?_⟩
        · rw [show u.dim = t.dim by simp [dim, u2]]; exact g1.trans d1
        · rw [show u.dimMisc = t.dimMisc by simp [dimMisc, u5]]; exact g2.trans d2
        · rw [u1]; rw [ets] at g3 ⊢; rw [hlast]; rw [glast] at g3; exact g3
        · rw [u2]; rw [eys] at g4 ⊢; rw [hlast]; rw [glast] at g4; exact g4
        · rw [u3]; rw [evs] at g5 ⊢; rw [hlast]; rw [glast] at g5; exact g5
        · rw [u4]; rw [eas] at g6 ⊢; rw [hlast]; rw [glast] at g6; exact g6
        · simp [u1, w1, ets]
        · simp [u2, w2, eys, dim]
        · simp [u2, u3, w3, evs, dim]
        · simp [u2, u4, w4, eas, dim]
        · simp [u5, w5, ems, dimMisc]
    obtain ⟨z, h1, h3⟩ := hok
    rw [h1, h3]
  · have su := (C74_append_kept ht ho hu).1
    rw [hu, hw]
    change append p u = .error .assertion
    refine (err su hp).resolve_left ?_
    rintro ⟨z, hz⟩
    obtain ⟨⟨d1, d2, -⟩, u1, u2, u3, u4, u5⟩ := ((C74_append ht ho).1 u).mp hu
    obtain ⟨⟨g1, g2, g3, g4, g5, g6⟩, -⟩ := ((C74_append su hp).1 z).mp hz
    rw [u1, ets, hlast] at g3
    rw [u2, eys, hlast] at g4
    rw [u3, evs, hlast] at g5
    rw [u4, eas, hlast] at g6
    have : ∃ w, append p o = .ok w := by
      refine ⟨⟨o.ts ++ p.ts.tail, ⟨o.dim, o.ys.rows ++ p.ys.rows.tail⟩, ⟨o.dim, o.yds.rows ++ p.yds.rows.tail⟩,
        ⟨o.dim, o.ydds.rows ++ p.ydds.rows.tail⟩, ⟨o.dimMisc, o.misc.rows ++ p.misc.rows.tail⟩⟩, ?_⟩
      refine ((C74_append ho hp).1 _).mpr ⟨⟨?_, ?_, ?_, ?_, ?_, ?_⟩, rfl, rfl, rfl, rfl, rfl⟩
      · rw [g1, d1]; simp [dim, u2]
      · rw [g2, d2]; simp [dimMisc, u5]
      · rw [ets, glast]; exact g3
      · rw [eys, glast]; exact g4
      · rw [evs, glast]; exact g5
      · rw [eas, glast]; exact g6
    obtain ⟨w, h⟩ := this
    rw [h] at hw
    cases hw
  · have sw := (C74_append_kept ho hp hw).1
    rw [hu, hw]
    change Except.error _ = append w t
    refine ((err ht sw).resolve_left ?_).symm
    rintro ⟨z, hz⟩
    obtain ⟨-, w1, w2, w3, w4, w5⟩ := ((C74_append ho hp).1 w).mp hw
    obtain ⟨⟨d1, d2, d3, d4, d5, d6⟩, -⟩ := ((C74_append ht sw).1 z).mp hz
    rw [w1, ets] at d3
    rw [w2, eys] at d4
    rw [w3, evs] at d5
    rw [w4, eas] at d6
    have : ∃ w, append o t = .ok w := by
      refine ⟨⟨t.ts ++ o.ts.tail, ⟨t.dim, t.ys.rows ++ o.ys.rows.tail⟩, ⟨t.dim, t.yds.rows ++ o.yds.rows.tail⟩,
        ⟨t.dim, t.ydds.rows ++ o.ydds.rows.tail⟩, ⟨t.dimMisc, t.misc.rows ++ o.misc.rows.tail⟩⟩, ?_⟩
      refine ((C74_append ht ho).1 _).mpr ⟨⟨?_, ?_, ?_, ?_, ?_, ?_⟩, rfl, rfl, rfl, rfl, rfl⟩
      · rw [← d1]; simp [dim, w2]
      · rw [← d2]; simp [dimMisc, w5]
      · rw [ets]; exact d3
      · rw [eys]; exact d4
      · rw [evs]; exact d5
      · rw [eas]; exact d6
    obtain ⟨w, h⟩ := this
    rw [h] at hu
    cases hu
  · rw [hu, hw]
    rfl

/-! ### Examples -/

/-- Two samples of one variable, at rest. -/
def pair (a b x y : ℝ) : Trajectory :=
  ⟨[a, b], ⟨1, [[x], [y]]⟩, ⟨1, [[0], [0]]⟩, ⟨1, [[0], [0]]⟩, ⟨2, [[a, 7], [b, 7]]⟩⟩

theorem pair_shape (a b x y : ℝ) : (pair a b x y).Shape := by
  constructor <;> simp [pair]

theorem pair_append (a b c x y z : ℝ) : ∃ u, append (pair b c y z) (pair a b x y) = .ok u ∧ u.ts = [a, b, c] := by
  refine ⟨⟨[a, b, c], ⟨1, [[x], [y], [z]]⟩, ⟨1, [[0], [0], [0]]⟩, ⟨1, [[0], [0], [0]]⟩,
    ⟨2, [[a, 7], [b, 7], [c, 7]]⟩⟩, ?_, rfl⟩
  exact ((C74_append (pair_shape ..) (pair_shape ..)).1 _).mpr ⟨⟨rfl, rfl, ⟨b, rfl, rfl⟩, ⟨[y], [y], rfl, rfl, close_refl _⟩,
    ⟨[0], [0], rfl, rfl, close_refl _⟩, ⟨[0], [0], rfl, rfl, close_refl _⟩⟩, rfl, rfl, rfl, rfl, rfl⟩

example : ∃ u, append (pair 1 3 5 7) (pair 0 1 0 5) = .ok u ∧ u.duration = 3 := by
  obtain ⟨u, h, -⟩ := pair_append 0 1 3 0 5 7
  refine ⟨u, h, ?_⟩
  rw [(C74_append_kept (pair_shape ..) (pair_shape ..) h).2.2.2.2.1]
  norm_num [duration, pair]

/-- Another position cannot be appended. -/
example : append (pair 1 3 6 7) (pair 0 1 0 5) = .error .assertion := by
  refine (C74_append (pair_shape ..) (pair_shape ..)).2 fun u hu => ?_
  obtain ⟨⟨-, -, -, ⟨v, w, h1, h2, h3⟩, -⟩, -⟩ := ((C74_append (pair_shape ..) (pair_shape ..)).1 u).mp hu
  cases h1
  cases h2
  rcases h3 with ⟨h3, -⟩ | ⟨-, -, h3⟩
  · have := h3 5 (by simp)
    norm_num at this
  · norm_num at h3

example : (append (pair 1 3 5 7) (pair 0 1 0 5) >>= append (pair 3 4 7 8)) =
    (append (pair 3 4 7 8) (pair 1 3 5 7) >>= fun u => append u (pair 0 1 0 5)) :=
  C74_append_assoc (pair_shape ..) (pair_shape ..) (pair_shape ..) le_rfl

example : ∃ t, init [0, 1] ⟨1, [[0], [5]]⟩ ⟨1, [[0], [0]]⟩ ⟨1, [[0], [0]]⟩ = .ok t ∧ t.dimMisc = 0 := by
  refine ⟨⟨[0, 1], ⟨1, [[0], [5]]⟩, ⟨1, [[0], [0]]⟩, ⟨1, [[0], [0]]⟩, ⟨0, [[], []]⟩⟩, ?_, rfl⟩
  exact ((C74_init ..).1 _).mpr ⟨⟨rfl, rfl, rfl, rfl, rfl, Or.inl rfl⟩, rfl, rfl, rfl, rfl, fun _ => rfl, fun h => absurd rfl h⟩

/-- Saving and reading with the right number of miscellaneous variables, with a file that Python can read. -/
example : ∃ k', (pair 0 1 2 3).save "traj.txt" false blank = (true, k') ∧
    readFile "traj.txt" 2 k' = .ok (mapAll (roundTo 6) (pair 0 1 2 3)) ∧
    ∃ ls p, k'.files "traj.txt" = some ls ∧ Verif.Trajectory.loadtxt ls 2 = .ok p ∧
      ofPy p = mapAll (roundTo 6) (pair 0 1 2 3) := by
  obtain ⟨k', h, -⟩ := (C73_save (pair 0 1 2 3) "traj.txt" false blank).1 ⟨Or.inl rfl, rfl⟩
  obtain ⟨ls, p, h1, h2, h3, -⟩ := C73_cpp_python_partial (pair_shape 0 1 2 3) (by simp [pair, length])
    (by simp [pair, dim]) h
  exact ⟨k', h, (C73_partial (pair_shape 0 1 2 3) (by simp [pair]) h).1, ls, p, h1, h2, h3⟩

/-- Python to C++ and to Python. -/
example : ∃ ls p, (pair 0 1 2 3).toPy.savetxt = .ok ls ∧ Verif.Trajectory.loadtxt ls 2 = .ok p := by
  obtain ⟨ls, p, h1, h2, -⟩ := C73_python_partial (toPy_shape (pair_shape 0 1 2 3)) (by simp [toPy, pair])
    (by simp [toPy, pair])
  exact ⟨ls, p, h1, h2⟩

example (ls : Lines) (h : (pair 0 1 2 3).toPy.savetxt = .ok ls) :
    readFile "a" 2 ⟨fun _ => some ls, fun _ => true, fun _ => true, fun _ => true⟩ =
      .ok (mapAll (roundTo 7) (pair 0 1 2 3)) :=
  (C73_python_cpp_partial (toPy_shape (pair_shape 0 1 2 3)) (by simp [toPy, pair]) h rfl).1

/-- Three miscellaneous variables are read as one more dimension. -/
example : ∃ k' u, (⟨[0], ⟨1, [[1]]⟩, ⟨1, [[2]]⟩, ⟨1, [[3]]⟩, ⟨3, [[4, 5, 6]]⟩⟩ : Trajectory).save "a" true blank = (true, k') ∧
    readFile "a" 0 k' = .ok u ∧ u.dim = 2 := by
  have hs : (⟨[0], ⟨1, [[1]]⟩, ⟨1, [[2]]⟩, ⟨1, [[3]]⟩, ⟨3, [[4, 5, 6]]⟩⟩ : Trajectory).Shape := by
    constructor <;> simp
  obtain ⟨k', h, -⟩ := (C73_save ⟨[0], ⟨1, [[1]]⟩, ⟨1, [[2]]⟩, ⟨1, [[3]]⟩, ⟨3, [[4, 5, 6]]⟩⟩ "a" true blank).1 ⟨Or.inr rfl, rfl⟩
  obtain ⟨u, h1, -, h2, -⟩ := C73_misc hs (by simp) (c := 1) rfl h
  exact ⟨k', u, h, h1, h2⟩

example : viapoint [0, 1, 2] [0] [1, 0, 0] 2 [0] = .error .nan :=
  (C72_viapoint_errors _ _ _ _ _).2.2.2 0 2 [1] rfl rfl rfl (by norm_num) (by simp) le_rfl

end Trajectory

end Cpp

end Verif
