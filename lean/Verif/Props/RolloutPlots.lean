import Verif.Model.RolloutPlots
import Verif.Props.RobotTrajectories

/-
C110: plots of rollouts (plot_rollouts.py, TaskThrowBall.plot_rollout).
-/

set_option autoImplicit false

namespace Verif

/-- A table that can be plotted: at least two rows, all with the same number of columns, at least 9. -/
def Plottable (ls : Lines) : Prop := 2 ≤ ls.length ∧ ∃ c, 9 ≤ c ∧ ∀ l ∈ ls, l.length = c

/-- Columns `a` and `a + 1` of the lines of a file. -/
def Along (a : Nat) (ls : Lines) (points : List (ℝ × ℝ)) : Prop :=
  points.length = ls.length ∧ ∀ (i : Nat) (p : ℝ × ℝ), points[i]? = some p → ∃ l, ls[i]? = some l ∧ l[a]? = some p.1 ∧ l[a + 1]? = some p.2

/-- A point of the line through the given points. -/
def OnLine : List (ℝ × ℝ) → ℝ × ℝ → Prop
  | a :: b :: rest, p =>
    (∃ s, 0 ≤ s ∧ s ≤ 1 ∧ p.1 = a.1 + s * (b.1 - a.1) ∧ p.2 = a.2 + s * (b.2 - a.2)) ∨ OnLine (b :: rest) p
  | _, _ => False

theorem loadTable_ok {ls : Lines} (h : Plottable ls) : ∃ c, 9 ≤ c ∧ loadTable ls = .ok ⟨c, ls⟩ ∧ ∀ l ∈ ls, l.length = c := by
  obtain ⟨h2, c, hc, hl⟩ := h
  refine ⟨c, hc, ?_, hl⟩
  have hf : (ls.filter fun l => decide (l ≠ [])) = ls := by
    rw [List.filter_eq_self]
    intro l hm
    have := hl l hm
    simp only [ne_eq, decide_not, Bool.not_eq_eq_eq_not, Bool.not_true, decide_eq_false_iff_not]
    rintro rfl
    simp at this
    omega
  unfold loadTable
  rw [hf]
  match ls, h2 with
  | r :: q :: rs, _ =>
    have hr : r.length = c := hl r (by simp)
    dsimp only
    rw [if_neg (by
      simp only [List.any_eq_true, bne_iff_ne, not_exists, not_and, not_not]
      intro l hm
      rw [hr]
      exact hl l (List.mem_cons_of_mem _ hm)), if_neg (by simp), if_neg (by omega), hr]

theorem along_map {ls : Lines} {a c : Nat} (hl : ∀ l ∈ ls, l.length = c) (hc : a + 1 < c) :
    Along a ls (ls.map fun r => (r.getD a 0, r.getD (a + 1) 0)) := by
  refine ⟨by simp, fun i p hp => ?_⟩
  rw [List.getElem?_map] at hp
  obtain ⟨l, h1, h2⟩ := Option.map_eq_some_iff.mp hp
  have hlen := hl l (List.mem_of_getElem? h1)
  refine ⟨l, h1, ?_, ?_⟩
  · subst h2
    simp only
    rw [List.getD_eq_getElem _ _ (by omega), List.getElem?_eq_getElem]
  · subst h2
    simp only
    rw [List.getD_eq_getElem _ _ (by omega), List.getElem?_eq_getElem]

/-- What is to be drawn for a file. -/
structure Drawn (t : ThrowBall.Task) (ls : Lines) (p : RolloutPlot) : Prop where
  hand : Along 1 ls p.hand
  ball : Along 7 ls p.ball
  floor : p.floor = [(-1, t.yFloor), (t.xGoal - t.xMargin, t.yFloor), (t.xGoal, t.yFloor - 0.05),
    (t.xGoal + t.xMargin, t.yFloor), (0.4, t.yFloor)]
  goal : p.goal = (t.xGoal, t.yFloor - 0.05)

/-- C110: one file. -/
theorem C110_file (t : ThrowBall.Task) {ls : Lines} (h : Plottable ls) :
    ∃ m p, loadTable ls = .ok m ∧ t.plotRollout m = .ok p ∧ Drawn t ls p := by
  obtain ⟨c, hc, hm, hl⟩ := loadTable_ok h
  refine ⟨_, _, hm, if_neg (by simpa using hc), along_map hl (by omega), along_map hl (by omega), rfl, rfl⟩

/-- C110: files that cannot be plotted: no rows, one row, too few columns, rows of different lengths. -/
theorem C110_raises (t : ThrowBall.Task) :
    loadTable [] = .error .indexError ∧
    (∀ l : List ℝ, l ≠ [] → loadTable [l] = .error .indexError) ∧
    (∀ (a b : List ℝ) ls, a ≠ [] → b ≠ [] → a.length ≠ b.length → loadTable (a :: b :: ls) = .error .valueError) ∧
    (∀ x y : ℝ, loadTable [[x], [y]] = .error .indexError) ∧
    ∀ m : Arr2 ℝ, m.cols < 9 → t.plotRollout m = .error .indexError := by
  refine ⟨rfl, fun l hl => ?_, fun a b ls ha hb hab => ?_, fun x y => ?_, fun m hm => if_pos hm⟩
  · unfold loadTable
    simp [hl]
  · unfold loadTable
    rw [List.filter_cons_of_pos (by simpa using ha), List.filter_cons_of_pos (by simpa using hb)]
    simp only
    rw [if_pos]
    simp only [List.any_cons, Bool.or_eq_true, bne_iff_ne]
    exact .inl fun e => hab e.symm
  · unfold loadTable
    simp

theorem drawRollouts_ok (t : ThrowBall.Task) : ∀ {files : List Lines}, (∀ ls ∈ files, Plottable ls) →
    ∃ plots, drawRollouts t (files.map some) = (plots, .ok ()) ∧ List.Forall₂ (Drawn t) files plots
  | [], _ => ⟨[], rfl, .nil⟩
  | ls :: rest, h => by
    obtain ⟨plots, h1, h2⟩ := drawRollouts_ok t (files := rest) fun l hl => h l (List.mem_cons_of_mem _ hl)
    obtain ⟨m, p, h3, h4, h5⟩ := C110_file t (h ls (by simp))
    refine ⟨p :: plots, ?_, .cons h5 h2⟩
    simp only [List.map_cons, drawRollouts, h3, h4, h1]

/-- C110: the names of files that are read. -/
theorem C110_names (name : String) : isCostVars name = true ↔
    name.toList.head? ≠ some '.' ∧ ∃ a b, name.toList = a ++ "cost_vars".toList ++ b ++ ".txt".toList := by
  unfold isCostVars
  rw [decide_eq_true_iff]
  refine and_congr_right fun _ => ⟨?_, ?_⟩
  · rintro ⟨⟨c, hc⟩, a, b, h⟩
    refine ⟨a, b, ?_⟩
    rw [h, ← hc]
    simp
  · rintro ⟨a, b, h⟩
    rw [h]
    refine ⟨⟨_, rfl⟩, a, b, ?_⟩
    have e : (a ++ "cost_vars".toList ++ b ++ ".txt".toList).length - 4 = (a ++ "cost_vars".toList ++ b).length := by
      rw [List.length_append (bs := ".txt".toList)]
      rfl
    rw [e, List.take_left]

/-- C110 in full: whatever the input, if the files can be plotted, the script succeeds. -/
def C110_statement : Prop :=
  ∀ (t : ThrowBall.Task) (input : RolloutInput) (save : Bool),
    (match input with
      | .directory files => ∀ f ∈ files, isCostVars f.1 = true → Plottable f.2
      | .file contents => ∃ ls, contents = some ls ∧ Plottable ls) →
    ∃ plots r, plotRollouts t input save = (plots, .ok r)

/-- C110: a directory. All rollouts in it are drawn, in their order; the figure is saved in it, or shown. -/
theorem C110_directory (t : ThrowBall.Task) {files : List (String × Lines)}
    (h : ∀ f ∈ files, isCostVars f.1 = true → Plottable f.2) (save : Bool) :
    ∃ plots, plotRollouts t (.directory files) save =
        (plots, .ok (if save then .saved "plot_rollouts.png" else .shown)) ∧
      List.Forall₂ (Drawn t) ((files.filter fun f => isCostVars f.1).map fun f => f.2) plots := by
  obtain ⟨plots, h1, h2⟩ := drawRollouts_ok t (files := (files.filter fun f => isCostVars f.1).map fun f => f.2) (by
    intro ls hls
    obtain ⟨f, hf, rfl⟩ := List.mem_map.mp hls
    obtain ⟨h3, h4⟩ := List.mem_filter.mp hf
    exact h f h3 h4)
  rw [List.map_map] at h1
  refine ⟨plots, ?_, h2⟩
  unfold plotRollouts
  simp only
  rw [show ((files.filter fun f => isCostVars f.1).map fun f => some f.2) =
    (files.filter fun f => isCostVars f.1).map (some ∘ fun f => f.2) from rfl, h1]
  cases save <;> rfl

/-- C110: a file. It can be plotted, but not saved. A file that does not exist is an error. -/
theorem C110_single (t : ThrowBall.Task) {ls : Lines} (h : Plottable ls) :
    ∃ p, Drawn t ls p ∧ plotRollouts t (.file (some ls)) false = ([p], .ok .shown) ∧
      plotRollouts t (.file (some ls)) true = ([p], .error .typeError) := by
  obtain ⟨m, p, h1, h2, h3⟩ := C110_file t h
  refine ⟨p, h3, ?_, ?_⟩ <;> simp [plotRollouts, drawRollouts, h1, h2]

theorem C110_missing (t : ThrowBall.Task) (save : Bool) : plotRollouts t (.file none) save = ([], .error .ioError) := rfl

/-- C110 without saving the plot of a file. -/
theorem C110_partial (t : ThrowBall.Task) (input : RolloutInput) (save : Bool)
    (h : match input with
      | .directory files => ∀ f ∈ files, isCostVars f.1 = true → Plottable f.2
      | .file contents => save = false ∧ ∃ ls, contents = some ls ∧ Plottable ls) :
    ∃ plots r, plotRollouts t input save = (plots, .ok r) := by
  cases input with
  | directory files =>
    obtain ⟨plots, h1, -⟩ := C110_directory t h save
    exact ⟨plots, _, h1⟩
  | file contents =>
    obtain ⟨rfl, ls, rfl, hl⟩ := h
    obtain ⟨p, -, h1, -⟩ := C110_single t hl
    exact ⟨_, _, h1⟩

theorem example_rollout : Plottable [[0, 1, 2, 3, 4, 5, 6, 7, 8], [1, 1, 2, 3, 4, 5, 6, 7, 8]] :=
  ⟨by simp, 9, le_rfl, by simp⟩

/-- C110: the full claim is false: the plot of a single file cannot be saved. -/
theorem C110_refuted : ¬ C110_statement := by
  intro h
  obtain ⟨plots, r, h1⟩ := h ⟨0, 1, 0, 1⟩ (.file (some _)) true ⟨_, rfl, example_rollout⟩
  obtain ⟨p, -, -, h2⟩ := C110_single ⟨0, 1, 0, 1⟩ example_rollout
  rw [h2] at h1
  cases congrArg Prod.snd h1

/-- C110: the drawn floor is lower exactly where the ball is to land: where it is lower, the costs of the landing site
vanish, and where they do not vanish, it is as high as the floor. -/
theorem C110_hole {t : ThrowBall.Task} {ls : Lines} {p : RolloutPlot} (h : Drawn t ls p) (h0 : 0 < t.xMargin)
    (h1 : -1 ≤ t.xGoal - t.xMargin) (h2 : t.xGoal + t.xMargin ≤ 0.4) {q : ℝ × ℝ} (hq : OnLine p.floor q) :
    (q.2 < t.yFloor ↔ |q.1 - t.xGoal| < t.xMargin) ∧ t.yFloor - 0.05 ≤ q.2 ∧ q.2 ≤ t.yFloor ∧
    (q.2 < t.yFloor → ThrowBall.distanceCost t.xGoal t.xMargin q.1 = 0) ∧
    (0 < ThrowBall.distanceCost t.xGoal t.xMargin q.1 → q.2 = t.yFloor) := by
  obtain ⟨x, y⟩ := q
  rw [h.floor] at hq
  have key : (y < t.yFloor ↔ |x - t.xGoal| < t.xMargin) ∧ t.yFloor - 0.05 ≤ y ∧ y ≤ t.yFloor := by
    rw [abs_lt]
    rcases hq with ⟨s, s0, s1, e1, e2⟩ | ⟨s, s0, s1, e1, e2⟩ | ⟨s, s0, s1, e1, e2⟩ | ⟨s, s0, s1, e1, e2⟩ | hq
    · simp only [sub_self, mul_zero, add_zero] at e1 e2
      subst e2
      refine ⟨⟨fun h => absurd h (lt_irrefl _), fun h => ?_⟩, by linarith, le_rfl⟩
      nlinarith
    · simp only at e1 e2
      subst e1 e2
      refine ⟨⟨fun h => ⟨?_, ?_⟩, fun h => ?_⟩, by nlinarith, by nlinarith⟩
      · have : 0 < s := by by_contra hs; nlinarith
        nlinarith
      · nlinarith
      · have : 0 < s := by by_contra hs; nlinarith [h.1]
        nlinarith
    · simp only at e1 e2
      subst e1 e2
      refine ⟨⟨fun h => ⟨?_, ?_⟩, fun h => ?_⟩, by nlinarith, by nlinarith⟩
      · nlinarith
      · have : s < 1 := by by_contra hs; nlinarith
        nlinarith
      · have : s < 1 := by by_contra hs; nlinarith [h.2]
        nlinarith
    · simp only [sub_self, mul_zero, add_zero] at e1 e2
      subst e2
      refine ⟨⟨fun h => absurd h (lt_irrefl _), fun h => ?_⟩, by linarith, le_rfl⟩
      nlinarith
    · exact hq.elim
  refine ⟨key.1, key.2.1, key.2.2, fun hy => ?_, fun hc => ?_⟩
  · have := key.1.mp hy
    exact max_eq_left (by simp only; linarith)
  · by_contra hne
    have := key.1.mp (lt_of_le_of_ne key.2.2 hne)
    unfold ThrowBall.distanceCost at hc
    rw [max_eq_left (by simp only; linarith)] at hc
    exact lt_irrefl _ hc

/-- C110: what the program for the robot writes (with 6 decimals) can be plotted, if it has got a file with at least two lines
of 7 numbers (C109). -/
theorem C110_robot {ls : Lines} {rows : List (List ℝ)} (h : Cpp.Robot ls rows) (h2 : 2 ≤ ls.length)
    (h7 : ∀ l ∈ ls, l.length = 7) : Plottable (rows.map (List.map (roundTo 6))) := by
  refine ⟨by rw [List.length_map, h.length]; exact h2, 14, by omega, fun l hl => ?_⟩
  obtain ⟨r, hr, rfl⟩ := List.mem_map.mp hl
  rw [List.length_map, h.width h7 r hr]

/-! ### Cases that meet the hypotheses -/

example : isCostVars "07_cost_vars.txt" = true ∧ isCostVars "07_traj.txt" = false ∧ isCostVars ".cost_vars.txt" = false := by
  refine ⟨?_, ?_, ?_⟩ <;> decide

example : ∃ plots, plotRollouts robotTask (.directory [("00_cost_vars.txt", [[0, 1, 2, 3, 4, 5, 6, 7, 8], [1, 1, 2, 3, 4, 5, 6, 7, 8]]),
    ("00_traj.txt", [])]) true = (plots, .ok (.saved "plot_rollouts.png")) := by
  obtain ⟨plots, h, -⟩ := C110_directory robotTask (files := [("00_cost_vars.txt",
    [[0, 1, 2, 3, 4, 5, 6, 7, 8], [1, 1, 2, 3, 4, 5, 6, 7, 8]]), ("00_traj.txt", [])]) (by
      intro f hf hc
      simp only [List.mem_cons, List.not_mem_nil, or_false] at hf
      rcases hf with rfl | rfl
      · exact example_rollout
      · exact absurd hc (by decide)) true
  exact ⟨plots, h⟩

example {ls : Lines} {p : RolloutPlot} (h : Drawn robotTask ls p) : (-0.7, -0.35) ∈ {q | OnLine p.floor q ∧ q.2 < robotTask.yFloor} := by
  refine ⟨?_, by norm_num [robotTask]⟩
  rw [h.floor]
  exact .inr (.inl ⟨1, by norm_num, le_rfl, by norm_num [robotTask], by norm_num [robotTask]⟩)

end Verif
