import Verif.Props.CppTrajectory

/- C73: trajectories in text files, written and read by C++ and by Python. -/

set_option autoImplicit false

namespace Verif

/-! ### Rounding -/

theorem roundTo_error (k : Nat) (x : ℝ) : |roundTo k x - x| ≤ 1 / 2 / 10 ^ k := by
  have hp : (0 : ℝ) < 10 ^ k := by positivity
  have h := abs_sub_round (x * 10 ^ k)
  have e : roundTo k x - x = -((x * 10 ^ k - (round (x * 10 ^ k) : ℝ)) / 10 ^ k) := by
    unfold roundTo
    field_simp
    ring
  rw [e, abs_neg, abs_div, abs_of_pos hp]
  exact div_le_div_of_nonneg_right h hp.le

/-- Numbers with `k` decimals are not changed. -/
theorem roundTo_exact (k : Nat) (z : ℤ) : roundTo k ((z : ℝ) / 10 ^ k) = (z : ℝ) / 10 ^ k := by
  unfold roundTo
  rw [div_mul_cancel₀ _ (by positivity), round_intCast]

theorem roundTo_idem (k : Nat) (x : ℝ) : roundTo k (roundTo k x) = roundTo k x :=
  roundTo_exact k _

/-- 7 decimals keep what has 6. -/
theorem roundTo_finer (k m : Nat) (x : ℝ) : roundTo (k + m) (roundTo k x) = roundTo k x := by
  have : roundTo k x = ((round (x * 10 ^ k) * 10 ^ m : ℤ) : ℝ) / 10 ^ (k + m) := by
    unfold roundTo
    push_cast
    rw [pow_add]
    field_simp
  rw [this, roundTo_exact]

/-! ### Matrices in text files -/

namespace Cpp

theorem readNumbers_eq : ∀ {ls : Lines} (d : Option ℝ), (∀ l ∈ ls, l ≠ []) → readNumbers ls d = .ok ls.flatten
  | [], _, _ => rfl
  | [] :: _, _, h => absurd rfl (h [] (by simp))
  | (a :: l) :: ls, d, h => by
    have ih := readNumbers_eq (ls := ls) ((a :: l).getLast?.or d) fun l hl => h l (by simp [hl])
    cases d <;>
    · change (readNumbers ls _ >>= fun v => Except.ok ((a :: l) ++ v)) = _
      rw [ih]
      rfl

theorem flatten_get {c : Nat} : ∀ {ls : Lines} (_ : ∀ l ∈ ls, l.length = c) (i j : Nat), j < c →
    ls.flatten[i * c + j]? = ls[i]?.bind fun l => l[j]?
  | [], _, _, _, _ => by simp
  | l :: ls, h, 0, j, hj => by
    have hl : l.length = c := h l (by simp)
    simp [List.getElem?_append_left (show j < l.length by omega)]
  | l :: ls, h, i + 1, j, hj => by
    have hl : l.length = c := h l (by simp)
    have ih := flatten_get (ls := ls) (fun l hl => h l (by simp [hl])) i j hj
    rw [List.flatten_cons, List.getElem?_append_right (by rw [hl, Nat.add_mul]; omega), hl,
      show (i + 1) * c + j - c = i * c + j by rw [Nat.add_mul]; omega, ih]
    simp

/-- A file with rows of the same length is read as the matrix with these rows. -/
theorem loadMatrix_eq {name : String} {k : Disk} {ls : Lines} {c : Nat} (hf : k.files name = some ls)
    (h0 : ls ≠ []) (hc : 0 < c) (h : ∀ l ∈ ls, l.length = c) :
    loadMatrix name k = .ok (some ⟨c, ls⟩) := by
  have hne : ∀ l ∈ ls, l ≠ [] := by
    intro l hl e
    have := h l hl
    rw [e] at this
    simp at this
    omega
  have hpos := List.length_pos_iff.mpr h0
  have hlen : ls.flatten.length = ls.length * c := by
    rw [List.length_flatten, List.map_congr_left h, List.map_const', List.sum_replicate, smul_eq_mul]
  unfold loadMatrix
  rw [hf]
  dsimp only
  rw [readNumbers_eq none hne]
  change (if ls.length = 0 then _ else _) = _
  rw [if_neg (by omega), hlen, Nat.mul_div_cancel_left _ hpos]
  have : ((List.range ls.length).map fun i => (List.range c).map fun j => ls.flatten.getD (i * c + j) 0) = ls := by
    refine List.ext_getElem (by simp) fun i hi hi' => ?_
    have hl : ls[i].length = c := h _ (List.getElem_mem hi')
    refine List.ext_getElem (by simp [hl]) fun j hj hj' => ?_
    have hj'' : j < c := by simpa using hj
    simp only [List.getElem_map, List.getElem_range, List.getD_eq_getElem?_getD]
    rw [flatten_get h i j hj'', List.getElem?_eq_getElem hi']
    simp [hj']
  rw [this]

namespace Trajectory

/-- A trajectory as the constructor accepts it, with rectangular matrices. -/
structure Shape (t : Trajectory) : Prop where
  ys : t.ys.rows.length = t.ts.length
  yds : t.yds.rows.length = t.ts.length
  ydds : t.ydds.rows.length = t.ts.length
  misc : t.misc.rows.length = t.ts.length
  ysCols : ∀ r ∈ t.ys.rows, r.length = t.ys.cols
  ydsCols : ∀ r ∈ t.yds.rows, r.length = t.ys.cols
  yddsCols : ∀ r ∈ t.ydds.rows, r.length = t.ys.cols
  miscCols : ∀ r ∈ t.misc.rows, r.length = t.misc.cols
  ydsShape : t.yds.cols = t.ys.cols
  yddsShape : t.ydds.cols = t.ys.cols

/-- All numbers are changed by `f`. -/
def mapAll (f : ℝ → ℝ) (t : Trajectory) : Trajectory :=
  ⟨t.ts.map f, ⟨t.ys.cols, t.ys.rows.map (List.map f)⟩, ⟨t.yds.cols, t.yds.rows.map (List.map f)⟩,
    ⟨t.ydds.cols, t.ydds.rows.map (List.map f)⟩, ⟨t.misc.cols, t.misc.rows.map (List.map f)⟩⟩

theorem Shape.mapAll {t : Trajectory} (h : t.Shape) (f : ℝ → ℝ) : (mapAll f t).Shape where
  ys := by simp [Trajectory.mapAll, h.ys]
  yds := by simp [Trajectory.mapAll, h.yds]
  ydds := by simp [Trajectory.mapAll, h.ydds]
  misc := by simp [Trajectory.mapAll, h.misc]
  ysCols := by
    intro r hr
    obtain ⟨q, hq, rfl⟩ := List.mem_map.mp hr
    rw [List.length_map]
    exact h.ysCols q hq
  ydsCols := by
    intro r hr
    obtain ⟨q, hq, rfl⟩ := List.mem_map.mp hr
    rw [List.length_map]
    exact h.ydsCols q hq
  yddsCols := by
    intro r hr
    obtain ⟨q, hq, rfl⟩ := List.mem_map.mp hr
    rw [List.length_map]
    exact h.yddsCols q hq
  miscCols := by
    intro r hr
    obtain ⟨q, hq, rfl⟩ := List.mem_map.mp hr
    rw [List.length_map]
    exact h.miscCols q hq
  ydsShape := h.ydsShape
  yddsShape := h.yddsShape

theorem asMatrix_mapAll {t : Trajectory} (h : t.Shape) (f : ℝ → ℝ) :
    (mapAll f t).asMatrix.rows = t.asMatrix.rows.map (List.map f) := by
  unfold asMatrix
  simp only [List.map_map]
  have hl : (mapAll f t).length = t.length := by simp [length, mapAll]
  rw [hl]
  refine List.map_congr_left fun i hi => ?_
  have hi : i < t.ts.length := by simpa [length] using hi
  have h1 : i < t.ys.rows.length := by rw [h.ys]; exact hi
  have h2 : i < t.yds.rows.length := by rw [h.yds]; exact hi
  have h3 : i < t.ydds.rows.length := by rw [h.ydds]; exact hi
  have h4 : i < t.misc.rows.length := by rw [h.misc]; exact hi
  simp [mapAll, hi, h1, h2, h3, h4]

theorem asMatrix_cols {t : Trajectory} (h : t.Shape) :
    ∀ r ∈ t.asMatrix.rows, r.length = t.asMatrix.cols := by
  intro r hr
  obtain ⟨i, hi, rfl⟩ := List.mem_map.mp hr
  have hi : i < t.ts.length := by simpa [length] using hi
  have h1 : i < t.ys.rows.length := by rw [h.ys]; exact hi
  have h2 : i < t.yds.rows.length := by rw [h.yds]; exact hi
  have h3 : i < t.ydds.rows.length := by rw [h.ydds]; exact hi
  have h4 : i < t.misc.rows.length := by rw [h.misc]; exact hi
  have e1 := h.ysCols _ (List.getElem_mem h1)
  have e2 := h.ydsCols _ (List.getElem_mem h2)
  have e3 := h.yddsCols _ (List.getElem_mem h3)
  have e4 := h.miscCols _ (List.getElem_mem h4)
  simp [h1, h2, h3, h4, e1, e2, e3, e4, asMatrix, dim, dimMisc]
  omega

/-- The parts of a row. -/
theorem row_parts {d m : Nat} {a : ℝ} {y yd ydd x : List ℝ} (h1 : y.length = d) (h2 : yd.length = d)
    (h3 : ydd.length = d) (h4 : x.length = m) :
    ((a :: (y ++ yd ++ ydd ++ x)).drop 1).take d = y ∧
    ((a :: (y ++ yd ++ ydd ++ x)).drop (1 + d)).take d = yd ∧
    ((a :: (y ++ yd ++ ydd ++ x)).drop (1 + 2 * d)).take d = ydd ∧
    ((a :: (y ++ yd ++ ydd ++ x)).drop (1 + 3 * d)).take m = x := by
  have e : ∀ k, (a :: (y ++ yd ++ ydd ++ x)).drop (1 + k) = (y ++ yd ++ ydd ++ x).drop k := by
    intro k
    rw [Nat.add_comm, List.drop_succ_cons]
  refine ⟨?_, ?_, ?_, ?_⟩
  · rw [List.drop_succ_cons, List.drop_zero, List.append_assoc, List.append_assoc, List.take_left' h1]
  · rw [e, List.append_assoc, List.append_assoc, List.drop_left' h1, List.take_left' h2]
  · rw [e, List.append_assoc, List.drop_left' (by simp; omega), List.take_left' h3]
  · rw [e, List.drop_left' (by simp; omega), ← h4, List.take_length]

/-- Reading the matrix of a trajectory gives the trajectory, if the right number of miscellaneous variables is
given. -/
theorem ofMatrix_asMatrix {t : Trajectory} (h : t.Shape) : ofMatrix t.asMatrix t.dimMisc = .ok t := by
  have hn : Int.tdiv (((t.asMatrix.cols : Nat) : Int) - 1 - t.dimMisc) 3 = t.dim := by
    have : ((t.asMatrix.cols : Nat) : Int) - 1 - t.dimMisc = 3 * t.dim := by
      simp [asMatrix]
      ring
    rw [this, Int.mul_tdiv_cancel_left _ (by decide)]
  have rows : ∀ {α : Type} (g : List ℝ → α) (l : List α), l.length = t.ts.length →
      (∀ i (hi : i < t.ts.length) (hl : i < l.length), g (t.ts[i] :: (t.ys.rows[i]'(by rw [h.ys]; exact hi) ++
        t.yds.rows[i]'(by rw [h.yds]; exact hi) ++ t.ydds.rows[i]'(by rw [h.ydds]; exact hi) ++
        t.misc.rows[i]'(by rw [h.misc]; exact hi))) = l[i]) → t.asMatrix.rows.map g = l := by
    intro α g l hl hg
    refine List.ext_getElem (by simp [asMatrix, length, hl]) fun i hi hi' => ?_
    have hi0 : i < t.ts.length := by omega
    rw [← hg i hi0 hi']
    have h1 : i < t.ys.rows.length := by rw [h.ys]; exact hi0
    have h2 : i < t.yds.rows.length := by rw [h.yds]; exact hi0
    have h3 : i < t.ydds.rows.length := by rw [h.ydds]; exact hi0
    have h4 : i < t.misc.rows.length := by rw [h.misc]; exact hi0
    simp [asMatrix, hi0, h1, h2, h3, h4]
  have parts := fun i (hi : i < t.ts.length) => row_parts (a := t.ts[i])
    (h.ysCols _ (List.getElem_mem (show i < t.ys.rows.length by rw [h.ys]; exact hi)))
    (h.ydsCols _ (List.getElem_mem (show i < t.yds.rows.length by rw [h.yds]; exact hi)))
    (h.yddsCols _ (List.getElem_mem (show i < t.ydds.rows.length by rw [h.ydds]; exact hi)))
    (h.miscCols _ (List.getElem_mem (show i < t.misc.rows.length by rw [h.misc]; exact hi)))
  have c0 : t.asMatrix.rows.map (fun r => r.getD 0 0) = t.ts :=
    rows _ _ rfl fun i hi hl => by simp
  have c1 : columns t.asMatrix 1 t.dim = t.ys := by
    unfold columns
    rw [rows _ t.ys.rows h.ys fun i hi hl => (parts i hi).1]
    rfl
  have c2 : columns t.asMatrix (1 + t.dim) t.dim = t.yds := by
    unfold columns
    rw [rows _ t.yds.rows h.yds fun i hi hl => (parts i hi).2.1]
    exact congrArg (fun c => (⟨c, t.yds.rows⟩ : Arr2 ℝ)) h.ydsShape.symm
  have c3 : columns t.asMatrix (1 + 2 * t.dim) t.dim = t.ydds := by
    unfold columns
    rw [rows _ t.ydds.rows h.ydds fun i hi hl => (parts i hi).2.2.1]
    exact congrArg (fun c => (⟨c, t.ydds.rows⟩ : Arr2 ℝ)) h.yddsShape.symm
  have c4 : columns t.asMatrix (1 + 3 * t.dim) t.dimMisc = t.misc := by
    unfold columns
    rw [rows _ t.misc.rows h.misc fun i hi hl => (parts i hi).2.2.2]
    rfl
  unfold ofMatrix
  rw [hn]
  dsimp only
  rw [if_neg (by omega), Int.toNat_natCast, if_neg (by simp [asMatrix]), c0, c1, c2, c3, c4]
  unfold init
  have hm : (if t.misc.cols = 0 then (⟨0, List.replicate t.ts.length []⟩ : Arr2 ℝ) else t.misc) = t.misc := by
    by_cases hz : t.misc.cols = 0
    · rw [if_pos hz]
      have : t.misc.rows = List.replicate t.ts.length [] := by
        rw [List.eq_replicate_iff]
        refine ⟨h.misc, fun r hr => ?_⟩
        have := h.miscCols r hr
        rw [hz] at this
        simpa using this
      rw [← this, ← hz]
    · rw [if_neg hz]
  dsimp only
  rw [hm, if_pos ⟨h.ys.symm, h.yds.symm, h.ydds.symm, h.misc.symm, h.ydsShape.symm, h.yddsShape.symm⟩]

/-- Corresponding numbers differ by at most `ε`, and the shapes are the same. -/
structure Within (ε : ℝ) (t u : Trajectory) : Prop where
  ts : List.Forall₂ (fun x y => |y - x| ≤ ε) t.ts u.ts
  ys : t.ys.cols = u.ys.cols ∧ List.Forall₂ (List.Forall₂ fun x y => |y - x| ≤ ε) t.ys.rows u.ys.rows
  yds : t.yds.cols = u.yds.cols ∧ List.Forall₂ (List.Forall₂ fun x y => |y - x| ≤ ε) t.yds.rows u.yds.rows
  ydds : t.ydds.cols = u.ydds.cols ∧
    List.Forall₂ (List.Forall₂ fun x y => |y - x| ≤ ε) t.ydds.rows u.ydds.rows
  misc : t.misc.cols = u.misc.cols ∧
    List.Forall₂ (List.Forall₂ fun x y => |y - x| ≤ ε) t.misc.rows u.misc.rows

theorem within_rounded (k : Nat) (t : Trajectory) : Within (1 / 2 / 10 ^ k) t (mapAll (roundTo k) t) := by
  have h : ∀ l : List ℝ, List.Forall₂ (fun x y => |y - x| ≤ 1 / 2 / 10 ^ k) l (l.map (roundTo k)) := by
    intro l
    rw [List.forall₂_map_right_iff, List.forall₂_same]
    exact fun x _ => roundTo_error k x
  have h2 : ∀ l : List (List ℝ), List.Forall₂ (List.Forall₂ fun x y => |y - x| ≤ 1 / 2 / 10 ^ k) l
      (l.map (List.map (roundTo k))) := by
    intro l
    rw [List.forall₂_map_right_iff, List.forall₂_same]
    exact fun x _ => h x
  exact ⟨h _, ⟨rfl, h2 _⟩, ⟨rfl, h2 _⟩, ⟨rfl, h2 _⟩, ⟨rfl, h2 _⟩⟩

/-- The matrix of a trajectory in Python is that of the same trajectory in C++. -/
theorem asMatrix_ofPy' {s : Verif.Trajectory ℝ} (hs : (ofPy s).Shape) : s.asMatrix = .ok (ofPy s).asMatrix := by
  have a1 : s.ys.rows.length = s.ts.length := hs.ys
  have a2 : s.yds.rows.length = s.ts.length := hs.yds
  have a3 : s.ydds.rows.length = s.ts.length := hs.ydds
  have a4 : s.yds.cols = s.ys.cols := hs.ydsShape
  have a5 : s.ydds.cols = s.ys.cols := hs.yddsShape
  have a6 : (s.misc.getD ⟨0, List.replicate s.ts.length []⟩).rows.length = s.ts.length := hs.misc
  unfold Verif.Trajectory.asMatrix asMatrix
  dsimp only
  rw [if_pos ⟨a1, a2, a3⟩]
  cases hm : s.misc with
  | none =>
    have : ∀ i : Nat, ((List.replicate s.ts.length ([] : List ℝ))[i]?.getD []) = [] := by
      intro i
      rw [List.getElem?_replicate]
      split_ifs <;> rfl
    simp [ofPy, hm, length, dim, dimMisc, a4, a5, this]
    omega
  | some m =>
    dsimp only
    have h1 : m.rows.length = s.ts.length := by simpa [hm] using a6
    rw [if_pos h1]
    congr 2
    · simp [ofPy, hm, dim, dimMisc, a4, a5]
      omega
    · refine List.ext_getElem (by simp [h1, length, ofPy]) fun i hi hi' => ?_
      have hi0 : i < s.ts.length := by simpa [length, ofPy] using hi'
      have h4 : i < m.rows.length := by omega
      simp [ofPy, hm, h4]

/-- A trajectory of C++ as an object in Python. -/
noncomputable def toPy (t : Trajectory) : Verif.Trajectory ℝ :=
  ⟨t.ts, meanDiff t.ts, t.ys, t.yds, t.ydds, some t.misc, t.ys.cols⟩

theorem toPy_shape {t : Trajectory} (h : t.Shape) : t.toPy.Shape where
  ys := h.ys
  yds := h.yds
  ydds := h.ydds
  ysCols := h.ysCols
  ydsCols := h.ydsCols
  yddsCols := h.yddsCols
  ydsShape := h.ydsShape
  yddsShape := h.yddsShape
  dim := rfl
  misc := by rintro m ⟨⟩; exact ⟨h.misc, h.miscCols⟩

theorem ofPy_shape {s : Verif.Trajectory ℝ} (h : s.Shape) : (ofPy s).Shape where
  ys := h.ys
  yds := h.yds
  ydds := h.ydds
  ysCols := h.ysCols
  ydsCols := h.ydsCols
  yddsCols := h.yddsCols
  ydsShape := h.ydsShape
  yddsShape := h.yddsShape
  misc := by
    cases hm : s.misc with
    | none => simp [ofPy, hm]
    | some m => simpa [ofPy, hm] using (h.misc m hm).1
  miscCols := by
    cases hm : s.misc with
    | none => simp [ofPy, hm]
    | some m => simpa [ofPy, hm] using (h.misc m hm).2

theorem asMatrix_ofPy {s : Verif.Trajectory ℝ} (hs : s.Shape) : s.asMatrix = .ok (ofPy s).asMatrix :=
  asMatrix_ofPy' (ofPy_shape hs)

theorem fromMatrix_asMatrix {t : Trajectory} (h : t.Shape) :
    ∃ p, Verif.Trajectory.fromMatrix t.asMatrix t.dimMisc = .ok p ∧ ofPy p = t := by
  obtain ⟨m, p, h1, -, h2, e1, e2, e3, e4, e5⟩ := Verif.Trajectory.C41_trajectory_roundtrip t.toPy (toPy_shape h)
  rw [asMatrix_ofPy (toPy_shape h)] at h1
  cases h1
  refine ⟨p, h2, ?_⟩
  change (⟨p.ts, p.ys, p.yds, p.ydds, _⟩ : Trajectory) = t
  rw [e1, e2, e3, e4, e5]
  rfl

/-! ### Reading what was written -/

/-- A file with the rounded matrix of a trajectory. -/
theorem readFile_eq {t : Trajectory} (h : t.Shape) (h0 : t.ts ≠ []) {name : String} {k : Disk} {f : ℝ → ℝ}
    (hf : k.files name = some (t.asMatrix.rows.map (List.map f))) :
    readFile name t.dimMisc k = .ok (mapAll f t) := by
  have hne : t.asMatrix.rows.map (List.map f) ≠ [] := by
    intro e
    have : t.ts.length = 0 := by simpa [asMatrix, length] using congrArg List.length e
    exact h0 (List.length_eq_zero_iff.mp this)
  have hl := loadMatrix_eq (c := t.asMatrix.cols) hf hne (by simp [asMatrix]) (by
    intro l hl
    obtain ⟨r, hr, rfl⟩ := List.mem_map.mp hl
    rw [List.length_map]
    exact asMatrix_cols h r hr)
  unfold readFile
  rw [hl, ← asMatrix_mapAll h f]
  exact ofMatrix_asMatrix (h.mapAll f)

theorem loadtxt_eq {t : Trajectory} (h : t.Shape) (h0 : 2 ≤ t.length) (hd : 0 < t.dim + t.dimMisc) (f : ℝ → ℝ) :
    ∃ p, Verif.Trajectory.loadtxt (t.asMatrix.rows.map (List.map f)) t.dimMisc = .ok p ∧
      ofPy p = mapAll f t := by
  rw [← asMatrix_mapAll h f]
  have h' := h.mapAll f
  have hc : (mapAll f t).asMatrix.cols = t.asMatrix.cols := rfl
  have hlen := asMatrix_cols h'
  have hn : (mapAll f t).asMatrix.rows.length = t.length := by simp [asMatrix, length, mapAll]
  have hbig : 1 < (mapAll f t).asMatrix.cols := by
    rw [hc]
    change 1 < 1 + 3 * t.dim + t.dimMisc
    omega
  unfold Verif.Trajectory.loadtxt
  have hfil : ((mapAll f t).asMatrix.rows.filter fun l => decide (l ≠ [])) = (mapAll f t).asMatrix.rows := by
    rw [List.filter_eq_self]
    intro l hl
    have := hlen l hl
    have : l ≠ [] := by rintro rfl; simp at this; omega
    simpa using this
  rw [hfil]
  obtain ⟨p, hp, e⟩ := fromMatrix_asMatrix h'
  refine ⟨p, ?_, e⟩
  rcases hr : (mapAll f t).asMatrix.rows with _ | ⟨r, _ | ⟨r2, rs⟩⟩
  · rw [hr] at hn; simp at hn; omega
  · rw [hr] at hn; simp at hn; omega
  · dsimp only
    rw [hr] at hlen
    have hr0 : r.length = (mapAll f t).asMatrix.cols := hlen r (by simp)
    rw [if_neg ?_, if_neg (by omega), hr0, ← hr]
    · exact hp
    · simp only [List.any_eq_true, bne_iff_ne, not_exists, not_and, not_not]
      intro l hl
      rw [hlen l (by simp [hl]), hr0]

/-- C73: `saveToFile` writes the rounded matrix and returns true if the file may be written (it does not
exist yet, or `overwrite`), and otherwise returns false and changes nothing. Other files do not change. -/
theorem C73_save (t : Trajectory) (name : String) (overwrite : Bool) (k : Disk) :
    (((k.files name = none ∨ overwrite = true) ∧ k.writable name = true) →
      ∃ k', t.save name overwrite k = (true, k') ∧
        k'.files name = some (t.asMatrix.rows.map (List.map (roundTo 6))) ∧
        (∀ n, n ≠ name → k'.files n = k.files n) ∧ k'.directories = k.directories) ∧
    (¬((k.files name = none ∨ overwrite = true) ∧ k.writable name = true) →
      t.save name overwrite k = (false, k)) := by
  unfold save saveMatrix
  constructor
  · rintro ⟨h1, h2⟩
    have c1 : ¬(((k.files name).isSome && !overwrite) = true) := by
      rcases h1 with h | h <;> simp [h]
    rw [if_neg c1, if_neg (by simp [h2])]
    exact ⟨_, rfl, by simp, fun n hn => by simp [hn], rfl⟩
  · intro h
    by_cases c1 : ((k.files name).isSome && !overwrite) = true
    · rw [if_pos c1]
    · rw [if_neg c1, if_pos]
      by_contra h2
      refine h ⟨?_, by simpa using h2⟩
      cases hf : k.files name with
      | none => exact Or.inl rfl
      | some l => right; simpa [hf] using c1

/-- C73, the part that holds: a trajectory that is saved and read by C++ is the same up to `5·10⁻⁷`. -/
theorem C73_partial {t : Trajectory} (h : t.Shape) (h0 : t.ts ≠ []) {name : String} {overwrite : Bool}
    {k k' : Disk} (hs : t.save name overwrite k = (true, k')) :
    readFile name t.dimMisc k' = .ok (mapAll (roundTo 6) t) ∧ Within (1 / 2 / 10 ^ 6) t (mapAll (roundTo 6) t) := by
  refine ⟨?_, within_rounded 6 t⟩
  by_cases hc : (k.files name = none ∨ overwrite = true) ∧ k.writable name = true
  · obtain ⟨k2, e, hf, -⟩ := (C73_save t name overwrite k).1 hc
    rw [hs] at e
    cases e
    exact readFile_eq h h0 hf
  · rw [(C73_save t name overwrite k).2 hc] at hs
    cases hs

/-- C73: numbers with at most 6 decimals are saved exactly. -/
theorem C73_exact {t : Trajectory} (h : t.Shape) (h0 : t.ts ≠ []) {name : String} {overwrite : Bool}
    {k k' : Disk} (hs : t.save name overwrite k = (true, k')) {u : Trajectory} (hu : t = mapAll (roundTo 6) u) :
    readFile name t.dimMisc k' = .ok t := by
  rw [(C73_partial h h0 hs).1]
  congr 1
  rw [hu]
  simp [mapAll, Function.comp_def, roundTo_idem]

/-- C73, from Python to C++. -/
theorem C73_python_cpp_partial {s : Verif.Trajectory ℝ} (h : s.Shape) (h0 : s.ts ≠ []) {ls : Lines}
    (hw : s.savetxt = .ok ls) {name : String} {k : Disk} (hk : k.files name = some ls) :
    readFile name s.miscColumns.cols k = .ok (mapAll (roundTo 7) (ofPy s)) ∧
      Within (1 / 2 / 10 ^ 7) (ofPy s) (mapAll (roundTo 7) (ofPy s)) := by
  refine ⟨?_, within_rounded 7 _⟩
  unfold Verif.Trajectory.savetxt at hw
  rw [asMatrix_ofPy h] at hw
  cases hw
  exact readFile_eq (ofPy_shape h) h0 hk

/-- C73: `savetxt` succeeds. -/
theorem C73_savetxt {s : Verif.Trajectory ℝ} (h : s.Shape) :
    s.savetxt = .ok ((ofPy s).asMatrix.rows.map (List.map (roundTo 7))) := by
  unfold Verif.Trajectory.savetxt
  rw [asMatrix_ofPy h]
  rfl

/-- C73, from C++ to Python (at least two samples). -/
theorem C73_cpp_python_partial {t : Trajectory} (h : t.Shape) (h0 : 2 ≤ t.length) (hd : 0 < t.dim + t.dimMisc)
    {name : String} {overwrite : Bool} {k k' : Disk} (hs : t.save name overwrite k = (true, k')) :
    ∃ ls p, k'.files name = some ls ∧ Verif.Trajectory.loadtxt ls t.dimMisc = .ok p ∧
      ofPy p = mapAll (roundTo 6) t ∧ Within (1 / 2 / 10 ^ 6) t (ofPy p) := by
  by_cases hc : (k.files name = none ∨ overwrite = true) ∧ k.writable name = true
  · obtain ⟨k2, e, hf, -⟩ := (C73_save t name overwrite k).1 hc
    rw [hs] at e
    cases e
    obtain ⟨p, h1, h2⟩ := loadtxt_eq h h0 hd (roundTo 6)
    exact ⟨_, p, hf, h1, h2, h2 ▸ within_rounded 6 t⟩
  · rw [(C73_save t name overwrite k).2 hc] at hs
    cases hs

/-- C73, from Python to Python (at least two samples). -/
theorem C73_python_partial {s : Verif.Trajectory ℝ} (h : s.Shape) (h0 : 2 ≤ s.ts.length)
    (hd : 0 < s.ys.cols + s.miscColumns.cols) :
    ∃ ls p, s.savetxt = .ok ls ∧ Verif.Trajectory.loadtxt ls s.miscColumns.cols = .ok p ∧
      ofPy p = mapAll (roundTo 7) (ofPy s) ∧ Within (1 / 2 / 10 ^ 7) (ofPy s) (ofPy p) := by
  obtain ⟨p, h1, h2⟩ := loadtxt_eq (ofPy_shape h) h0 hd (roundTo 7)
  exact ⟨_, p, C73_savetxt h, h1, h2, h2 ▸ within_rounded 7 _⟩

/-- C73: without a number of columns for misc, a trajectory without misc is loaded. -/
theorem C73_no_misc {s : Verif.Trajectory ℝ} (h : s.Shape) (h0 : 2 ≤ s.ts.length) (hd : 0 < s.ys.cols)
    (hm : s.miscColumns.cols = 0) : ∃ ls p, s.savetxt = .ok ls ∧ Verif.Trajectory.loadtxt ls = .ok p ∧
      ofPy p = mapAll (roundTo 7) (ofPy s) := by
  obtain ⟨ls, p, h1, h2, h3, -⟩ := C73_python_partial h h0 (by omega)
  rw [hm] at h2
  exact ⟨ls, p, h1, h2, h3⟩

/-- C73: what C++ saved is not changed any more when Python reads it, saves it, and C++ reads it again. -/
theorem C73_stable {t : Trajectory} (h : t.Shape) (h0 : 2 ≤ t.length) (hd : 0 < t.dim + t.dimMisc)
    {name : String} {overwrite : Bool} {k k' : Disk} (hs : t.save name overwrite k = (true, k')) :
    ∃ ls p ls', k'.files name = some ls ∧ Verif.Trajectory.loadtxt ls t.dimMisc = .ok p ∧ p.savetxt = .ok ls' ∧
      ls' = ls := by
  obtain ⟨ls, p, h1, h2, h3, -⟩ := C73_cpp_python_partial h h0 hd hs
  by_cases hc : (k.files name = none ∨ overwrite = true) ∧ k.writable name = true
  · obtain ⟨k2, e, hf, -⟩ := (C73_save t name overwrite k).1 hc
    rw [hs] at e
    cases e
    rw [hf] at h1
    cases h1
    refine ⟨_, p, _, hf, h2, ?_, rfl⟩
    unfold Verif.Trajectory.savetxt
    rw [asMatrix_ofPy' (by rw [h3]; exact h.mapAll _), h3]
    have : roundTo 7 ∘ roundTo 6 = roundTo 6 := funext fun x => roundTo_finer 6 1 x
    change Except.ok (List.map (List.map (roundTo 7)) (mapAll (roundTo 6) t).asMatrix.rows) = _
    rw [asMatrix_mapAll h, List.map_map]
    congr 2
    funext l
    simp [this]
  · rw [(C73_save t name overwrite k).2 hc] at hs
    cases hs

/-- C73 in full: what is saved and read again is the same trajectory. -/
def C73_statement : Prop :=
  ∀ (t : Trajectory) (name : String) (k k' : Disk), t.Shape → t.ts ≠ [] → t.save name true k = (true, k') →
    readFile name t.dimMisc k' = .ok t

/-- A disk on which everything may be written, without files. -/
def blank : Disk := ⟨fun _ => none, fun _ => false, fun _ => true, fun _ => true⟩

/-- One sample at the given time. -/
def single (x : ℝ) : Trajectory := ⟨[x], ⟨1, [[0]]⟩, ⟨1, [[0]]⟩, ⟨1, [[0]]⟩, ⟨0, [[]]⟩⟩

theorem single_shape (x : ℝ) : (single x).Shape := by
  constructor <;> simp [single]

/-- C73 is false: small numbers are rounded to 0. -/
theorem C73_refuted : ¬C73_statement := by
  intro h
  obtain ⟨k', hs, -⟩ := (C73_save (single (1 / 10 ^ 7)) "a" true blank).1 ⟨Or.inr rfl, rfl⟩
  have h1 := h (single (1 / 10 ^ 7)) "a" blank k' (single_shape _) (by simp [single]) hs
  rw [(C73_partial (single_shape _) (by simp [single]) hs).1] at h1
  have h2 : [roundTo 6 (1 / 10 ^ 7)] = [(1 : ℝ) / 10 ^ 7] := congrArg Trajectory.ts (Except.ok.inj h1)
  have h3 : roundTo 6 (1 / 10 ^ 7) = 0 := by
    unfold roundTo
    have : round ((1 : ℝ) / 10 ^ 7 * 10 ^ 6) = 0 := by
      rw [round_eq, Int.floor_eq_iff]
      norm_num
    rw [this]
    simp
  rw [h3] at h2
  norm_num at h2

/-- C73: if the number of columns does not fit, the last ones are ignored. -/
theorem C73_columns {m : Arr2 ℝ} {d nm e : Nat} (hm : m.Wf) (hc : m.cols = 1 + 3 * d + nm + e) (he : e < 3) :
    ∃ u, ofMatrix m nm = .ok u ∧ u.Shape ∧ u.dim = d ∧ u.dimMisc = nm ∧
      u.asMatrix.rows = m.rows.map (List.take (1 + 3 * d + nm)) := by
  have hn : Int.tdiv ((m.cols : Int) - 1 - nm) 3 = d := by
    have e1 : (m.cols : Int) - 1 - nm = ((3 * d + e : Nat) : Int) := by rw [hc]; push_cast; ring
    rw [e1, Int.tdiv_eq_ediv_of_nonneg (Int.natCast_nonneg _)]
    omega
  have hr : ∀ r ∈ m.rows, r.length = 1 + 3 * d + nm + e := fun r h => by rw [hm r h, hc]
  refine ⟨⟨m.rows.map fun r => r.getD 0 0, columns m 1 d, columns m (1 + d) d, columns m (1 + 2 * d) d,
    columns m (1 + 3 * d) nm⟩, ?_, ?_, rfl, rfl, ?_⟩
  · unfold ofMatrix
    dsimp only
    rw [hn, if_neg (by omega), if_neg (by rw [hc]; simp)]
    rcases Nat.eq_zero_or_pos nm with h0 | h0
    · subst h0
      simp [init, columns]
    · simp [init, columns, h0.ne']
  · constructor <;> simp [columns]
    all_goals
      intro r h
      have := hr r h
      omega
  · refine List.ext_getElem (by simp [asMatrix, length]) fun i hi hi' => ?_
    have hi0 : i < m.rows.length := by simpa using hi'
    have hl := hr _ (List.getElem_mem hi0)
    simp only [asMatrix, columns, List.getElem_map, List.getElem_range, List.getD_eq_getElem?_getD, List.getElem?_map,
      List.getElem?_eq_getElem hi0, Option.map_some, Option.getD_some]
    generalize m.rows[i] = r at hl
    rcases r with _ | ⟨a, r⟩
    · simp at hl
      omega
    · have e1 : ∀ k, (a :: r).drop (1 + k) = r.drop k := fun k => by rw [Nat.add_comm, List.drop_succ_cons]
      rw [e1, e1, e1, show (1 + 3 * d + nm) = (d + d + d + nm) + 1 by omega, List.take_succ_cons, List.take_add,
        List.take_add, List.take_add]
      simp [two_mul, show 3 * d = d + d + d by omega]

/-- C73: without the number of miscellaneous variables, `3 c` of them are read as `c` more dimensions (no
error). -/
theorem C73_misc {t : Trajectory} (h : t.Shape) (h0 : t.ts ≠ []) {c : Nat} (hc : t.dimMisc = 3 * c)
    {name : String} {overwrite : Bool} {k k' : Disk} (hs : t.save name overwrite k = (true, k')) :
    ∃ u, readFile name 0 k' = .ok u ∧ u.ts = t.ts.map (roundTo 6) ∧ u.dim = t.dim + c ∧ u.dimMisc = 0 ∧
      u.asMatrix = (mapAll (roundTo 6) t).asMatrix := by
  have hs' : ∃ f, k'.files name = some (t.asMatrix.rows.map (List.map f)) ∧ f = roundTo 6 := by
    by_cases hc : (k.files name = none ∨ overwrite = true) ∧ k.writable name = true
    · obtain ⟨k2, e, hf, -⟩ := (C73_save t name overwrite k).1 hc
      rw [hs] at e
      cases e
      exact ⟨_, hf, rfl⟩
    · rw [(C73_save t name overwrite k).2 hc] at hs
      cases hs
  obtain ⟨_, hf, rfl⟩ := hs'
  have hm := h.mapAll (roundTo 6)
  rw [← asMatrix_mapAll h] at hf
  have hlen : (mapAll (roundTo 6) t).asMatrix.rows.length = t.ts.length := by simp [asMatrix, length, mapAll]
  have hcols : (mapAll (roundTo 6) t).asMatrix.cols = 1 + 3 * (t.dim + c) + 0 + 0 := by
    change 1 + 3 * t.dim + t.dimMisc = _
    rw [hc]
    ring
  obtain ⟨u, h1, h2, h3, h4, h5⟩ := C73_columns (asMatrix_cols hm) hcols (by omega)
  have hne : (mapAll (roundTo 6) t).asMatrix.rows ≠ [] := by
    intro e
    rw [e] at hlen
    exact h0 (List.length_eq_zero_iff.mp hlen.symm)
  have hrow : u.asMatrix.rows = (mapAll (roundTo 6) t).asMatrix.rows := by
    rw [h5]
    conv_rhs => rw [← List.map_id (mapAll (roundTo 6) t).asMatrix.rows]
    refine List.map_congr_left fun r hr => ?_
    exact List.take_of_length_le (by rw [asMatrix_cols hm r hr, hcols])
  have times : ∀ v : Trajectory, v.ts = v.asMatrix.rows.map fun r => r.getD 0 0 := by
    intro v
    refine List.ext_getElem (by simp [asMatrix, length]) fun i hi _ => ?_
    simp [asMatrix, hi]
  refine ⟨u, ?_, ?_, h3, h4, ?_⟩
  · unfold readFile
    rw [loadMatrix_eq hf hne (by rw [hcols]; omega) (asMatrix_cols hm)]
    exact h1
  · rw [times u, hrow, ← times]
    rfl
  · have hcu : u.asMatrix.cols = (mapAll (roundTo 6) t).asMatrix.cols := by
      rw [hcols]
      change 1 + 3 * u.dim + u.dimMisc = _
      rw [h3, h4]
    have ext : ∀ a b : Arr2 ℝ, a.cols = b.cols → a.rows = b.rows → a = b := by
      rintro ⟨_, _⟩ ⟨_, _⟩ h1 h2
      cases h1
      cases h2
      rfl
    exact ext _ _ hcu hrow

/-- C73: files that cannot be read. An empty file ends the program (division by zero); a missing file is an
empty trajectory; too few columns fail an assertion. -/
theorem C73_read_errors (name : String) (nm : Nat) (k : Disk) :
    (k.files name = none → readFile name nm k = .ok empty) ∧
    (k.files name = some [] → readFile name nm k = .error .divZero) ∧
    (∀ ls c, k.files name = some ls → ls ≠ [] → 0 < c → (∀ l ∈ ls, l.length = c) → c < 1 + nm →
      readFile name nm k = .error .assertion) := by
  refine ⟨fun h => ?_, fun h => ?_, fun ls c h h1 h2 h3 h4 => ?_⟩
  · unfold readFile loadMatrix
    rw [h]
    rfl
  · unfold readFile loadMatrix
    rw [h]
    rfl
  · unfold readFile
    rw [loadMatrix_eq h h1 h2 h3]
    change ofMatrix ⟨c, ls⟩ nm = _
    unfold ofMatrix
    dsimp only
    by_cases hn : Int.tdiv ((c : Int) - 1 - nm) 3 < 0
    · rw [if_pos hn]
    · rw [if_neg hn, if_pos]
      omega

/-- C73: Python rejects a file with a single sample, which C++ writes and reads. -/
theorem C73_single {t : Trajectory} (h1 : t.length ≤ 1) (f : ℝ → ℝ) (nm : Nat) :
    Verif.Trajectory.loadtxt (t.asMatrix.rows.map (List.map f)) nm = .error .valueError := by
  have hl : (t.asMatrix.rows.map (List.map f)).length ≤ 1 := by simpa [asMatrix] using h1
  unfold Verif.Trajectory.loadtxt
  have := (List.length_filter_le (fun l => decide (l ≠ [])) (t.asMatrix.rows.map (List.map f))).trans hl
  rcases hr : (t.asMatrix.rows.map (List.map f)).filter fun l => decide (l ≠ []) with _ | ⟨r, _ | ⟨r2, rs⟩⟩
  · rfl
  · rfl
  · rw [hr] at this
    simp at this

/-- C73: saving in a directory. It is created if necessary; the file is written under the same conditions
as without directory, but true is returned in any case. -/
theorem C73_save_in (t : Trajectory) (directory name : String) (overwrite : Bool) (k : Disk) :
    (directory = "" ∨ (k.directories directory = false ∧ k.creatable directory = false) →
      t.saveIn directory name overwrite k = (false, k)) ∧
    (directory ≠ "" ∧ (k.directories directory = true ∨ k.creatable directory = true) →
      ∃ k', t.saveIn directory name overwrite k = (true, k') ∧ k'.directories directory = true ∧
        k'.files = (t.save (directory ++ "/" ++ name) overwrite k).2.files) := by
  unfold saveIn saveMatrixIn
  constructor
  · rintro (h | ⟨h1, h2⟩)
    · rw [if_pos h]
    · by_cases hd : directory = ""
      · rw [if_pos hd]
      · rw [if_neg hd, if_pos (by simp [h1, h2])]
  · rintro ⟨hd, h⟩
    rw [if_neg hd, if_neg (by rcases h with h | h <;> simp [h])]
    refine ⟨_, rfl, ?_, ?_⟩
    · unfold saveMatrix
      split_ifs <;> simp
    · unfold save saveMatrix
      dsimp only
      split_ifs <;> rfl

/-- What `saveToFile` should return: true only if the file was written. -/
def C73_saved_statement : Prop :=
  ∀ (t : Trajectory) (directory name : String) (overwrite : Bool) (k k' : Disk),
    t.saveIn directory name overwrite k = (true, k') →
    k'.files (directory ++ "/" ++ name) = some (t.asMatrix.rows.map (List.map (roundTo 6)))

/-- That is false: if the file exists (and must not be overwritten), nothing is written. -/
theorem C73_saved_refuted : ¬C73_saved_statement := by
  intro h
  have h1 := h (single 0) "d" "f" false ⟨fun _ => some [], fun _ => true, fun _ => true, fun _ => true⟩ _ rfl
  have h2 := congrArg (Option.map List.length) h1
  simp [single, asMatrix, length, saveMatrix] at h2

end Trajectory

end Cpp

end Verif
