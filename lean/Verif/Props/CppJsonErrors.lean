import Verif.Props.CppJson

/-
C90: the exceptions thrown and the assertions that fail while reading function approximators and time
systems from json.
-/

noncomputable section

set_option autoImplicit false

namespace Verif

open Spec

namespace Cpp

open Cpp.Json

/-- C90: a time system is not read if one of its members is missing, if `_tau` is not a number, or if
`_count_down` is neither a number nor true or false. The exception is always the one of the json library. -/
theorem C90_time_errors (j : Json) :
    ((¬ ∃ x, Member j "_tau" (.num x)) → TimeSystem.fromJson j = .error .json) ∧
    ((¬ ∃ v, Member j "_count_down" v ∧ ((∃ x, v = .num x) ∨ ∃ b, v = .bool b)) →
      TimeSystem.fromJson j = .error .json) := by
  have tau (x) (hx : ¬ ∃ y, x = Json.num y) : double x = .error .json := by
    cases x <;> simp_all [double]
  have count (x) (hx : ¬ ((∃ y, x = Json.num y) ∨ ∃ b, x = .bool b)) : int x = .error .json := by
    cases x <;> simp_all [int]
  unfold TimeSystem.fromJson
  constructor
  · intro h
    by_cases hm : ∃ v, Member j "_tau" v
    · obtain ⟨v, hv⟩ := hm
      rw [(get_ok _ _ _).2 hv]
      have := tau v (by rintro ⟨y, rfl⟩; exact h ⟨y, hv⟩)
      change (double v >>= _) = _
      rw [this]
      rfl
    · rw [get_error _ _ hm]
      rfl
  · intro h
    by_cases hm : ∃ v, Member j "_tau" v
    swap
    · rw [get_error _ _ hm]; rfl
    obtain ⟨v, hv⟩ := hm
    rw [(get_ok _ _ _).2 hv]
    change (double v >>= _) = _
    by_cases hx : ∃ y, v = Json.num y
    swap
    · rw [tau v hx]; rfl
    obtain ⟨y, rfl⟩ := hx
    change (get "_count_down" j >>= fun c => int c >>= _) = _
    by_cases hc : ∃ v, Member j "_count_down" v
    · obtain ⟨c, hc⟩ := hc
      rw [(get_ok _ _ _).2 hc]
      change (int c >>= _) = _
      rw [count c (fun h' => h ⟨c, hc, h'⟩)]
      rfl
    · rw [get_error _ _ hc]; rfl

theorem ok_bind_cpp {α β : Type} (a : α) (f : α → CppResult β) : ((Except.ok a : CppResult α) >>= f) = f a := rfl

/-- A member that is a matrix is read. -/
theorem get_matrix {p : Json} {key : String} {rows : List (List ℝ)} {cols : Nat}
    (h : ∃ w, Member p key w ∧ IsMatrix w rows cols) :
    (get key p >>= matrix) = .ok ⟨rows, cols⟩ := by
  obtain ⟨w, hw, hm⟩ := h
  rw [(get_ok _ _ _).2 hw]
  exact (matrix_ok w ⟨rows, cols⟩).2 hm

/-- C90: a network whose arrays do not fit together makes an assertion fail: the weights must have one
column, all arrays as many rows, and the widths as many columns as the centers. -/
theorem C90_rbfn_assertions (j p : Json) (hp : Member j "_model_params" p)
    (centers widths weights : List (List ℝ)) (dc dw dv : Nat)
    (hc : ∃ w, Member p "centers" w ∧ IsMatrix w centers dc) (hw : ∃ w, Member p "widths" w ∧ IsMatrix w widths dw)
    (hv : ∃ w, Member p "weights" w ∧ IsMatrix w weights dv)
    (h : dv ≠ 1 ∨ centers.length ≠ widths.length ∨ centers.length ≠ weights.length ∨ dc ≠ dw) :
    Rbfn.fromJson j = .error .assertion := by
  have e : Rbfn.fromJson j = (do
      let jm ← get "_model_params" j
      let centers ← get "centers" jm >>= matrix
      let widths ← get "widths" jm >>= matrix
      let weights ← get "weights" jm >>= matrix
      let n := centers.rows.length
      if weights.cols ≠ 1 then throw .assertion
      if n ≠ widths.rows.length then throw .assertion
      if n ≠ weights.rows.length then throw .assertion
      if centers.cols ≠ widths.cols then throw .assertion
      return { d := centers.cols
               n := n
               centers := centers.entries n centers.cols
               widths := widths.entries n centers.cols
               weights := fun b => weights.entries n 1 b 0 }) := by
    unfold Rbfn.fromJson
    simp only [bind_assoc]
  rw [e, (get_ok _ _ _).2 hp]
  change (get "centers" p >>= matrix >>= _) = _
  rw [get_matrix hc]
  change (get "widths" p >>= matrix >>= _) = _
  rw [get_matrix hw]
  change (get "weights" p >>= matrix >>= _) = _
  rw [get_matrix hv]
  simp only [ok_bind_cpp]
  by_cases h1 : dv ≠ 1
  · rw [if_pos h1]; rfl
  rw [if_neg h1]
  by_cases h2 : centers.length ≠ widths.length
  · rw [if_pos h2]; rfl
  rw [if_neg h2]
  by_cases h3 : centers.length ≠ weights.length
  · rw [if_pos h3]; rfl
  rw [if_neg h3, if_pos (by tauto)]
  rfl

/-- C90: the same for locally weighted regression: the offsets must have one column, all arrays as many
rows, and the widths and slopes as many columns as the centers. -/
theorem C90_lwr_assertions (j p : Json) (hp : Member j "_model_params" p)
    (centers widths slopes offsets : List (List ℝ)) (dc dw ds dv : Nat)
    (hc : ∃ w, Member p "centers" w ∧ IsMatrix w centers dc) (hw : ∃ w, Member p "widths" w ∧ IsMatrix w widths dw)
    (hs : ∃ w, Member p "slopes" w ∧ IsMatrix w slopes ds) (hv : ∃ w, Member p "offsets" w ∧ IsMatrix w offsets dv)
    (h : dv ≠ 1 ∨ centers.length ≠ widths.length ∨ centers.length ≠ slopes.length ∨
      centers.length ≠ offsets.length ∨ dc ≠ dw ∨ dc ≠ ds) :
    Lwr.fromJson j = .error .assertion := by
  have e : Lwr.fromJson j = (do
      let jm ← get "_model_params" j
      let centers ← get "centers" jm >>= matrix
      let widths ← get "widths" jm >>= matrix
      let slopes ← get "slopes" jm >>= matrix
      let offsets ← get "offsets" jm >>= matrix
      let n := centers.rows.length
      if offsets.cols ≠ 1 then throw .assertion
      if n ≠ widths.rows.length then throw .assertion
      if centers.cols ≠ widths.cols then throw .assertion
      if n ≠ slopes.rows.length then throw .assertion
      if centers.cols ≠ slopes.cols then throw .assertion
      if n ≠ offsets.rows.length then throw .assertion
      return { d := centers.cols
               n := n
               centers := centers.entries n centers.cols
               widths := widths.entries n centers.cols
               slopes := slopes.entries n centers.cols
               offsets := fun b => offsets.entries n 1 b 0 }) := by
    unfold Lwr.fromJson
    simp only [bind_assoc]
  rw [e, (get_ok _ _ _).2 hp]
  change (get "centers" p >>= matrix >>= _) = _
  rw [get_matrix hc]
  change (get "widths" p >>= matrix >>= _) = _
  rw [get_matrix hw]
  change (get "slopes" p >>= matrix >>= _) = _
  rw [get_matrix hs]
  change (get "offsets" p >>= matrix >>= _) = _
  rw [get_matrix hv]
  simp only [ok_bind_cpp]
  by_cases h1 : dv ≠ 1
  · rw [if_pos h1]; rfl
  rw [if_neg h1]
  by_cases h2 : centers.length ≠ widths.length
  · rw [if_pos h2]; rfl
  rw [if_neg h2]
  by_cases h3 : dc ≠ dw
  · rw [if_pos h3]; rfl
  rw [if_neg h3]
  by_cases h4 : centers.length ≠ slopes.length
  · rw [if_pos h4]; rfl
  rw [if_neg h4]
  by_cases h5 : dc ≠ ds
  · rw [if_pos h5]; rfl
  rw [if_neg h5, if_pos (by tauto)]
  rfl

/-- The widths of this network have two columns, the centers one. -/
example : Rbfn.fromJson (.obj [("_model_params", .obj [("centers", .arr [.arr [.num 1]]),
    ("widths", .arr [.arr [.num 1, .num 2]]), ("weights", .arr [.arr [.num 3]])])]) = .error .assertion :=
  C90_rbfn_assertions _ _ ⟨[], [], rfl, by simp⟩ [[1]] [[1, 2]] [[3]] 1 2 1
    ⟨_, ⟨[], _, rfl, by simp⟩, isMatrix_rows [[1]] 1 (by simp) (by simp)⟩
    ⟨_, ⟨[_], _, rfl, by simp⟩, isMatrix_rows [[1, 2]] 2 (by simp) (by simp)⟩
    ⟨_, ⟨[_, _], _, rfl, by simp⟩, isMatrix_rows [[3]] 1 (by simp) (by simp)⟩ (by simp)

/-- The slopes of this model have two rows, the centers one. -/
example : Lwr.fromJson (.obj [("_model_params", .obj [("centers", .arr [.arr [.num 1]]),
    ("widths", .arr [.arr [.num 1]]), ("slopes", .arr [.arr [.num 3], .arr [.num 4]]),
    ("offsets", .arr [.arr [.num 5]])])]) = .error .assertion :=
  C90_lwr_assertions _ _ ⟨[], [], rfl, by simp⟩ [[1]] [[1]] [[3], [4]] [[5]] 1 1 1 1
    ⟨_, ⟨[], _, rfl, by simp⟩, isMatrix_rows [[1]] 1 (by simp) (by simp)⟩
    ⟨_, ⟨[_], _, rfl, by simp⟩, isMatrix_rows [[1]] 1 (by simp) (by simp)⟩
    ⟨_, ⟨[_, _], _, rfl, by simp⟩, isMatrix_rows [[3], [4]] 1 (by simp) (by simp)⟩
    ⟨_, ⟨[_, _, _], _, rfl, by simp⟩, isMatrix_rows [[5]] 1 (by simp) (by simp)⟩ (by simp)

/-- The member `_count_down` is a string. -/
example : TimeSystem.fromJson (.obj [("_tau", .num 1), ("_count_down", .str "yes")]) = .error .json :=
  (C90_time_errors _).2 (by
    rintro ⟨v, hm, hv⟩
    have := (get_ok _ _ _).2 hm
    have h2 : get "_count_down" (.obj [("_tau", .num 1), ("_count_down", .str "yes")]) = .ok (.str "yes") := by
      exact (get_ok _ _ _).2 ⟨[("_tau", .num 1)], [], rfl, by simp⟩
    rw [h2] at this
    cases this
    simp at hv)

end Cpp

end Verif
