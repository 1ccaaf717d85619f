import Verif.Proofs.CppJson
import Verif.Props.CppConstructors
import Verif.Props.CppDmp

/-
C90: which json the C++ classes accept and which objects they make of it, that this is what Python writes,
and which of the objects that C++ itself writes it can read again.
-/

noncomputable section

set_option autoImplicit false

namespace Verif

open Spec

namespace Cpp

open Cpp.Json

/-! ### Members -/

/-- C90: a member is found under its key; without such a member, or if the value is not an object, an
exception is thrown. -/
theorem C90_member (key : String) (j : Json) :
    (∀ v, Json.get key j = .ok v ↔ Member j key v) ∧
      ((¬ ∃ v, Member j key v) → Json.get key j = .error .json) :=
  ⟨get_ok key j, get_error key j⟩

example : Member (.obj [("a", .null), ("b", .num 1), ("b", .num 2)]) "b" (.num 1) :=
  ⟨[("a", .null)], [("b", .num 2)], rfl, by simp⟩

/-- C90: vectors are read from arrays of numbers, or of arrays with one number. Nothing else is a vector,
except that null, or an empty array or object, is the vector without entries. -/
theorem C90_vector (j : Json) (v : List ℝ) : vector j = .ok v ↔ IsVector j v := vector_ok j v

example : IsVector (.arr [.num 1, .arr [.num 2]]) [1, 2] :=
  Or.inr ⟨_, rfl, by simp, .cons (Or.inl rfl) (.cons (Or.inr rfl) .nil)⟩

/-- C90: matrices are read from arrays of rows with the same number of entries. -/
theorem C90_matrix (j : Json) (m : Matrix) : matrix j = .ok m ↔ IsMatrix j m.rows m.cols := matrix_ok j m

example : IsMatrix (.arr [.arr [.num 1, .num 2], .arr [.num 3, .num 4]]) [[1, 2], [3, 4]] 2 :=
  isMatrix_rows [[1, 2], [3, 4]] 2 (by simp) (by simp)

/-- C90: reading a vector throws if an entry is not a number; it is an assertion that fails if a row has
several entries. -/
theorem C90_vector_error (l : List Json) :
    (∀ x, (∀ y, x ≠ .num y) → (∀ m, x ≠ .arr m) → vector (.arr (x :: l)) = .error .json) ∧
      (∀ m : List Json, m.length ≠ 1 → vector (.arr (.arr m :: l)) = .error .assertion) ∧
      (∀ j, ¬ Nothing j → (∀ m, j ≠ .arr m) → vector j = .error .json) := by
  refine ⟨fun x h1 h2 => ?_, fun m hm => ?_, fun j h1 h2 => ?_⟩
  · have hs : rowSize x = 1 := by cases x <;> simp_all [rowSize]
    have he : readRow 1 x = .error .json := by
      have : readRow 1 x = (do
          let row ← fillRow 1 0 [x]
          if row.length < 1 then throw .nan
          return row) := by
        cases x <;> simp_all [readRow]
      rw [this]
      simp only [fillRow]
      rw [double_error x h1]
      rfl
    unfold vector
    simp only [size, List.length_cons, Nat.add_one_ne_zero, if_false]
    rw [elem_lt _ 0 (by simp)]
    simp only [List.getElem_cons_zero]
    change (if rowSize x ≠ 1 then _ else _) = _
    rw [if_neg (by simp [hs]), List.range_succ_eq_map, List.mapM_cons, elem_lt _ 0 (by simp)]
    simp only [List.getElem_cons_zero]
    change ((readRow 1 x >>= _) >>= _) = _
    rw [he]
    rfl
  · unfold vector
    simp only [size, List.length_cons, Nat.add_one_ne_zero, if_false]
    rw [elem_lt _ 0 (by simp)]
    simp only [List.getElem_cons_zero]
    change (if rowSize (.arr m) ≠ 1 then _ else _) = _
    rw [if_pos (by simpa [rowSize] using hm)]
    rfl
  · unfold vector
    rw [if_neg fun h => h1 ((size_zero j).1 h), elem_not_arr j 0 h2]
    rfl

/-! ### Systems -/

theorem startsWith_one {b : Base} {y : List ℝ} (h : StartsWith b 1 y) : b = ⟨b.tau, y.length, y.length, y⟩ := by
  obtain ⟨h1, h2, h3⟩ := h
  cases b
  simp_all

theorem startsWith_two {b : Base} {y : List ℝ} (h : StartsWith b 2 y) :
    b = ⟨b.tau, y.length * 2, y.length, y ++ vzeros y.length⟩ := by
  obtain ⟨h1, h2, h3⟩ := h
  cases b
  simp_all [vzeros]
  omega

theorem one_startsWith (tau : ℝ) (y : List ℝ) : StartsWith ⟨tau, y.length, y.length, y⟩ 1 y :=
  ⟨rfl, by simp, by simp⟩

theorem two_startsWith (tau : ℝ) (y : List ℝ) :
    StartsWith ⟨tau, y.length * 2, y.length, y ++ vzeros y.length⟩ 2 y :=
  ⟨rfl, by simp [Nat.mul_comm], by simp [vzeros]⟩

theorem int_pos (j : Json) : (∃ n, int j = .ok n ∧ 0 < n) ↔ j = .bool true ∨ ∃ x, j = .num x ∧ 1 ≤ x := by
  cases j with
  | num x =>
    simp only [int, Except.ok.injEq, exists_eq_left', reduceCtorEq, Json.num.injEq, false_or]
    split
    · rw [Int.floor_pos]
    · rename_i h
      constructor
      · intro hc
        rw [Int.lt_ceil] at hc
        simp at hc
        linarith
      · intro hc; linarith
  | bool b => cases b <;> simp [int]
  | _ => simp [int]

theorem int_nonpos (j : Json) : (∃ n, int j = .ok n ∧ ¬ 0 < n) ↔ j = .bool false ∨ ∃ x, j = .num x ∧ x < 1 := by
  cases j with
  | num x =>
    simp only [int, Except.ok.injEq, exists_eq_left', reduceCtorEq, Json.num.injEq, false_or]
    split
    · rw [Int.floor_pos, not_le]
    · rename_i h
      constructor
      · intro hc; linarith
      · intro hc
        rw [Int.lt_ceil]
        simp
        linarith
  | bool b => cases b <;> simp [int]
  | _ => simp [int]

theorem time_make (tau : ℝ) (c : Bool) :
    TimeSystem.make tau c = .ok ⟨⟨tau, 1, 1, [if c then 1 else 0]⟩, c⟩ := by
  unfold TimeSystem.make
  rw [ofOrder_one]
  rfl

/-- C90: a time system is read from the members `_tau` and `_count_down`. -/
theorem C90_time (j : Json) (s : TimeSystem) : TimeSystem.fromJson j = .ok s ↔ DescribesTime j s := by
  unfold TimeSystem.fromJson
  simp only [inv, get_ok, double_ok, time_make]
  constructor
  · rintro ⟨v, hv, tau, rfl, w, hw, n, hn, e⟩
    cases e
    refine ⟨hv, fun h => ⟨w, hw, (int_pos w).1 ⟨n, hn, by simpa using h⟩⟩,
      fun h => ⟨w, hw, (int_nonpos w).1 ⟨n, hn, by simpa using h⟩⟩, one_startsWith tau [_]⟩
  · rintro ⟨ht, hd, hu, hs⟩
    have hb := startsWith_one hs
    cases hc : s.countDown with
    | true =>
      obtain ⟨w, hw, hi⟩ := hd hc
      obtain ⟨n, hn, hp⟩ := (int_pos w).2 hi
      refine ⟨_, ht, _, rfl, w, hw, n, hn, ?_⟩
      rw [hc] at hb
      cases s
      simp only at hb hc ⊢
      subst hc
      rw [hb]
      simp [hp]
    | false =>
      obtain ⟨w, hw, hi⟩ := hu hc
      obtain ⟨n, hn, hp⟩ := (int_nonpos w).2 hi
      refine ⟨_, ht, _, rfl, w, hw, n, hn, ?_⟩
      rw [hc] at hb
      cases s
      simp only at hb hc ⊢
      subst hc
      rw [hb]
      simp [hp]

example : DescribesTime (.obj [("_tau", .num 2), ("_count_down", .bool true)]) ⟨⟨2, 1, 1, [1]⟩, true⟩ :=
  ⟨⟨[], _, rfl, by simp⟩, fun _ => ⟨_, ⟨[_], _, rfl, by simp⟩, .inl rfl⟩, (fun h => nomatch h),
    ⟨rfl, rfl, by simp⟩⟩

/-- C90: an exponential system is read from the members `_tau`, `alpha`, `_x_init` and `_x_attr`. -/
theorem C90_exponential (j : Json) (s : Exponential) :
    Exponential.fromJson j = .ok s ↔ DescribesExponential j s := by
  unfold Exponential.fromJson
  simp only [inv, get_ok, double_ok, vector_ok, Dmp.expo_make]
  constructor
  · rintro ⟨_, ht, tau, rfl, _, ha, alpha, rfl, v, hv, x, hx, w, hw, a, ha', e⟩
    cases e
    exact ⟨ht, ha, ⟨v, hv, hx⟩, ⟨w, hw, ha'⟩, one_startsWith tau x⟩
  · rintro ⟨ht, ha, ⟨v, hv, hx⟩, ⟨w, hw, ha'⟩, hs⟩
    refine ⟨_, ht, _, rfl, _, ha, _, rfl, v, hv, _, hx, w, hw, _, ha', ?_⟩
    rw [← startsWith_one hs]

example : DescribesExponential
    (.obj [("_tau", .num 1), ("_x_init", .arr [.num 2]), ("_x_attr", .arr [.num 3]), ("alpha", .num 4)])
    ⟨⟨1, 1, 1, [2]⟩, [3], 4⟩ :=
  ⟨⟨[], _, rfl, by simp⟩, ⟨[_, _, _], _, rfl, by simp⟩, ⟨_, ⟨[_], _, rfl, by simp⟩, isVector_ofList [2]⟩,
    ⟨_, ⟨[_, _], _, rfl, by simp⟩, isVector_ofList [3]⟩, ⟨rfl, rfl, rfl⟩⟩

/-- C90: a sigmoid system is read from the members `_tau`, `_max_rate`, `_inflection_ratio` and
`_x_init`. -/
theorem C90_sigmoid (j : Json) (s : Sigmoid) : Sigmoid.fromJson j = .ok s ↔ DescribesSigmoid j s := by
  have hm (tau : ℝ) (x : List ℝ) (r i : ℝ) : Sigmoid.make tau x r i =
      .ok ⟨⟨tau, x.length, x.length, x⟩, r, i, x.map fun x => x * (1 + Real.exp (r * (i * tau)))⟩ := by
    unfold Sigmoid.make
    rw [ofOrder_one]
    unfold Sigmoid.computeKs
    simp only [neg_mul, one_div, Real.exp_neg, inv_inv]
    rfl
  unfold Sigmoid.fromJson
  simp only [inv, get_ok, double_ok, vector_ok, hm]
  constructor
  · rintro ⟨_, ht, tau, rfl, _, ha, r, rfl, _, hi, i, rfl, v, hv, x, hx, e⟩
    cases e
    exact ⟨ht, ha, hi, ⟨v, hv, hx⟩, one_startsWith tau x, rfl⟩
  · rintro ⟨ht, ha, hi, ⟨v, hv, hx⟩, hs, hk⟩
    refine ⟨_, ht, _, rfl, _, ha, _, rfl, _, hi, _, rfl, v, hv, _, hx, ?_⟩
    rw [← startsWith_one hs, ← hk]

/-- C90: a spring-damper system is read from the members `_tau`, `damping_coefficient`, `spring_constant`,
`mass`, `_y_attr` and `_x_init`, of which as many entries are used as the attractor has. -/
theorem C90_spring (j : Json) (s : Spring) : Spring.fromJson j = .ok s ↔ DescribesSpring j s := by
  have hm (tau : ℝ) (x a : List ℝ) (d k m : ℝ) : Spring.make tau x a d k m =
      .ok ⟨⟨tau, x.length * 2, x.length, x ++ vzeros x.length⟩, a, d, if k = -1 then d ^ 2 / 4 else k, m⟩ := by
    unfold Spring.make
    rw [ofOrder_two]
    simp only [Spring.CRITICALLY_DAMPED, pow_two]
    rfl
  unfold Spring.fromJson
  simp only [inv, get_ok, double_ok, vector_ok]
  constructor
  · rintro ⟨_, ht, tau, rfl, _, hd, d, rfl, _, hk, k, rfl, _, hmm, m, rfl, v, hv, a, ha, w, hw, x, hx, e⟩
    split at e
    · cases e
    · rename_i hl
      try simp only [pure_bind] at e
      rw [hm] at e
      cases e
      refine ⟨ht, hd, ⟨k, hk, rfl⟩, hmm, ⟨v, hv, ha⟩, x.take a.length, x.drop a.length, ⟨w, hw, ?_⟩, ?_,
        two_startsWith tau _⟩
      · rw [List.take_append_drop]; exact hx
      · simp; omega
  · rintro ⟨ht, hd, ⟨k, hk, hks⟩, hmm, ⟨v, hv, ha⟩, y, rest, ⟨w, hw, hx⟩, hl, hs⟩
    refine ⟨_, ht, _, rfl, _, hd, _, rfl, _, hk, _, rfl, _, hmm, _, rfl, v, hv, _, ha, w, hw, _, hx, ?_⟩
    rw [if_neg (by simp [hl])]
    try simp only [pure_bind]
    rw [← hl, List.take_left, hm, ← startsWith_two hs, ← hks]

/-- C90: which class of system is read is given by the member `class`; an unknown class gives NULL. -/
theorem C90_system (j : Json) (s : Option AnySystem) : AnySystem.fromJson j = .ok s ↔ DescribesSystem j s := by
  have key : AnySystem.fromJson j = .ok s ↔ ∃ c, Member j "class" (.str c) ∧
      (if c = "ExponentialSystem" then ∃ e, Exponential.fromJson j = .ok e ∧ s = some (.exponential e)
      else if c = "SigmoidSystem" then ∃ e, Sigmoid.fromJson j = .ok e ∧ s = some (.sigmoid e)
      else if c = "SpringDamperSystem" then ∃ e, Spring.fromJson j = .ok e ∧ s = some (.spring e)
      else if c = "TimeSystem" then ∃ e, TimeSystem.fromJson j = .ok e ∧ s = some (.time e)
      else s = none) := by
    unfold AnySystem.fromJson
    simp only [inv, get_ok, string_ok]
    constructor
    · rintro ⟨_, hc, c, rfl, e⟩
      refine ⟨c, hc, ?_⟩
      split_ifs at e ⊢
      all_goals first
        | (obtain ⟨x, hx, e⟩ := inv.1 e; cases e; exact ⟨x, hx, rfl⟩)
        | (cases e; rfl)
    · rintro ⟨c, hc, e⟩
      refine ⟨_, hc, c, rfl, ?_⟩
      split_ifs at e ⊢
      all_goals first
        | (obtain ⟨x, hx, rfl⟩ := e; exact inv.2 ⟨x, hx, rfl⟩)
        | (subst e; rfl)
  have uniq (c c' : String) (h : Member j "class" (.str c)) (h' : Member j "class" (.str c')) : c = c' := by
    have := ((get_ok _ _ _).2 h).symm.trans ((get_ok _ _ _).2 h')
    simpa using this
  rw [key]
  constructor
  · rintro ⟨c, hc, e⟩
    split_ifs at e with h1 h2 h3 h4
    · obtain ⟨x, hx, rfl⟩ := e; subst h1; exact ⟨hc, (C90_exponential j x).1 hx⟩
    · obtain ⟨x, hx, rfl⟩ := e; subst h2; exact ⟨hc, (C90_sigmoid j x).1 hx⟩
    · obtain ⟨x, hx, rfl⟩ := e; subst h3; exact ⟨hc, (C90_spring j x).1 hx⟩
    · obtain ⟨x, hx, rfl⟩ := e; subst h4; exact ⟨hc, (C90_time j x).1 hx⟩
    · subst e; exact ⟨c, hc, by simp [h1, h2, h3, h4]⟩
  · intro h
    match s, h with
    | some (.time s), ⟨hc, h⟩ => exact ⟨_, hc, by simpa using (C90_time j s).2 h⟩
    | some (.exponential s), ⟨hc, h⟩ => exact ⟨_, hc, by simpa using (C90_exponential j s).2 h⟩
    | some (.sigmoid s), ⟨hc, h⟩ => exact ⟨_, hc, by simpa using (C90_sigmoid j s).2 h⟩
    | some (.spring s), ⟨hc, h⟩ => exact ⟨_, hc, by simpa using (C90_spring j s).2 h⟩
    | none, ⟨c, hc, h⟩ => exact ⟨c, hc, by simp at h; simp [h]⟩

/-! ### Function approximators -/

theorem length_rowsOf {n d : Nat} (a : Fin n → Fin d → ℝ) : (rowsOf a).length = n := by simp [rowsOf]

theorem rows_entries (m : Matrix) (n d : Nat) (hn : n = m.rows.length) (hd : ∀ r ∈ m.rows, r.length = d) :
    rowsOf (m.entries n d) = m.rows := by
  subst hn
  apply List.ext_getElem
  · simp [rowsOf]
  · intro i h1 h2
    simp only [rowsOf, List.getElem_ofFn]
    apply List.ext_getElem
    · simp [hd _ (List.getElem_mem h2)]
    · intro k h3 h4
      rw [List.getElem_ofFn]
      simp [Matrix.entries, h2, h4]

/-- A matrix with rows has the number of columns that its rows have. -/
theorem isMatrix_cols {j : Json} {rows : List (List ℝ)} {cols : Nat} (h : IsMatrix j rows cols) :
    (∀ r ∈ rows, r.length = cols) ∧ (rows = [] → cols = 0) := by
  rcases h with ⟨_, rfl, rfl⟩ | ⟨l, _, hl, hf, hc⟩
  · simp
  · refine ⟨hc, fun e => ?_⟩
    subst e
    cases hf
    exact absurd rfl hl

theorem isMatrix_entries {j : Json} {m : Matrix} (h : IsMatrix j m.rows m.cols) {n d : Nat}
    (hn : n = m.rows.length) (hd : d = m.cols) :
    IsMatrix j (List.ofFn fun i => List.ofFn (m.entries n d i)) d := by
  have := rows_entries m n d hn (by rw [hd]; exact (isMatrix_cols h).1)
  unfold rowsOf at this
  rw [this, hd]
  exact h

theorem isMatrix_column {j : Json} {m : Matrix} (h : IsMatrix j m.rows m.cols) {n : Nat}
    (hn : n = m.rows.length) (hd : m.cols = 1) :
    IsMatrix j (List.ofFn fun i => List.ofFn fun _ : Fin 1 => m.entries n 1 i 0) 1 := by
  have := isMatrix_entries h hn hd.symm
  have e : (fun (i : Fin n) (_ : Fin 1) => m.entries n 1 i 0) = m.entries n 1 := by
    funext i k; rw [Subsingleton.elim k 0]
  have e' (i : Fin n) : (fun _ : Fin 1 => m.entries n 1 i 0) = m.entries n 1 i := congrFun e i
  simp only [e']
  exact this

/-- A matrix with one column and no rows does not exist in json. -/
theorem isMatrix_pos {j : Json} {m : Matrix} (h : IsMatrix j m.rows m.cols) (hd : m.cols = 1) :
    0 < m.rows.length := by
  rcases Nat.eq_zero_or_pos m.rows.length with h0 | h0
  · have := (isMatrix_cols h).2 (List.eq_nil_of_length_eq_zero h0)
    omega
  · exact h0

theorem rbfn_eq (m : Rbfn) (n : Nat) (h : n = m.n) :
    ({ d := m.d
       n := n
       centers := (Matrix.mk (rowsOf m.centers) m.d).entries n m.d
       widths := (Matrix.mk (rowsOf m.widths) m.d).entries n m.d
       weights := fun b => (Matrix.mk (rowsOf fun i (_ : Fin 1) => m.weights i) 1).entries n 1 b 0 } : Rbfn) = m := by
  subst h
  simp only [entries_rowsOf]

theorem lwr_eq (m : Lwr) (n : Nat) (h : n = m.n) :
    ({ d := m.d
       n := n
       centers := (Matrix.mk (rowsOf m.centers) m.d).entries n m.d
       widths := (Matrix.mk (rowsOf m.widths) m.d).entries n m.d
       slopes := (Matrix.mk (rowsOf m.slopes) m.d).entries n m.d
       offsets := fun b => (Matrix.mk (rowsOf fun i (_ : Fin 1) => m.offsets i) 1).entries n 1 b 0 } : Lwr) = m := by
  subst h
  simp only [entries_rowsOf]

/-- C90: a radial basis function network is read from the member `_model_params`, which has the members
`centers`, `widths` and `weights` with as many rows. There is at least one basis function. -/
theorem C90_rbfn (j : Json) (m : Rbfn) : Rbfn.fromJson j = .ok m ↔ DescribesRbfn j m := by
  unfold Rbfn.fromJson DescribesRbfn HasArray
  simp only [inv, get_ok, matrix_ok]
  constructor
  · rintro ⟨p, hp, cj, hc, c, hcm, wj, hw, w, hwm, vj, hv, v, hvm, e⟩
    by_cases h1 : v.cols = 1
    swap
    · rw [if_pos h1] at e; cases e
    rw [if_neg (by simp [h1])] at e
    by_cases h2 : c.rows.length = w.rows.length
    swap
    · rw [if_pos h2] at e; cases e
    rw [if_neg (by simp [h2])] at e
    by_cases h3 : c.rows.length = v.rows.length
    swap
    · rw [if_pos h3] at e; cases e
    rw [if_neg (by simp [h3])] at e
    by_cases h4 : c.cols = w.cols
    swap
    · rw [if_pos h4] at e; cases e
    rw [if_neg (by simp [h4])] at e
    cases e
    exact ⟨p, hp, by have := isMatrix_pos hvm h1; change 0 < c.rows.length; omega,
      ⟨cj, hc, isMatrix_entries hcm rfl rfl⟩, ⟨wj, hw, isMatrix_entries hwm h2 h4⟩,
      ⟨vj, hv, isMatrix_column hvm h3 h1⟩⟩
  · rintro ⟨p, hp, hn, ⟨cj, hc, hcm⟩, ⟨wj, hw, hwm⟩, ⟨vj, hv, hvm⟩⟩
    refine ⟨p, hp, cj, hc, ⟨rowsOf m.centers, m.d⟩, hcm, wj, hw, ⟨rowsOf m.widths, m.d⟩, hwm, vj, hv,
      ⟨rowsOf fun i (_ : Fin 1) => m.weights i, 1⟩, hvm, ?_⟩
    rw [if_neg (by simp), if_neg (by simp [length_rowsOf]), if_neg (by simp [length_rowsOf]), if_neg (by simp)]
    exact congrArg Except.ok (rbfn_eq m _ (length_rowsOf _))

/-- C90: a locally weighted regression is read from the member `_model_params`, which has the members
`centers`, `widths`, `slopes` and `offsets` with as many rows. There is at least one line. -/
theorem C90_lwr (j : Json) (m : Lwr) : Lwr.fromJson j = .ok m ↔ DescribesLwr j m := by
  unfold Lwr.fromJson DescribesLwr HasArray
  simp only [inv, get_ok, matrix_ok]
  constructor
  · rintro ⟨p, hp, cj, hc, c, hcm, wj, hw, w, hwm, sj, hs, s, hsm, vj, hv, v, hvm, e⟩
    by_cases h1 : v.cols = 1
    swap
    · rw [if_pos h1] at e; cases e
    rw [if_neg (by simp [h1])] at e
    by_cases h2 : c.rows.length = w.rows.length
    swap
    · rw [if_pos h2] at e; cases e
    rw [if_neg (by simp [h2])] at e
    by_cases h4 : c.cols = w.cols
    swap
    · rw [if_pos h4] at e; cases e
    rw [if_neg (by simp [h4])] at e
    by_cases h5 : c.rows.length = s.rows.length
    swap
    · rw [if_pos h5] at e; cases e
    rw [if_neg (by simp [h5])] at e
    by_cases h6 : c.cols = s.cols
    swap
    · rw [if_pos h6] at e; cases e
    rw [if_neg (by simp [h6])] at e
    by_cases h3 : c.rows.length = v.rows.length
    swap
    · rw [if_pos h3] at e; cases e
    rw [if_neg (by simp [h3])] at e
    cases e
    exact ⟨p, hp, by have := isMatrix_pos hvm h1; change 0 < c.rows.length; omega,
      ⟨cj, hc, isMatrix_entries hcm rfl rfl⟩, ⟨wj, hw, isMatrix_entries hwm h2 h4⟩,
      ⟨sj, hs, isMatrix_entries hsm h5 h6⟩, ⟨vj, hv, isMatrix_column hvm h3 h1⟩⟩
  · rintro ⟨p, hp, hn, ⟨cj, hc, hcm⟩, ⟨wj, hw, hwm⟩, ⟨sj, hs, hsm⟩, ⟨vj, hv, hvm⟩⟩
    refine ⟨p, hp, cj, hc, ⟨rowsOf m.centers, m.d⟩, hcm, wj, hw, ⟨rowsOf m.widths, m.d⟩, hwm, sj, hs,
      ⟨rowsOf m.slopes, m.d⟩, hsm, vj, hv, ⟨rowsOf fun i (_ : Fin 1) => m.offsets i, 1⟩, hvm, ?_⟩
    rw [if_neg (by simp), if_neg (by simp [length_rowsOf]), if_neg (by simp), if_neg (by simp [length_rowsOf]),
      if_neg (by simp), if_neg (by simp [length_rowsOf])]
    exact congrArg Except.ok (lwr_eq m _ (length_rowsOf _))

/-- C90: which class of function approximator is read is given by the member `class`; an unknown class
gives NULL. -/
theorem C90_fa (j : Json) (fa : Option AnyFa) : AnyFa.fromJson j = .ok fa ↔ DescribesFa j fa := by
  unfold AnyFa.fromJson
  simp only [inv, get_ok, string_ok]
  constructor
  · rintro ⟨_, hc, c, rfl, e⟩
    split_ifs at e with h1 h2
    · obtain ⟨x, hx, e⟩ := inv.1 e; cases e; subst h1; exact ⟨hc, (C90_rbfn j x).1 hx⟩
    · obtain ⟨x, hx, e⟩ := inv.1 e; cases e; subst h2; exact ⟨hc, (C90_lwr j x).1 hx⟩
    · cases e; exact ⟨c, hc, h1, h2⟩
  · intro h
    match fa, h with
    | some (.rbfn m), ⟨hc, h⟩ =>
      exact ⟨_, hc, _, rfl, by rw [if_pos rfl]; exact inv.2 ⟨m, (C90_rbfn j m).2 h, rfl⟩⟩
    | some (.lwr m), ⟨hc, h⟩ =>
      exact ⟨_, hc, _, rfl, by
        rw [if_neg (by simp), if_pos rfl]; exact inv.2 ⟨m, (C90_lwr j m).2 h, rfl⟩⟩
    | none, ⟨c, hc, h1, h2⟩ => exact ⟨_, hc, c, rfl, by rw [if_neg h1, if_neg h2]; rfl⟩

/-! ### What Python writes -/

theorem readDouble_ofPar (p : Par ℝ) : double (Json.ofPar p) = readDouble p := by cases p <;> rfl

theorem ok_bind {α β : Type} (a : α) (f : α → CppResult β) : ((Except.ok a : CppResult α) >>= f) = f a := rfl

theorem double_num (x : ℝ) : double (.num x) = .ok x := rfl

theorem error_bind {α β : Type} (e : CppErr) (f : α → CppResult β) :
    ((Except.error e : CppResult α) >>= f) = .error e := rfl

/-- C90: what Python writes for a time system. -/
theorem C90_python_time (s : Verif.TimeSystem) : TimeSystem.fromJson s.json = readTime s := by
  unfold TimeSystem.fromJson Verif.TimeSystem.json Json.ofObject Verif.Base.attributes readTime
  simp [Json.get, List.lookup, double, int, ok_bind]
  cases s.countDown <;> simp

/-- C90: what Python writes for an exponential system. -/
theorem C90_python_exponential (s : Verif.Exponential) : Exponential.fromJson s.json = readExponential s := by
  unfold Exponential.fromJson Verif.Exponential.json Json.ofObject Verif.Base.attributes readExponential
  simp [Json.get, List.lookup, double_num, ok_bind, readDouble_ofPar, vector_ofList]

/-- C90: what Python writes for a sigmoid system. -/
theorem C90_python_sigmoid (s : Verif.Sigmoid) : Sigmoid.fromJson s.json = readSigmoid s := by
  unfold Sigmoid.fromJson Verif.Sigmoid.json Json.ofObject Verif.Base.attributes readSigmoid
  simp [Json.get, List.lookup, double_num, ok_bind, readDouble_ofPar, vector_ofList]

/-- C90: what Python writes for a spring-damper system. -/
theorem C90_python_spring (s : SpringDamper) : Spring.fromJson s.json = readSpring s := by
  unfold Spring.fromJson SpringDamper.json Json.ofObject Verif.Base.attributes readSpring
  simp [Json.get, List.lookup, double_num, ok_bind, readDouble_ofPar, vector_ofList]

/-- C90: what Python writes for a phase or gating system. -/
theorem C90_python_system (s : Sub) : AnySystem.fromJson s.json = readSystem s := by
  have cls (c : String) (l : List (String × Json)) : Json.get "class" (Json.ofObject c l) = .ok (.str c) := by
    simp [Json.get, Json.ofObject, List.lookup]
  unfold AnySystem.fromJson
  cases s with
  | time s =>
    simp only [Sub.json, readSystem, ← C90_python_time]
    rw [Verif.TimeSystem.json, cls]
    simp [ok_bind, string]
  | exponential s =>
    simp only [Sub.json, readSystem, ← C90_python_exponential]
    rw [Verif.Exponential.json, cls]
    simp [ok_bind, string]
  | sigmoid s =>
    simp only [Sub.json, readSystem, ← C90_python_sigmoid]
    rw [Verif.Sigmoid.json, cls]
    simp [ok_bind, string]
  | richards s =>
    simp only [Sub.json, readSystem]
    rw [Richards.json, cls]
    simp [ok_bind, string]

theorem matrix_null : matrix .null = .ok ⟨[], 0⟩ := rfl

theorem matrix_ofRows_any {n d : Nat} (a : Fin n → Fin d → ℝ) :
    matrix (Json.ofRows a) = .ok ⟨rowsOf a, if n = 0 then 0 else d⟩ := by
  by_cases h : n = 0
  · subst h
    rw [matrix_ofRows_zero]
    simp [rowsOf]
  · rw [matrix_ofRows a (by omega), if_neg h]

theorem hasArray_ofRows {j : Json} {key : String} {n d : Nat} {a : Fin n → Fin d → ℝ}
    (h : Json.get key j = .ok (Json.ofRows a)) (hn : 0 < n) : HasArray j key a :=
  ⟨_, (get_ok _ _ _).1 h, (matrix_ok _ ⟨_, _⟩).1 (matrix_ofRows a hn)⟩

theorem rbfn_python {d : Nat} (m : RbfnModel d) (j : Json)
    (hj : Json.get "_model_params" j = .ok (FaModel.rbfn m).json) : Rbfn.fromJson j = readRbfn m := by
  have g1 : Json.get "centers" (FaModel.rbfn m).json = .ok (Json.ofRows m.kernels.centers) := by
    simp [FaModel.json, Json.get, List.lookup]
  have g2 : Json.get "widths" (FaModel.rbfn m).json = .ok (Json.ofRows m.kernels.widths) := by
    simp [FaModel.json, Json.get, List.lookup]
  have g3 : Json.get "weights" (FaModel.rbfn m).json = .ok (Json.ofRows m.weights) := by
    simp [FaModel.json, Json.get, List.lookup]
  by_cases h : m.kernels.n ≠ 0 ∧ m.rows = m.kernels.n ∧ m.cols = 1
  · unfold readRbfn
    rw [if_neg (by omega), dif_pos h.2, C90_rbfn]
    refine ⟨_, (get_ok _ _ _).1 hj, Nat.pos_of_ne_zero h.1, hasArray_ofRows g1 (Nat.pos_of_ne_zero h.1),
      hasArray_ofRows g2 (Nat.pos_of_ne_zero h.1), ?_⟩
    have hw := hasArray_ofRows g3 (by omega)
    generalize (FaModel.rbfn m).json = q at hw
    clear hj g1 g2 g3
    obtain ⟨⟨n, c, w⟩, rows, cols, v⟩ := m
    obtain ⟨h0, h1, h2⟩ := h
    simp only at h0 h1 h2 hw ⊢
    subst h1 h2
    have : (fun (i : Fin rows) (_ : Fin 1) => v (Fin.cast rfl i) (Fin.cast rfl 0)) = v := by
      funext i k; rw [Subsingleton.elim k 0]; rfl
    exact this ▸ hw
  · unfold Rbfn.fromJson readRbfn
    rw [hj, ok_bind, g1, ok_bind, matrix_ofRows_any, ok_bind, g2, ok_bind, matrix_ofRows_any, ok_bind, g3, ok_bind,
      matrix_ofRows_any, ok_bind]
    have e : (if m.kernels.n = 0 ∨ m.rows = 0 then (.error .assertion : CppResult Rbfn)
        else if h : m.rows = m.kernels.n ∧ m.cols = 1 then
          .ok { d := d
                n := m.kernels.n
                centers := m.kernels.centers
                widths := m.kernels.widths
                weights := fun b => m.weights (Fin.cast h.1.symm b) (Fin.cast h.2.symm 0) }
        else .error .assertion) = .error .assertion := by
      split_ifs with a b
      · rfl
      · exact absurd ⟨by omega, b⟩ h
      · rfl
    rw [e]
    simp only [length_rowsOf]
    by_cases h1 : (if m.rows = 0 then 0 else m.cols) ≠ 1
    · rw [if_pos h1]; rfl
    · rw [if_neg h1, if_neg (by simp)]
      rw [if_pos (by split_ifs at h1 <;> omega)]
      rfl

theorem lwr_python {d : Nat} (m : LwrModel d) (j : Json)
    (hj : Json.get "_model_params" j = .ok (FaModel.lwr m).json) : Lwr.fromJson j = readLwr m := by
  have g1 : Json.get "centers" (FaModel.lwr m).json = .ok (Json.ofRows m.kernels.centers) := by
    simp [FaModel.json, Json.get, List.lookup]
  have g2 : Json.get "widths" (FaModel.lwr m).json = .ok (Json.ofRows m.kernels.widths) := by
    simp [FaModel.json, Json.get, List.lookup]
  have g3 : Json.get "slopes" (FaModel.lwr m).json = .ok (Json.ofRows m.slopes) := by
    simp [FaModel.json, Json.get, List.lookup]
  have g4 : Json.get "offsets" (FaModel.lwr m).json = .ok (Json.ofRows fun i (_ : Fin 1) => m.offsets i) := by
    simp [FaModel.json, Json.get, List.lookup]
  by_cases h : m.kernels.n ≠ 0 ∧ m.lines = m.kernels.n
  · unfold readLwr
    rw [if_neg (by omega), dif_pos h.2, C90_lwr]
    have hs := hasArray_ofRows g3 (by omega)
    have ho := hasArray_ofRows g4 (by omega)
    refine ⟨_, (get_ok _ _ _).1 hj, Nat.pos_of_ne_zero h.1, hasArray_ofRows g1 (Nat.pos_of_ne_zero h.1),
      hasArray_ofRows g2 (Nat.pos_of_ne_zero h.1), ?_⟩
    generalize (FaModel.lwr m).json = q at hs ho
    clear hj g1 g2 g3 g4
    obtain ⟨⟨n, c, w⟩, lines, sl, v⟩ := m
    obtain ⟨h0, h1⟩ := h
    simp only at h0 h1 hs ho ⊢
    subst h1
    exact ⟨hs, ho⟩
  · unfold Lwr.fromJson readLwr
    rw [hj, ok_bind, g1, ok_bind, matrix_ofRows_any, ok_bind, g2, ok_bind, matrix_ofRows_any, ok_bind, g3, ok_bind,
      matrix_ofRows_any, ok_bind, g4, ok_bind, matrix_ofRows_any, ok_bind]
    have e : (if m.kernels.n = 0 ∨ m.lines = 0 then (.error .assertion : CppResult Lwr)
        else if h : m.lines = m.kernels.n then
          .ok { d := d
                n := m.kernels.n
                centers := m.kernels.centers
                widths := m.kernels.widths
                slopes := fun b => m.slopes (Fin.cast h.symm b)
                offsets := fun b => m.offsets (Fin.cast h.symm b) }
        else .error .assertion) = .error .assertion := by
      split_ifs with a b
      · rfl
      · exact absurd ⟨by omega, b⟩ h
      · rfl
    rw [e]
    simp only [length_rowsOf]
    by_cases h1 : (if m.lines = 0 then 0 else 1) ≠ 1
    · rw [if_pos h1]; rfl
    · rw [if_neg h1, if_neg (by simp), if_neg (by simp), if_pos (by split_ifs at h1 <;> omega)]
      rfl

/-- C90: what Python writes for a function approximator. The classes that C++ does not have are read as
NULL. -/
theorem C90_python_fa (fa : Fa) (h : OwnModel fa) : AnyFa.fromJson fa.json = readFa fa := by
  obtain ⟨params, model, sel⟩ := fa
  unfold AnyFa.fromJson
  have cls : Json.get "class" (Fa.json ⟨params, model, sel⟩) = .ok (.str params.className) := by
    simp [Json.get, Fa.json, Json.ofObject, List.lookup]
  rw [cls]
  simp only [ok_bind, string]
  cases model with
  | none =>
    cases params with
    | rbfn n hh r =>
      simp [Json.get, List.lookup, ok_bind, FaMeta.className, readFa, Rbfn.fromJson, FaMeta.paramNames,
        matrix_null, Fa.json, Json.ofObject]
      rfl
    | lwr n hh r =>
      simp [Json.get, List.lookup, ok_bind, FaMeta.className, readFa, Lwr.fromJson, FaMeta.paramNames,
        matrix_null, Fa.json, Json.ofObject]
      rfl
    | wls o r => simp [FaMeta.className, readFa]
    | gpr c l => simp [FaMeta.className, readFa]
  | some m =>
    obtain ⟨d, m⟩ := m
    cases params <;> cases m <;> try (exact absurd h id)
    · rename_i m
      simp only [FaMeta.className, if_true, readFa]
      rw [rbfn_python m]
      simp [Json.get, Fa.json, Json.ofObject, List.lookup]
    · rename_i m
      simp only [FaMeta.className, if_true, readFa]
      rw [if_neg (by decide), lwr_python m]
      simp [Json.get, Fa.json, Json.ofObject, List.lookup]
    · simp [FaMeta.className, readFa]
    · simp [FaMeta.className, readFa]

theorem scalingOf_name (s : ForcingScaling) : Dmp.scalingOf s.name = s := by cases s <;> rfl

theorem vector_amplitudes (a : Option (List ℝ)) : vector (Json.ofOption Json.ofList a) = .ok (a.getD []) := by
  cases a with
  | none => rfl
  | some l => exact vector_ofList l

theorem goal_python (g : Option Sub) : Exponential.fromJson (Json.ofOption Sub.json g) = Dmp.readGoal g := by
  cases g with
  | none => rfl
  | some g =>
    cases g with
    | exponential s => exact C90_python_exponential s
    | time s =>
      simp [Exponential.fromJson, Json.ofOption, Sub.json, Verif.TimeSystem.json, Json.ofObject,
        Verif.Base.attributes, Json.get, List.lookup, ok_bind, double_num, Dmp.readGoal, error_bind]
    | sigmoid s =>
      simp [Exponential.fromJson, Json.ofOption, Sub.json, Verif.Sigmoid.json, Json.ofObject,
        Verif.Base.attributes, Json.get, List.lookup, ok_bind, double_num, Dmp.readGoal, error_bind]
    | richards s =>
      simp [Exponential.fromJson, Json.ofOption, Sub.json, Richards.json, Json.ofObject,
        Verif.Base.attributes, Json.get, List.lookup, ok_bind, double_num, Dmp.readGoal, error_bind,
        vector_ofList, readDouble_ofPar]
      cases s.alpha <;> rfl

theorem fas_python (n : Nat) (fas : Option (List Fa)) (h : ∀ l, fas = some l → ∀ fa ∈ l, OwnModel fa) :
    Dmp.fasFromJson n (Json.ofOption (fun l => .arr (l.map Fa.json)) fas) = Dmp.readFas n fas := by
  cases fas with
  | none => rfl
  | some l =>
    simp only [Json.ofOption, Dmp.fasFromJson, Dmp.readFas]
    apply mapM_same
    intro i _
    simp only [elem, List.getElem?_map]
    cases hi : l[i]? with
    | none => rfl
    | some fa => exact C90_python_fa fa (h l rfl fa (List.mem_of_getElem? hi))

/-- C90: what Python writes for a Dmp. -/
theorem C90_python_dmp (s : Verif.Dmp) (h : ∀ l, s.fas = some l → ∀ fa ∈ l, OwnModel fa) :
    Dmp.fromJson s.json = Dmp.read s := by
  have hspring : Json.get "damping_coefficient" s.spring.json = .ok (Json.ofPar s.spring.damping) := by
    simp [Json.get, SpringDamper.json, Json.ofObject, Verif.Base.attributes, List.lookup]
  unfold Dmp.fromJson Verif.Dmp.json Json.ofObject Verif.Base.attributes Dmp.read
  cases hy : s.yInit? with
  | none =>
    simp [Json.get, List.lookup, ok_bind, double_num, error_bind]
    change (Json.get "damping_coefficient" s.spring.json >>= _) = _
    rw [hspring, ok_bind, readDouble_ofPar]
  | some y =>
    simp [Json.get, List.lookup, ok_bind, double_num, vector_ofList, vector_amplitudes,
      goal_python, C90_python_system, fas_python _ _ h, string, scalingOf_name]
    change (Json.get "damping_coefficient" s.spring.json >>= _) = _
    rw [hspring, ok_bind, readDouble_ofPar]

/-- C90: other members of an object make no difference. Whatever attributes are added to those that Python
writes, the same Dmp is read. -/
theorem C90_other_members (s : Verif.Dmp) (h : ∀ l, s.fas = some l → ∀ fa ∈ l, OwnModel fa) (j : Json)
    (hj : ∀ key ∈ ["_tau", "_spring_system", "_y_init", "_y_attr", "_goal_system", "_phase_system",
      "_gating_system", "_forcing_term_scaling", "_scaling_amplitudes", "_function_approximators"],
      ∀ v, Member j key v ↔ Member s.json key v) : Dmp.fromJson j = Dmp.read s := by
  have e (key : String) (hk : ∀ v, Member j key v ↔ Member s.json key v) : Json.get key j = Json.get key s.json := by
    by_cases hv : ∃ v, Member s.json key v
    · obtain ⟨v, hv⟩ := hv
      rw [(get_ok _ _ _).2 hv, (get_ok _ _ _).2 ((hk v).2 hv)]
    · rw [get_error _ _ hv, get_error _ _ fun ⟨v, h⟩ => hv ⟨v, (hk v).1 h⟩]
  rw [← C90_python_dmp s h]
  unfold Dmp.fromJson
  rw [e _ (hj _ (by simp)), e _ (hj _ (by simp)), e _ (hj _ (by simp)), e _ (hj _ (by simp)), e _ (hj _ (by simp)),
    e _ (hj _ (by simp)), e _ (hj _ (by simp)), e _ (hj _ (by simp)), e _ (hj _ (by simp)), e _ (hj _ (by simp))]

theorem py_inv {α β : Type} {a : Except PyErr α} {f : α → Except PyErr β} {b : β} (h : (a >>= f) = .ok b) :
    ∃ x, a = .ok x ∧ f x = .ok b := by
  cases a with
  | ok x => exact ⟨x, rfl, h⟩
  | error e => cases h

/-- C90: training gives a function approximator model parameters of its class. -/
theorem C90_own_model {N d : Nat} (inputs : Fin N → Fin d → ℝ) (targets : Fin N → ℝ)
    (weights : Option (Fin N → ℝ)) (fa : Fa) (h : OwnModel fa) :
    OwnModel ((Fa.train inputs targets weights).run fa).2 := by
  unfold Fa.train
  split
  · exact h
  · rw [PyM.self_bind]
    cases hm : fa.params.train inputs targets weights with
    | error e => rw [PyM.lift_error_bind]; exact h
    | ok m =>
      rw [PyM.lift_ok_bind]
      change OwnModel { fa with model := some ⟨d, m⟩ }
      unfold OwnModel
      unfold FaMeta.train at hm
      revert hm
      split <;> intro hm <;> obtain ⟨r, _, hr⟩ := py_inv hm <;> cases hr <;> simp [*]

example : OwnModel (Fa.new (.rbfn [3] 0.7 0)) := trivial

/-- C90 with C71: a Dmp that Python writes and C++ reads makes the same movements in both, after any changes
of time constant, start and attractor. -/
theorem C90_same_motions {d : Nat} {s : Verif.Dmp}
    (h : Verif.Dmp.Reachable Dmp.Known Verif.Dmp.Change.Forward d s) (hd : 0 < d)
    (ho : ∀ l, s.fas = some l → ∀ fa ∈ l, OwnModel fa) {c : Dmp} (hr : Dmp.fromJson s.json = .ok c)
    (hu : Dmp.Usable c) {os : List Dmp.Setting} (hf : ∀ o ∈ os, o.Fits d) :
    ∃ c', Dmp.setAll os c = .ok c' ∧ Dmp.SameMotions d c' (Dmp.setAllPy os s) :=
  Dmp.C71_partial h hd (by rw [← C90_python_dmp s ho]; exact hr) hu hf

/-! ### What C++ writes -/

/-- C90: what is written for a function approximator can be read again, and gives the same function
approximator. -/
theorem C90_fa_again (fa : AnyFa) (h : match fa with | .rbfn m => 0 < m.n | .lwr m => 0 < m.n) :
    AnyFa.fromJson fa.toJson = .ok (some fa) := by
  have rows {n d : Nat} (a : Fin n → Fin d → ℝ) (hn : 0 < n) : IsMatrix (ofMatrix (rowsOf a)) (rowsOf a) d := by
    apply isMatrix_ofMatrix
    · intro e; have := congrArg List.length e; rw [length_rowsOf] at this; simp at this; omega
    · intro r hr
      simp only [rowsOf, List.mem_ofFn] at hr
      obtain ⟨i, rfl⟩ := hr
      simp
  have col {n : Nat} (v : Fin n → ℝ) : ofVector (List.ofFn v) = ofMatrix (rowsOf fun i (_ : Fin 1) => v i) := by
    unfold ofVector rowsOf
    rw [List.map_ofFn]
    congr 2
  rw [C90_fa]
  cases fa with
  | rbfn m =>
    refine ⟨⟨[_], [], rfl, by simp⟩, _, ⟨[], _, rfl, by simp⟩, h, ⟨_, ⟨[], _, rfl, by simp⟩, rows _ h⟩,
      ⟨_, ⟨[_], _, rfl, by simp⟩, rows _ h⟩, ⟨_, ⟨[_, _], _, rfl, by simp⟩, ?_⟩⟩
    rw [col]
    exact rows _ h
  | lwr m =>
    refine ⟨⟨[_], [], rfl, by simp⟩, _, ⟨[], _, rfl, by simp⟩, h, ⟨_, ⟨[], _, rfl, by simp⟩, rows _ h⟩,
      ⟨_, ⟨[_], _, rfl, by simp⟩, rows _ h⟩, ⟨_, ⟨[_, _, _], _, rfl, by simp⟩, rows _ h⟩,
      ⟨_, ⟨[_, _], _, rfl, by simp⟩, ?_⟩⟩
    rw [col]
    exact rows _ h

example : AnyFa.fromJson (AnyFa.rbfn ⟨1, 1, fun _ _ => 0, fun _ _ => 1, fun _ => 2⟩).toJson =
    .ok (some (.rbfn ⟨1, 1, fun _ _ => 0, fun _ _ => 1, fun _ => 2⟩)) :=
  C90_fa_again _ one_pos

/-- C90: a function approximator without basis functions cannot be read again. -/
theorem C90_fa_empty (fa : AnyFa) (h : match fa with | .rbfn m => m.n = 0 | .lwr m => m.n = 0) :
    AnyFa.fromJson fa.toJson = .error .assertion := by
  have e {n d : Nat} (a : Fin n → Fin d → ℝ) (hn : n = 0) : ofMatrix (rowsOf a) = .null := by
    subst hn; simp [ofMatrix, rowsOf]
  have e' {n : Nat} (a : Fin n → ℝ) (hn : n = 0) : ofVector (List.ofFn a) = .null := by
    subst hn; simp [ofMatrix, ofVector]
  cases fa with
  | rbfn m =>
    simp only at h
    simp [AnyFa.fromJson, AnyFa.toJson, Rbfn.toJson, e _ h, e' _ h, Json.get, List.lookup, ok_bind, string,
      Rbfn.fromJson, matrix_null]
    rfl
  | lwr m =>
    simp only at h
    simp [AnyFa.fromJson, AnyFa.toJson, Lwr.toJson, e _ h, e' _ h, Json.get, List.lookup, ok_bind, string,
      Lwr.fromJson, matrix_null]
    rfl

/-- C90: what is written for a time system can be read again. The state starts at its usual initial value
also if it was changed. -/
theorem C90_time_again (s : TimeSystem) (h : s.dimY ≤ s.xInit.length) :
    ∃ j, s.toJson = .ok j ∧ AnySystem.fromJson j =
      .ok (some (.time ⟨⟨s.tau, 1, 1, [if s.countDown then 1 else 0]⟩, s.countDown⟩)) := by
  unfold TimeSystem.toJson Base.toJson
  rw [if_neg (by omega), ok_bind]
  refine ⟨_, rfl, ?_⟩
  rw [C90_system]
  refine ⟨⟨[_, _, _, _, _], [], rfl, by simp⟩, ⟨[_, _], _, rfl, by simp⟩, fun hc => ?_, fun hc => ?_,
    one_startsWith _ [_]⟩
  · exact ⟨_, ⟨[_, _, _, _], _, rfl, by simp⟩, Or.inl (by rw [show s.countDown = true from hc])⟩
  · exact ⟨_, ⟨[_, _, _, _], _, rfl, by simp⟩, Or.inl (by rw [show s.countDown = false from hc])⟩

theorem missing {l : List (String × Json)} {key : String} (h : ∀ p ∈ l, p.1 ≠ key) :
    Json.get key (.obj l) = .error .json := by
  apply get_error
  rintro ⟨v, b, a, e, _⟩
  cases e
  exact h (key, v) (by simp) rfl

/-- C90: what is written for a system. The initial state has at least as many entries as the system has
positions. -/
theorem C90_written (s : AnySystem) : (s.base.xInit.length < s.base.dimY → s.toJson = .error .assertion) ∧
    (s.base.dimY ≤ s.base.xInit.length → ∃ j, s.toJson = .ok j ∧ WritesSystem j s) := by
  constructor
  · intro h
    cases s <;>
      simp only [AnySystem.toJson, TimeSystem.toJson, Exponential.toJson, Sigmoid.toJson, Spring.toJson,
        Base.toJson, AnySystem.base] at h ⊢ <;> rw [if_pos h] <;> rfl
  · intro h
    cases s with
    | time s =>
      simp only [AnySystem.toJson, TimeSystem.toJson, Base.toJson, AnySystem.base] at h ⊢
      rw [if_neg (by omega)]
      exact ⟨_, rfl, ⟨⟨[_, _, _, _, _], _, rfl, by simp⟩, ⟨[_, _], _, rfl, by simp⟩, ⟨[], _, rfl, by simp⟩,
        ⟨[_], _, rfl, by simp⟩, ⟨_, ⟨[_, _, _], _, rfl, by simp⟩, isVector_ofVector _⟩⟩,
        ⟨[_, _, _, _], _, rfl, by simp⟩⟩
    | exponential s =>
      simp only [AnySystem.toJson, Exponential.toJson, Base.toJson, AnySystem.base] at h ⊢
      rw [if_neg (by omega)]
      exact ⟨_, rfl, ⟨⟨[_, _, _, _, _, _], _, rfl, by simp⟩, ⟨[_, _], _, rfl, by simp⟩, ⟨[], _, rfl, by simp⟩,
        ⟨[_], _, rfl, by simp⟩, ⟨_, ⟨[_, _, _], _, rfl, by simp⟩, isVector_ofVector _⟩⟩,
        ⟨[_, _, _, _], _, rfl, by simp⟩, ⟨_, ⟨[_, _, _, _, _], _, rfl, by simp⟩, isVector_ofVector _⟩⟩
    | sigmoid s =>
      simp only [AnySystem.toJson, Sigmoid.toJson, Base.toJson, AnySystem.base] at h ⊢
      rw [if_neg (by omega)]
      exact ⟨_, rfl, ⟨⟨[_, _, _, _, _, _], _, rfl, by simp⟩, ⟨[_, _], _, rfl, by simp⟩, ⟨[], _, rfl, by simp⟩,
        ⟨[_], _, rfl, by simp⟩, ⟨_, ⟨[_, _, _], _, rfl, by simp⟩, isVector_ofVector _⟩⟩,
        ⟨[_, _, _, _], _, rfl, by simp⟩, ⟨[_, _, _, _, _], _, rfl, by simp⟩⟩
    | spring s =>
      simp only [AnySystem.toJson, Spring.toJson, Base.toJson, AnySystem.base] at h ⊢
      rw [if_neg (by omega)]
      exact ⟨_, rfl, ⟨⟨[_, _, _, _, _, _, _, _], _, rfl, by simp⟩, ⟨[_, _], _, rfl, by simp⟩, ⟨[], _, rfl, by simp⟩,
        ⟨[_], _, rfl, by simp⟩, ⟨_, ⟨[_, _, _], _, rfl, by simp⟩, isVector_ofVector _⟩⟩,
        ⟨[_, _, _, _], _, rfl, by simp⟩, ⟨[_, _, _, _, _], _, rfl, by simp⟩, ⟨[_, _, _, _, _, _], _, rfl, by simp⟩,
        ⟨_, ⟨[_, _, _, _, _, _, _], _, rfl, by simp⟩, isVector_ofVector _⟩⟩

/-- C90: of the systems that C++ writes, it can only read a time system again. The others are read from
a member `_x_init`, which is not written. -/
theorem C90_never (s : AnySystem) (hs : ∀ t, s ≠ .time t) (j : Json) (h : s.toJson = .ok j) :
    AnySystem.fromJson j = .error .json := by
  cases s with
  | time s => exact absurd rfl (hs s)
  | exponential s =>
    simp only [AnySystem.toJson, Exponential.toJson, Base.toJson] at h
    split at h
    · cases h
    · cases h
      simp [AnySystem.fromJson, Exponential.fromJson, Json.get, List.lookup, ok_bind, string, double_num, error_bind]
  | sigmoid s =>
    simp only [AnySystem.toJson, Sigmoid.toJson, Base.toJson] at h
    split at h
    · cases h
    · cases h
      simp [AnySystem.fromJson, Sigmoid.fromJson, Json.get, List.lookup, ok_bind, string, double_num, error_bind]
  | spring s =>
    simp only [AnySystem.toJson, Spring.toJson, Base.toJson] at h
    split at h
    · cases h
    · cases h
      simp [AnySystem.fromJson, Spring.fromJson, Json.get, List.lookup, ok_bind, string, double_num, error_bind,
        vector_ofVector]

theorem writes_of_ok {s : AnySystem} {j : Json} (h : s.toJson = .ok j) : WritesSystem j s := by
  obtain ⟨h1, h2⟩ := C90_written s
  rcases Nat.lt_or_ge s.base.xInit.length s.base.dimY with hl | hl
  · rw [h1 hl] at h; cases h
  · obtain ⟨j', e, w⟩ := h2 hl
    rw [h] at e
    cases e
    exact w

theorem deref_ok {α : Type} {x : Option α} {a : α} : deref x = .ok a ↔ x = some a := by
  cases x <;> simp [deref]

example : ∃ j, (AnySystem.spring ⟨⟨1, 2, 1, [0, 0]⟩, [1], 20, 100, 1⟩).toJson = .ok j ∧
    AnySystem.fromJson j = .error .json := by
  obtain ⟨j, e, _⟩ := (C90_written (.spring ⟨⟨1, 2, 1, [0, 0]⟩, [1], 20, 100, 1⟩)).2 (by simp [AnySystem.base])
  exact ⟨j, e, C90_never _ (by simp) j e⟩

/-- C90: what is written for a Dmp. -/
theorem C90_dmp_written (s : Dmp) (j : Json) (h : s.toJson = .ok j) : WritesDmp j s := by
  unfold Dmp.toJson at h
  simp only [inv, deref_ok, mapM_forall] at h
  obtain ⟨b, hb, g, hg, gj, hgj, p, hp, pj, hpj, q, hq, qj, hqj, fas, hf, e⟩ := h
  unfold Base.toJson at hb
  split at hb
  · cases hb
  · cases hb
    cases e
    refine ⟨⟨⟨[_, _, _, _, _, _, _, _, _, _], _, rfl, by simp⟩, ⟨[_, _], _, rfl, by simp⟩, ⟨[], _, rfl, by simp⟩,
        ⟨[_], _, rfl, by simp⟩, ⟨_, ⟨[_, _, _], _, rfl, by simp⟩, isVector_ofVector _⟩⟩,
      ⟨_, ⟨[_, _, _, _], _, rfl, by simp⟩, ⟨[], _, rfl, by simp⟩⟩,
      ⟨_, g, ⟨[_, _, _, _, _], _, rfl, by simp⟩, hg, writes_of_ok (s := .exponential g) hgj⟩,
      ⟨_, p, ⟨[_, _, _, _, _, _], _, rfl, by simp⟩, hp, writes_of_ok hpj⟩,
      ⟨_, q, ⟨[_, _, _, _, _, _, _], _, rfl, by simp⟩, hq, writes_of_ok hqj⟩,
      ⟨_, ⟨[_, _, _, _, _, _, _, _], _, rfl, by simp⟩, ?_⟩,
      ⟨_, ⟨[_, _, _, _, _, _, _, _, _], _, rfl, by simp⟩, ?_⟩⟩
    · cases s.scaling <;> simp [ForcingScaling.name]
    · refine List.Forall₂.flip (hf.imp fun fa v h => ?_)
      obtain ⟨f, hf, e⟩ := h
      cases e
      exact ⟨f, hf, rfl⟩

/-- C90: a Dmp is written unless a subsystem or a function approximator is NULL, or an initial state is too
short. -/
theorem C90_dmp_writes (s : Dmp) : (∃ j, s.toJson = .ok j) ↔ s.dimY ≤ s.xInit.length ∧
    (∃ g, s.goal = some g ∧ g.dimY ≤ g.xInit.length) ∧
    (∃ p, s.phase = some p ∧ p.base.dimY ≤ p.base.xInit.length) ∧
    (∃ q, s.gating = some q ∧ q.base.dimY ≤ q.base.xInit.length) ∧ ∀ fa ∈ s.fas, fa ≠ none := by
  have sys (a : AnySystem) : (∃ j, a.toJson = .ok j) ↔ a.base.dimY ≤ a.base.xInit.length := by
    obtain ⟨h1, h2⟩ := C90_written a
    constructor
    · rintro ⟨j, e⟩
      by_contra hl
      rw [h1 (by omega)] at e
      cases e
    · intro hl
      obtain ⟨j, e, _⟩ := h2 hl
      exact ⟨j, e⟩
  have base : (∃ b, s.toBase.toJson = .ok b) ↔ s.dimY ≤ s.xInit.length := by
    unfold Base.toJson
    split
    · simp; omega
    · simp; omega
  have fas : (∃ r, (s.fas.mapM fun fa => (do return (← deref fa).toJson : CppResult Json)) = .ok r) ↔
      ∀ fa ∈ s.fas, fa ≠ none := by
    simp only [mapM_forall]
    generalize s.fas = l
    induction l with
    | nil => simp
    | cons a l ih =>
      cases a with
      | none =>
        simp only [List.mem_cons, ne_eq, forall_eq_or_imp, not_true_eq_false, false_and, iff_false, not_exists]
        intro r h
        cases h with
        | cons h _ => cases h
      | some f =>
        simp only [List.mem_cons, ne_eq, forall_eq_or_imp, reduceCtorEq, not_false_eq_true, true_and]
        rw [← ih]
        constructor
        · rintro ⟨r, h⟩
          cases h with
          | cons _ h => exact ⟨_, h⟩
        · rintro ⟨r, h⟩
          exact ⟨_, .cons rfl h⟩
  unfold Dmp.toJson
  simp only [inv, deref_ok]
  rw [← base, ← fas]
  constructor
  · rintro ⟨j, b, hb, g, hg, gj, hgj, p, hp, pj, hpj, q, hq, qj, hqj, l, hl, e⟩
    exact ⟨⟨b, hb⟩, ⟨g, hg, (sys (.exponential g)).1 ⟨gj, hgj⟩⟩, ⟨p, hp, (sys p).1 ⟨pj, hpj⟩⟩,
      ⟨q, hq, (sys q).1 ⟨qj, hqj⟩⟩, l, hl⟩
  · rintro ⟨⟨b, hb⟩, ⟨g, hg, hgl⟩, ⟨p, hp, hpl⟩, ⟨q, hq, hql⟩, l, hl⟩
    obtain ⟨gj, hgj⟩ := (sys (.exponential g)).2 hgl
    obtain ⟨pj, hpj⟩ := (sys p).2 hpl
    obtain ⟨qj, hqj⟩ := (sys q).2 hql
    exact ⟨_, b, hb, g, hg, gj, hgj, p, hp, pj, hpj, q, hq, qj, hqj, l, hl, rfl⟩

/-- C90: a Dmp without goal system, as for the type IJSPEERT_2002_MOVEMENT, cannot be written. -/
theorem C90_dmp_no_goal (s : Dmp) (h : s.dimY ≤ s.xInit.length) (hg : s.goal = none) :
    s.toJson = .error .null := by
  unfold Dmp.toJson Base.toJson
  rw [if_neg (by omega), hg]
  rfl

/-- C90: what C++ writes for a Dmp, it cannot read again, as the attractor is not written. -/
theorem C90_dmp_never (s : Dmp) (j : Json) (h : s.toJson = .ok j) : Dmp.fromJson j = .error .json := by
  unfold Dmp.toJson at h
  simp only [inv] at h
  obtain ⟨b, hb, g, hg, gj, hgj, p, hp, pj, hpj, q, hq, qj, hqj, fas, hf, e⟩ := h
  unfold Base.toJson at hb
  split at hb
  · cases hb
  · cases hb
    cases e
    simp [Dmp.fromJson, Json.get, List.lookup, ok_bind, double_num, error_bind, vector_ofVector]

/-- The claim for all that C++ writes: what is written can be read again, and gives the same system. -/
def C90_statement : Prop := ∀ (s : AnySystem) (j : Json), s.toJson = .ok j → AnySystem.fromJson j = .ok (some s)

/-- C90: the claim is false, e.g. for an exponential system. -/
theorem C90_refuted : ¬ C90_statement := by
  intro H
  obtain ⟨j, e, _⟩ := (C90_written (.exponential ⟨⟨1, 1, 1, [1]⟩, [0], 4⟩)).2 (by simp [AnySystem.base])
  have h1 := H (.exponential ⟨⟨1, 1, 1, [1]⟩, [0], 4⟩) _ e
  rw [C90_never (.exponential ⟨⟨1, 1, 1, [1]⟩, [0], 4⟩) (by simp) _ e] at h1
  cases h1

/-- C90, the part that holds: time systems whose initial state was not changed. -/
theorem C90_partial (s : TimeSystem) (h : StartsWith s.toBase 1 [if s.countDown then 1 else 0]) (j : Json)
    (hj : s.toJson = .ok j) : AnySystem.fromJson j = .ok (some (.time s)) := by
  have hb := startsWith_one h
  obtain ⟨j', e, hr⟩ := C90_time_again s (by rw [hb])
  rw [hj] at e
  cases e
  rw [hr]
  cases s
  simp only [List.length_singleton] at hb ⊢
  rw [← hb]

end Cpp

end Verif
