import Verif.Spec.CppJson

noncomputable section

set_option autoImplicit false

namespace Verif

open Spec

namespace Cpp

namespace Json

theorem get_ok (key : String) (j v : Json) : get key j = .ok v ↔ Member j key v := by
  unfold Member
  cases j with
  | obj l =>
    simp only [get, Json.obj.injEq]
    constructor
    · intro h
      split at h
      · rename_i w hw
        obtain ⟨a, b, e, hn⟩ := List.lookup_eq_some_iff.1 hw
        cases h
        exact ⟨a, b, e, fun p hp => by have := hn p hp; simp at this; exact fun h => this h.symm⟩
      · cases h
    · rintro ⟨a, b, e, hn⟩
      have : l.lookup key = some v := List.lookup_eq_some_iff.2 ⟨a, b, e, fun p hp => by
        have := hn p hp; simp only [bne_iff_ne, ne_eq]; exact fun h => this h.symm⟩
      simp [this]
  | _ => simp [get]

theorem get_error (key : String) (j : Json) (h : ¬ ∃ v, Member j key v) : get key j = .error .json := by
  cases hg : get key j with
  | ok v => exact absurd ⟨v, (get_ok key j v).1 hg⟩ h
  | error e =>
    cases j with
    | obj l =>
      simp only [get] at hg
      split at hg
      · cases hg
      · cases hg; rfl
    | _ => simp only [get] at hg; cases hg; rfl

theorem double_ok (j : Json) (x : ℝ) : double j = .ok x ↔ j = .num x := by
  cases j <;> simp [double]

theorem double_error (j : Json) (h : ∀ x, j ≠ .num x) : double j = .error .json := by
  cases j <;> simp_all [double]

theorem string_ok (j : Json) (x : String) : string j = .ok x ↔ j = .str x := by
  cases j <;> simp [string]

/-- Inversion of a sequence of two steps. -/
theorem inv {α β : Type} {a : CppResult α} {f : α → CppResult β} {b : β} :
    (a >>= f) = .ok b ↔ ∃ x, a = .ok x ∧ f x = .ok b := by
  cases a with
  | ok x => exact ⟨fun h => ⟨x, rfl, h⟩, fun ⟨y, h, k⟩ => by cases h; exact k⟩
  | error e =>
    constructor
    · intro h; cases h
    · rintro ⟨_, h, _⟩; cases h

theorem fillRow_ok (cols : Nat) (l : List Json) (col : Nat) (row : List ℝ) :
    fillRow cols col l = .ok row ↔ l = row.map .num ∧ (l = [] ∨ col + l.length ≤ cols) := by
  induction l generalizing col row with
  | nil =>
    simp only [fillRow]
    constructor
    · intro h; cases h; simp
    · rintro ⟨h, _⟩; cases row with
      | nil => rfl
      | cons => simp at h
  | cons v vs ih =>
    simp only [fillRow]
    rw [inv]
    constructor
    · rintro ⟨x, hx, h⟩
      rw [double_ok] at hx
      subst hx
      split at h
      · cases h
      · rename_i hc
        try simp only [pure_bind] at h
        rw [inv] at h
        obtain ⟨r, hr, h⟩ := h
        cases h
        obtain ⟨h1, h2⟩ := (ih _ _).1 hr
        refine ⟨by simp [h1], Or.inr ?_⟩
        rcases h2 with h2 | h2
        · simp [h2]; omega
        · simp; omega
    · rintro ⟨h, hc⟩
      cases row with
      | nil => simp at h
      | cons x row =>
        simp only [List.map_cons, List.cons.injEq] at h
        obtain ⟨rfl, hvs⟩ := h
        simp at hc
        refine ⟨x, by rw [double_ok], ?_⟩
        rw [if_neg (by omega)]
        try simp only [pure_bind]
        rw [inv]
        exact ⟨row, (ih _ _).2 ⟨hvs, by by_cases hn : vs = [] <;> [exact Or.inl hn; exact Or.inr (by omega)]⟩, rfl⟩

theorem readRow_ok (cols : Nat) (j : Json) (row : List ℝ) :
    readRow cols j = .ok row ↔ IsRow j row ∧ row.length = cols := by
  have key (l : List Json) (f : CppResult (List ℝ)) (hf : f = fillRow cols 0 l) :
      (f >>= fun row => if row.length < cols then throw CppErr.nan else pure row) = .ok row ↔
        l = row.map .num ∧ row.length = cols := by
    rw [inv]
    constructor
    · rintro ⟨r, hr, h⟩
      rw [hf, fillRow_ok] at hr
      split at h
      · cases h
      · rename_i hc
        cases h
        obtain ⟨h1, h2⟩ := hr
        refine ⟨h1, ?_⟩
        have hl : l.length = row.length := by rw [h1]; simp
        rcases h2 with h2 | h2
        · rw [h2] at hl; simp at hl; omega
        · omega
    · rintro ⟨h1, h2⟩
      refine ⟨row, ?_, ?_⟩
      · rw [hf, fillRow_ok]
        exact ⟨h1, Or.inr (by rw [h1]; simp; omega)⟩
      · rw [if_neg (by omega)]; rfl
  cases j with
  | arr l =>
    simp only [readRow]
    refine (key l _ rfl).trans ?_
    simp [IsRow]
  | num x =>
    simp only [readRow]
    refine (key [.num x] _ rfl).trans ?_
    simp only [IsRow, reduceCtorEq, false_or, Json.num.injEq]
    constructor
    · rintro ⟨h, hl⟩
      refine ⟨⟨x, rfl, ?_⟩, hl⟩
      cases row with
      | nil => simp at h
      | cons y t => cases t with
        | nil => simp at h; simp [h]
        | cons => simp at h
    · rintro ⟨⟨y, rfl, rfl⟩, hl⟩
      exact ⟨rfl, hl⟩
  | _ =>
    simp only [readRow]
    refine (key _ _ rfl).trans ?_
    simp only [IsRow, reduceCtorEq, false_or, false_and, exists_false, iff_false, not_and]
    intro h
    cases row <;> simp at h

theorem mapM_forall {α β : Type} (f : α → CppResult β) (l : List α) (r : List β) :
    l.mapM f = .ok r ↔ List.Forall₂ (fun a b => f a = .ok b) l r := by
  induction l generalizing r with
  | nil =>
    constructor
    · intro h; cases h; exact .nil
    · intro h; cases h; rfl
  | cons a l ih =>
    rw [List.mapM_cons, inv]
    constructor
    · rintro ⟨b, hb, h⟩
      rw [inv] at h
      obtain ⟨t, ht, h⟩ := h
      cases h
      exact .cons hb ((ih t).1 ht)
    · intro h
      cases h with
      | cons hb ht => exact ⟨_, hb, by rw [inv]; exact ⟨_, (ih _).2 ht, rfl⟩⟩

theorem elem_lt (l : List Json) (i : Nat) (h : i < l.length) : elem i (.arr l) = .ok l[i] := by
  simp [elem, h]

theorem mapM_same {α β : Type} (f g : α → CppResult β) (l : List α) (h : ∀ a ∈ l, f a = g a) :
    l.mapM f = l.mapM g := by
  induction l with
  | nil => rfl
  | cons a l ih =>
    rw [List.mapM_cons, List.mapM_cons, h a (by simp), ih fun b hb => h b (by simp [hb])]

/-- Steps over the indices of an array are steps over its elements. -/
theorem range_elems {β : Type} (l : List Json) (f : Json → CppResult β) :
    ((List.range l.length).mapM fun i => do f (← elem i (.arr l))) = l.mapM f := by
  have h : l = (List.range l.length).map fun i => l.getD i .null := by
    apply List.ext_getElem
    · simp
    · intro i h1 h2
      simp [h1]
  conv_rhs => rw [h, List.mapM_map]
  apply mapM_same
  intro i hi
  rw [List.mem_range] at hi
  rw [elem_lt l i hi]
  simp [hi]
  rfl

theorem size_zero (j : Json) : size j = 0 ↔ Nothing j := by
  unfold Nothing
  cases j <;> simp [size]

theorem elem_not_arr (j : Json) (i : Nat) (h : ∀ l, j ≠ .arr l) : elem i j = .error .json := by
  cases j <;> simp_all [elem]

theorem rowSize_of_isRow {j : Json} {row : List ℝ} (h : IsRow j row) : rowSize j = row.length := by
  rcases h with rfl | ⟨x, rfl, rfl⟩ <;> simp [rowSize]

theorem matrix_ok (j : Json) (m : Matrix) : matrix j = .ok m ↔ IsMatrix j m.rows m.cols := by
  unfold matrix IsMatrix
  split
  · rename_i h
    have hn := (size_zero j).1 h
    constructor
    · intro e
      cases e
      exact Or.inl ⟨hn, rfl, rfl⟩
    · rintro (⟨_, h1, h2⟩ | ⟨l, rfl, hl, _⟩)
      · cases m; simp only at h1 h2; subst h1 h2; rfl
      · simp [size] at h; exact absurd h hl
  · rename_i h
    have hn : ¬ Nothing j := fun hn => h ((size_zero j).2 hn)
    simp only [pure_bind, hn, false_and, false_or]
    by_cases ha : ∃ l, j = .arr l
    · obtain ⟨l, rfl⟩ := ha
      have hl : l ≠ [] := by rintro rfl; exact h rfl
      obtain ⟨a, t, rfl⟩ := List.exists_cons_of_ne_nil hl
      rw [elem_lt _ 0 (by simp)]
      have hs : size (.arr (a :: t)) = (a :: t).length := rfl
      rw [hs, inv]
      simp only [Except.ok.injEq, exists_eq_left', List.getElem_cons_zero]
      rw [range_elems (a :: t) fun e => readRow (rowSize a) e, inv]
      simp only [mapM_forall]
      constructor
      · rintro ⟨rows, hr, e⟩
        cases e
        refine ⟨a :: t, rfl, hl, hr.imp fun e r h => ((readRow_ok _ _ _).1 h).1, ?_⟩
        intro r hr'
        obtain ⟨i, hi, rfl⟩ := List.getElem_of_mem hr'
        have := List.forall₂_iff_get.1 hr
        exact ((readRow_ok _ _ _).1 (this.2 i (by rw [this.1]; exact hi) hi)).2
      · rintro ⟨l, e, _, hr, hc⟩
        cases e
        have ha : rowSize a = m.cols := by
          cases hm : m.rows with
          | nil => rw [hm] at hr; cases hr
          | cons r rs =>
            rw [hm] at hr
            cases hr with
            | cons h1 _ => rw [rowSize_of_isRow h1]; exact hc r (by simp [hm])
        refine ⟨m.rows, ?_, by rw [ha]; rfl⟩
        have hg := List.forall₂_iff_get.1 hr
        refine List.forall₂_iff_get.2 ⟨hg.1, fun i h1 h2 => (readRow_ok _ _ _).2 ⟨hg.2 i h1 h2, ?_⟩⟩
        rw [ha]
        exact hc _ (List.get_mem _ _)
    · rw [elem_not_arr j 0 fun l e => ha ⟨l, e⟩]
      constructor
      · intro e; cases e
      · rintro ⟨l, e, _⟩; exact absurd ⟨l, e⟩ ha

theorem isRow_one (j : Json) (x : ℝ) : IsRow j [x] ↔ IsEntry j x := by
  unfold IsRow IsEntry
  simp only [List.map_cons, List.map_nil, List.cons.injEq, and_true]
  constructor
  · rintro (h | ⟨y, h, rfl⟩)
    · exact Or.inr h
    · exact Or.inl h
  · rintro (h | h)
    · exact Or.inr ⟨x, h, rfl⟩
    · exact Or.inl h

theorem entry_ok (j : Json) (x : ℝ) :
    ((do return (← readRow 1 j).getD 0 0 : CppResult ℝ) = .ok x) ↔ IsEntry j x := by
  rw [inv]
  constructor
  · rintro ⟨r, hr, h⟩
    cases h
    obtain ⟨h1, h2⟩ := (readRow_ok _ _ _).1 hr
    obtain ⟨y, rfl⟩ := List.length_eq_one_iff.1 h2
    exact (isRow_one j y).1 h1
  · intro h
    exact ⟨[x], (readRow_ok _ _ _).2 ⟨(isRow_one j x).2 h, rfl⟩, rfl⟩

theorem vector_ok (j : Json) (v : List ℝ) : vector j = .ok v ↔ IsVector j v := by
  unfold vector IsVector
  split
  · rename_i h
    have hn := (size_zero j).1 h
    constructor
    · intro e
      cases e
      exact Or.inl ⟨hn, rfl⟩
    · rintro (⟨_, rfl⟩ | ⟨l, rfl, hl, _⟩)
      · rfl
      · simp [size] at h; exact absurd h hl
  · rename_i h
    have hn : ¬ Nothing j := fun hn => h ((size_zero j).2 hn)
    simp only [pure_bind, hn, false_and, false_or]
    by_cases ha : ∃ l, j = .arr l
    · obtain ⟨l, rfl⟩ := ha
      have hl : l ≠ [] := by rintro rfl; exact h rfl
      obtain ⟨a, t, rfl⟩ := List.exists_cons_of_ne_nil hl
      rw [elem_lt _ 0 (by simp)]
      have hs : size (.arr (a :: t)) = (a :: t).length := rfl
      rw [hs, inv]
      simp only [Except.ok.injEq, exists_eq_left', List.getElem_cons_zero]
      constructor
      · intro e
        split at e
        · cases e
        · try simp only [pure_bind] at e
          have e' := e
          rw [show (fun i => do return (← readRow 1 (← elem i (.arr (a :: t)))).getD 0 0 : Nat → CppResult ℝ) =
            fun i => do (fun e => (do return (← readRow 1 e).getD 0 0 : CppResult ℝ)) (← elem i (.arr (a :: t)))
            from rfl, range_elems (a :: t) fun e => (do return (← readRow 1 e).getD 0 0 : CppResult ℝ), mapM_forall] at e'
          exact ⟨a :: t, rfl, hl, e'.imp fun e x h => (entry_ok _ _).1 h⟩
      · rintro ⟨l, e, _, hr⟩
        cases e
        have h1 : rowSize a = 1 := by
          cases hr with
          | cons h1 _ => rcases h1 with rfl | rfl <;> rfl
        rw [if_neg (by simp [h1])]
        try simp only [pure_bind]
        rw [show (fun i => do return (← readRow 1 (← elem i (.arr (a :: t)))).getD 0 0 : Nat → CppResult ℝ) =
            fun i => do (fun e => (do return (← readRow 1 e).getD 0 0 : CppResult ℝ)) (← elem i (.arr (a :: t)))
            from rfl, range_elems (a :: t) fun e => (do return (← readRow 1 e).getD 0 0 : CppResult ℝ), mapM_forall]
        exact hr.imp fun e x h => (entry_ok _ _).2 h
    · rw [elem_not_arr j 0 fun l e => ha ⟨l, e⟩]
      constructor
      · intro e; cases e
      · rintro ⟨l, e, _⟩; exact absurd ⟨l, e⟩ ha

/-! ### What is written -/

theorem isVector_ofList (l : List ℝ) : IsVector (Json.ofList l) l := by
  unfold IsVector Json.ofList
  by_cases h : l = []
  · subst h; exact Or.inl ⟨Or.inr (Or.inl rfl), rfl⟩
  · refine Or.inr ⟨_, rfl, by simpa using h, ?_⟩
    rw [List.forall₂_map_left_iff]
    exact List.forall₂_same.2 fun x _ => Or.inl rfl

theorem isMatrix_rows (rows : List (List ℝ)) (d : Nat) (hr : rows ≠ []) (h : ∀ r ∈ rows, r.length = d) :
    IsMatrix (.arr (rows.map fun r => .arr (r.map .num))) rows d := by
  refine Or.inr ⟨_, rfl, by simpa using hr, ?_, h⟩
  rw [List.forall₂_map_left_iff]
  exact List.forall₂_same.2 fun x _ => Or.inl rfl

theorem isMatrix_ofMatrix (rows : List (List ℝ)) (d : Nat) (hr : rows ≠ []) (h : ∀ r ∈ rows, r.length = d) :
    IsMatrix (ofMatrix rows) rows d := by
  unfold ofMatrix
  rw [if_neg hr]
  exact isMatrix_rows rows d hr h

theorem isVector_ofVector (l : List ℝ) : IsVector (ofVector l) l := by
  unfold IsVector ofVector ofMatrix
  by_cases h : l = []
  · subst h; exact Or.inl ⟨Or.inl rfl, rfl⟩
  · rw [if_neg (by simpa using h)]
    refine Or.inr ⟨_, rfl, by simpa using h, ?_⟩
    rw [List.map_map, List.forall₂_map_left_iff]
    exact List.forall₂_same.2 fun x _ => Or.inr rfl

theorem ofRows_eq {n d : Nat} (a : Fin n → Fin d → ℝ) :
    Json.ofRows a = .arr ((rowsOf a).map fun r => .arr (r.map .num)) := by
  unfold Json.ofRows rowsOf Json.ofList
  rw [List.map_ofFn]
  rfl

theorem matrix_ofRows {n d : Nat} (a : Fin n → Fin d → ℝ) (h : 0 < n) :
    matrix (Json.ofRows a) = .ok ⟨rowsOf a, d⟩ := by
  rw [matrix_ok, ofRows_eq]
  apply isMatrix_rows
  · unfold rowsOf; intro e; have := congrArg List.length e; simp at this; omega
  · intro r hr
    simp only [rowsOf, List.mem_ofFn] at hr
    obtain ⟨i, rfl⟩ := hr
    simp

theorem matrix_ofRows_zero {d : Nat} (a : Fin 0 → Fin d → ℝ) : matrix (Json.ofRows a) = .ok ⟨[], 0⟩ := by
  rw [matrix_ok]
  exact Or.inl ⟨Or.inr (Or.inl (by simp [Json.ofRows])), rfl, rfl⟩

theorem vector_ofList (l : List ℝ) : vector (Json.ofList l) = .ok l := (vector_ok _ _).2 (isVector_ofList l)

theorem vector_ofVector (l : List ℝ) : vector (ofVector l) = .ok l := (vector_ok _ _).2 (isVector_ofVector l)

theorem entries_rowsOf {n d : Nat} (a : Fin n → Fin d → ℝ) (c : Nat) :
    (Matrix.mk (rowsOf a) c).entries n d = a := by
  funext i k
  simp [Matrix.entries, rowsOf]

end Json

end Cpp

end Verif
