import Verif.Model.FaPlots
import Verif.Props.Predictions
import Verif.Proofs.ParamVector

/- C98: the plots of function approximators. -/

set_option autoImplicit false

namespace Verif

open Spec

noncomputable section

variable {d N : Nat} {α β : Type}

/-! ### Specification -/

/-- The point in column `j` of row `i` of a line (which has one row) or a wireframe. -/
def Spec.cell (rows : List (List α)) (i j : Nat) : Option α :=
  rows[i]?.bind fun r => r[j]?

/-- The points of the grid: 101 in one dimension, 21 × 21 in two, evenly spaced from the smallest inputs to the largest
ones. -/
def Spec.gridAt : {d : Nat} → (lo hi : Fin d → ℝ) → Nat → Nat → Option (Fin d → ℝ)
  | 1, lo, hi, i, j => if i = 0 ∧ j ≤ 100 then some ![lo 0 + j / 100 * (hi 0 - lo 0)] else none
  | 2, lo, hi, i, j => if i ≤ 20 ∧ j ≤ 20 then
      some ![lo 0 + i / 20 * (hi 0 - lo 0), lo 1 + j / 20 * (hi 1 - lo 1)] else none
  | _, _, _, _, _ => none

/-- The function approximator predicts `y` for the input `x`. -/
def Spec.Predicts (fa : Fa) (x : Fin d → ℝ) (y : ℝ) : Prop :=
  fa.predict (fun _ : Fin 1 => x) = .ok fun _ => y

/-! ### The grid -/

theorem cell_map (f : α → β) (rows : List (List α)) (i j : Nat) :
    cell (rows.map (List.map f)) i j = (cell rows i j).map f := by
  simp only [cell, List.getElem?_map]
  cases rows[i]? <;> simp

theorem onGrid_map (f : α → β) (shape : List Nat) (l : List α) :
    onGrid shape (l.map f) = (onGrid shape l).map (List.map f) := by
  unfold onGrid
  split
  · simp [reshapeRows, List.map_drop, List.map_take]
  · rfl

theorem cell_reshape (n1 n2 : Nat) (l : List α) (i j : Nat) :
    cell (reshapeRows n1 n2 l) i j = if i < n1 ∧ j < n2 then l[i * n2 + j]? else none := by
  unfold cell reshapeRows
  by_cases hi : i < n1
  · by_cases hj : j < n2
    · simp [hi, hj]
    · simp [hi, hj]
  · simp [hi]

theorem gridTwo_getElem? (l1 l2 : List ℝ) (i j : Nat) (hj : j < l2.length) :
    (gridTwo l1 l2)[i * l2.length + j]? = l1[i]?.bind fun x1 => l2[j]?.map fun x2 => ![x1, x2] := by
  unfold gridTwo
  induction l1 generalizing i with
  | nil => simp
  | cons x l1 ih =>
    rw [List.flatMap_cons]
    cases i with
    | zero =>
      rw [List.getElem?_append_left (by simpa using hj)]
      simp
    | succ i =>
      rw [List.getElem?_append_right (by simp; nlinarith)]
      have : (i + 1) * l2.length + j - (l2.map fun x2 => ![x, x2]).length = i * l2.length + j := by
        rw [List.length_map, Nat.succ_mul]; omega
      rw [this, ih]
      simp

theorem linspace_getElem? (lo hi : ℝ) (n k : Nat) :
    (linspace lo hi n)[k]? = if k < n then some (lo + k * ((hi - lo) / (n - 1))) else none := by
  unfold linspace
  by_cases h : k < n <;> simp [h]

/-- The points of the grid are those of the specification. There is a grid exactly for one and two dimensions. -/
theorem C98_grid (lo hi : Fin d → ℝ) :
    (∀ l shape, getGrid lo hi = .ok (l, shape) → l ≠ [] ∧ ∀ i j, cell (onGrid shape l) i j = gridAt lo hi i j) ∧
    (d = 1 ∨ d = 2 → ∃ r, getGrid lo hi = .ok r) ∧
    (d ≠ 1 → d ≠ 2 → getGrid lo hi = .error .valueError) := by
  match d, lo, hi with
  | 0, lo, hi => exact ⟨fun _ _ h => (nomatch h), by simp, fun _ _ => rfl⟩
  | 1, lo, hi =>
    refine ⟨fun l shape h => ?_, fun _ => ⟨_, rfl⟩, by simp⟩
    simp only [getGrid, Except.ok.injEq, Prod.mk.injEq] at h
    obtain ⟨rfl, rfl⟩ := h
    refine ⟨by simp [linspace], fun i j => ?_⟩
    simp only [onGrid, cell, gridAt]
    cases i with
    | zero =>
      simp only [List.getElem?_cons_zero, Option.bind_some, List.getElem?_map, linspace_getElem?]
      by_cases hj : j ≤ 100
      · rw [if_pos (by omega), if_pos ⟨trivial, hj⟩, Option.map_some]
        refine congrArg some (congrArg (![·]) ?_)
        push_cast
        ring
      · rw [if_neg (by omega), if_neg (by omega)]
        rfl
    | succ i => simp
  | 2, lo, hi =>
    refine ⟨fun l shape h => ?_, fun _ => ⟨_, rfl⟩, by simp⟩
    simp only [getGrid, Except.ok.injEq, Prod.mk.injEq] at h
    obtain ⟨rfl, rfl⟩ := h
    have key : ∀ i j, cell (onGrid [21, 21] (gridTwo (linspace (lo 0) (hi 0) 21) (linspace (lo 1) (hi 1) 21))) i j =
        gridAt lo hi i j := by
      intro i j
      simp only [onGrid, cell_reshape, gridAt]
      by_cases h : i ≤ 20 ∧ j ≤ 20
      · rw [if_pos (by omega), if_pos h]
        have e := gridTwo_getElem? (linspace (lo 0) (hi 0) 21) (linspace (lo 1) (hi 1) 21) i j
          (by rw [linspace_length]; omega)
        rw [linspace_length] at e
        rw [e, linspace_getElem?, linspace_getElem?, if_pos (by omega), if_pos (by omega)]
        simp only [Option.bind_some, Option.map_some]
        refine congrArg some (congrArg₂ (![·, ·]) ?_ ?_) <;> · push_cast; ring
      · rw [if_neg (by omega), if_neg h]
    refine ⟨fun h => ?_, key⟩
    have := key 0 0
    rw [h] at this
    simp [onGrid, cell, reshapeRows, gridAt] at this
  | n + 3, lo, hi => exact ⟨fun _ _ h => (nomatch h), by simp, fun _ _ => rfl⟩

/-- The grid lies in the box of the inputs and contains its corners, and no point of the box is further from the grid
than 1/200 (one dimension) or 1/40 (two dimensions) of the width of the box. -/
theorem C98_box (lo hi : Fin d → ℝ) (h : ∀ i, lo i ≤ hi i) (hd : d = 1 ∨ d = 2) :
    (∀ i j x, gridAt lo hi i j = some x → ∀ k, lo k ≤ x k ∧ x k ≤ hi k) ∧
    gridAt lo hi 0 0 = some lo ∧ (∃ i j, gridAt lo hi i j = some hi) ∧
    ∀ y : Fin d → ℝ, (∀ k, lo k ≤ y k ∧ y k ≤ hi k) → ∃ i j x, gridAt lo hi i j = some x ∧
      ∀ k, |y k - x k| ≤ (hi k - lo k) / (if d = 1 then 200 else 40) := by
  have near : ∀ (n : Nat) (a b y : ℝ), 0 < n → a ≤ b → a ≤ y → y ≤ b → ∃ k ≤ n, |y - (a + k / n * (b - a))| ≤
      (b - a) / (2 * n) := by
    intro n a b y hn hab h1 h2
    have hn' : (0 : ℝ) < n := by exact_mod_cast hn
    rcases hab.eq_or_lt with rfl | hab
    · exact ⟨0, Nat.zero_le _, by simp; linarith⟩
    · have hba : 0 < b - a := by linarith
      set t := (y - a) / (b - a) * n + 1 / 2 with ht
      have ht0 : 0 ≤ t := by
        have : 0 ≤ (y - a) / (b - a) * n := mul_nonneg (div_nonneg (by linarith) hba.le) hn'.le
        linarith
      refine ⟨⌊t⌋₊, ?_, ?_⟩
      · have h3 : (y - a) / (b - a) ≤ 1 := (div_le_one hba).mpr (by linarith)
        have h4 : t < n + 1 := by nlinarith
        have : (⌊t⌋₊ : ℝ) < n + 1 := (Nat.floor_le ht0).trans_lt h4
        have : ⌊t⌋₊ < n + 1 := by exact_mod_cast this
        omega
      · have h3 := Nat.floor_le ht0
        have h4 := Nat.lt_floor_add_one t
        have e : y = a + (t - 1 / 2) / n * (b - a) := by
          rw [ht]; field_simp; ring
        have e2 : y - (a + ⌊t⌋₊ / n * (b - a)) = (t - 1 / 2 - ⌊t⌋₊) * ((b - a) / n) := by
          conv_lhs => rw [e]
          field_simp
          ring
        have e3 : (b - a) / (2 * n) = 1 / 2 * ((b - a) / n) := by field_simp
        rw [e2, e3, abs_mul, abs_of_nonneg (div_nonneg hba.le hn'.le)]
        refine mul_le_mul_of_nonneg_right ?_ (div_nonneg hba.le hn'.le)
        rw [abs_le]
        constructor <;> linarith
  have inside : ∀ (n k : Nat) (a b : ℝ), 0 < n → k ≤ n → a ≤ b → a ≤ a + k / n * (b - a) ∧ a + k / n * (b - a) ≤ b := by
    intro n k a b hn hk hab
    have hn' : (0 : ℝ) < n := by exact_mod_cast hn
    have hk' : (k : ℝ) ≤ n := by exact_mod_cast hk
    have h1 : (k : ℝ) / n ≤ 1 := (div_le_one hn').mpr hk'
    have h0 : 0 ≤ (k : ℝ) / n := by positivity
    constructor <;> nlinarith
  rcases hd with rfl | rfl
  · refine ⟨fun i j x hx k => ?_, ?_, ⟨0, 100, ?_⟩, fun y hy => ?_⟩
    · simp only [gridAt] at hx
      split at hx
      · rename_i hij
        obtain rfl := Option.some.inj hx
        have := inside 100 j (lo 0) (hi 0) (by norm_num) hij.2 (h 0)
        rw [Subsingleton.elim k 0]
        simpa using this
      · cases hx
    · simp only [gridAt]
      rw [if_pos (by simp)]
      refine congrArg some (funext fun k => ?_)
      rw [Subsingleton.elim k 0]; simp
    · simp only [gridAt]
      rw [if_pos (by simp)]
      refine congrArg some (funext fun k => ?_)
      rw [Subsingleton.elim k 0]; simp
    · obtain ⟨k, hk, e⟩ := near 100 (lo 0) (hi 0) (y 0) (by norm_num) (h 0) (hy 0).1 (hy 0).2
      refine ⟨0, k, _, by simp only [gridAt]; rw [if_pos ⟨trivial, hk⟩], fun i => ?_⟩
      rw [Subsingleton.elim i 0]
      simp only [if_true]
      norm_num at e ⊢
      exact e
  · refine ⟨fun i j x hx k => ?_, ?_, ⟨20, 20, ?_⟩, fun y hy => ?_⟩
    · simp only [gridAt] at hx
      split at hx
      · rename_i hij
        obtain rfl := Option.some.inj hx
        have h0 := inside 20 i (lo 0) (hi 0) (by norm_num) hij.1 (h 0)
        have h1 := inside 20 j (lo 1) (hi 1) (by norm_num) hij.2 (h 1)
        fin_cases k
        · simpa using h0
        · simpa using h1
      · cases hx
    · simp only [gridAt]
      rw [if_pos (by omega)]
      refine congrArg some (funext fun k => ?_)
      fin_cases k <;> simp
    · simp only [gridAt]
      rw [if_pos (by omega)]
      refine congrArg some (funext fun k => ?_)
      fin_cases k <;> simp
    · obtain ⟨k, hk, e⟩ := near 20 (lo 0) (hi 0) (y 0) (by norm_num) (h 0) (hy 0).1 (hy 0).2
      obtain ⟨l, hl, e'⟩ := near 20 (lo 1) (hi 1) (y 1) (by norm_num) (h 1) (hy 1).1 (hy 1).2
      refine ⟨k, l, _, by simp only [gridAt]; rw [if_pos ⟨hk, hl⟩], fun i => ?_⟩
      norm_num at e e' ⊢
      fin_cases i
      · simpa using e
      · simpa using e'

/-! ### Predictions on the grid -/

theorem zip_ofFn_get (l : List α) (c : Fin l.length → β) :
    l.zip (List.ofFn c) = (List.finRange l.length).map fun s => (l.get s, c s) := by
  refine List.ext_getElem (by simp) fun i h1 h2 => ?_
  simp

theorem map_get (l : List α) : (List.finRange l.length).map l.get = l := by
  refine List.ext_getElem (by simp) fun i h1 h2 => ?_
  simp

/-- What is drawn at the points of the grid. -/
theorem draw {lo hi : Fin d → ℝ} {l : List (Fin d → ℝ)} {shape : List Nat} (h : getGrid lo hi = .ok (l, shape))
    (i j : Nat) :
    (gridAt lo hi i j = none ∧ ∀ {β : Type} (c : Fin l.length → β), cell (onGrid shape (l.zip (List.ofFn c))) i j = none) ∨
    ∃ s, gridAt lo hi i j = some (l.get s) ∧ ∀ {β : Type} (c : Fin l.length → β),
      cell (onGrid shape (l.zip (List.ofFn c))) i j = some (l.get s, c s) := by
  have h1 := ((C98_grid lo hi).1 l shape h).2 i j
  conv at h1 => lhs; rw [← map_get l, onGrid_map, cell_map]
  have h2 : ∀ {β : Type} (c : Fin l.length → β), cell (onGrid shape (l.zip (List.ofFn c))) i j =
      (cell (onGrid shape (List.finRange l.length)) i j).map fun s => (l.get s, c s) := by
    intro β c
    rw [zip_ofFn_get, onGrid_map, cell_map]
  cases he : cell (onGrid shape (List.finRange l.length)) i j with
  | none =>
    rw [he] at h1
    exact Or.inl ⟨h1.symm, fun c => by rw [h2, he]; rfl⟩
  | some s =>
    rw [he] at h1
    exact Or.inr ⟨s, h1.symm, fun c => by rw [h2, he]; rfl⟩

/-- Every point of the list is at a place of the grid. -/
theorem gridAt_of_mem {lo hi : Fin d → ℝ} {l : List (Fin d → ℝ)} {shape : List Nat} (h : getGrid lo hi = .ok (l, shape))
    {x : Fin d → ℝ} (hx : x ∈ l) : ∃ i j, gridAt lo hi i j = some x := by
  match d, lo, hi with
  | 0, lo, hi => cases h
  | 1, lo, hi =>
    simp only [getGrid, Except.ok.injEq, Prod.mk.injEq] at h
    obtain ⟨rfl, rfl⟩ := h
    obtain ⟨y, hy, rfl⟩ := List.mem_map.mp hx
    obtain ⟨k, hk⟩ := List.mem_iff_getElem?.mp hy
    rw [linspace_getElem?] at hk
    split at hk
    · refine ⟨0, k, ?_⟩
      simp only [gridAt]
      rw [if_pos ⟨trivial, by omega⟩, ← Option.some.inj hk]
      refine congrArg some (congrArg (![·]) ?_)
      push_cast
      ring
    · cases hk
  | 2, lo, hi =>
    simp only [getGrid, Except.ok.injEq, Prod.mk.injEq] at h
    obtain ⟨rfl, rfl⟩ := h
    obtain ⟨y, hy, hx⟩ := List.mem_flatMap.mp hx
    obtain ⟨z, hz, rfl⟩ := List.mem_map.mp hx
    obtain ⟨i, hi'⟩ := List.mem_iff_getElem?.mp hy
    obtain ⟨j, hj⟩ := List.mem_iff_getElem?.mp hz
    rw [linspace_getElem?] at hi' hj
    split at hi'
    · split at hj
      · refine ⟨i, j, ?_⟩
        simp only [gridAt]
        rw [if_pos ⟨by omega, by omega⟩, ← Option.some.inj hi', ← Option.some.inj hj]
        refine congrArg some (congrArg₂ (![·, ·]) ?_ ?_) <;> · push_cast; ring
      · cases hj
    · cases hi'
  | n + 3, lo, hi => cases h

theorem predictRows_ok {fa : Fa} {l : List (Fin d → ℝ)} (hl : l ≠ []) (out : List ℝ) :
    fa.predictRows l = .ok out ↔ ∃ p : Fin l.length → ℝ, out = List.ofFn p ∧ ∀ s, Predicts fa (l.get s) (p s) := by
  unfold Fa.predictRows
  constructor
  · intro h
    obtain ⟨p, hp, h⟩ := except_bind_ok h
    exact ⟨p, (Except.ok.inj h).symm, (C39_batch fa (by simpa using hl) _ p).mp hp⟩
  · rintro ⟨p, rfl, hp⟩
    rw [(C39_batch fa (by simpa using hl) _ p).mpr hp]
    rfl

theorem predictRows_error {fa : Fa} {l : List (Fin d → ℝ)}
    (h : fa.model = none ∨ l = [] ∨ ∃ dim m, fa.model = some ⟨dim, m⟩ ∧ d ≠ dim) :
    fa.predictRows l = .error .valueError := by
  unfold Fa.predictRows
  rw [C39_errors fa _ (h.imp_right (Or.imp_left fun h => by rw [h]; rfl))]
  rfl

/-- plot_predictions_grid draws exactly the predictions on the grid. It succeeds if all of these exist. -/
theorem C98_predictions_grid (fa : Fa) (hasAx : Bool) (lo hi : Fin d → ℝ) :
    (∀ rows, fa.plotPredictionsGrid hasAx lo hi = .ok rows → ∀ i j,
      (gridAt lo hi i j = none ∧ cell rows i j = none) ∨
      ∃ x y, gridAt lo hi i j = some x ∧ cell rows i j = some (x, y) ∧ Predicts fa x y) ∧
    (d = 1 ∨ d = 2 → (∀ i j x, gridAt lo hi i j = some x → ∃ y, Predicts fa x y) →
      ∃ rows, fa.plotPredictionsGrid hasAx lo hi = .ok rows) ∧
    (d ≠ 1 → d ≠ 2 → fa.plotPredictionsGrid hasAx lo hi = .error .valueError) ∧
    ((fa.model = none ∨ ∃ dim m, fa.model = some ⟨dim, m⟩ ∧ d ≠ dim) →
      fa.plotPredictionsGrid hasAx lo hi = .error .valueError) := by
  have ax : ∀ {β : Type} (f : Except PyErr β), f = .error .valueError →
      (fa.axisOr hasAx >>= fun _ => f) = .error .valueError := by
    intro β f hf
    unfold Fa.axisOr Fa.getAxis
    subst hf
    split
    · rfl
    · split
      · rfl
      · split
        · rfl
        · split <;> rfl
  refine ⟨fun rows h i j => ?_, fun hd hp => ?_, fun h1 h2 => ?_, fun h => ?_⟩
  · unfold Fa.plotPredictionsGrid at h
    obtain ⟨-, -, h⟩ := except_bind_ok h
    obtain ⟨⟨l, shape⟩, hg, h⟩ := except_bind_ok h
    obtain ⟨out, ho, h⟩ := except_bind_ok h
    obtain rfl := Except.ok.inj h
    obtain ⟨p, rfl, hp⟩ := (predictRows_ok ((C98_grid lo hi).1 l shape hg).1 out).mp ho
    rcases draw hg i j with ⟨h1, h2⟩ | ⟨s, h1, h2⟩
    · exact Or.inl ⟨h1, h2 p⟩
    · exact Or.inr ⟨_, _, h1, h2 p, hp s⟩
  · obtain ⟨⟨l, shape⟩, hg⟩ := (C98_grid lo hi).2.1 hd
    have hp' : ∀ s : Fin l.length, ∃ y, Predicts fa (l.get s) y := fun s => by
      obtain ⟨i, j, hx⟩ := gridAt_of_mem hg (List.get_mem l s)
      exact hp i j _ hx
    choose p hp' using hp'
    have hne := ((C98_grid lo hi).1 l shape hg).1
    have ho := (predictRows_ok hne _).mpr ⟨p, rfl, hp'⟩
    have hax : fa.axisOr hasAx = .ok () := by
      unfold Fa.axisOr Fa.getAxis
      have h0 := hp' ⟨0, List.length_pos_iff.mpr hne⟩
      cases hm : fa.model with
      | none =>
        rw [Predicts, C39_errors fa _ (Or.inl hm)] at h0
        cases h0
      | some dm =>
        have : d = dm.1 := by
          by_contra hne
          rw [Predicts, C39_errors fa _ (Or.inr (Or.inr ⟨dm.1, dm.2, hm, hne⟩))] at h0
          cases h0
        simp only
        rw [← this]
        rcases hd with rfl | rfl <;> simp
    unfold Fa.plotPredictionsGrid
    rw [hax, hg]
    change ∃ rows, (fa.predictRows l >>= fun o => _) = .ok rows
    rw [ho]
    exact ⟨_, rfl⟩
  · unfold Fa.plotPredictionsGrid
    refine ax _ ?_
    rw [(C98_grid lo hi).2.2 h1 h2]
    rfl
  · unfold Fa.plotPredictionsGrid
    refine ax _ ?_
    cases hg : getGrid lo hi with
    | error e =>
      have : e = .valueError := by
        by_cases h1 : d = 1 ∨ d = 2
        · obtain ⟨r, hr⟩ := (C98_grid lo hi).2.1 h1
          rw [hg] at hr; cases hr
        · rw [(C98_grid lo hi).2.2 (by tauto) (by tauto)] at hg
          exact (Except.error.inj hg).symm
      rw [this]
      rfl
    | ok r =>
      change (fa.predictRows r.1 >>= fun o => _) = _
      rw [predictRows_error (h.imp_right Or.inr)]
      rfl

/-! ### Model parameters -/

theorem ok_bind' {A B : Type} (a : A) (f : A → Except PyErr B) : (Except.ok a >>= f) = f a := rfl

theorem plotBasis_ok {fa : Fa} {m : FaModel d} (hm : fa.model = some ⟨d, m⟩) {lo hi : Fin d → ℝ} {p : ModelPlot d}
    (h : fa.plotBasisFunctions lo hi = .ok p) : ∃ l shape c, getGrid lo hi = .ok (l, shape) ∧
      m.drawn (fun s : Fin l.length => l.get s) = .ok c ∧
      p = { activations := gridValues l shape c.1, lines := gridValues l shape c.2 } := by
  unfold Fa.plotBasisFunctions at h
  obtain ⟨⟨l, shape⟩, hg, h⟩ := except_bind_ok h
  rw [hm] at h
  simp only [dif_pos] at h
  obtain ⟨c, hc, h⟩ := except_bind_ok h
  exact ⟨l, shape, c, hg, hc, (Except.ok.inj h).symm⟩

theorem plotModel_eq {fa : Fa} (h : ∀ o r, fa.params ≠ .wls o r) (hasAx : Bool) (lo hi : Fin d → ℝ) :
    fa.plotModelParameters hasAx lo hi = fa.plotBasisFunctions lo hi := by
  unfold Fa.plotModelParameters
  split
  · rename_i o r hp
    exact absurd hp (h o r)
  · rfl

/-- The values at one place of the grid, for all lines. -/
def Spec.valuesAt (lines : List (List (List ((Fin d → ℝ) × α)))) (i j : Nat) : List (Option ((Fin d → ℝ) × α)) :=
  lines.map fun l => cell l i j

theorem valuesAt_grid {lo hi : Fin d → ℝ} {l : List (Fin d → ℝ)} {shape : List Nat} (h : getGrid lo hi = .ok (l, shape))
    (i j : Nat) :
    (gridAt lo hi i j = none ∧ ∀ {β : Type} (cs : List (Fin l.length → β)),
      valuesAt (gridValues l shape cs) i j = cs.map fun _ => none) ∨
    ∃ s, gridAt lo hi i j = some (l.get s) ∧ ∀ {β : Type} (cs : List (Fin l.length → β)),
      valuesAt (gridValues l shape cs) i j = cs.map fun c => some (l.get s, c s) := by
  rcases draw h i j with ⟨h1, h2⟩ | ⟨s, h1, h2⟩
  · refine Or.inl ⟨h1, fun cs => ?_⟩
    simp only [valuesAt, gridValues, List.map_map]
    exact List.map_congr_left fun c _ => h2 c
  · refine Or.inr ⟨s, h1, fun cs => ?_⟩
    simp only [valuesAt, gridValues, List.map_map]
    exact List.map_congr_left fun c _ => h2 c

/-- FunctionApproximatorRBFN: at every point of the grid, the lines show the activations of the basis functions times
their weights, and sum up to the prediction. -/
theorem C98_rbfn (fa : Fa) (m : RbfnModel d) (hm : fa.model = some ⟨d, .rbfn m⟩) (hp : ∀ o r, fa.params ≠ .wls o r)
    (hasAx : Bool) (lo hi : Fin d → ℝ) (p : ModelPlot d) (h : fa.plotModelParameters hasAx lo hi = .ok p) :
    p.activations = [] ∧ p.lines.length = m.kernels.n ∧ ∃ (h1 : 0 < m.cols) (h2 : m.kernels.n = m.rows),
      ∀ i j, (gridAt lo hi i j = none ∧ ∀ v ∈ valuesAt p.lines i j, v = none) ∨
        ∃ x a, gridAt lo hi i j = some x ∧ m.kernels.activations false (fun _ : Fin 1 => x) = .ok (fun _ => a) ∧
          valuesAt p.lines i j = List.ofFn (fun b => some (x, some (a b * m.weights (Fin.cast h2 b) ⟨0, h1⟩))) ∧
          Predicts fa x (∑ b, a b * m.weights (Fin.cast h2 b) ⟨0, h1⟩) := by
  rw [plotModel_eq hp] at h
  obtain ⟨l, shape, c, hg, hc, rfl⟩ := plotBasis_ok hm h
  simp only [FaModel.drawn, RbfnModel.weighted] at hc
  obtain ⟨cs, hcs, hc⟩ := except_bind_ok hc
  obtain rfl := Except.ok.inj hc
  obtain ⟨act, ha, hcs⟩ := except_bind_ok hcs
  split at hcs
  · rename_i hf
    obtain rfl := Except.ok.inj hcs
    refine ⟨rfl, by simp [gridValues], by omega, hf.2.symm, fun i j => ?_⟩
    rcases valuesAt_grid hg i j with ⟨h1, h2⟩ | ⟨s, h1, h2⟩
    · refine Or.inl ⟨h1, fun v hv => ?_⟩
      rw [h2] at hv
      obtain ⟨_, _, rfl⟩ := List.mem_map.mp hv
      rfl
    · refine Or.inr ⟨_, act s, h1, (activations_batch _ _ _ _).mp ha s, ?_, ?_⟩
      · rw [h2, List.map_map, List.map_ofFn]
        rfl
      · have := rbfn_predict hf ((activations_batch _ _ _ _).mp ha s)
        rw [Predicts, predict_model hm (by norm_num)]
        exact this
  · split at hcs <;> cases hcs

/-- FunctionApproximatorGPR: the same, with one basis function for each training input. -/
theorem C98_gpr (fa : Fa) (m : GprModel d) (hm : fa.model = some ⟨d, .gpr m⟩) (hp : ∀ o r, fa.params ≠ .wls o r)
    (hasAx : Bool) (lo hi : Fin d → ℝ) (p : ModelPlot d) (h : fa.plotModelParameters hasAx lo hi = .ok p) :
    p.activations = [] ∧ p.lines.length = m.kernels.n ∧
      ∀ i j, (gridAt lo hi i j = none ∧ ∀ v ∈ valuesAt p.lines i j, v = none) ∨
        ∃ x a, gridAt lo hi i j = some x ∧ m.kernels.activations false (fun _ : Fin 1 => x) = .ok (fun _ => a) ∧
          valuesAt p.lines i j = List.ofFn (fun b => some (x, some (m.maxCovariance * a b * m.weights b))) ∧
          Predicts fa x (∑ b, m.maxCovariance * a b * m.weights b) := by
  rw [plotModel_eq hp] at h
  obtain ⟨l, shape, c, hg, hc, rfl⟩ := plotBasis_ok hm h
  simp only [FaModel.drawn, GprModel.weighted, gprActivations] at hc
  obtain ⟨cs, hcs, hc⟩ := except_bind_ok hc
  obtain rfl := Except.ok.inj hc
  obtain ⟨act, ha, hcs⟩ := except_bind_ok hcs
  obtain ⟨act', hact, ha'⟩ := except_bind_ok ha
  obtain rfl := Except.ok.inj ha'
  obtain rfl := Except.ok.inj hcs
  refine ⟨rfl, by simp [gridValues], fun i j => ?_⟩
  rcases valuesAt_grid hg i j with ⟨h1, h2⟩ | ⟨s, h1, h2⟩
  · refine Or.inl ⟨h1, fun v hv => ?_⟩
    rw [h2] at hv
    obtain ⟨_, _, rfl⟩ := List.mem_map.mp hv
    rfl
  · have hs := (activations_batch _ _ _ _).mp hact s
    refine Or.inr ⟨_, act' s, h1, hs, ?_, ?_⟩
    · rw [h2, List.map_map, List.map_ofFn]
      rfl
    · rw [Predicts, predict_model hm (by norm_num)]
      refine gpr_predict_of (g := fun _ b => m.maxCovariance * act' s b) ?_
      unfold gprActivations
      rw [hs]
      rfl

/-- FunctionApproximatorLWR: at every point of the grid, the activations of the basis functions are drawn, which are not
negative and sum up to 1. The lines are drawn where their basis function has at least a fifth of the largest
activation, at least one of them at every point. If the object can predict, the prediction is the sum of all lines,
weighted with the activations; hence one that lies between the smallest and the largest value of a line. -/
theorem C98_lwr (fa : Fa) (m : LwrModel d) (hm : fa.model = some ⟨d, .lwr m⟩) (hp : ∀ o r, fa.params ≠ .wls o r)
    (hl : m.lines = m.kernels.n)
    (hasAx : Bool) (lo hi : Fin d → ℝ) (p : ModelPlot d) (h : fa.plotModelParameters hasAx lo hi = .ok p) :
    p.activations.length = m.kernels.n ∧ p.lines.length = m.kernels.n ∧
      ∀ i j, (gridAt lo hi i j = none ∧ (∀ v ∈ valuesAt p.lines i j, v = none) ∧
          ∀ v ∈ valuesAt p.activations i j, v = none) ∨
        ∃ (x : Fin d → ℝ) (a line : Fin m.kernels.n → ℝ), gridAt lo hi i j = some x ∧
          m.kernels.activations true (fun _ : Fin 1 => x) = .ok (fun _ => a) ∧ (∀ b, 0 ≤ a b) ∧ ∑ b, a b = 1 ∧
          (∀ b, line b = ∑ k, x k * m.slopes (Fin.cast hl.symm b) k + m.offsets (Fin.cast hl.symm b)) ∧
          valuesAt p.activations i j = List.ofFn (fun b => some (x, a b)) ∧
          (∃ drawn : Fin m.kernels.n → Option ℝ, valuesAt p.lines i j = List.ofFn (fun b => some (x, drawn b)) ∧
            (∀ b, (drawn b = some (line b) ∧ ∀ b', a b' ≤ 5 * a b) ∨ (drawn b = none ∧ ∃ b', 5 * a b < a b')) ∧
            ∃ b, drawn b = some (line b) ∧ ∀ b', a b' ≤ a b) ∧
          Predicts fa x (∑ b, line b * a b) := by
  rw [plotModel_eq hp] at h
  obtain ⟨l, shape, c, hg, hc, rfl⟩ := plotBasis_ok hm h
  simp only [FaModel.drawn, LwrModel.drawn] at hc
  obtain ⟨act, ha, hc⟩ := except_bind_ok hc
  by_cases hn : m.kernels.n = 0
  · rw [if_pos hn] at hc
    cases hc
  rw [if_neg hn, if_neg (by omega)] at hc
  obtain rfl := Except.ok.inj hc
  have hne : Nonempty (Fin m.kernels.n) := ⟨⟨0, Nat.pos_of_ne_zero hn⟩⟩
  refine ⟨by simp [gridValues], by simp [gridValues, hl], fun i j => ?_⟩
  rcases valuesAt_grid hg i j with ⟨h1, h2⟩ | ⟨s, h1, h2⟩
  · refine Or.inl ⟨h1, fun v hv => ?_, fun v hv => ?_⟩
    · rw [h2] at hv
      obtain ⟨_, _, rfl⟩ := List.mem_map.mp hv
      rfl
    · rw [h2] at hv
      obtain ⟨_, _, rfl⟩ := List.mem_map.mp hv
      rfl
  · have hs := (activations_batch _ _ _ _).mp ha s
    obtain ⟨h0, hsum⟩ := C31_normalized m.kernels hn _ act ha s
    obtain ⟨bm, hbm⟩ := Finite.exists_max (act s)
    have hmax : rowMax (act s) = act s bm :=
      le_antisymm (ciSup_le hbm) (le_ciSup (f := act s) (Finite.bddAbove_range _) bm)
    have hmpos : 0 < act s bm := by
      by_contra hle
      have : ∑ b, act s b ≤ 0 := Finset.sum_nonpos fun b _ => (hbm b).trans (not_lt.mp hle)
      linarith
    refine Or.inr ⟨_, act s, fun b => m.getLines (fun s => l.get s) s (Fin.cast hl.symm b), h1, hs, h0, hsum,
      fun b => rfl, ?_, ⟨fun b => if act s b < 0.2 * act s bm then none
        else some (m.getLines (fun s => l.get s) s (Fin.cast hl.symm b)), ?_, fun b => ?_, ⟨bm, ?_, hbm⟩⟩, ?_⟩
    · rw [h2, List.map_ofFn]
      rfl
    · rw [h2, List.map_ofFn]
      refine List.ext_getElem (by simp [hl]) fun k hk1 hk2 => ?_
      simp only [List.getElem_ofFn, Function.comp, hmax]
      rw [dif_pos (by simpa using hk2)]
      rfl
    · by_cases hb : act s b < 0.2 * act s bm
      · refine Or.inr ⟨if_pos hb, bm, ?_⟩
        norm_num at hb
        linarith
      · refine Or.inl ⟨if_neg hb, fun b' => ?_⟩
        have := hbm b'
        norm_num at hb
        linarith
    · simp only
      rw [if_neg]
      norm_num
      linarith
    · rw [Predicts, predict_model hm (by norm_num)]
      change m.predict _ = _
      unfold LwrModel.predict
      rw [hs]
      change (if h : _ then _ else _) = _
      rw [dif_pos hl]
      refine congrArg Except.ok (funext fun _ => ?_)
      change ∑ l' : Fin m.lines, _ = _
      exact Fintype.sum_equiv (finCongr hl) _ _ fun b => rfl

/-- plot_model_parameters succeeds for all trained objects of one or two dimensions that can predict on the grid, and
fails for all others: before training, for a grid of other dimension, and without axes. -/
theorem C98_model_parameters (fa : Fa) (hasAx : Bool) (lo hi : Fin d → ℝ) :
    (∀ o r, fa.params = .wls o r →
      ((hasAx = true ∨ ∃ dim m, fa.model = some ⟨dim, m⟩ ∧ (dim = 1 ∨ dim = 2)) →
        fa.plotModelParameters hasAx lo hi = .ok ⟨[], []⟩) ∧
      (hasAx = false → (fa.model = none ∨ ∃ dim m, fa.model = some ⟨dim, m⟩ ∧ dim ≠ 1 ∧ dim ≠ 2) →
        fa.plotModelParameters hasAx lo hi = .error .valueError)) ∧
    ((∀ o r, fa.params ≠ .wls o r) →
      (d ≠ 1 → d ≠ 2 → fa.plotModelParameters hasAx lo hi = .error .valueError) ∧
      (d = 1 ∨ d = 2 → fa.model = none → fa.plotModelParameters hasAx lo hi =
        .error (match fa.params with | .gpr _ _ => .keyError | _ => .attributeError)) ∧
      (d = 1 ∨ d = 2 → ∀ (m : FaModel d), fa.model = some ⟨d, m⟩ →
        (∀ i j x, gridAt lo hi i j = some x → ∃ y, Predicts fa x y) →
        (∀ m', m = .lwr m' → m'.kernels.n ≠ 0) → ∃ p, fa.plotModelParameters hasAx lo hi = .ok p) ∧
      (∀ dim (m : FaModel dim), fa.model = some ⟨dim, m⟩ → (∀ m', m = .lwr m' → m'.kernels.n ≠ 1) →
        (d = 1 ∧ 1 < dim → fa.plotModelParameters hasAx lo hi = .error .indexError) ∧
        (d = 2 ∧ dim = 1 → fa.plotModelParameters hasAx lo hi = .error .valueError))) := by
  refine ⟨fun o r hp => ⟨fun h => ?_, fun ha h => ?_⟩, fun hp => ⟨fun h1 h2 => ?_, fun hd hm => ?_,
    fun hd m hm hpr hn => ?_, fun dim m hm hn => ⟨fun h => ?_, fun h => ?_⟩⟩⟩
  · unfold Fa.plotModelParameters
    rw [hp]
    simp only
    have : fa.axisOr hasAx = .ok () := by
      unfold Fa.axisOr Fa.getAxis
      rcases h with rfl | ⟨dim, m, hm, hd⟩
      · rfl
      · rw [hm]
        rcases hd with rfl | rfl <;> cases hasAx <;> rfl
    rw [this]
    rfl
  · unfold Fa.plotModelParameters
    rw [hp]
    simp only
    have : fa.axisOr hasAx = .error .valueError := by
      unfold Fa.axisOr Fa.getAxis
      rw [ha]
      rcases h with hm | ⟨dim, m, hm, h1, h2⟩
      · rw [hm]; rfl
      · rw [hm]
        simp [h1, h2]
    rw [this]
    rfl
  · rw [plotModel_eq hp]
    unfold Fa.plotBasisFunctions
    rw [(C98_grid lo hi).2.2 h1 h2]
    rfl
  · rw [plotModel_eq hp]
    unfold Fa.plotBasisFunctions
    obtain ⟨r, hr⟩ := (C98_grid lo hi).2.1 hd
    rw [hr, hm]
    cases fa.params <;> rfl
  · rw [plotModel_eq hp]
    obtain ⟨⟨l, shape⟩, hg⟩ := (C98_grid lo hi).2.1 hd
    have hne := ((C98_grid lo hi).1 l shape hg).1
    have hall : ∃ o, m.predict (fun s : Fin l.length => l.get s) = .ok o := by
      have : ∀ s : Fin l.length, ∃ y, Predicts fa (l.get s) y := fun s => by
        obtain ⟨i, j, hx⟩ := gridAt_of_mem hg (List.get_mem l s)
        exact hpr i j _ hx
      choose o ho using this
      refine ⟨o, ?_⟩
      rw [← predict_model hm (by simpa using hne)]
      exact (C39_batch fa (by simpa using hne) _ o).mpr ho
    have hdr : ∃ c, m.drawn (fun s : Fin l.length => l.get s) = .ok c := by
      obtain ⟨o, ho⟩ := hall
      cases m with
      | wls m => exact ⟨_, rfl⟩
      | rbfn m =>
        simp only [FaModel.predict, RbfnModel.predict] at ho
        obtain ⟨act, ha, ho⟩ := except_bind_ok ho
        split at ho
        · rename_i hf
          simp only [FaModel.drawn, RbfnModel.weighted, ha, ok_bind', dif_pos hf]
          exact ⟨_, rfl⟩
        · split at ho <;> cases ho
      | gpr m =>
        simp only [FaModel.predict, GprModel.predict] at ho
        obtain ⟨act, ha, ho⟩ := except_bind_ok ho
        simp only [FaModel.drawn, GprModel.weighted, ha]
        exact ⟨_, rfl⟩
      | lwr m =>
        obtain ⟨hl, act, ha, -⟩ := lwr_predict ho
        have hlt : ¬ m.lines < m.kernels.n := by omega
        simp only [FaModel.drawn, LwrModel.drawn, ha, ok_bind', if_neg (hn m rfl), if_neg hlt]
        exact ⟨_, rfl⟩
    obtain ⟨c, hc⟩ := hdr
    unfold Fa.plotBasisFunctions
    rw [hg, ok_bind', hm]
    simp only [dif_pos]
    have hc' : m.drawn (fun s : Fin l.length => l.get s ∘ Fin.cast rfl) = .ok c := hc
    rw [hc']
    exact ⟨_, rfl⟩
  · rw [plotModel_eq hp]
    unfold Fa.plotBasisFunctions
    obtain ⟨r, hr⟩ := (C98_grid lo hi).2.1 (Or.inl h.1)
    rw [hr, hm]
    change (if h : _ then _ else _) = _
    rw [dif_neg (by omega)]
    refine congrArg Except.error ?_
    unfold FaModel.otherDim
    split
    · rename_i m'
      rw [if_neg (hn m' rfl), if_pos (by omega)]
    · rw [if_pos (by omega)]
  · rw [plotModel_eq hp]
    unfold Fa.plotBasisFunctions
    obtain ⟨r, hr⟩ := (C98_grid lo hi).2.1 (Or.inr h.1)
    rw [hr, hm]
    change (if h : _ then _ else _) = _
    rw [dif_neg (by omega)]
    refine congrArg Except.error ?_
    unfold FaModel.otherDim
    split
    · rename_i m'
      rw [if_neg (hn m' rfl), if_neg (by omega)]
    · rw [if_neg (by omega)]

/-- A FunctionApproximatorLWR with one basis function does not use the inputs for the activations, so that a grid of
another dimension raises ValueError in both directions. Without basis functions the maximum raises ValueError, and with
fewer lines than basis functions there is an IndexError. -/
theorem C98_lwr_errors (fa : Fa) (dim : Nat) (m : LwrModel dim) (hm : fa.model = some ⟨dim, .lwr m⟩)
    (hp : ∀ o r, fa.params ≠ .wls o r) (hasAx : Bool) (lo hi : Fin d → ℝ) (hd : d = 1 ∨ d = 2) :
    (m.kernels.n = 1 → d ≠ dim → fa.plotModelParameters hasAx lo hi = .error .valueError) ∧
    (d = dim → (∀ b i, m.kernels.widths b i ≠ 0) →
      (m.kernels.n = 0 → fa.plotModelParameters hasAx lo hi = .error .valueError) ∧
      (m.lines < m.kernels.n → fa.plotModelParameters hasAx lo hi = .error .indexError)) := by
  rw [plotModel_eq hp]
  unfold Fa.plotBasisFunctions
  obtain ⟨r, hr⟩ := (C98_grid lo hi).2.1 hd
  rw [hr, ok_bind', hm]
  refine ⟨fun h1 hne => ?_, fun he hw => ?_⟩
  · simp only [dif_neg hne, FaModel.otherDim, if_pos h1]
    rfl
  · subst he
    obtain ⟨act, ha⟩ := activations_norm_ok m.kernels (fun s : Fin r.1.length => r.1.get s ∘ Fin.cast rfl) hw
    simp only [dif_pos, FaModel.drawn, LwrModel.drawn, ha, ok_bind']
    refine ⟨fun h0 => ?_, fun h0 => ?_⟩
    · rw [if_pos h0]
      rfl
    · rw [if_neg (by omega), if_pos h0]
      rfl

/-- A FunctionApproximatorRBFN whose weights are not one for each basis function cannot be drawn: with one column, or as
many columns as points of the grid (101 or 21 * 21), there are too few or too many rows; otherwise the product with the
activations raises ValueError. -/
theorem C98_rbfn_errors (fa : Fa) (m : RbfnModel d) (hm : fa.model = some ⟨d, .rbfn m⟩)
    (hp : ∀ o r, fa.params ≠ .wls o r) (hasAx : Bool) (lo hi : Fin d → ℝ) (hd : d = 1 ∨ d = 2)
    (hw : ∀ b i, m.kernels.widths b i ≠ 0) (hne : ¬(m.cols = 1 ∧ m.rows = m.kernels.n)) :
    (m.cols = 1 ∨ d = 1 ∧ m.cols = 101 ∨ d = 2 ∧ m.cols = 21 * 21 →
      fa.plotModelParameters hasAx lo hi = .error .indexError) ∧
    (m.cols ≠ 1 → ¬(d = 1 ∧ m.cols = 101) → ¬(d = 2 ∧ m.cols = 21 * 21) →
      fa.plotModelParameters hasAx lo hi = .error .valueError) := by
  rw [plotModel_eq hp]
  unfold Fa.plotBasisFunctions
  obtain ⟨r, hr⟩ := (C98_grid lo hi).2.1 hd
  have hl : d = 1 ∧ r.1.length = 101 ∨ d = 2 ∧ r.1.length = 21 * 21 := by
    match d, lo, hi, hd with
    | 1, lo, hi, _ =>
      simp only [getGrid, Except.ok.injEq] at hr
      rw [← hr]
      exact .inl ⟨rfl, by simp [linspace_length]⟩
    | 2, lo, hi, _ =>
      simp only [getGrid, Except.ok.injEq] at hr
      rw [← hr]
      exact .inr ⟨rfl, by simp [gridTwo, linspace_length]⟩
  rw [hr, ok_bind', hm]
  obtain ⟨act, ha⟩ : ∃ act, m.kernels.activations false (fun s : Fin r.1.length => r.1.get s ∘ Fin.cast rfl) = .ok act := by
    unfold Kernels.activations
    simp only [Bool.false_eq_true, false_and, if_false]
    rw [if_neg (by rintro ⟨s, b, i, h, -⟩; exact hw b i h)]
    exact ⟨_, rfl⟩
  simp only [dif_pos, FaModel.drawn, RbfnModel.weighted, ha, ok_bind', dif_neg hne]
  refine ⟨fun h => ?_, fun h1 h2 h3 => ?_⟩
  · rw [if_pos (by omega)]
    rfl
  · rw [if_neg (by omega)]
    rfl

/-- Hypotheses of `C98_rbfn_errors`: two columns of weights. -/
example : (⟨.rbfn [1] 0.7 0, some ⟨1, .rbfn ⟨⟨1, fun _ _ => 0, fun _ _ => 1⟩, 1, 2, fun _ _ => 3⟩⟩, none⟩ : Fa).plotModelParameters
    false (fun _ : Fin 1 => 0) (fun _ => 1) = .error .valueError :=
  (C98_rbfn_errors _ _ rfl (fun o r h => by cases h) false _ _ (.inl rfl) (fun _ _ => one_ne_zero) (by simp)).2 (by simp)
    (by simp) (by simp)

/-- Hypotheses of `C98_lwr` and `C98_model_parameters`: two inputs, two basis functions. At the corner of the grid which
is the centre of the first one, its line is drawn. -/
example : ∃ (fa : Fa) (m : LwrModel 2) (p : ModelPlot 2), fa.model = some ⟨2, .lwr m⟩ ∧ m.kernels.n = 2 ∧
    fa.plotModelParameters false ![0, 0] ![1, 1] = .ok p ∧ p.lines.length = 2 ∧
    ∃ b : Fin 2, (valuesAt p.lines 0 0)[b.val]? = some (some (![0, 0], some (7 + (b.val : ℝ)))) := by
  let m : LwrModel 2 := ⟨⟨2, ![![0, 0], ![1, 1]], fun _ _ => 1⟩, 2, fun _ _ => 3, ![7, 8]⟩
  let fa : Fa := ⟨.lwr [2, 1] 0.5 0, some ⟨2, .lwr m⟩, none⟩
  have hw : ∀ b i, m.kernels.widths b i ≠ 0 := fun _ _ => one_ne_zero
  have hpr : ∀ x : Fin 2 → ℝ, ∃ y, Predicts fa x y := by
    intro x
    obtain ⟨a, ha⟩ := activations_norm_ok m.kernels (fun _ : Fin 1 => x) hw
    refine ⟨∑ l, m.getLines (fun _ : Fin 1 => x) 0 l * a 0 l, ?_⟩
    rw [Predicts, predict_model (m := .lwr m) rfl (by norm_num)]
    change m.predict _ = _
    unfold LwrModel.predict
    rw [ha, ok_bind', dif_pos rfl]
    refine congrArg Except.ok (funext fun t => ?_)
    rw [Subsingleton.elim t 0]
    rfl
  have hne : ∀ o r, fa.params ≠ .wls o r := fun o r h => by cases h
  obtain ⟨p, hp⟩ := ((C98_model_parameters fa false ![0, 0] ![1, 1]).2 hne).2.2.1 (Or.inr rfl) (.lwr m) rfl
    (fun i j x _ => hpr x) (fun m' h => by cases h; simp [m])
  obtain ⟨-, hl, hall⟩ := C98_lwr fa m rfl hne rfl false _ _ p hp
  refine ⟨fa, m, p, rfl, rfl, hp, hl, ?_⟩
  rcases hall 0 0 with ⟨h, -⟩ | ⟨x, a, line, hx, -, -, -, hline, -, ⟨drawn, hv, -, ⟨b, hb, -⟩⟩, -⟩
  · simp [gridAt] at h
  · refine ⟨b, ?_⟩
    have hx' : x = ![0, 0] := by
      simp [gridAt] at hx
      rw [← hx]
    subst hx'
    have : line b = 7 + (b : Fin 2).val := by
      rw [hline]
      simp only [Fin.sum_univ_two, m]
      obtain ⟨b, hb'⟩ := b
      change b < 2 at hb'
      interval_cases b
      · simp
      · simp
        norm_num
    rw [hv, List.getElem?_ofFn, dif_pos b.2, hb, this]

/-! ### Predictions for given inputs -/

theorem axis_ok {fa : Fa} {m : FaModel d} (hm : fa.model = some ⟨d, m⟩) (hd : d = 1 ∨ d = 2) (hasAx : Bool) :
    fa.axisOr hasAx = .ok () := by
  unfold Fa.axisOr Fa.getAxis
  rw [hm]
  rcases hd with rfl | rfl <;> cases hasAx <;> rfl

theorem model_of_predicts {fa : Fa} {x : Fin d → ℝ} {y : ℝ} (h : Predicts fa x y) : ∃ m, fa.model = some ⟨d, m⟩ := by
  cases hm : fa.model with
  | none =>
    rw [Predicts, C39_errors fa _ (Or.inl hm)] at h
    cases h
  | some dm =>
    obtain ⟨dim, m⟩ := dm
    by_cases he : d = dim
    · subst he
      exact ⟨m, rfl⟩
    · rw [Predicts, C39_errors fa _ (Or.inr (Or.inr ⟨dim, m, hm, he⟩))] at h
      cases h

theorem residuals_ok {inputs : List (Fin d → ℝ)} {targets outputs : List ℝ}
    (h1 : inputs.length ≤ targets.length) (h2 : inputs.length ≤ outputs.length) :
    residualLines inputs targets outputs = .ok ((inputs.zip targets).zip (inputs.zip outputs)) := by
  have h : ∀ i ∈ List.range inputs.length, residualLine inputs targets outputs i =
      .ok ((inputs.getD i 0, targets.getD i 0), (inputs.getD i 0, outputs.getD i 0)) := by
    intro i hi
    rw [List.mem_range] at hi
    unfold residualLine
    rw [List.getElem?_eq_getElem hi, List.getElem?_eq_getElem (hi.trans_le h1),
      List.getElem?_eq_getElem (hi.trans_le h2)]
    simp [List.getD_eq_getElem?_getD, hi, hi.trans_le h1, hi.trans_le h2]
  unfold residualLines
  rw [Fa.mapM_ok_of h]
  refine congrArg Except.ok (List.ext_getElem ?_ fun i hi1 hi2 => ?_)
  · simp; omega
  · simp at hi1
    simp [List.getD_eq_getElem?_getD, hi1, hi1.trans_le h1, hi1.trans_le h2]

theorem plotPredictions_eq {fa : Fa} {inputs : List (Fin d → ℝ)} (hne : inputs ≠ []) (hd : d = 1 ∨ d = 2)
    {p : Fin inputs.length → ℝ} (hp : ∀ s, Predicts fa (inputs.get s) (p s)) (hasAx res : Bool) (ts : List ℝ) :
    fa.plotPredictions hasAx inputs (some ts) res = drawTargets inputs ts (List.ofFn p) res >>= fun drawn =>
      (.ok { style := if inputs.length < 40 then "o" else "-"
             targets := drawn.1
             residuals := drawn.2
             outputs := inputs.zip (List.ofFn p) } : Except PyErr _) := by
  obtain ⟨m, hm⟩ := model_of_predicts (hp ⟨0, List.length_pos_iff.mpr hne⟩)
  unfold Fa.plotPredictions
  rw [axis_ok hm hd, ok_bind', (predictRows_ok hne _).mpr ⟨p, rfl, hp⟩, ok_bind']
  rw [if_neg (by rcases hd with rfl | rfl <;> simp)]
  rfl

/-- plot_predictions, if all inputs can be predicted: it draws the points of the predictions, those of the targets, and
lines between the two; markers for fewer than 40 inputs and a line for more. The number of targets must be that of the
inputs, or 0. In two dimensions one target for several inputs is drawn at all inputs, but then residuals raise an
IndexError. If the targets are None, there is a TypeError. -/
theorem C98_predictions (fa : Fa) (inputs : List (Fin d → ℝ)) (hne : inputs ≠ []) (hd : d = 1 ∨ d = 2)
    (p : Fin inputs.length → ℝ) (hp : ∀ s, Predicts fa (inputs.get s) (p s)) (hasAx res : Bool) :
    (∀ ts : List ℝ, ts.length = inputs.length → fa.plotPredictions hasAx inputs (some ts) res =
      .ok { style := if 40 ≤ inputs.length then "-" else "o"
            targets := inputs.zip ts
            residuals := if res then (inputs.zip ts).zip (inputs.zip (List.ofFn p)) else []
            outputs := inputs.zip (List.ofFn p) }) ∧
    fa.plotPredictions hasAx inputs (some []) res =
      .ok { style := if 40 ≤ inputs.length then "-" else "o"
            targets := [], residuals := [], outputs := inputs.zip (List.ofFn p) } ∧
    fa.plotPredictions hasAx inputs none res = .error .typeError ∧
    (∀ ts : List ℝ, ts ≠ [] → ts.length ≠ inputs.length → (d = 1 ∨ ts.length ≠ 1) →
      fa.plotPredictions hasAx inputs (some ts) res = .error .valueError) ∧
    (∀ t : ℝ, d = 2 → 1 < inputs.length → fa.plotPredictions hasAx inputs (some [t]) res =
      if res then .error .indexError else
        .ok { style := if 40 ≤ inputs.length then "-" else "o"
              targets := inputs.map fun x => (x, t), residuals := [], outputs := inputs.zip (List.ofFn p) }) := by
  have hst : (if inputs.length < 40 then "o" else "-") = if 40 ≤ inputs.length then "-" else "o" := by
    by_cases h : inputs.length < 40
    · rw [if_pos h, if_neg (by omega)]
    · rw [if_neg h, if_pos (by omega)]
  have hpos := List.length_pos_iff.mpr hne
  refine ⟨fun ts hts => ?_, ?_, ?_, fun ts h0 h1 h2 => ?_, fun t h2 h1 => ?_⟩
  · rw [plotPredictions_eq hne hd hp, hst]
    unfold drawTargets targetPoints
    rw [if_neg (by omega), if_pos hts, ok_bind']
    cases res
    · rfl
    · rw [if_pos rfl, residuals_ok hts.ge (by simp)]
      rfl
  · rw [plotPredictions_eq hne hd hp, hst]
    rfl
  · obtain ⟨m, hm⟩ := model_of_predicts (hp ⟨0, hpos⟩)
    unfold Fa.plotPredictions
    rw [axis_ok hm hd, ok_bind', (predictRows_ok hne _).mpr ⟨p, rfl, hp⟩, ok_bind']
    rw [if_neg (by rcases hd with rfl | rfl <;> simp)]
    rfl
  · rw [plotPredictions_eq hne hd hp]
    unfold drawTargets targetPoints
    rw [if_neg (fun h => h0 (List.length_eq_zero_iff.mp h)), if_neg h1]
    by_cases hd2 : d = 2
    · rw [if_pos hd2]
      split
      · rename_i t
        rcases h2 with h2 | h2
        · omega
        · exact absurd rfl h2
      · rfl
    · rw [if_neg hd2]
      rfl
  · rw [plotPredictions_eq hne hd hp, hst]
    unfold drawTargets targetPoints
    rw [if_neg (by simp), if_neg (by simp; omega), if_pos h2]
    simp only [ok_bind']
    cases res
    · rfl
    · rw [if_pos rfl, if_pos rfl]
      have : residualLines inputs [t] (List.ofFn p) = .error .indexError := by
        have hx0 : ∃ x, inputs[0]? = some x := ⟨_, List.getElem?_eq_getElem hpos⟩
        have ho0 : ∃ o, (List.ofFn p)[0]? = some o := ⟨_, List.getElem?_eq_getElem (by simpa using hpos)⟩
        obtain ⟨x0, hx0⟩ := hx0
        obtain ⟨o0, ho0⟩ := ho0
        have e0 : residualLine inputs [t] (List.ofFn p) 0 = .ok ((x0, t), (x0, o0)) := by
          unfold residualLine
          rw [hx0, ho0]
          rfl
        have e1 : residualLine inputs [t] (List.ofFn p) 1 = .error .indexError := by
          unfold residualLine
          cases inputs[1]? <;> rfl
        unfold residualLines
        generalize residualLine inputs [t] (List.ofFn p) = f at e0 e1 ⊢
        obtain ⟨n, hn⟩ : ∃ n, inputs.length = n + 2 := ⟨inputs.length - 2, by omega⟩
        rw [hn, List.range_succ_eq_map, List.range_succ_eq_map, List.map_cons, List.mapM_cons, List.mapM_cons, e0, ok_bind']
        change ((f 1 >>= _) >>= _) = _
        rw [e1]
        rfl
      rw [this]
      rfl

/-! ### The whole plot -/

theorem train_data {s s' : FaData} {x : Fin N → Fin d → ℝ} {t : Fin N → ℝ} {w : Option (Fin N → ℝ)} {save : Bool}
    (h : FaData.train x t w save s = (.ok (), s')) :
    Fa.train x t w s.fa = (.ok (), s'.fa) ∧
      s'.training = if save then some ⟨N, d, x, t⟩ else s.training := by
  unfold FaData.train at h
  rw [PyM.self_bind] at h
  cases hf : Fa.train x t w s.fa with
  | mk r fa =>
    rw [hf] at h
    cases r with
    | error e =>
      simp only at h
      rw [PyM.modify_bind, PyM.raise_apply] at h
      cases h
    | ok u =>
      simp only at h
      rw [PyM.modify_apply] at h
      obtain rfl := (Prod.mk.inj h).2
      exact ⟨rfl, rfl⟩

/-- Training: a failure changes nothing; success trains the object, and replaces the data if they are to be saved. -/
theorem C98_train (s : FaData) (x : Fin N → Fin d → ℝ) (t : Fin N → ℝ) (w : Option (Fin N → ℝ)) (save : Bool) :
    (FaData.train x t w save s).1 = (Fa.train x t w s.fa).1 ∧ (FaData.train x t w save s).2.fa = (Fa.train x t w s.fa).2 ∧
    ((Fa.train x t w s.fa).1 ≠ .ok () → (FaData.train x t w save s).2 = s) ∧
    ((Fa.train x t w s.fa).1 = .ok () → (FaData.train x t w save s).2.training =
      if save then some ⟨N, d, x, t⟩ else s.training) := by
  have hun := (C39_train s.fa x t w).2
  unfold FaData.train
  rw [PyM.self_bind]
  cases hf : Fa.train x t w s.fa with
  | mk r fa =>
    rw [hf] at hun
    cases r with
    | error e =>
      simp only
      rw [PyM.modify_bind, PyM.raise_apply]
      refine ⟨rfl, rfl, fun _ => ?_, fun h => (nomatch h)⟩
      have : fa = s.fa := hun (by simp)
      rw [this]
    | ok u =>
      simp only
      rw [PyM.modify_apply]
      exact ⟨rfl, rfl, fun h => absurd rfl h, fun _ => rfl⟩

/-- What a plot shows that was made for given inputs: all inputs with predictions and targets, and the predictions on the
grid over the box of the inputs. -/
structure Spec.Shows (fa : Fa) (x : Fin N → Fin d → ℝ) (t : Fin N → ℝ) (res params : Bool) (p : FaPlot d) : Prop where
  style : p.predictions.style = if 40 ≤ N then "-" else "o"
  targets : p.predictions.targets = List.ofFn fun s => (x s, t s)
  outputs : ∃ o : Fin N → ℝ, (∀ s, Predicts fa (x s) (o s)) ∧ p.predictions.outputs = List.ofFn (fun s => (x s, o s)) ∧
    p.predictions.residuals = if res then List.ofFn (fun s => ((x s, t s), (x s, o s))) else []
  noParams : params = false → p.modelParameters = none
  grid : ∃ lo hi : Fin d → ℝ, (∀ k, IsLeast (Set.range fun s => x s k) (lo k) ∧
      IsGreatest (Set.range fun s => x s k) (hi k)) ∧ (∀ i j,
      (gridAt lo hi i j = none ∧ cell p.grid i j = none) ∨
      ∃ x y, gridAt lo hi i j = some x ∧ cell p.grid i j = some (x, y) ∧ Predicts fa x y) ∧
    (params = true → ∃ q, p.modelParameters = some q ∧ fa.plotModelParameters true lo hi = .ok q)

theorem zip_ofFn {A B : Type} (f : Fin N → A) (g : Fin N → B) :
    (List.ofFn f).zip (List.ofFn g) = List.ofFn fun s => (f s, g s) := by
  refine List.ext_getElem (by simp) fun i h1 h2 => ?_
  simp

theorem plotFor_shows {fa : Fa} {x : Fin N → Fin d → ℝ} {t : Fin N → ℝ} {hasAx res params : Bool} {p : FaPlot d}
    (h : fa.plotFor hasAx x (some (List.ofFn t)) res params = .ok p) : Shows fa x t res params p ∧ (d = 1 ∨ d = 2) := by
  unfold Fa.plotFor at h
  obtain ⟨-, -, h⟩ := except_bind_ok h
  by_cases hN : N = 0
  · rw [if_pos hN] at h
    cases h
  rw [if_neg hN] at h
  obtain ⟨q, hq, h⟩ := except_bind_ok h
  obtain ⟨mp, hmp, h⟩ := except_bind_ok h
  obtain ⟨g, hg, h⟩ := except_bind_ok h
  obtain rfl := Except.ok.inj h
  have hne : List.ofFn x ≠ [] := by simpa using hN
  have hd : d = 1 ∨ d = 2 := by
    by_contra hd
    rw [(C98_predictions_grid fa true _ _).2.2.1 (by tauto) (by tauto)] at hg
    cases hg
  have hpr : ∃ o : Fin N → ℝ, ∀ s, Predicts fa (x s) (o s) := by
    unfold Fa.plotPredictions at hq
    obtain ⟨-, -, hq⟩ := except_bind_ok hq
    obtain ⟨out, ho, hq⟩ := except_bind_ok hq
    obtain ⟨o, -, ho⟩ := (predictRows_ok hne _).mp ho
    refine ⟨fun s => o (Fin.cast (by simp) s), fun s => ?_⟩
    have := ho (Fin.cast (by simp) s)
    simpa using this
  obtain ⟨o, ho⟩ := hpr
  have e := (C98_predictions fa (List.ofFn x) hne hd (fun s => o (Fin.cast (by simp) s)) (fun s => by
    rw [List.get_ofFn]
    exact ho _) true res).1 (List.ofFn t) (by simp)
  rw [e] at hq
  obtain rfl := Except.ok.inj hq
  have ho' : List.ofFn (fun s : Fin (List.ofFn x).length => o (Fin.cast (by simp) s)) = List.ofFn o := by
    refine List.ext_getElem (by simp) fun i h1 h2 => ?_
    simp
  refine ⟨⟨by simp, ?_, ⟨o, ho, ?_, ?_⟩, fun hp => ?_, ⟨_, _, fun k => ⟨minInput_isLeast x hN k, maxInput_isGreatest x hN k⟩,
    (C98_predictions_grid fa true _ _).1 g hg, fun hp => ?_⟩⟩, hd⟩
  · exact zip_ofFn x t
  · simp only
    rw [ho', zip_ofFn]
  · simp only
    rw [ho', zip_ofFn, zip_ofFn, zip_ofFn]
  · unfold Fa.plotParametersIf at hmp
    rw [hp] at hmp
    exact (Except.ok.inj hmp).symm
  · unfold Fa.plotParametersIf at hmp
    rw [hp, if_pos rfl] at hmp
    cases hc : fa.plotModelParameters true (minInput x) (maxInput x) with
    | error e =>
      rw [hc] at hmp
      cases hmp
    | ok c =>
      rw [hc] at hmp
      exact ⟨c, (Except.ok.inj hmp).symm, rfl⟩

/-- After training with data that are saved, `plot` without arguments shows exactly these data. If nothing is saved,
nothing is drawn. With inputs and as many targets, these are shown. -/
theorem C98_plot (s s' : FaData) (x : Fin N → Fin d → ℝ) (t : Fin N → ℝ) (w : Option (Fin N → ℝ))
    (hasAx res params : Bool) :
    (FaData.train x t w true s = (.ok (), s') → ∀ r, s'.plot hasAx none none res params = .ok r →
      ∃ p : FaPlot d, r = some ⟨d, p⟩ ∧ Shows s'.fa x t res params p) ∧
    (s.training = none → s.plot hasAx none none res params = .ok none) ∧
    (∀ r, s.plot hasAx (some ⟨N, d, x⟩) (some (List.ofFn t)) res params = .ok r →
      ∃ p : FaPlot d, r = some ⟨d, p⟩ ∧ Shows s.fa x t res params p) := by
  refine ⟨fun h r hr => ?_, fun h => ?_, fun r hr => ?_⟩
  · obtain ⟨-, ht⟩ := train_data h
    unfold FaData.plot at hr
    rw [ht] at hr
    simp only [if_true, Option.map_some] at hr
    obtain ⟨p, hp, hr⟩ := except_bind_ok hr
    exact ⟨p, (Except.ok.inj hr).symm, (plotFor_shows hp).1⟩
  · unfold FaData.plot
    rw [h]
  · unfold FaData.plot at hr
    simp only at hr
    obtain ⟨p, hp, hr⟩ := except_bind_ok hr
    exact ⟨p, (Except.ok.inj hr).symm, (plotFor_shows hp).1⟩

/-- `plot` succeeds for inputs in one or two dimensions, with as many targets, if the object predicts all points of the
box. -/
theorem C98_plot_succeeds (s : FaData) (x : Fin N → Fin d → ℝ) (hN : N ≠ 0) (t : Fin N → ℝ) (hd : d = 1 ∨ d = 2)
    (hp : ∀ q : Fin d → ℝ, ∃ y, Predicts s.fa q y) (hasAx res : Bool) :
    ∃ p : FaPlot d, s.plot hasAx (some ⟨N, d, x⟩) (some (List.ofFn t)) res false = .ok (some ⟨d, p⟩) := by
  obtain ⟨y, hy⟩ := hp 0
  obtain ⟨m, hm⟩ := model_of_predicts hy
  choose o ho using hp
  obtain ⟨g, hg⟩ := (C98_predictions_grid s.fa true (minInput x) (maxInput x)).2.1 hd fun i j q _ => ⟨_, ho q⟩
  unfold FaData.plot Fa.plotFor
  simp only
  rw [axis_ok hm hd, ok_bind', if_neg hN, (C98_predictions s.fa (List.ofFn x) (by simpa using hN) hd
    (fun s => o ((List.ofFn x).get s)) (fun s => ho _) true res).1 (List.ofFn t) (by simp), ok_bind']
  simp only [Fa.plotParametersIf, Bool.false_eq_true, if_false, ok_bind', hg]
  exact ⟨_, rfl⟩

/-- Without inputs or targets: an object that was trained, but did not save the data, cannot be plotted for given inputs
(TypeError). -/
theorem C98_no_targets (s : FaData) (hs : s.training = none) (x : Fin N → Fin d → ℝ) (hN : N ≠ 0) (hd : d = 1 ∨ d = 2)
    (hp : ∀ q : Fin d → ℝ, ∃ y, Predicts s.fa q y) (hasAx res params : Bool) :
    s.plot hasAx (some ⟨N, d, x⟩) none res params = .error .typeError := by
  obtain ⟨y, hy⟩ := hp 0
  obtain ⟨m, hm⟩ := model_of_predicts hy
  choose o ho using hp
  unfold FaData.plot Fa.plotFor
  rw [hs]
  simp only [Option.map_none]
  rw [axis_ok hm hd, ok_bind', if_neg hN, (C98_predictions s.fa (List.ofFn x) (by simpa using hN) hd
    (fun s => o ((List.ofFn x).get s)) (fun s => ho _) true res).2.2.1]
  rfl

/-- A line through the origin, fitted to one point. -/
theorem line_train (a b : ℝ) (ha : a = 1) (s : FaData) (hs : s.fa.params = .wls false 0) (save : Bool) :
    ∃ s', FaData.train (fun (_ : Fin 1) (_ : Fin 1) => a) (fun _ => b) none save s = (.ok (), s') ∧
      s'.fa.params = .wls false 0 ∧ ∀ q : Fin 1 → ℝ, Predicts s'.fa q (q 0 * b) := by
  subst ha
  have hdet : ((Matrix.of fun (_ : Fin 1) (_ : Fin 1) => (1 : ℝ)).transpose * Matrix.diagonal (fun _ : Fin 1 => (1 : ℝ)) *
      Matrix.of (fun (_ : Fin 1) (_ : Fin 1) => (1 : ℝ)) + (0 : ℝ) • (1 : Matrix (Fin 1) (Fin 1) ℝ)) = 1 := by
    ext i j
    rw [Subsingleton.elim i 0, Subsingleton.elim j 0]
    simp [Matrix.mul_apply]
  have hsol : solveWls (Matrix.of fun (_ : Fin 1) (_ : Fin 1) => (1 : ℝ)) (fun _ => 1) 0 (fun _ => b) =
      .ok fun _ => b := by
    unfold solveWls
    simp only [hdet]
    rw [if_neg (by simp)]
    refine congrArg Except.ok (funext fun i => ?_)
    simp [Matrix.mulVec, dotProduct, Matrix.mul_apply]
  have hf : Fa.train (fun (_ : Fin 1) (_ : Fin 1) => (1 : ℝ)) (fun _ => b) none s.fa =
      (.ok (), { s.fa with model := some ⟨1, .wls ⟨fun _ => b, none⟩⟩ }) := by
    refine train_of (by norm_num) ?_
    rw [hs]
    simp only [FaMeta.train, wlsTrain, Bool.false_eq_true, if_false, hsol]
    rfl
  have h := C98_train s (fun (_ : Fin 1) (_ : Fin 1) => (1 : ℝ)) (fun _ => b) none save
  rw [hf] at h
  refine ⟨_, Prod.ext h.1 rfl, ?_, fun q => ?_⟩
  · rw [h.2.1]
    exact hs
  · rw [Predicts, h.2.1, predict_model (m := .wls ⟨fun _ => b, none⟩) rfl (by norm_num)]
    refine congrArg Except.ok (funext fun _ => ?_)
    simp [WlsModel.predict]

/-- The claim that an object, once trained, can be plotted for all inputs, and that it shows the data of the last
training if there are no inputs. -/
def C98_statement : Prop := ∀ (N d : Nat) (x : Fin N → Fin d → ℝ) (t : Fin N → ℝ) (w : Option (Fin N → ℝ)) (save : Bool)
    (s s' : FaData), (d = 1 ∨ d = 2) → (∀ q : Fin d → ℝ, ∃ y, Predicts s'.fa q y) →
    FaData.train x t w save s = (.ok (), s') →
    (∃ r, s'.plot false (some ⟨N, d, x⟩) none true false = .ok r) ∧
    (∀ p : FaPlot d, s'.plot false none none true false = .ok (some ⟨d, p⟩) → Shows s'.fa x t true false p)

/-- The first part fails if the data are not saved. -/
theorem C98_refuted : ¬C98_statement := by
  intro h
  obtain ⟨s', hs', -, hp⟩ := line_train 1 2 rfl (FaData.new (.wls false 0)) rfl false
  obtain ⟨⟨r, hr⟩, -⟩ := h 1 1 _ _ none false _ s' (Or.inl rfl) (fun q => ⟨_, hp q⟩) hs'
  rw [C98_no_targets s' ((train_data hs').2) _ (by norm_num) (Or.inl rfl) (fun q => ⟨_, hp q⟩)] at hr
  cases hr

/-- The second part fails if the object was trained before with data that were saved: these are shown. -/
theorem C98_stale_refuted : ∃ (s s' s'' : FaData) (x : Fin 1 → Fin 1 → ℝ) (t t' : Fin 1 → ℝ),
    FaData.train x t none true s = (.ok (), s') ∧ FaData.train x t' none false s' = (.ok (), s'') ∧
    (∃ p : FaPlot 1, s''.plot false none none true false = .ok (some ⟨1, p⟩) ∧ Shows s''.fa x t true false p ∧
      ¬Shows s''.fa x t' true false p) := by
  obtain ⟨s', hs', hw', -⟩ := line_train 1 2 rfl (FaData.new (.wls false 0)) rfl true
  obtain ⟨s'', hs'', -, hp⟩ := line_train 1 3 rfl s' hw' false
  have ht : s''.training = some ⟨1, 1, fun _ _ => 1, fun _ => 2⟩ :=
    ((train_data hs'').2).trans (train_data hs').2
  obtain ⟨p, hpl⟩ := C98_plot_succeeds s'' (fun (_ : Fin 1) (_ : Fin 1) => (1 : ℝ)) (by norm_num) (fun _ => 2) (Or.inl rfl)
    (fun q => ⟨_, hp q⟩) false true
  have hsh := (C98_plot s'' s'' (fun (_ : Fin 1) (_ : Fin 1) => (1 : ℝ)) (fun _ => 2) none false true false).2.2 _ hpl
  obtain ⟨p', hp', hsh⟩ := hsh
  obtain rfl : p = p' := by simpa using hp'
  refine ⟨_, s', s'', _, _, _, hs', hs'', p, ?_, hsh, fun h => ?_⟩
  · rw [← hpl]
    unfold FaData.plot
    rw [ht]
    rfl
  · have := h.targets.symm.trans hsh.targets
    simp at this

/-- With the data saved, both parts hold. -/
theorem C98_partial (x : Fin N → Fin d → ℝ) (t : Fin N → ℝ) (w : Option (Fin N → ℝ)) (s s' : FaData) (hd : d = 1 ∨ d = 2)
    (hp : ∀ q : Fin d → ℝ, ∃ y, Predicts s'.fa q y) (h : FaData.train x t w true s = (.ok (), s')) :
    (∃ p : FaPlot d, s'.plot false (some ⟨N, d, x⟩) none true false = .ok (some ⟨d, p⟩) ∧ Shows s'.fa x t true false p) ∧
    ∃ p : FaPlot d, s'.plot false none none true false = .ok (some ⟨d, p⟩) ∧ Shows s'.fa x t true false p := by
  obtain ⟨hf, ht⟩ := train_data h
  rw [if_pos rfl] at ht
  obtain ⟨p, hpl⟩ := C98_plot_succeeds s' x (train_ok hf).1 t hd hp false true
  obtain ⟨p', hp', hsh⟩ := (C98_plot s' s' x t none false true false).2.2 _ hpl
  obtain rfl : p = p' := by simpa using hp'
  refine ⟨⟨p, ?_, hsh⟩, p, ?_, hsh⟩
  · rw [← hpl]
    unfold FaData.plot
    rw [ht]
    rfl
  · rw [← hpl]
    unfold FaData.plot
    rw [ht]
    rfl

/-- Hypotheses of `C98_partial` and `C98_plot_succeeds`: the line through a point. -/
example : ∃ s', FaData.train (fun (_ : Fin 1) (_ : Fin 1) => (1 : ℝ)) (fun _ => 2) none true (FaData.new (.wls false 0)) =
    (.ok (), s') ∧ ∃ p : FaPlot 1, s'.plot false none none true false = .ok (some ⟨1, p⟩) ∧
      cell p.grid 0 50 = some (![1], 2) := by
  obtain ⟨s', hs', -, hp⟩ := line_train 1 2 rfl (FaData.new (.wls false 0)) rfl true
  obtain ⟨-, p, hpl, hsh⟩ := C98_partial _ _ none _ s' (Or.inl rfl) (fun q => ⟨_, hp q⟩) hs'
  refine ⟨s', hs', p, hpl, ?_⟩
  obtain ⟨lo, hi, hb, hg, -⟩ := hsh.grid
  have hlo : lo 0 = 1 := by simpa using ((hb 0).1.1).choose_spec.symm
  have hhi : hi 0 = 1 := by simpa using ((hb 0).2.1).choose_spec.symm
  rcases hg 0 50 with ⟨h, -⟩ | ⟨x, y, h1, h2, h3⟩
  · simp [gridAt] at h
  · simp [gridAt, hlo, hhi] at h1
    subst h1
    have := (hp ![1]).symm.trans h3
    have h4 := congrFun (Except.ok.inj this) 0
    rw [h2, ← h4]
    simp

end

end Verif
