import Verif.Model.Updaters
import Verif.Spec.Optimisation
import Mathlib.Data.List.Sort
import Mathlib.Algebra.Order.BigOperators.Group.List
import Mathlib.Algebra.BigOperators.Ring.List
import Mathlib.Tactic.Linarith
import Mathlib.Tactic.NormNum
import Mathlib.Tactic.FieldSimp
import Mathlib.Tactic.Ring

/- C48, C49: weights from costs. -/

set_option autoImplicit false

namespace Verif

open Spec

/-! ### Helpers -/

theorem foldl_max_spec (l : List ℝ) (x : ℝ) :
    l.foldl max x ∈ x :: l ∧ ∀ y ∈ x :: l, y ≤ l.foldl max x := by
  induction l generalizing x with
  | nil => simp
  | cons a l ih =>
    obtain ⟨h1, h2⟩ := ih (max x a)
    rw [List.foldl_cons]
    refine ⟨?_, fun y hy => ?_⟩
    · rcases List.mem_cons.mp h1 with h | h
      · rw [h]
        rcases max_choice x a with h' | h' <;> rw [h'] <;> simp
      · simp [h]
    · have hm := h2 (max x a) (by simp)
      rcases List.mem_cons.mp hy with h | h
      · rw [h]; exact (le_max_left x a).trans hm
      rcases List.mem_cons.mp h with h | h
      · rw [h]; exact (le_max_right x a).trans hm
      · exact h2 y (by simp [h])

theorem foldl_min_spec (l : List ℝ) (x : ℝ) :
    l.foldl min x ∈ x :: l ∧ ∀ y ∈ x :: l, l.foldl min x ≤ y := by
  induction l generalizing x with
  | nil => simp
  | cons a l ih =>
    obtain ⟨h1, h2⟩ := ih (min x a)
    rw [List.foldl_cons]
    refine ⟨?_, fun y hy => ?_⟩
    · rcases List.mem_cons.mp h1 with h | h
      · rw [h]
        rcases min_choice x a with h' | h' <;> rw [h'] <;> simp
      · simp [h]
    · have hm := h2 (min x a) (by simp)
      rcases List.mem_cons.mp hy with h | h
      · rw [h]; exact hm.trans (min_le_left x a)
      rcases List.mem_cons.mp h with h | h
      · rw [h]; exact hm.trans (min_le_right x a)
      · exact h2 y (by simp [h])

theorem pyMax_iff (l : List ℝ) (m : ℝ) : pyMax l = some m ↔ m ∈ l ∧ ∀ y ∈ l, y ≤ m := by
  cases l with
  | nil => simp [pyMax]
  | cons x l =>
    obtain ⟨h1, h2⟩ := foldl_max_spec l x
    simp only [pyMax, Option.some.injEq]
    constructor
    · rintro rfl; exact ⟨h1, h2⟩
    · rintro ⟨h3, h4⟩; exact le_antisymm (h4 _ h1) (h2 _ h3)

theorem pyMin_iff (l : List ℝ) (m : ℝ) : pyMin l = some m ↔ m ∈ l ∧ ∀ y ∈ l, m ≤ y := by
  cases l with
  | nil => simp [pyMin]
  | cons x l =>
    obtain ⟨h1, h2⟩ := foldl_min_spec l x
    simp only [pyMin, Option.some.injEq]
    constructor
    · rintro rfl; exact ⟨h1, h2⟩
    · rintro ⟨h3, h4⟩; exact le_antisymm (h2 _ h3) (h4 _ h1)

theorem exists_pyMax {l : List ℝ} (h : l ≠ []) : ∃ m, pyMax l = some m := by
  cases l with
  | nil => exact absurd rfl h
  | cons x l => exact ⟨_, rfl⟩

theorem exists_pyMin {l : List ℝ} (h : l ≠ []) : ∃ m, pyMin l = some m := by
  cases l with
  | nil => exact absurd rfl h
  | cons x l => exact ⟨_, rfl⟩

theorem totalCosts_eq {costs : List (List ℝ)} (h : ∀ c ∈ costs, c ≠ []) :
    totalCosts costs = .ok (total costs) := by
  induction costs with
  | nil => rfl
  | cons c costs ih =>
    have ih := ih fun c hc => h c (List.mem_cons_of_mem _ hc)
    cases c with
    | nil => exact absurd rfl (h [] (by simp))
    | cons x r =>
      unfold totalCosts at ih ⊢
      rw [List.mapM_cons, ih]
      rfl

theorem totalCosts_ok {costs : List (List ℝ)} {c : List ℝ} (h : totalCosts costs = .ok c) :
    c = total costs ∧ ∀ r ∈ costs, r ≠ [] := by
  have hall : ∀ r ∈ costs, r ≠ [] := by
    induction costs generalizing c with
    | nil => simp
    | cons r costs ih =>
      unfold totalCosts at h ih
      rw [List.mapM_cons] at h
      cases r with
      | nil => cases h
      | cons x r =>
        cases h2 : costs.mapM firstCost with
        | error e => rw [h2] at h; cases h
        | ok d =>
          intro s hs
          rcases List.mem_cons.mp hs with h' | h'
          · rw [h']; simp
          · exact ih h2 s h'
  refine ⟨?_, hall⟩
  rw [totalCosts_eq hall] at h
  exact (Except.ok.inj h).symm

theorem total_length (costs : List (List ℝ)) : (total costs).length = costs.length := by
  simp [total]

/-- The weight of one sample before normalisation, PI-BB. -/
noncomputable def phi (h lo hi x : ℝ) : ℝ :=
  if hi - lo = 0 then 1 else Real.exp (-h * (x - lo) / (hi - lo))

theorem piBB_eq {c : List ℝ} {lo hi : ℝ} (h : ℝ) (hlo : pyMin c = some lo)
    (hhi : pyMax c = some hi) : piBBWeights c h = .ok (c.map (phi h lo hi)) := by
  unfold piBBWeights
  rw [hlo, hhi]
  dsimp only
  by_cases h0 : hi - lo = 0
  · rw [if_pos h0]
    congr 1
    have : phi h lo hi = fun _ => 1 := by funext x; simp [phi, h0]
    rw [this, List.map_const']
  · rw [if_neg h0, List.map_map]
    congr 2
    funext x
    simp [phi, h0]

theorem phi_pos (h lo hi x : ℝ) : 0 < phi h lo hi x := by
  unfold phi; split_ifs
  · exact one_pos
  · exact Real.exp_pos _

theorem sum_pos_of_mem {w : List ℝ} (hn : ∀ x ∈ w, 0 ≤ x) {x : ℝ} (hx : x ∈ w) (hp : 0 < x) :
    0 < w.sum := hp.trans_le (List.single_le_sum hn x hx)

theorem sum_map_div (w : List ℝ) (s : ℝ) : (w.map fun x => x / s).sum = w.sum / s := by
  induction w with
  | nil => simp
  | cons a w ih => simp only [List.map_cons, List.sum_cons, ih]; ring

theorem normalise_eq {w : List ℝ} (h : w.sum ≠ 0) :
    normalise w = .ok (w.map fun x => x / w.sum) := by
  unfold normalise
  rw [if_neg, if_neg h]
  rintro rfl
  exact h rfl

theorem normalise_ok {w w' : List ℝ} (h : normalise w = .ok w') :
    w'.length = w.length ∧ (w ≠ [] → w.sum ≠ 0) ∧ w' = w.map fun x => x / w.sum := by
  unfold normalise at h
  by_cases h0 : w = []
  · rw [if_pos h0] at h; cases h; subst h0; simp
  · rw [if_neg h0] at h
    by_cases h1 : w.sum = 0
    · rw [if_pos h1] at h; cases h
    · rw [if_neg h1] at h; cases h; exact ⟨by simp, fun _ => h1, rfl⟩

theorem normalise_prob {w w' : List ℝ} (h : normalise w = .ok w') (hne : w ≠ [])
    (hs : (∀ x ∈ w, 0 ≤ x) ∨ ∀ x ∈ w, x ≤ 0) : IsProb w' := by
  obtain ⟨-, h1, rfl⟩ := normalise_ok h
  have h1 := h1 hne
  refine ⟨fun x hx => ?_, ?_⟩
  · obtain ⟨y, hy, rfl⟩ := List.mem_map.mp hx
    rcases hs with hs | hs
    · exact div_nonneg (hs y hy) (List.sum_nonneg hs)
    · refine div_nonneg_of_nonpos (hs y hy) ?_
      have := List.sum_nonneg (l := w.map fun x => -x) (by
        intro z hz
        obtain ⟨u, hu, rfl⟩ := List.mem_map.mp hz
        linarith [hs u hu])
      have e : ∀ l : List ℝ, (l.map fun x => -x).sum = -l.sum := by
        intro l
        induction l with
        | nil => simp
        | cons a l ih => simp only [List.map_cons, List.sum_cons, ih]; ring
      rw [e] at this
      linarith
  · rw [sum_map_div, div_self h1]

theorem foldl_set_get (js : List Nat) (v : ℝ) (w : List ℝ) (i : Nat) :
    (js.foldl (fun w i => w.set i v) w)[i]? =
      if i ∈ js ∧ i < w.length then some v else w[i]? := by
  induction js generalizing w with
  | nil => simp
  | cons j js ih =>
    rw [List.foldl_cons, ih, List.length_set]
    by_cases hi : i ∈ js
    · by_cases hl : i < w.length
      · simp [hi, hl]
      · simp [hl, List.getElem?_eq_none (not_lt.mp hl)]
    · by_cases hj : i = j
      · subst hj
        by_cases hl : i < w.length
        · simp [hi, hl]
        · simp [hl, List.getElem?_eq_none (not_lt.mp hl)]
      · rw [List.getElem?_set_ne (Ne.symm hj)]
        simp [hi, hj]

theorem foldl_set_length (js : List Nat) (v : ℝ) (w : List ℝ) :
    (js.foldl (fun w i => w.set i v) w).length = w.length := by
  induction js generalizing w with
  | nil => rfl
  | cons j js ih => rw [List.foldl_cons, ih, List.length_set]

theorem foldl_set_mem (js : List Nat) (v : ℝ) (w : List ℝ) {x : ℝ}
    (h : x ∈ js.foldl (fun w i => w.set i v) w) : x ∈ w ∨ x = v := by
  obtain ⟨i, hi⟩ := List.mem_iff_getElem?.mp h
  rw [foldl_set_get] at hi
  split_ifs at hi with hc
  · exact .inr (Option.some.inj hi).symm
  · exact .inl (List.mem_iff_getElem?.mpr ⟨i, hi⟩)

theorem cemWeights_ok {idx : List Nat} {mu : Int} {n : Nat} {w : List ℝ}
    (h : cemWeights idx mu (List.replicate n 0) = .ok w) :
    w.length = n ∧ ((∀ x ∈ w, 0 ≤ x) ∨ ∀ x ∈ w, x ≤ 0) := by
  unfold cemWeights at h
  by_cases h0 : mu = 0
  · rw [if_pos h0] at h; cases h
  rw [if_neg h0] at h
  cases h
  refine ⟨by rw [foldl_set_length]; simp, ?_⟩
  generalize (if mu < 0 then List.take (idx.length - (-mu).toNat) idx else List.take mu.toNat idx) =
    js
  have key : ∀ x ∈ js.foldl (fun w i => w.set i (1 / (mu : ℝ))) (List.replicate n 0),
      x = 0 ∨ x = 1 / (mu : ℝ) := fun x hx => by
    rcases foldl_set_mem _ _ _ hx with h | h
    · exact .inl (List.eq_of_mem_replicate h)
    · exact .inr h
  rcases lt_or_gt_of_ne h0 with hm | hm
  · right
    intro x hx
    have : (mu : ℝ) < 0 := by exact_mod_cast hm
    rcases key x hx with h | h
    · rw [h]
    · rw [h]; exact (one_div_neg.mpr this).le
  · left
    intro x hx
    have : (0 : ℝ) < mu := by exact_mod_cast hm
    rcases key x hx with h | h
    · rw [h]
    · rw [h]; exact (one_div_pos.mpr this).le

/-- The CMA-ES weight of rank `r` before normalisation. -/
noncomputable def gamma (mu : Int) (r : Nat) : ℝ :=
  Real.log ((mu : ℝ) + 1 / 2) - Real.log ((r : ℝ) + 1)

theorem gamma_pos {mu : Int} {r : Nat} (h : (r : Int) < mu) : 0 < gamma mu r := by
  unfold gamma
  have h1 : (r : ℝ) + 1 ≤ mu := by exact_mod_cast h
  have h2 : (0 : ℝ) ≤ r := Nat.cast_nonneg r
  have := Real.log_lt_log (by linarith : (0 : ℝ) < (r : ℝ) + 1) (by linarith : (r : ℝ) + 1 < mu + 1 / 2)
  linarith

theorem gamma_anti {mu : Int} {r s : Nat} (h : r ≤ s) : gamma mu s ≤ gamma mu r := by
  unfold gamma
  have h2 : (0 : ℝ) ≤ r := Nat.cast_nonneg r
  have h3 : (r : ℝ) ≤ s := by exact_mod_cast h
  have := Real.log_le_log (by linarith : (0 : ℝ) < (r : ℝ) + 1) (by linarith : (r : ℝ) + 1 ≤ s + 1)
  linarith

theorem cmaWeights_ok {idx : List Nat} {mu : Int} {n : Nat} {w : List ℝ}
    (h : cmaWeights idx mu (List.replicate n 0) = .ok w) :
    w.length = n ∧ ∀ x ∈ w, 0 ≤ x := by
  unfold cmaWeights at h
  have gen : ∀ (l : List Nat) (w0 w : List ℝ), (∀ ii ∈ l, (ii : Int) < mu) →
      (∀ x ∈ w0, 0 ≤ x) → l.foldlM (cmaStep idx mu) w0 = .ok w → w.length = w0.length ∧ ∀ x ∈ w, 0 ≤ x := by
    intro l
    induction l with
    | nil => intro w0 w _ h0 h; cases h; exact ⟨rfl, h0⟩
    | cons a l ih =>
      intro w0 w hl h0 h
      rw [List.foldlM_cons] at h
      unfold cmaStep at h
      cases hi : idx[a]? with
      | none => rw [hi] at h; cases h
      | some i =>
        rw [hi] at h
        obtain ⟨h1, h2⟩ := ih _ w (fun ii hii => hl ii (List.mem_cons_of_mem _ hii)) (by
          intro x hx
          rcases List.mem_or_eq_of_mem_set hx with h' | h'
          · exact h0 x h'
          · rw [h']; exact (gamma_pos (hl a (by simp))).le) h
        exact ⟨by rw [h1, List.length_set], h2⟩
  obtain ⟨h1, h2⟩ := gen _ _ _ (by intro ii hii; have := List.mem_range.mp hii; omega) (by
    intro x hx; rw [List.eq_of_mem_replicate hx]) h
  exact ⟨by rw [h1]; simp, h2⟩

/-! ### C48 -/

/-- C48: whatever the method and the eliteness, whenever `costs_to_weights` returns weights, there
is one per sample, and they form a probability vector. -/
theorem C48_probability (argsort : List ℝ → List Nat) (costs : List (List ℝ)) (method : String)
    (elite : Elite) (w : List ℝ) (h : costsToWeights argsort costs method elite = .ok w) :
    w.length = costs.length ∧ (costs ≠ [] → IsProb w) := by
  unfold costsToWeights at h
  cases hc : totalCosts costs with
  | error e => rw [hc] at h; cases h
  | ok c =>
    rw [hc] at h
    obtain ⟨rfl, -⟩ := totalCosts_ok hc
    have hlen := total_length costs
    have piBB : ∀ x, (piBBWeights (total costs) x >>= normalise) = .ok w →
        w.length = costs.length ∧ (costs ≠ [] → IsProb w) := by
      intro x h
      cases hp : piBBWeights (total costs) x with
      | error e => rw [hp] at h; cases h
      | ok v =>
        rw [hp] at h
        change normalise v = _ at h
        by_cases hne : total costs = []
        · rw [hne] at hp; cases hp
        obtain ⟨lo, hlo⟩ := exists_pyMin hne
        obtain ⟨hi, hhi⟩ := exists_pyMax hne
        rw [piBB_eq x hlo hhi] at hp
        cases hp
        refine ⟨by rw [(normalise_ok h).1, List.length_map, hlen], fun _ =>
          normalise_prob h (by simpa using hne) (.inl ?_)⟩
        intro y hy
        obtain ⟨z, -, rfl⟩ := List.mem_map.mp hy
        exact (phi_pos _ _ _ _).le
    change (if method = "PI-BB" then piBBWeights (total costs) elite.toReal >>= normalise else _) =
      _ at h
    by_cases h1 : method = "PI-BB"
    · rw [if_pos h1] at h
      exact piBB _ h
    rw [if_neg h1] at h
    by_cases h2 : method = "CEM" ∨ method = "CMA-ES"
    swap
    · rw [if_neg h2] at h
      exact piBB _ h
    rw [if_pos h2] at h
    cases elite with
    | float x => cases h
    | int mu =>
      dsimp only at h
      have fin : ∀ v, v.length = (total costs).length → ((∀ x ∈ v, 0 ≤ x) ∨ ∀ x ∈ v, x ≤ 0) →
          normalise v = .ok w → w.length = costs.length ∧ (costs ≠ [] → IsProb w) := by
        intro v hv hs hn
        refine ⟨by rw [(normalise_ok hn).1, hv, hlen], fun hne => normalise_prob hn ?_ hs⟩
        intro he
        rw [he, hlen] at hv
        exact hne (List.length_eq_zero_iff.mp hv.symm)
      by_cases h3 : method = "CEM"
      · rw [if_pos h3] at h
        cases hp : cemWeights (argsort (total costs)) mu (List.replicate (total costs).length 0) with
        | error e => rw [hp] at h; cases h
        | ok v =>
          rw [hp] at h
          obtain ⟨a, b⟩ := cemWeights_ok hp
          exact fin v a b h
      · rw [if_neg h3] at h
        cases hp : cmaWeights (argsort (total costs)) mu (List.replicate (total costs).length 0) with
        | error e => rw [hp] at h; cases h
        | ok v =>
          rw [hp] at h
          obtain ⟨a, b⟩ := cmaWeights_ok hp
          exact fin v a (.inl b) h

/-- C48: only the total cost (the first component) of each sample matters. -/
theorem C48_total_only (argsort : List ℝ → List Nat) (costs costs' : List (List ℝ))
    (method : String) (elite : Elite) (h : costs.map List.head? = costs'.map List.head?) :
    costsToWeights argsort costs method elite = costsToWeights argsort costs' method elite := by
  have key : totalCosts costs = totalCosts costs' := by
    induction costs generalizing costs' with
    | nil =>
      cases costs' with
      | nil => rfl
      | cons c costs' => simp at h
    | cons c costs ih =>
      cases costs' with
      | nil => simp at h
      | cons c' costs' =>
        simp only [List.map_cons, List.cons.injEq] at h
        have := ih costs' h.2
        unfold totalCosts at this ⊢
        rw [List.mapM_cons, List.mapM_cons, this]
        cases c <;> cases c' <;> simp at h <;> simp [h, firstCost]
  unfold costsToWeights
  rw [key]

/-- The explicit form of the PI-BB weights, for `PI-BB` and for unknown method names. -/
theorem piBB_run (argsort : List ℝ → List Nat) (costs : List (List ℝ)) (method : String)
    (elite : Elite) (hne : costs ≠ []) (hr : ∀ r ∈ costs, r ≠ []) (h1 : method ≠ "CEM")
    (h2 : method ≠ "CMA-ES") (lo hi : ℝ) (hlo : pyMin (total costs) = some lo)
    (hhi : pyMax (total costs) = some hi) :
    costsToWeights argsort costs method elite = .ok ((total costs).map fun x =>
        phi elite.toReal lo hi x / ((total costs).map (phi elite.toReal lo hi)).sum) ∧
      0 < ((total costs).map (phi elite.toReal lo hi)).sum := by
  have hpos : 0 < ((total costs).map (phi elite.toReal lo hi)).sum := by
    cases costs with
    | nil => exact absurd rfl hne
    | cons c costs =>
      refine sum_pos_of_mem ?_ (x := phi elite.toReal lo hi (c.headD 0)) (by simp [total])
        (phi_pos _ _ _ _)
      intro x hx
      obtain ⟨z, -, rfl⟩ := List.mem_map.mp hx
      exact (phi_pos _ _ _ _).le
  refine ⟨?_, hpos⟩
  have key : (piBBWeights (total costs) elite.toReal >>= normalise) = .ok ((total costs).map fun x =>
      phi elite.toReal lo hi x / ((total costs).map (phi elite.toReal lo hi)).sum) := by
    rw [piBB_eq _ hlo hhi]
    change normalise _ = _
    rw [normalise_eq hpos.ne', List.map_map]
    rfl
  unfold costsToWeights
  rw [totalCosts_eq hr]
  change (if method = "PI-BB" then piBBWeights (total costs) elite.toReal >>= normalise else _) = _
  split_ifs with h3 h4
  · exact key
  · rcases h4 with h4 | h4
    · exact absurd h4 h1
    · exact absurd h4 h2
  · exact key

/-- C48, PI-BB: the weights are positive; a sample with lower cost never gets a lower weight, and
gets a strictly higher one if `h > 0`; equal costs give equal weights. The formula is
`exp(-h (c - min) / (max - min))`, up to normalisation. Missing compared to the full claim: negative
`h`, for which the order is reversed (`C48_order_refuted`). -/
theorem C48_pibb_order_partial (argsort : List ℝ → List Nat) (costs : List (List ℝ))
    (method : String) (elite : Elite) (hne : costs ≠ []) (hr : ∀ r ∈ costs, r ≠ [])
    (h1 : method ≠ "CEM") (h2 : method ≠ "CMA-ES") (hh : 0 ≤ elite.toReal) :
    ∃ w, costsToWeights argsort costs method elite = .ok w ∧ (∀ x ∈ w, 0 < x) ∧
      ∀ (i j : Nat) (ci cj wi wj : ℝ), (total costs)[i]? = some ci → (total costs)[j]? = some cj →
        w[i]? = some wi → w[j]? = some wj →
        (ci ≤ cj → wj ≤ wi) ∧ (ci = cj → wi = wj) ∧
        (0 < elite.toReal → ci < cj → wj < wi) ∧
        ∀ lo hi, lo ∈ total costs → hi ∈ total costs → (∀ c ∈ total costs, lo ≤ c ∧ c ≤ hi) →
          lo < hi → wj = wi * Real.exp (-elite.toReal * (cj - ci) / (hi - lo)) := by
  have hne' : total costs ≠ [] := by simpa [total] using hne
  obtain ⟨lo, hlo⟩ := exists_pyMin hne'
  obtain ⟨hi, hhi⟩ := exists_pyMax hne'
  obtain ⟨hrun, hpos⟩ := piBB_run argsort costs method elite hne hr h1 h2 lo hi hlo hhi
  refine ⟨_, hrun, ?_, ?_⟩
  · intro x hx
    obtain ⟨z, -, rfl⟩ := List.mem_map.mp hx
    exact div_pos (phi_pos _ _ _ _) hpos
  intro i j ci cj wi wj e1 e2 e3 e4
  rw [List.getElem?_map, e1, Option.map_some, Option.some.injEq] at e3
  rw [List.getElem?_map, e2, Option.map_some, Option.some.injEq] at e4
  have hle : lo ≤ hi := ((pyMin_iff _ _).mp hlo).2 _ ((pyMax_iff _ _).mp hhi).1
  refine ⟨?_, ?_, ?_, ?_⟩
  · intro hc
    rw [← e3, ← e4]
    refine div_le_div_of_nonneg_right ?_ hpos.le
    unfold phi
    split_ifs with h0
    · exact le_rfl
    · have : 0 < hi - lo := lt_of_le_of_ne (by linarith) (Ne.symm h0)
      refine Real.exp_le_exp.mpr (div_le_div_of_nonneg_right ?_ this.le)
      nlinarith
  · rintro rfl; rw [← e3, ← e4]
  · intro hp hc
    rw [← e3, ← e4]
    refine div_lt_div_of_pos_right ?_ hpos
    have hi1 : cj ≤ hi := ((pyMax_iff _ _).mp hhi).2 _ (List.mem_of_getElem? e2)
    have lo1 : lo ≤ ci := ((pyMin_iff _ _).mp hlo).2 _ (List.mem_of_getElem? e1)
    have h0 : hi - lo ≠ 0 := by intro h; linarith
    have h3 : 0 < hi - lo := by linarith
    unfold phi
    rw [if_neg h0, if_neg h0]
    refine Real.exp_lt_exp.mpr (div_lt_div_of_pos_right ?_ h3)
    nlinarith
  · intro lo' hi' m1 m2 hb hlt
    have a1 : lo' = lo := Option.some.inj (((pyMin_iff _ _).mpr ⟨m1, fun y hy => (hb y hy).1⟩).symm.trans hlo)
    have a2 : hi' = hi := Option.some.inj (((pyMax_iff _ _).mpr ⟨m2, fun y hy => (hb y hy).2⟩).symm.trans hhi)
    subst a1 a2
    have h0 : hi' - lo' ≠ 0 := by intro h; linarith
    rw [← e3, ← e4]
    unfold phi
    rw [if_neg h0, if_neg h0, div_mul_eq_mul_div, ← Real.exp_add]
    congr 2
    field_simp
    ring

/-- C48, as claimed for PI-BB with an arbitrary `h`. -/
def C48_order_statement : Prop := ∀ (argsort : List ℝ → List Nat) (costs : List (List ℝ)) (h : ℝ)
  (w : List ℝ) (i j : Nat) (ci cj wi wj : ℝ),
  costsToWeights argsort costs "PI-BB" (.float h) = .ok w →
  (total costs)[i]? = some ci → (total costs)[j]? = some cj → w[i]? = some wi → w[j]? = some wj →
  ci < cj → wj ≤ wi

/-- For negative `h` the sample with the lower cost gets the lower weight. -/
theorem C48_order_refuted : ¬ C48_order_statement := by
  intro h
  have hlo : pyMin (total [[0], [1]]) = some 0 := by simp [total, pyMin]
  have hhi : pyMax (total [[0], [1]]) = some 1 := by simp [total, pyMax]
  obtain ⟨hrun, hpos⟩ := piBB_run (fun _ => []) [[0], [1]] "PI-BB" (.float (-1)) (by simp) (by simp)
    (by decide) (by decide) 0 1 hlo hhi
  have := h _ _ _ _ 0 1 0 1 _ _ hrun (by simp [total]) (by simp [total]) (by simp [total]; rfl)
    (by simp [total]; rfl) one_pos
  have h3 := (div_le_div_iff_of_pos_right (add_pos (phi_pos _ _ _ _) (phi_pos _ _ _ _))).mp this
  simp [phi, Elite.toReal] at h3
  norm_num at h3

/-- C48, the ranks: `w` is ordered by rank as soon as raw weights are. -/
theorem rank_order {c : List ℝ} {idx : List Nat} (hs : IsArgsort c idx) {i j : Nat}
    (hi : i < c.length) (hj : j < c.length) (hlt : c.getD i 0 < c.getD j 0) :
    ∃ r s : Nat, r < s ∧ idx[r]? = some i ∧ idx[s]? = some j := by
  have m : ∀ i < c.length, ∃ r : Nat, idx[r]? = some i := by
    intro i hi
    exact List.mem_iff_getElem?.mp (hs.perm.mem_iff.mpr (List.mem_range.mpr hi))
  obtain ⟨r, hr⟩ := m i hi
  obtain ⟨s, hs'⟩ := m j hj
  refine ⟨r, s, ?_, hr, hs'⟩
  by_contra hle
  rcases (not_lt.mp hle).lt_or_eq with h | h
  · obtain ⟨hr1, er⟩ := List.getElem?_eq_some_iff.mp hr
    obtain ⟨hs1, es⟩ := List.getElem?_eq_some_iff.mp hs'
    have := List.pairwise_iff_getElem.mp hs.sorted s r hs1 hr1 h
    rw [er, es] at this
    linarith
  · subst h
    rw [hr] at hs'
    cases hs'
    exact lt_irrefl _ hlt

theorem Spec.IsArgsort.length {c : List ℝ} {idx : List Nat} (hs : IsArgsort c idx) :
    idx.length = c.length := by
  rw [hs.perm.length_eq, List.length_range]

theorem Spec.IsArgsort.nodup {c : List ℝ} {idx : List Nat} (hs : IsArgsort c idx) : idx.Nodup :=
  hs.perm.nodup_iff.mpr List.nodup_range

theorem Spec.IsArgsort.lt {c : List ℝ} {idx : List Nat} (hs : IsArgsort c idx) {r i : Nat}
    (h : idx[r]? = some i) : i < c.length :=
  List.mem_range.mp (hs.perm.mem_iff.mp (List.mem_of_getElem? h))

/-- Raw CEM weights by rank. -/
theorem cem_rank {c : List ℝ} {idx : List Nat} (hs : IsArgsort c idx) {mu : Nat} (hmu : 1 ≤ mu) :
    ∃ v, cemWeights idx mu (List.replicate c.length 0) = .ok v ∧
      ∀ r i, idx[r]? = some i → v[i]? = some (if r < mu then 1 / (mu : ℝ) else 0) := by
  unfold cemWeights
  rw [if_neg (by omega)]
  dsimp only
  rw [if_neg (by omega)]
  refine ⟨_, rfl, fun r i hr => ?_⟩
  rw [foldl_set_get]
  have hi := hs.lt hr
  have hmem : (i ∈ idx.take mu) ↔ r < mu := by
    constructor
    · intro h
      obtain ⟨k, hk⟩ := List.mem_iff_getElem?.mp h
      rw [List.getElem?_take] at hk
      split_ifs at hk with hlt
      obtain ⟨k1, k2⟩ := List.getElem?_eq_some_iff.mp hk
      obtain ⟨r1, r2⟩ := List.getElem?_eq_some_iff.mp hr
      have := (hs.nodup.getElem_inj_iff (hi := k1) (hj := r1)).mp (k2.trans r2.symm)
      omega
    · intro h
      refine List.mem_iff_getElem?.mpr ⟨r, ?_⟩
      rw [List.getElem?_take, if_pos h, hr]
  simp only [Int.toNat_natCast, hmem, List.length_replicate, hi, and_true, Int.cast_natCast]
  split_ifs
  · rfl
  · rw [List.getElem?_replicate, if_pos hi]

/-- Raw CMA-ES weights by rank. -/
theorem cma_rank {c : List ℝ} {idx : List Nat} (hs : IsArgsort c idx) {mu : Nat}
    (hmu : mu ≤ c.length) :
    ∃ v, cmaWeights idx mu (List.replicate c.length 0) = .ok v ∧
      ∀ r i, idx[r]? = some i → v[i]? = some (if r < mu then gamma mu r else 0) := by
  have gen : ∀ m, m ≤ mu → ∃ v, (List.range m).foldlM (cmaStep idx mu)
          (List.replicate c.length 0) = .ok v ∧ v.length = c.length ∧
      ∀ r i, idx[r]? = some i → v[i]? = some (if r < m then gamma mu r else 0) := by
    intro m
    induction m with
    | zero =>
      intro _
      refine ⟨_, rfl, by simp, fun r i hr => ?_⟩
      rw [List.getElem?_replicate, if_pos (hs.lt hr)]
      simp
    | succ m ih =>
      intro hm
      obtain ⟨v, h1, h2, h3⟩ := ih (by omega)
      have hml : m < idx.length := by rw [hs.length]; omega
      have hidx : idx[m]? = some idx[m] := List.getElem?_eq_getElem hml
      rw [List.range_succ, List.foldlM_append, h1]
      refine ⟨v.set idx[m] (gamma mu m), ?_, by simp [h2], fun r i hr => ?_⟩
      · change cmaStep idx mu v m >>= pure = _
        unfold cmaStep
        rw [hidx]
        rfl
      · by_cases hrm : r = m
        · subst hrm
          rw [hidx] at hr
          cases hr
          rw [List.getElem?_set_self (by rw [h2]; exact hs.lt hidx), if_pos (by omega)]
        · have hne : idx[m] ≠ i := by
            intro he
            obtain ⟨r1, r2⟩ := List.getElem?_eq_some_iff.mp hr
            have := (hs.nodup.getElem_inj_iff (hi := hml) (hj := r1)).mp (he.trans r2.symm)
            omega
          rw [List.getElem?_set_ne hne, h3 r i hr]
          congr 1
          by_cases hlt : r < m
          · rw [if_pos hlt, if_pos (by omega)]
          · rw [if_neg hlt, if_neg (by omega)]
  obtain ⟨v, h1, -, h3⟩ := gen mu le_rfl
  exact ⟨v, h1, h3⟩

/-- C48, CEM and CMA-ES with `1 ≤ mu ≤ n`: the weights exist. The weight of the sample of rank `r`
is proportional to 1 for CEM, to `log(mu + 1/2) - log(r + 1)` for CMA-ES, if `r < mu`, and 0
otherwise. A sample with lower cost never gets a lower weight. -/
theorem C48_rank_order (argsort : List ℝ → List Nat) (costs : List (List ℝ)) (method : String)
    (mu : Nat) (hr : ∀ r ∈ costs, r ≠ []) (hm : method = "CEM" ∨ method = "CMA-ES")
    (h1 : 1 ≤ mu) (h2 : mu ≤ costs.length) (hs : IsArgsort (total costs) (argsort (total costs))) :
    ∃ w S, costsToWeights argsort costs method (.int mu) = .ok w ∧ 0 < S ∧
      (∀ r i, (argsort (total costs))[r]? = some i → w[i]? = some ((if r < mu then
        (if method = "CEM" then 1 else Real.log (mu + 1 / 2) - Real.log (r + 1)) else 0) / S)) ∧
      ∀ (i j : Nat) (ci cj wi wj : ℝ), (total costs)[i]? = some ci → (total costs)[j]? = some cj →
        w[i]? = some wi → w[j]? = some wj → ci < cj → wj ≤ wi := by
  have hmu : (0 : ℝ) < mu := by exact_mod_cast h1
  have hlen := total_length costs
  -- both methods: raw weights by rank
  have raw : ∃ v, (∀ r i, (argsort (total costs))[r]? = some i → v[i]? = some (if r < mu then
        (if method = "CEM" then 1 / (mu : ℝ) else gamma mu r) else 0)) ∧
      (∀ x ∈ v, 0 ≤ x) ∧
      costsToWeights argsort costs method (.int mu) = normalise v := by
    unfold costsToWeights
    rw [totalCosts_eq hr]
    change ∃ v, _ ∧ _ ∧ (if method = "PI-BB" then _ else _) = _
    rcases hm with rfl | rfl
    · obtain ⟨v, hv1, hv2⟩ := cem_rank hs h1
      refine ⟨v, fun r i hri => by rw [hv2 r i hri, if_pos rfl], ?_, ?_⟩
      · intro x hx
        obtain ⟨i, hi⟩ := List.mem_iff_getElem?.mp hx
        have hl := (cemWeights_ok hv1).1
        have hil : i < (total costs).length := by
          rw [← hl]; exact (List.getElem?_eq_some_iff.mp hi).1
        obtain ⟨r, hri⟩ := List.mem_iff_getElem?.mp (hs.perm.mem_iff.mpr (List.mem_range.mpr hil))
        rw [hv2 r i hri] at hi
        cases hi
        split_ifs <;> positivity
      · rw [if_neg (by decide), if_pos (Or.inl rfl)]
        dsimp only
        rw [if_pos rfl, hv1]
        rfl
    · obtain ⟨v, hv1, hv2⟩ := cma_rank hs (mu := mu) (by omega)
      refine ⟨v, fun r i hri => by rw [hv2 r i hri]; simp, (cmaWeights_ok hv1).2, ?_⟩
      rw [if_neg (by decide), if_pos (Or.inr rfl)]
      dsimp only
      rw [if_neg (by decide), hv1]
      rfl
  obtain ⟨v, hv, hnn, hrun⟩ := raw
  have hi0 : (argsort (total costs))[0]? = some ((argsort (total costs))[0]'(by
      rw [hs.length]; omega)) := List.getElem?_eq_getElem _
  have hsum : 0 < v.sum := by
    have h0 := hv 0 _ hi0
    rw [if_pos (by omega)] at h0
    refine sum_pos_of_mem hnn (List.mem_of_getElem? h0) ?_
    split_ifs
    · positivity
    · exact gamma_pos (by exact_mod_cast h1)
  rw [normalise_eq hsum.ne'] at hrun
  have hg : ∀ i : Nat, (v.map fun x => x / v.sum)[i]? = (v[i]?).map fun x => x / v.sum :=
    fun i => List.getElem?_map
  refine ⟨_, if method = "CEM" then v.sum * mu else v.sum, hrun, ?_, ?_, ?_⟩
  · split_ifs
    · exact mul_pos hsum hmu
    · exact hsum
  · intro r i hri
    rw [hg, hv r i hri, Option.map_some]
    congr 1
    by_cases hr' : r < mu
    · rw [if_pos hr', if_pos hr']
      by_cases hc : method = "CEM"
      · simp only [hc, if_true]
        field_simp
      · simp only [hc, if_false, gamma, Int.cast_natCast]
    · rw [if_neg hr', if_neg hr']; simp
  · intro i j ci cj wi wj e1 e2 e3 e4 hlt
    obtain ⟨a1, a2⟩ := List.getElem?_eq_some_iff.mp e1
    obtain ⟨b1, b2⟩ := List.getElem?_eq_some_iff.mp e2
    obtain ⟨r, s, hrs, hri, hsj⟩ := rank_order hs a1 b1 (by
      rw [List.getD_eq_getElem?_getD, List.getD_eq_getElem?_getD, e1, e2]; exact hlt)
    rw [hg, hv r i hri, Option.map_some, Option.some.injEq] at e3
    rw [hg, hv s j hsj, Option.map_some, Option.some.injEq] at e4
    rw [← e3, ← e4]
    refine div_le_div_of_nonneg_right ?_ hsum.le
    by_cases h3 : s < mu
    · have h3' : r < mu := by omega
      rw [if_pos h3, if_pos h3']
      split_ifs
      · exact le_rfl
      · exact gamma_anti hrs.le
    · rw [if_neg h3]
      split_ifs with h4 h5
      · positivity
      · exact (gamma_pos (by exact_mod_cast h4)).le
      · exact le_rfl

/-! ### C49 -/

/-- C49: PI-BB weights do not change when all total costs are multiplied by a positive constant
and shifted by a constant. -/
theorem C49_scale_invariant (argsort : List ℝ → List Nat) (costs costs' : List (List ℝ))
    (elite : Elite) (a b : ℝ) (ha : 0 < a) (hr : ∀ r ∈ costs, r ≠ []) (hr' : ∀ r ∈ costs', r ≠ [])
    (h : total costs' = (total costs).map fun x => a * x + b) (hne : costs ≠ []) :
    ∃ w, costsToWeights argsort costs "PI-BB" elite = .ok w ∧
      costsToWeights argsort costs' "PI-BB" elite = .ok w := by
  have hne1 : total costs ≠ [] := by simpa [total] using hne
  have hne2 : costs' ≠ [] := by
    rintro rfl
    have := congrArg List.length h
    simp [total] at this
    exact hne (List.length_eq_zero_iff.mp this.symm)
  obtain ⟨lo, hlo⟩ := exists_pyMin hne1
  obtain ⟨hi, hhi⟩ := exists_pyMax hne1
  have hlo' : pyMin (total costs') = some (a * lo + b) := by
    rw [pyMin_iff, h]
    obtain ⟨h1, h2⟩ := (pyMin_iff _ _).mp hlo
    refine ⟨List.mem_map.mpr ⟨lo, h1, rfl⟩, fun y hy => ?_⟩
    obtain ⟨z, hz, rfl⟩ := List.mem_map.mp hy
    have := mul_le_mul_of_nonneg_left (h2 z hz) ha.le
    linarith
  have hhi' : pyMax (total costs') = some (a * hi + b) := by
    rw [pyMax_iff, h]
    obtain ⟨h1, h2⟩ := (pyMax_iff _ _).mp hhi
    refine ⟨List.mem_map.mpr ⟨hi, h1, rfl⟩, fun y hy => ?_⟩
    obtain ⟨z, hz, rfl⟩ := List.mem_map.mp hy
    have := mul_le_mul_of_nonneg_left (h2 z hz) ha.le
    linarith
  have hphi : ∀ x, phi elite.toReal (a * lo + b) (a * hi + b) (a * x + b) =
      phi elite.toReal lo hi x := by
    intro x
    unfold phi
    have e : a * hi + b - (a * lo + b) = a * (hi - lo) := by ring
    rw [e]
    by_cases h0 : hi - lo = 0
    · simp [h0]
    · rw [if_neg (mul_ne_zero ha.ne' h0), if_neg h0]
      congr 1
      field_simp
      ring
  obtain ⟨r1, -⟩ := piBB_run argsort costs "PI-BB" elite hne hr (by decide) (by decide) lo hi hlo hhi
  obtain ⟨r2, -⟩ := piBB_run argsort costs' "PI-BB" elite hne2 hr' (by decide) (by decide) _ _
    hlo' hhi'
  refine ⟨_, r1, ?_⟩
  rw [r2, h, List.map_map, List.map_map]
  have : phi elite.toReal (a * lo + b) (a * hi + b) ∘ (fun x => a * x + b) =
      phi elite.toReal lo hi := funext hphi
  rw [this]
  congr 2
  funext x
  simp only [Function.comp, hphi]

/-- C49: permuting the samples permutes the PI-BB weights. -/
theorem C49_permutation {n : Nat} (argsort : List ℝ → List Nat) (c : Fin n → List ℝ)
    (σ : Equiv.Perm (Fin n)) (elite : Elite) (hn : 0 < n) (hr : ∀ i, c i ≠ []) :
    ∃ w w', costsToWeights argsort (List.ofFn c) "PI-BB" elite = .ok w ∧
      costsToWeights argsort (List.ofFn (c ∘ σ)) "PI-BB" elite = .ok w' ∧
      ∀ i : Fin n, w'[(i : Nat)]? = w[(σ i : Nat)]? := by
  have hne : ∀ c : Fin n → List ℝ, List.ofFn c ≠ [] := by
    intro c h
    have := congrArg List.length h
    simp at this
    omega
  have hmem : ∀ x, x ∈ total (List.ofFn (c ∘ σ)) ↔ x ∈ total (List.ofFn c) := by
    intro x
    simp only [total, List.mem_map, List.mem_ofFn]
    constructor
    · rintro ⟨r, ⟨i, rfl⟩, rfl⟩; exact ⟨_, ⟨σ i, rfl⟩, rfl⟩
    · rintro ⟨r, ⟨i, rfl⟩, rfl⟩; exact ⟨_, ⟨σ.symm i, rfl⟩, by simp⟩
  have hne1 : total (List.ofFn c) ≠ [] := by simpa [total] using hne c
  obtain ⟨lo, hlo⟩ := exists_pyMin hne1
  obtain ⟨hi, hhi⟩ := exists_pyMax hne1
  have hlo' : pyMin (total (List.ofFn (c ∘ σ))) = some lo := by
    rw [pyMin_iff]
    obtain ⟨h1, h2⟩ := (pyMin_iff _ _).mp hlo
    exact ⟨(hmem _).mpr h1, fun y hy => h2 y ((hmem _).mp hy)⟩
  have hhi' : pyMax (total (List.ofFn (c ∘ σ))) = some hi := by
    rw [pyMax_iff]
    obtain ⟨h1, h2⟩ := (pyMax_iff _ _).mp hhi
    exact ⟨(hmem _).mpr h1, fun y hy => h2 y ((hmem _).mp hy)⟩
  obtain ⟨r1, -⟩ := piBB_run argsort (List.ofFn c) "PI-BB" elite (hne c)
    (by intro r hr'; obtain ⟨i, rfl⟩ := (List.mem_ofFn).mp hr'; exact hr i) (by decide) (by decide)
    lo hi hlo hhi
  obtain ⟨r2, -⟩ := piBB_run argsort (List.ofFn (c ∘ σ)) "PI-BB" elite (hne _)
    (by intro r hr'; obtain ⟨i, rfl⟩ := (List.mem_ofFn).mp hr'; exact hr _) (by decide) (by decide)
    lo hi hlo' hhi'
  refine ⟨_, _, r1, r2, fun i => ?_⟩
  have hsum : ((total (List.ofFn (c ∘ σ))).map (phi elite.toReal lo hi)).sum =
      ((total (List.ofFn c)).map (phi elite.toReal lo hi)).sum := by
    simp only [total, List.map_ofFn, List.sum_ofFn]
    exact Equiv.sum_comp σ (fun i => phi elite.toReal lo hi ((c i).headD 0))
  rw [hsum]
  simp [total]

/-- C49: an unknown method name behaves as PI-BB. -/
theorem C49_unknown_method (argsort : List ℝ → List Nat) (costs : List (List ℝ)) (method : String)
    (elite : Elite) (h1 : method ≠ "CEM") (h2 : method ≠ "CMA-ES") :
    costsToWeights argsort costs method elite = costsToWeights argsort costs "PI-BB" elite := by
  unfold costsToWeights
  simp [h1, h2]

/-! ### The hypotheses are met -/

example : IsArgsort [3, 1, 2] [1, 2, 0] :=
  ⟨by decide, by simp; norm_num⟩

example : ∃ (w : List ℝ) (S : ℝ), costsToWeights (fun _ => [1, 2, 0]) [[3, 7], [1], [2]] "CEM" (.int (2 : Nat)) =
    .ok w ∧ 0 < S ∧ w[1]? = some (1 / S) ∧ w[0]? = some 0 := by
  have hs : IsArgsort (total [[3, 7], [1], [2]]) [1, 2, 0] :=
    ⟨by simp [total]; decide, by simp [total]; norm_num⟩
  obtain ⟨w, S, h1, h2, h3, -⟩ := C48_rank_order (fun _ => [1, 2, 0]) [[3, 7], [1], [2]] "CEM" 2
    (by simp) (.inl rfl) (by omega) (by simp) hs
  refine ⟨w, S, h1, h2, ?_, ?_⟩
  · simpa using h3 0 1 rfl
  · simpa using h3 2 0 rfl

example : ∃ w, costsToWeights (fun _ => []) [[3, 7], [1]] "PI-BB" (.float 10) = .ok w ∧
    ∀ wi wj, w[0]? = some wi → w[1]? = some wj → wi < wj := by
  obtain ⟨w, h1, -, h3⟩ := C48_pibb_order_partial (fun _ => []) [[3, 7], [1]] "PI-BB" (.float 10)
    (by simp) (by simp) (by decide) (by decide) (by simp [Elite.toReal])
  refine ⟨w, h1, fun wi wj e1 e2 => ?_⟩
  exact (h3 1 0 1 3 wj wi (by simp [total]) (by simp [total]) e2 e1).2.2.1
    (by simp [Elite.toReal]) (by norm_num)

end Verif
