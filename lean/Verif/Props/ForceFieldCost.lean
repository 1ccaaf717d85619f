import Verif.Props.ForceFieldSolver
import Verif.Props.TaskViapoint

/-
The costs of following a Dmp in a force field (C83).
-/

set_option autoImplicit false

namespace Verif.ForceField

open Spec Finset
open Dmp (Reachable DefaultLike Change)

/-- Entry `j` of columns `a`, …, `b - 1`. -/
theorem slice {row : List ℝ} {a b j : Nat} (hj : a + j < b) : ((row.take b).drop a).getD j 0 = row.getD (a + j) 0 := by
  rw [List.getD_eq_getElem?_getD, List.getD_eq_getElem?_getD, List.getElem?_drop, List.getElem?_take_of_lt hj]

theorem slice_length {row : List ℝ} {a b : Nat} (h : b ≤ row.length) : ((row.take b).drop a).length = b - a := by
  rw [List.length_drop, List.length_take, min_eq_left h]

/-- The sum over some columns of all rows. -/
theorem sum_slices {rows : List (List ℝ)} {a n : Nat} (f : ℝ → ℝ) (h : ∀ r ∈ rows, a + n ≤ r.length) :
    (((rows.map fun r => (r.take (a + n)).drop a).flatten).map f).sum =
      ∑ i ∈ range rows.length, ∑ j ∈ range n, f ((rows.getD i []).getD (a + j) 0) := by
  have hrow : ∀ r ∈ rows, (((r.take (a + n)).drop a).map f).sum = ∑ j ∈ range n, f (r.getD (a + j) 0) := by
    intro r hr
    have hl : ((r.take (a + n)).drop a).length = n := by rw [slice_length (h r hr)]; omega
    rw [TaskViapoint.sum_getD, List.length_map, hl]
    refine Finset.sum_congr rfl fun j hj => ?_
    have hj' := Finset.mem_range.mp hj
    rw [getD_map' (by omega) 0 0, slice (by omega)]
  rw [List.map_flatten, List.sum_flatten, List.map_map, List.map_map, TaskViapoint.sum_getD, List.length_map]
  refine Finset.sum_congr rfl fun i hi => ?_
  have hi' := Finset.mem_range.mp hi
  rw [getD_map' hi' 0 [], ← hrow _ (by rw [getD_lt hi']; exact List.getElem_mem _)]
  rfl

/-- What the costs are: `n` coordinates are read, `dist` is the distance to the viapoint. -/
def Costs (t : Task) (n : Nat) (dist : ℝ) (rows : List (List ℝ)) (costs : List ℝ) : Prop :=
  ∃ c1 c2 c3, costs = [c1 + c2 + c3, c1, c2, c3] ∧ c1 = t.viapointWeight * dist ∧
    c2 = t.accelerationWeight *
      (∑ i ∈ range rows.length, ∑ j ∈ range n, |(rows.getD i []).getD (1 + 2 * n + j) 0|) / rows.length ∧
    c3 = t.gainWeight * ((∑ i ∈ range rows.length, ∑ j ∈ range n, (rows.getD i []).getD (1 + 3 * n + j) 0) -
      t.minGain) / (rows.length * t.maxGain)

/-- The costs, given the distance. -/
theorem costs_of {t : Task} {cv : Arr2 ℝ} {n : Nat} (hn : t.viapoint.len = n)
    (hlen : ∀ r ∈ cv.rows, 1 + 4 * n ≤ r.length) (h0 : cv.rows ≠ []) (hmax : t.maxGain ≠ 0) :
    ∃ k < cv.rows.length, IsFirstFrom (cv.rows.map fun r => r.getD 0 0) t.viapointTime k ∧
      ∀ dist, t.distance (((cv.rows.getD k []).take (1 + n)).drop 1) = .ok dist →
        ∃ costs, t.evaluateRollout cv = .ok costs ∧ Costs t n dist cv.rows costs := by
  have hts : (cv.rows.map fun r => r.getD 0 0) ≠ [] := by simpa using h0
  have e1 : ∃ k, TaskViapoint.firstFrom t.viapointTime (cv.rows.map fun r => r.getD 0 0) = .ok k := ⟨_, if_neg hts⟩
  obtain ⟨k, e1⟩ := e1
  obtain ⟨-, k2⟩ := TaskViapoint.firstFrom_spec e1
  have hk : k < cv.rows.length := by
    rcases k2 with ⟨k2, -⟩ | ⟨rfl, -⟩
    · simpa using k2
    · exact List.length_pos_of_ne_nil h0
  refine ⟨k, hk, k2, fun dist hd => ?_⟩
  unfold Task.evaluateRollout
  simp only [hn]
  rw [e1, Dmp.except_ok_bind, getD_map' hk [] [], hd, Dmp.except_ok_bind]
  have hs : (cv.rows.length : ℝ) ≠ 0 := by
    rw [Nat.cast_ne_zero]
    exact fun h => h0 (List.length_eq_zero_iff.mp h)
  rw [if_neg (by rw [decide_eq_true_eq]; exact mul_ne_zero hs hmax)]
  refine ⟨_, rfl, _, _, _, rfl, rfl, ?_, ?_⟩
  · have := sum_slices (rows := cv.rows) (a := 1 + n * 2) (n := n) (fun x => |x|) (fun r hr => by
      have := hlen r hr
      omega)
    rw [show 1 + n * 3 = 1 + n * 2 + n by ring, this]
    simp only [mul_comm n 2]
  · have := sum_slices (rows := cv.rows) (a := 1 + n * 3) (n := n) (fun x => x) (fun r hr => by
      have := hlen r hr
      omega)
    rw [List.map_id'] at this
    rw [show 1 + n * 4 = 1 + n * 3 + n by ring, this, mul_div_assoc]
    simp only [mul_comm n 3]

/-- C83: the costs, for a viapoint with `n` coordinates: the weighted distance to the viapoint at the first time
that is not before the time of the viapoint, the weighted mean of the sums of the absolute values of the
accelerations, the weighted sum of the gains, and in front the sum of the three. -/
theorem C83_costs (t : Task) (v : List ℝ) (cv : Arr2 ℝ) (hv : t.viapoint = .one v)
    (hlen : ∀ r ∈ cv.rows, r.length = 1 + 7 * v.length) (h0 : cv.rows ≠ []) (hmax : t.maxGain ≠ 0) :
    ∃ k < cv.rows.length, IsFirstFrom (cv.rows.map fun r => r.getD 0 0) t.viapointTime k ∧
      ∃ costs, t.evaluateRollout cv = .ok costs ∧
        Costs t v.length (Real.sqrt (∑ j ∈ range v.length, ((cv.rows.getD k []).getD (1 + j) 0 - v.getD j 0) ^ 2))
          cv.rows costs := by
  obtain ⟨k, hk, k2, h⟩ := costs_of (t := t) (cv := cv) (n := v.length) (by rw [hv]; rfl) (fun r hr => by
    have := hlen r hr
    omega) h0 hmax
  refine ⟨k, hk, k2, h _ ?_⟩
  have hkl : (((cv.rows.getD k []).take (1 + v.length)).drop 1).length = v.length := by
    rw [slice_length (by rw [getD_lt hk, hlen _ (List.getElem_mem _)]; omega)]
    omega
  unfold Task.distance difference
  rw [hv]
  simp only
  rw [if_pos hkl, Dmp.except_ok_bind, TaskViapoint.l2norm_vsub hkl rfl]
  unfold Spec.distance
  have : ∑ i ∈ range v.length, ((((cv.rows.getD k []).take (1 + v.length)).drop 1).getD i 0 - v.getD i 0) ^ 2 =
      ∑ j ∈ range v.length, ((cv.rows.getD k []).getD (1 + j) 0 - v.getD j 0) ^ 2 := by
    refine Finset.sum_congr rfl fun i hi => ?_
    have hi' := Finset.mem_range.mp hi
    rw [slice (by omega)]
  rw [this]
  rfl

/-- C83: a viapoint that is a matrix with one row counts as one coordinate, whatever its number of columns: the
first coordinate of the position is compared with all coordinates of the viapoint, and columns 3 and 4 are taken
for the accelerations and the gains. -/
theorem C83_matrix (t : Task) (q : Nat) (v : List ℝ) (cv : Arr2 ℝ) (hv : t.viapoint = .two ⟨q, [v]⟩)
    (hq : v ≠ []) (hlen : ∀ r ∈ cv.rows, 5 ≤ r.length) (h0 : cv.rows ≠ []) (hmax : t.maxGain ≠ 0) :
    ∃ k < cv.rows.length, IsFirstFrom (cv.rows.map fun r => r.getD 0 0) t.viapointTime k ∧
      ∃ costs, t.evaluateRollout cv = .ok costs ∧
        Costs t 1 (Real.sqrt (∑ j ∈ range v.length, ((cv.rows.getD k []).getD 1 0 - v.getD j 0) ^ 2))
          cv.rows costs := by
  obtain ⟨k, hk, k2, h⟩ := costs_of (t := t) (cv := cv) (n := 1) (by rw [hv]; rfl) (fun r hr => by
    have := hlen r hr
    omega) h0 hmax
  refine ⟨k, hk, k2, h _ ?_⟩
  have hl : 5 ≤ (cv.rows.getD k []).length := by rw [getD_lt hk]; exact hlen _ (List.getElem_mem _)
  have hkl : ((cv.rows.getD k []).take (1 + 1)).drop 1 = [(cv.rows.getD k []).getD 1 0] := by
    match cv.rows.getD k [], hl with
    | _ :: _ :: _, _ => rfl
  have hd : difference [(cv.rows.getD k []).getD 1 0] v = .ok (v.map fun b => (cv.rows.getD k []).getD 1 0 - b) := by
    generalize (cv.rows.getD k []).getD 1 0 = a
    unfold difference
    match v, hq with
    | [b], _ => rfl
    | _ :: _ :: _, _ => rfl
  rw [hkl]
  unfold Task.distance
  rw [hv]
  simp only [List.mapM_cons, List.mapM_nil]
  rw [hd, Dmp.except_ok_bind]
  change Except.ok _ = _
  rw [List.flatten_cons, List.flatten_nil, List.append_nil, TaskViapoint.l2norm_eq, List.length_map]
  have : ∑ i ∈ range v.length, ((v.map fun b => (cv.rows.getD k []).getD 1 0 - b).getD i 0) ^ 2 =
      ∑ j ∈ range v.length, ((cv.rows.getD k []).getD 1 0 - v.getD j 0) ^ 2 := by
    refine Finset.sum_congr rfl fun i hi => ?_
    rw [getD_map' (Finset.mem_range.mp hi) 0 0]
  rw [this]

/-- C83: without rows there is no viapoint, and with a maximum gain of 0 the costs are not numbers. -/
theorem C83_rejects (t : Task) (v : List ℝ) (cv : Arr2 ℝ) (hv : t.viapoint = .one v) :
    (cv.rows = [] → t.evaluateRollout cv = .error .valueError) ∧
    (cv.rows ≠ [] → (∀ r ∈ cv.rows, r.length = 1 + 7 * v.length) → t.maxGain = 0 →
      t.evaluateRollout cv = .error .nanResult) := by
  constructor
  · intro h
    unfold Task.evaluateRollout
    rw [h]
    rfl
  · intro h0 hlen hm
    unfold Task.evaluateRollout
    have hts : (cv.rows.map fun r => r.getD 0 0) ≠ [] := by simpa using h0
    have e1 : ∃ k, TaskViapoint.firstFrom t.viapointTime (cv.rows.map fun r => r.getD 0 0) = .ok k := ⟨_, if_neg hts⟩
    obtain ⟨k, e1⟩ := e1
    obtain ⟨-, k2⟩ := TaskViapoint.firstFrom_spec e1
    have hk : k < cv.rows.length := by
      rcases k2 with ⟨k2, -⟩ | ⟨rfl, -⟩
      · simpa using k2
      · exact List.length_pos_of_ne_nil h0
    have hkl : (((cv.rows.getD k []).take (1 + v.length)).drop 1).length = v.length := by
      rw [slice_length (by rw [getD_lt hk, hlen _ (List.getElem_mem _)]; omega)]
      omega
    simp only [hv, Arr.len]
    rw [e1, Dmp.except_ok_bind, getD_map' hk [] []]
    unfold Task.distance difference
    rw [hv]
    simp only
    rw [if_pos hkl, Dmp.except_ok_bind, pure_bind, if_pos (by rw [hm]; simp)]

/-- C83: the weights that are not given, and a label for each of the three costs. -/
theorem C83_defaults (v : Arr ℝ) (time lo hi : ℝ) (t : Task) :
    ({ viapoint := v, viapointTime := time, minGain := lo, maxGain := hi } : Task) =
      ⟨v, time, lo, hi, 1, 1 / 10000, 0⟩ ∧ t.costLabels = ["viapoint", "acceleration", "gains"] := by
  refine ⟨?_, rfl⟩
  congr 1
  norm_num

/-! ### The cost of the gains -/

/-- C83, as the normalisation of the gains suggests: gains that are all at the minimum cost nothing. -/
def C83_statement : Prop := ∀ (t : Task) (v : List ℝ) (cv : Arr2 ℝ) (costs : List ℝ), t.viapoint = .one v →
  0 < t.minGain → t.minGain ≤ t.maxGain → (∀ r ∈ cv.rows, r.length = 1 + 7 * v.length) →
  (∀ r ∈ cv.rows, ∀ j < v.length, r.getD (1 + 3 * v.length + j) 0 = t.minGain) →
  t.evaluateRollout cv = .ok costs → costs.getD 3 0 = 0

/-- With gains between the minimum and the maximum, the cost of the gains is not less than the weighted minimum,
up to one minimum in the whole rollout, and not more than the weight for each dimension. -/
theorem C83_partial (t : Task) (v : List ℝ) (cv : Arr2 ℝ) (costs : List ℝ) (hv : t.viapoint = .one v)
    (hmin : 0 ≤ t.minGain) (hmax : 0 < t.maxGain) (hw : 0 ≤ t.gainWeight)
    (hlen : ∀ r ∈ cv.rows, r.length = 1 + 7 * v.length)
    (hg : ∀ r ∈ cv.rows, ∀ j < v.length, t.minGain ≤ r.getD (1 + 3 * v.length + j) 0 ∧
      r.getD (1 + 3 * v.length + j) 0 ≤ t.maxGain)
    (h : t.evaluateRollout cv = .ok costs) :
    t.gainWeight * ((cv.rows.length * v.length - 1) * t.minGain / (cv.rows.length * t.maxGain)) ≤ costs.getD 3 0 ∧
      costs.getD 3 0 ≤ t.gainWeight * (v.length - t.minGain / (cv.rows.length * t.maxGain)) := by
  have h0 : cv.rows ≠ [] := by
    intro e
    rw [(C83_rejects t v cv hv).1 e] at h
    cases h
  obtain ⟨k, -, -, costs', e, c1, c2, c3, rfl, -, -, hc⟩ := C83_costs t v cv hv hlen h0 hmax.ne'
  rw [h] at e
  obtain rfl := Except.ok.inj e
  have hs : (0 : ℝ) < cv.rows.length := by exact_mod_cast List.length_pos_of_ne_nil h0
  have hsm : 0 < (cv.rows.length : ℝ) * t.maxGain := mul_pos hs hmax
  have mem : ∀ i ∈ range cv.rows.length, cv.rows.getD i [] ∈ cv.rows := fun i hi => by
    rw [getD_lt (Finset.mem_range.mp hi)]
    exact List.getElem_mem _
  change _ ≤ c3 ∧ c3 ≤ _
  have lower : (cv.rows.length : ℝ) * (v.length * t.minGain) ≤
      ∑ i ∈ range cv.rows.length, ∑ j ∈ range v.length, (cv.rows.getD i []).getD (1 + 3 * v.length + j) 0 := by
    have := Finset.card_nsmul_le_sum (range cv.rows.length)
      (fun i => ∑ j ∈ range v.length, (cv.rows.getD i []).getD (1 + 3 * v.length + j) 0) (v.length * t.minGain)
      (fun i hi => by
        have := Finset.card_nsmul_le_sum (range v.length)
          (fun j => (cv.rows.getD i []).getD (1 + 3 * v.length + j) 0) t.minGain
          (fun j hj => (hg _ (mem i hi) j (Finset.mem_range.mp hj)).1)
        simpa using this)
    simpa using this
  have upper : ∑ i ∈ range cv.rows.length, ∑ j ∈ range v.length, (cv.rows.getD i []).getD (1 + 3 * v.length + j) 0 ≤
      (cv.rows.length : ℝ) * (v.length * t.maxGain) := by
    have := Finset.sum_le_card_nsmul (range cv.rows.length)
      (fun i => ∑ j ∈ range v.length, (cv.rows.getD i []).getD (1 + 3 * v.length + j) 0) (v.length * t.maxGain)
      (fun i hi => by
        have := Finset.sum_le_card_nsmul (range v.length)
          (fun j => (cv.rows.getD i []).getD (1 + 3 * v.length + j) 0) t.maxGain
          (fun j hj => (hg _ (mem i hi) j (Finset.mem_range.mp hj)).2)
        simpa using this)
    simpa using this
  rw [hc, mul_div_assoc t.gainWeight]
  constructor
  · refine mul_le_mul_of_nonneg_left ?_ hw
    rw [div_le_div_iff_of_pos_right hsm]
    nlinarith
  · refine mul_le_mul_of_nonneg_left ?_ hw
    rw [div_le_iff₀ hsm, sub_mul, div_mul_cancel₀ _ hsm.ne']
    nlinarith

/-- Two rows with gains at the minimum: the cost of the gains is positive. -/
theorem C83_refuted : ¬ C83_statement := by
  intro h
  obtain ⟨t, ht⟩ : ∃ t : Task, t = ⟨.one [0.5], 0.5, 10, 1000, 1, 0.0001, 1⟩ := ⟨_, rfl⟩
  obtain ⟨cv, hcv⟩ : ∃ cv : Arr2 ℝ, cv = ⟨8, [[0, 0, 0, 0, 10, 0, 0, 0], [1, 0, 0, 0, 10, 0, 0, 0]]⟩ := ⟨_, rfl⟩
  have hv : t.viapoint = .one [0.5] := by rw [ht]
  have hlen : ∀ r ∈ cv.rows, r.length = 1 + 7 * [(0.5 : ℝ)].length := by
    rw [hcv]
    simp
  have hg : ∀ r ∈ cv.rows, ∀ j < [(0.5 : ℝ)].length, r.getD (1 + 3 * [(0.5 : ℝ)].length + j) 0 = 10 := by
    rw [hcv]
    simp
  obtain ⟨k, -, -, costs, e, -⟩ := C83_costs t [0.5] cv hv hlen (by rw [hcv]; simp) (by rw [ht]; norm_num)
  have z := h t [0.5] cv costs hv (by rw [ht]; norm_num) (by rw [ht]; norm_num) hlen (by
    intro r hr j hj
    rw [hg r hr j hj, ht]) e
  have p := (C83_partial t [0.5] cv costs hv (by rw [ht]; norm_num) (by rw [ht]; norm_num) (by rw [ht]; norm_num)
    hlen (fun r hr j hj => by rw [hg r hr j hj, ht]; norm_num) e).1
  rw [z, ht, hcv] at p
  norm_num at p

/-- C83, for the rows of a rollout of the task solver. -/
theorem C83_rollout (d : Nat) (solver : Solver) (sample : List ℝ) (draw : ℝ) (s s' : DmpWithSchedules)
    (cv : Arr2 ℝ) (hs : Reachable DefaultLike Change.Valid d s.dmp) (hτ : 0 < s.dmp.tau)
    (h : solver.performRollout sample draw s = (.ok cv, s')) (t : Task) (v : List ℝ) (hv : t.viapoint = .one v)
    (hvd : v.length = d) (hmax : t.maxGain ≠ 0) :
    ∃ s1 r, DmpWithSchedules.setParamVector sample s = (.ok (), s1) ∧
      performRollout solver.integrateTime solver.nTimeSteps (if solver.stochasticField then draw else -20)
        (s.dmp.tau / 2) s1 = (.ok r, s') ∧
      ∃ k < solver.nTimeSteps.toNat, IsFirstFrom r.ts t.viapointTime k ∧
        ∃ c1 c2 c3, t.evaluateRollout cv = .ok [c1 + c2 + c3, c1, c2, c3] ∧
          c1 = t.viapointWeight * Real.sqrt (∑ j ∈ range d, ((r.ysCur.getD k []).getD j 0 - v.getD j 0) ^ 2) ∧
          c2 = t.accelerationWeight * (∑ i ∈ range solver.nTimeSteps.toNat, ∑ j ∈ range d,
            |(r.yddsCur.getD i []).getD j 0|) / solver.nTimeSteps.toNat ∧
          c3 = t.gainWeight * ((∑ i ∈ range solver.nTimeSteps.toNat, ∑ j ∈ range d,
            (r.schedules.getD i []).getD j 0) - t.minGain) / (solver.nTimeSteps.toNat * t.maxGain) := by
  obtain ⟨s1, r, p1, p2, -, hl, hrow⟩ := C81_solver d solver sample draw s s' cv hs hτ h
  have hs1 := setParamVector_reachable hs p1
  obtain ⟨hn, -, rows, -, fol⟩ := C81_rollout d s1 s' hs1 _ _ _ (by linarith) _ r p2
  have h0 : cv.rows ≠ [] := by
    intro e
    rw [e] at hl
    simp at hl
    omega
  obtain ⟨k, hk, k2, costs, e, c1, c2, c3, rfl, e1, e2, e3⟩ := C83_costs t v cv hv (fun row hrow' => by
    obtain ⟨i, hi, rfl⟩ := List.getElem_of_mem hrow'
    rw [← getD_lt hi (d := []), (hrow i (hl ▸ hi)).1, hvd]) h0 hmax
  rw [hl] at hk e2 e3
  rw [hvd] at e1 e2 e3
  have hts : (cv.rows.map fun r => r.getD 0 0) = r.ts := by
    refine ext_getD 0 (by rw [List.length_map, hl, fol.ts]; simp [Cpp.Dmp.evenly]) fun i hi => ?_
    rw [List.length_map, hl] at hi
    rw [getD_map' (by omega) 0 [], (hrow i hi).2.1, fol.ts]
    unfold Cpp.Dmp.evenly
    rw [getD_range_map hi]
    ring
  rw [hts] at k2
  refine ⟨s1, r, p1, p2, k, hk, k2, c1, c2, c3, e, ?_, ?_, ?_⟩
  · rw [e1]
    congr 2
    refine Finset.sum_congr rfl fun j hj => ?_
    have := ((hrow k hk).2.2 j (Finset.mem_range.mp hj)).1
    rw [← this, zero_mul, add_zero]
  · rw [e2]
    congr 2
    refine Finset.sum_congr rfl fun i hi => Finset.sum_congr rfl fun j hj => ?_
    rw [((hrow i (Finset.mem_range.mp hi)).2.2 j (Finset.mem_range.mp hj)).2.2.1]
  · rw [e3]
    congr 3
    refine Finset.sum_congr rfl fun i hi => Finset.sum_congr rfl fun j hj => ?_
    rw [((hrow i (Finset.mem_range.mp hi)).2.2 j (Finset.mem_range.mp hj)).2.2.2.1]

end Verif.ForceField
