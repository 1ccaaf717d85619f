import Verif.Model.ForceField
import Verif.Spec.Tracking
import Verif.Proofs.ThrowPython
import Verif.Props.DmpWithSchedules

/-
Lemmas for the simulation of a controller in a force field.
-/

set_option autoImplicit false

namespace Verif.ForceField

open Spec

theorem fill_length {n : Nat} {v g : List ℝ} (h : fill n v = .ok g) : g.length = n := by
  unfold fill at h
  by_cases e : v.length = n
  · rw [if_pos e] at h
    cases h
    exact e
  · rw [if_neg e] at h
    match v, h with
    | [x], h => cases h; simp
    | [], h => cases h
    | _ :: _ :: _, h => cases h

theorem gainsRow_length {n : Nat} {a : Arr ℝ} {g : List ℝ} (h : gainsRow n a = .ok g) : g.length = n := by
  cases a with
  | one v => exact fill_length h
  | two a =>
    unfold gainsRow at h
    simp only at h
    match a.rows, h with
    | [v], h => exact fill_length h
    | [], h => cases h
    | _ :: _ :: _, h => cases h

theorem field_pos {F m t : ℝ} (h : 0 < m) : field F m t = .ok (bump F m t) := by
  unfold field bump
  rw [if_neg (by linarith), if_neg h.ne']
  simp only
  rw [Real.mul_self_sqrt (by positivity)]
  congr 3
  field_simp
  ring

open Classical in
theorem control_ok {g y yd a : List ℝ} {p : List ℝ × List ℝ × List ℝ} (h : control g p y yd = .ok a) :
    (∀ x ∈ g, 0 ≤ x) ∧
      a = vsub (vsub p.2.2 (vmul g (vsub y p.1))) (vmul (g.map Real.sqrt) (vsub yd p.2.1)) := by
  unfold control at h
  by_cases e : (g.any fun x => decide (x < 0)) = true
  · rw [if_pos e] at h
    cases h
  · rw [if_neg e] at h
    cases h
    refine ⟨fun x hx => ?_, rfl⟩
    by_contra hn
    exact e (List.any_eq_true.mpr ⟨x, hx, by simpa using hn⟩)

open Classical in
theorem control_of {g y yd : List ℝ} {p : List ℝ × List ℝ × List ℝ} (h : ∀ x ∈ g, 0 ≤ x) :
    ∃ a, control g p y yd = .ok a := by
  unfold control
  rw [if_neg]
  · exact ⟨_, rfl⟩
  · intro e
    obtain ⟨x, hx, h1⟩ := List.any_eq_true.mp e
    have h2 : x < 0 := by simpa using h1
    exact absurd (h x hx) (not_le.mpr h2)

/-- Position, velocity and acceleration have `d` entries. -/
structure Sized (d : Nat) (p : List ℝ × List ℝ × List ℝ) : Prop where
  pos : p.1.length = d
  vel : p.2.1.length = d
  acc : p.2.2.length = d

/-- The rollout up to row `k`: `P` are the desired positions, velocities and accelerations, `V` the
schedules. -/
structure Inv (d : Nat) (F m dt : ℝ) (clock : Nat → ℝ) (P : Nat → List ℝ × List ℝ × List ℝ) (V : Nat → Arr ℝ)
    (k : Nat) (r : Rollout) : Prop where
  ysDes : r.ysDes = (List.range (k + 1)).map fun i => (P i).1
  ydsDes : r.ydsDes = (List.range (k + 1)).map fun i => (P i).2.1
  yddsDes : r.yddsDes = (List.range (k + 1)).map fun i => (P i).2.2
  fields : r.fields = (List.range (k + 1)).map fun i => if i = 0 then 0 else bump F m (clock i)
  lsched : r.schedules.length = k + 1
  gains : ∀ i, i ≤ k → gainsRow d (V i) = .ok (r.schedules.getD i [])
  nonneg : ∀ i, 1 ≤ i → i ≤ k → ∀ x ∈ r.schedules.getD i [], 0 ≤ x
  lys : r.ysCur.length = k + 1
  lyds : r.ydsCur.length = k + 1
  lydds : r.yddsCur.length = k + 1
  rows : ∀ i, i ≤ k → Sized d (r.ysCur.getD i [], r.ydsCur.getD i [], r.yddsCur.getD i [])
  tracks : ∀ j, j < d → Tracks (k + 1) dt (fun i => (r.schedules.getD i []).getD j 0)
    (fun i => (P i).1.getD j 0) (fun i => (P i).2.1.getD j 0) (fun i => (P i).2.2.getD j 0)
    (fun i => bump F m (clock i)) (fun i => (r.ysCur.getD i []).getD j 0)
    (fun i => (r.ydsCur.getD i []).getD j 0) (fun i => (r.yddsCur.getD i []).getD j 0)

variable {d : Nat} {F m dt : ℝ} {clock : Nat → ℝ} {P : Nat → List ℝ × List ℝ × List ℝ} {V : Nat → Arr ℝ}

theorem start_inv {ts : List ℝ} {r : Rollout} (hp : Sized d (P 0)) (h : start d ts (P 0) (V 0) = .ok r) :
    Inv d F m dt clock P V 0 r ∧ r.ts = ts := by
  unfold start at h
  obtain ⟨g, hg, h⟩ := except_bind_ok h
  cases h
  refine ⟨⟨rfl, rfl, rfl, rfl, rfl, ?_, ?_, rfl, rfl, rfl, ?_, ?_⟩, rfl⟩
  · intro i hi
    cases Nat.le_zero.mp hi
    exact hg
  · intro i h1 h2
    omega
  · intro i hi
    cases Nat.le_zero.mp hi
    exact hp
  · intro j _
    exact ⟨⟨rfl, rfl, rfl⟩, fun i hi => by omega, fun i hi => by omega, fun i hi => by omega⟩

theorem getLastD_getD {α : Type} {l : List α} {k : Nat} {e : α} (h : l.length = k + 1) :
    l.getLastD e = l.getD k e := by
  rw [List.getLastD_eq_getLast?, List.getLast?_eq_getElem?, h]
  rfl

theorem getD_concat_eq {α : Type} {l : List α} {a e : α} {k : Nat} (h : l.length = k) : (l ++ [a]).getD k e = a := by
  subst h
  simp

/-- The rows that a step adds. -/
theorem step_inv {r r' : Rollout} {k : Nat} (hm : 0 < m) (hp : ∀ i, Sized d (P i))
    (hr : Inv d F m dt clock P V k r)
    (h : r.step d F m dt (clock (k + 1)) (P (k + 1)) (V (k + 1)) = .ok r') :
    Inv d F m dt clock P V (k + 1) r' ∧ r'.ts = r.ts := by
  unfold Rollout.step at h
  simp only at h
  obtain ⟨g, hg, h⟩ := except_bind_ok h
  obtain ⟨a, ha, h⟩ := except_bind_ok h
  rw [field_pos hm] at h
  obtain ⟨f, hf, h⟩ := except_bind_ok h
  cases hf
  cases h
  obtain ⟨hg0, rfl⟩ := control_ok ha
  have lg := gainsRow_length hg
  obtain ⟨p1, p2, p3⟩ := hp (k + 1)
  obtain ⟨q1, q2, q3⟩ := hr.rows k le_rfl
  simp only at q1 q2 q3
  rw [getLastD_getD hr.lys, getLastD_getD hr.lyds]
  obtain ⟨y0, hy0⟩ : ∃ y0, y0 = r.ysCur.getD k [] := ⟨_, rfl⟩
  obtain ⟨yd0, hyd0⟩ : ∃ yd0, yd0 = r.ydsCur.getD k [] := ⟨_, rfl⟩
  rw [← hy0] at q1 ⊢
  rw [← hyd0] at q2 ⊢
  generalize hydd : (vsub (vsub (P (k + 1)).2.2 (vmul g (vsub y0 (P (k + 1)).1)))
    (vmul (g.map Real.sqrt) (vsub yd0 (P (k + 1)).2.1))).map (· + bump F m (clock (k + 1))) = ydd
  generalize hyd : vadd yd0 (vscale dt ydd) = yd
  generalize hy : vadd y0 (vscale dt yd) = y
  have l3 : ydd.length = d := by rw [← hydd]; simp [p1, p2, p3, q1, q2, lg]
  have l2 : yd.length = d := by rw [← hyd]; simp [q2, l3]
  have l1 : y.length = d := by rw [← hy]; simp [q1, l2]
  have old : ∀ {α : Type} {l : List α} {x e : α} {i : Nat}, l.length = k + 1 → i ≤ k →
      (l ++ [x]).getD i e = l.getD i e := fun hl hi => getD_append_left' (by omega) _
  refine ⟨⟨?_, ?_, ?_, ?_, ?_, ?_, ?_, ?_, ?_, ?_, ?_, ?_⟩, rfl⟩
  · simp only
    rw [hr.ysDes, List.range_succ (n := k + 1), List.map_append]
    rfl
  · simp only
    rw [hr.ydsDes, List.range_succ (n := k + 1), List.map_append]
    rfl
  · simp only
    rw [hr.yddsDes, List.range_succ (n := k + 1), List.map_append]
    rfl
  · simp only
    rw [hr.fields, List.range_succ (n := k + 1), List.map_append]
    simp
  · simp [hr.lsched]
  · intro i hi
    simp only
    rcases Nat.lt_or_ge k i with e | e
    · obtain rfl : i = k + 1 := by omega
      rw [getD_concat_eq hr.lsched]
      exact hg
    · rw [old hr.lsched e]
      exact hr.gains i e
  · intro i h1 hi
    simp only
    rcases Nat.lt_or_ge k i with e | e
    · obtain rfl : i = k + 1 := by omega
      rw [getD_concat_eq hr.lsched]
      exact hg0
    · rw [old hr.lsched e]
      exact hr.nonneg i h1 e
  · simp [hr.lys]
  · simp [hr.lyds]
  · simp [hr.lydds]
  · intro i hi
    simp only
    rcases Nat.lt_or_ge k i with e | e
    · obtain rfl : i = k + 1 := by omega
      rw [getD_concat_eq hr.lys, getD_concat_eq hr.lyds, getD_concat_eq hr.lydds]
      exact ⟨l1, l2, l3⟩
    · rw [old hr.lys e, old hr.lyds e, old hr.lydds e]
      exact hr.rows i e
  · intro j hj
    have t := hr.tracks j hj
    refine ⟨?_, ?_, ?_, ?_⟩
    · simp only
      rw [old hr.lys (Nat.zero_le k), old hr.lyds (Nat.zero_le k), old hr.lydds (Nat.zero_le k)]
      exact t.start
    · intro i hi
      simp only
      rcases Nat.lt_or_ge i k with e | e
      · rw [old hr.lydds (by omega), old hr.lsched (by omega), old hr.lys (by omega), old hr.lyds (by omega)]
        exact t.accel i (by omega)
      · obtain rfl : i = k := by omega
        rw [getD_concat_eq hr.lydds, getD_concat_eq hr.lsched, old hr.lys le_rfl, old hr.lyds le_rfl, ← hy0, ← hyd0, ← hydd,
          getD_map' (by simp [p1, p2, p3, q1, q2, lg]; omega) 0 0, getD_vsub (by simp [p1, p3, q1, lg]; omega)
            (by simp [p2, q2, lg]; omega), getD_vsub (by omega) (by simp [p1, q1, lg]; omega),
          getD_vmul (by omega) (by simp [p1, q1]; omega), getD_vmul (by simp [lg]; omega) (by simp [p2, q2]; omega),
          getD_vsub (by omega) (by omega), getD_vsub (by omega) (by omega), getD_map' (by omega) 0 0]
        ring
    · intro i hi
      simp only
      rcases Nat.lt_or_ge i k with e | e
      · rw [old hr.lydds (by omega), old hr.lyds (by omega), old hr.lyds (by omega)]
        exact t.speed i (by omega)
      · obtain rfl : i = k := by omega
        rw [getD_concat_eq hr.lyds, getD_concat_eq hr.lydds, old hr.lyds le_rfl, ← hyd0, ← hyd,
          getD_vadd (by omega) (by simp; omega), getD_vscale]
    · intro i hi
      simp only
      rcases Nat.lt_or_ge i k with e | e
      · rw [old hr.lys (by omega), old hr.lys (by omega), old hr.lyds (by omega)]
        exact t.place i (by omega)
      · obtain rfl : i = k := by omega
        rw [getD_concat_eq hr.lys, getD_concat_eq hr.lyds, old hr.lys le_rfl, ← hy0, ← hy,
          getD_vadd (by omega) (by simp; omega), getD_vscale]

end Verif.ForceField
