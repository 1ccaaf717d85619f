import Verif.Spec.Throw
import Mathlib.Algebra.BigOperators.Intervals
import Mathlib.Algebra.Order.Archimedean.Real.Basic
import Mathlib.Tactic.Ring
import Mathlib.Tactic.FieldSimp
import Mathlib.Tactic.Linarith

/-
Facts about `Spec.Thrown`.
-/

set_option autoImplicit false

namespace Verif.Spec

open Finset

theorem released_unique {clock : Nat → ℝ} {r r' : Nat} (h : Released clock r) (h' : Released clock r') :
    r = r' := by
  rcases lt_trichotomy r r' with hl | hl | hl
  · exact absurd h.1 (not_lt.mpr (h'.2 r hl))
  · exact hl
  · exact absurd h'.1 (not_lt.mpr (h.2 r' hl))

theorem lands_unique {floor : ℝ} {dt : Nat → ℝ} {hand vel : Nat → ℝ × ℝ} {r k k' : Nat}
    (h : Lands floor dt hand vel r k) (h' : Lands floor dt hand vel r k') : k = k' := by
  rcases lt_trichotomy k k' with hl | hl | hl
  · exact absurd h.2.1 (not_lt.mpr (h'.2.2 k h.1 hl))
  · exact hl
  · exact absurd h'.2.1 (not_lt.mpr (h.2.2 k' h'.1 hl))

theorem airTime_succ (dt : Nat → ℝ) (r k : Nat) : airTime dt r (k + 1) = airTime dt r k + dt (r + k + 1) :=
  sum_range_succ _ _

theorem airTime_zero (dt : Nat → ℝ) (r : Nat) : airTime dt r 0 = 0 := rfl

theorem flight_zero (dt : Nat → ℝ) (hand vel : Nat → ℝ × ℝ) (r : Nat) : flight dt hand vel r 0 = hand r := by
  unfold flight airTime fallen
  simp

theorem flight_succ (dt : Nat → ℝ) (hand vel : Nat → ℝ × ℝ) (r k : Nat) :
    flight dt hand vel r (k + 1) =
      ((flight dt hand vel r k).1 + dt (r + k + 1) * (vel r).1,
        (flight dt hand vel r k).2 + dt (r + k + 1) * ((vel r).2 - 9.81 * airTime dt r (k + 1))) := by
  unfold flight fallen
  rw [sum_range_succ, airTime_succ]
  refine Prod.ext ?_ ?_ <;> simp only <;> ring

/-- The state of a ball at step `i`. -/
inductive Stage (floor : ℝ) (dt clock : Nat → ℝ) (hand vel : Nat → ℝ × ℝ) (i : Nat) (b : ℝ × ℝ) : Prop
  | held (h : ∀ j, j < i → clock j ≤ 0.6) (e : b = hand i)
  | flies (r k : Nat) (hi : i = r + k) (hr : Released clock r)
      (h : ∀ j, 1 ≤ j → j ≤ k → floor ≤ (flight dt hand vel r j).2) (e : b = flight dt hand vel r k)
  | lies (r k l : Nat) (hi : i = r + l) (hr : Released clock r) (h : Lands floor dt hand vel r k) (hl : k ≤ l)
      (e : b = ((flight dt hand vel r k).1, floor))

theorem stage_unique {floor : ℝ} {dt clock : Nat → ℝ} {hand vel : Nat → ℝ × ℝ} {i : Nat} {b b' : ℝ × ℝ}
    (h : Stage floor dt clock hand vel i b) (h' : Stage floor dt clock hand vel i b') : b = b' := by
  have late : ∀ {r k : Nat}, (∀ j, j < r + k → clock j ≤ 0.6) → Released clock r → k = 0 := fun {r k} h hr => by
    by_contra hk
    exact absurd hr.1 (not_lt.mpr (h r (by omega)))
  cases h with
  | held h1 e1 =>
    cases h' with
    | held h2 e2 => rw [e1, e2]
    | flies r k hi hr h2 e2 =>
      subst hi
      cases late h1 hr
      rw [e1, e2, flight_zero]
      rfl
    | lies r k l hi hr h2 hl e2 =>
      subst hi
      cases late h1 hr
      have := h2.1
      omega
  | flies r k hi hr h1 e1 =>
    subst hi
    cases h' with
    | held h2 e2 =>
      cases late h2 hr
      rw [e1, e2, flight_zero]
      rfl
    | flies r' k' hi' hr' h2 e2 =>
      cases released_unique hr hr'
      cases (by omega : k = k')
      rw [e1, e2]
    | lies r' k' l hi' hr' h2 hl e2 =>
      cases released_unique hr hr'
      exact absurd h2.2.1 (not_lt.mpr (h1 k' h2.1 (by omega)))
  | lies r k l hi hr h1 hl e1 =>
    subst hi
    cases h' with
    | held h2 e2 =>
      cases late h2 hr
      have := h1.1
      omega
    | flies r' k' hi' hr' h2 e2 =>
      cases released_unique hr hr'
      exact absurd h1.2.1 (not_lt.mpr (h2 k h1.1 (by omega)))
    | lies r' k' l' hi' hr' h2 hl' e2 =>
      cases released_unique hr hr'
      cases lands_unique h1 h2
      rw [e1, e2]

theorem thrown_of_stage {n : Nat} {floor : ℝ} {dt clock : Nat → ℝ} {hand vel ball : Nat → ℝ × ℝ}
    (h : ∀ i, i < n → Stage floor dt clock hand vel i (ball i)) : Thrown n floor dt clock hand vel ball where
  held i hi hh := stage_unique (h i hi) (.held hh rfl)
  flies r k hr hi hh := stage_unique (h _ hi) (.flies r k rfl hr hh rfl)
  lies r k l hr hl hk hi := stage_unique (h _ hi) (.lies r k l rfl hr hl hk rfl)

theorem exists_stage (floor : ℝ) (dt clock : Nat → ℝ) (hand vel : Nat → ℝ × ℝ) (i : Nat) :
    ∃ b, Stage floor dt clock hand vel i b := by
  classical
  by_cases h : ∃ j, clock j > 0.6
  · by_cases hr : Nat.find h < i
    · have hrel : Released clock (Nat.find h) := ⟨Nat.find_spec h, fun j hj => not_lt.mp (Nat.find_min h hj)⟩
      by_cases hl : ∃ k, 1 ≤ k ∧ (flight dt hand vel (Nat.find h) k).2 < floor
      · have hk : Lands floor dt hand vel (Nat.find h) (Nat.find hl) :=
          ⟨(Nat.find_spec hl).1, (Nat.find_spec hl).2,
            fun j h1 hj => not_lt.mp fun hc => Nat.find_min hl hj ⟨h1, hc⟩⟩
        by_cases hki : Nat.find hl ≤ i - Nat.find h
        · exact ⟨_, .lies _ _ (i - Nat.find h) (by omega) hrel hk hki rfl⟩
        · exact ⟨_, .flies _ (i - Nat.find h) (by omega) hrel (fun j h1 hj => hk.2.2 j h1 (by omega)) rfl⟩
      · push Not at hl
        exact ⟨_, .flies _ (i - Nat.find h) (by omega) hrel (fun j h1 _ => hl j h1) rfl⟩
    · exact ⟨_, .held (fun j hj => not_lt.mp (Nat.find_min h (by omega))) rfl⟩
  · push Not at h
    exact ⟨_, .held (fun j _ => h j) rfl⟩

theorem Thrown.stage {n : Nat} {floor : ℝ} {dt clock : Nat → ℝ} {hand vel ball : Nat → ℝ × ℝ}
    (h : Thrown n floor dt clock hand vel ball) {i : Nat} (hi : i < n) :
    Stage floor dt clock hand vel i (ball i) := by
  obtain ⟨b, hb⟩ := exists_stage floor dt clock hand vel i
  have e : ball i = b := by
    cases hb with
    | held hh e => rw [e]; exact h.held i hi hh
    | flies r k hi' hr hh e => subst hi'; rw [e]; exact h.flies r k hr hi hh
    | lies r k l hi' hr hh hl e => subst hi'; rw [e]; exact h.lies r k l hr hh hl hi
  rw [e]
  exact hb

/-- The motion of the ball is determined by that of the hand. -/
theorem Thrown.unique {n : Nat} {floor : ℝ} {dt clock : Nat → ℝ} {hand vel ball ball' : Nat → ℝ × ℝ}
    (h : Thrown n floor dt clock hand vel ball) (h' : Thrown n floor dt clock hand vel ball') {i : Nat}
    (hi : i < n) : ball i = ball' i := stage_unique (h.stage hi) (h'.stage hi)

theorem flight_congr {dt : Nat → ℝ} {hand vel hand' vel' : Nat → ℝ × ℝ} {r : Nat} (h1 : hand r = hand' r)
    (h2 : vel r = vel' r) (k : Nat) : flight dt hand vel r k = flight dt hand' vel' r k := by
  unfold flight
  rw [h1, h2]

theorem lands_congr {floor : ℝ} {dt : Nat → ℝ} {hand vel hand' vel' : Nat → ℝ × ℝ} {r k : Nat}
    (h1 : hand r = hand' r) (h2 : vel r = vel' r) (h : Lands floor dt hand vel r k) :
    Lands floor dt hand' vel' r k := by
  refine ⟨h.1, ?_, fun j h3 h4 => ?_⟩
  · rw [← flight_congr h1 h2]; exact h.2.1
  · rw [← flight_congr h1 h2]; exact h.2.2 j h3 h4

theorem Thrown.congr {m n : Nat} {floor : ℝ} {dt clock : Nat → ℝ} {hand vel hand' vel' ball : Nat → ℝ × ℝ}
    (h : Thrown n floor dt clock hand vel ball) (hmn : m ≤ n) (h1 : ∀ i, i < m → hand i = hand' i)
    (h2 : ∀ i, i < m → vel i = vel' i) : Thrown m floor dt clock hand' vel' ball where
  held i hi hh := by rw [h.held i (by omega) hh, h1 i hi]
  flies r k hr hk hh := by
    have e := fun k => flight_congr (dt := dt) (h1 r (by omega)) (h2 r (by omega)) k
    rw [h.flies r k hr (by omega) fun j h3 h4 => by rw [e]; exact hh j h3 h4, e]
  lies r k l hr hl hkl hn := by
    have e := fun k => flight_congr (dt := dt) (h1 r (by omega)) (h2 r (by omega)) k
    rw [h.lies r k l hr (lands_congr (h1 r (by omega)).symm (h2 r (by omega)).symm hl) hkl (by omega), e]

/-- The state of a ball at step `i`, with velocity and acceleration. -/
inductive FullStage (floor : ℝ) (dt clock : Nat → ℝ) (hand vel acc : Nat → ℝ × ℝ) (i : Nat) (b v a : ℝ × ℝ) : Prop
  | held (h : ∀ j, j < i → clock j ≤ 0.6) (eb : b = hand i) (ev : v = vel i) (ea : a = acc i)
  | flies (r k : Nat) (hi : i = r + k) (hr : Released clock r) (hk : 1 ≤ k)
      (h : ∀ j, 1 ≤ j → j ≤ k → floor ≤ (flight dt hand vel r j).2) (eb : b = flight dt hand vel r k)
      (ev : v = ((vel r).1, (vel r).2 - 9.81 * airTime dt r k)) (ea : a = (0, -9.81))
  | lies (r k l : Nat) (hi : i = r + l) (hr : Released clock r) (h : Lands floor dt hand vel r k) (hl : k ≤ l)
      (eb : b = ((flight dt hand vel r k).1, floor)) (ev : v = (0, 0)) (ea : a = (0, 0))

theorem FullStage.stage {floor : ℝ} {dt clock : Nat → ℝ} {hand vel acc : Nat → ℝ × ℝ} {i : Nat} {b v a : ℝ × ℝ}
    (h : FullStage floor dt clock hand vel acc i b v a) : Stage floor dt clock hand vel i b := by
  cases h with
  | held h eb => exact .held h eb
  | flies r k hi hr hk h eb => exact .flies r k hi hr h eb
  | lies r k l hi hr h hl eb => exact .lies r k l hi hr h hl eb

theorem fullStage_unique {floor : ℝ} {dt clock : Nat → ℝ} {hand vel acc : Nat → ℝ × ℝ} {i : Nat}
    {b v a b' v' a' : ℝ × ℝ} (h : FullStage floor dt clock hand vel acc i b v a)
    (h' : FullStage floor dt clock hand vel acc i b' v' a') : v = v' ∧ a = a' := by
  have late : ∀ {r k : Nat}, (∀ j, j < r + k → clock j ≤ 0.6) → Released clock r → 1 ≤ k → False :=
    fun {r k} h hr hk => absurd hr.1 (not_lt.mpr (h r (by omega)))
  cases h with
  | held h1 _ e1 e2 =>
    cases h' with
    | held h2 _ e1' e2' => exact ⟨e1.trans e1'.symm, e2.trans e2'.symm⟩
    | flies r k hi hr hk => subst hi; exact (late h1 hr hk).elim
    | lies r k l hi hr hh hl => subst hi; exact (late h1 hr (hh.1.trans hl)).elim
  | flies r k hi hr hk h1 _ e1 e2 =>
    subst hi
    cases h' with
    | held h2 => exact (late h2 hr hk).elim
    | flies r' k' hi' hr' hk' h2 _ e1' e2' =>
      cases released_unique hr hr'
      cases (by omega : k = k')
      exact ⟨e1.trans e1'.symm, e2.trans e2'.symm⟩
    | lies r' k' l hi' hr' h2 hl =>
      cases released_unique hr hr'
      exact absurd h2.2.1 (not_lt.mpr (h1 k' h2.1 (by omega)))
  | lies r k l hi hr h1 hl _ e1 e2 =>
    subst hi
    cases h' with
    | held h2 => exact (late h2 hr (h1.1.trans hl)).elim
    | flies r' k' hi' hr' hk' h2 =>
      cases released_unique hr hr'
      exact absurd h1.2.1 (not_lt.mpr (h2 k h1.1 (by omega)))
    | lies r' k' l' hi' hr' h2 hl' _ e1' e2' => exact ⟨e1.trans e1'.symm, e2.trans e2'.symm⟩

theorem thrown_of_fullStage {n : Nat} {floor : ℝ} {dt clock : Nat → ℝ} {hand vel acc ball bvel bacc : Nat → ℝ × ℝ}
    (h : ∀ i, i < n → FullStage floor dt clock hand vel acc i (ball i) (bvel i) (bacc i)) :
    ThrownFully n floor dt clock hand vel acc ball bvel bacc where
  toThrown := thrown_of_stage fun i hi => (h i hi).stage
  heldRates i hi hh := fullStage_unique (h i hi) (.held (b := hand i) hh rfl rfl rfl)
  fliesRates r k hr hk hi hh := fullStage_unique (h _ hi) (.flies r k rfl hr hk hh rfl rfl rfl)
  liesRates r k l hr hl hk hi := fullStage_unique (h _ hi) (.lies r k l rfl hr hl hk rfl rfl rfl)

/-- Steps of the same length: the parabola. -/
theorem flight_const (d : ℝ) (hand vel : Nat → ℝ × ℝ) (r k : Nat) :
    flight (fun _ => d) hand vel r k =
      ((hand r).1 + k * d * (vel r).1,
        (hand r).2 + k * d * (vel r).2 - 9.81 * (d ^ 2 * (k * (k + 1) / 2))) := by
  have h1 : ∀ k, airTime (fun _ => d) r k = k * d := fun k => by unfold airTime; simp
  have h2 : fallen (fun _ => d) r k = d ^ 2 * (k * (k + 1) / 2) := by
    unfold fallen
    induction k with
    | zero => simp
    | succ k ih =>
      rw [sum_range_succ, ih, h1]
      push_cast
      ring
  unfold flight
  rw [h1, h2]

/-- The ball falls below any floor. -/
theorem exists_lands {d : ℝ} (hd : 0 < d) (floor : ℝ) (hand vel : Nat → ℝ × ℝ) (r : Nat) :
    ∃ k, Lands floor (fun _ => d) hand vel r k := by
  classical
  have : ∃ k, 1 ≤ k ∧ (flight (fun _ => d) hand vel r k).2 < floor := by
    obtain ⟨m, hm⟩ := exists_nat_gt (|(vel r).2| / d + (|(hand r).2| + |floor|) / d ^ 2)
    refine ⟨m + 1, by omega, ?_⟩
    rw [flight_const]
    have h1 : |(vel r).2| * d + (|(hand r).2| + |floor|) < d ^ 2 * m := by
      have : (|(vel r).2| / d + (|(hand r).2| + |floor|) / d ^ 2) * d ^ 2 < m * d ^ 2 :=
        mul_lt_mul_of_pos_right hm (by positivity)
      have e : (|(vel r).2| / d + (|(hand r).2| + |floor|) / d ^ 2) * d ^ 2 =
          |(vel r).2| * d + (|(hand r).2| + |floor|) := by field_simp
      rw [e] at this
      linarith
    have a1 := le_abs_self (vel r).2
    have a2 := le_abs_self (hand r).2
    have a3 := neg_abs_le floor
    have a4 := abs_nonneg (hand r).2
    have a5 := abs_nonneg floor
    have hm0 : (0 : ℝ) ≤ m := Nat.cast_nonneg m
    push_cast
    have h2 : ((m : ℝ) + 1) * d * (vel r).2 ≤ (m + 1) * (|(vel r).2| * d) := by
      have := mul_le_mul_of_nonneg_left a1 (by positivity : (0 : ℝ) ≤ (m + 1) * d)
      linarith
    have h3 : ((m : ℝ) + 1) * (|(vel r).2| * d + (|(hand r).2| + |floor|)) < (m + 1) * (d ^ 2 * m) :=
      mul_lt_mul_of_pos_left h1 (by positivity)
    have h4 : (|(hand r).2| + |floor|) ≤ ((m : ℝ) + 1) * (|(hand r).2| + |floor|) := by
      have : (0 : ℝ) ≤ m * (|(hand r).2| + |floor|) := by positivity
      linarith
    have h5 : ((m : ℝ) + 1) * (d ^ 2 * m) ≤ 9.81 * (d ^ 2 * ((m + 1) * (m + 1 + 1) / 2)) := by
      have : (0 : ℝ) ≤ (m + 1) * d ^ 2 * (9.81 * (m + 2) / 2 - m) := by
        refine mul_nonneg (by positivity) ?_
        norm_num
        linarith
      linarith
    have : floor ≥ -|floor| := by linarith
    linarith
  exact ⟨Nat.find this, (Nat.find_spec this).1, (Nat.find_spec this).2,
    fun j h1 hj => not_lt.mp fun hc => Nat.find_min this hj ⟨h1, hc⟩⟩

end Verif.Spec
