import Verif.Spec.Raises
import Verif.Props.Base
import Verif.Props.Integrate
import Verif.Model.Sigmoid

/-
C88 for the dynamical systems: arguments of the wrong size raise ValueError and change nothing.
-/

noncomputable section

set_option autoImplicit false

namespace Verif

open Spec

/-- C88: the attractor setters accept exactly the vectors of the size of the output. -/
theorem C88_attractors (y : List ℝ) :
    (∀ s : Exponential, (y.length ≠ s.dimY → Raises (Exponential.setYAttr y) .valueError s) ∧
      (y.length = s.dimY → ∃ t, Exponential.setYAttr y s = (.ok (), t) ∧ t.xAttr = y ∧ t.toBase = s.toBase ∧
        t.alpha = s.alpha)) ∧
    (∀ s : SpringDamper, (y.length ≠ s.dimY → Raises (SpringDamper.setYAttr y) .valueError s) ∧
      (y.length = s.dimY → ∃ t, SpringDamper.setYAttr y s = (.ok (), t) ∧ t.yAttr = y ∧ t.toBase = s.toBase ∧
        t.damping = s.damping ∧ t.spring = s.spring ∧ t.mass = s.mass)) := by
  refine ⟨fun s => ⟨fun h => ?_, fun h => ⟨{ s with xAttr := y }, ?_, rfl, rfl, rfl⟩⟩,
    fun s => ⟨fun h => ?_, fun h => ⟨{ s with yAttr := y }, ?_, rfl, rfl, rfl, rfl, rfl⟩⟩⟩
  · simp [Raises, Exponential.setYAttr, h]
  · simp [Exponential.setYAttr, h]
  · simp [Raises, SpringDamper.setYAttr, h]
  · simp [SpringDamper.setYAttr, h]

/-- C88: a dynamical system cannot be made with an order other than 1 and 2, nor with a state that is smaller
than y_init. -/
theorem C88_make (order : Int) (tau : ℝ) (y : List ℝ) (n : Option Nat) (e : PyErr) :
    Base.init order tau y n = .error e ↔ e = .valueError ∧
      (order < 1 ∨ 2 < order ∨ ∃ k, n = some k ∧ k ≠ 0 ∧ (k : Int) * order < y.length) := by
  unfold Base.init
  by_cases h : order < 1 ∨ order > 2
  · rw [if_pos h]
    simp only [Except.error.injEq]
    exact ⟨fun h' => ⟨h'.symm, h.elim .inl fun h => .inr (.inl h)⟩, fun h' => h'.1.symm⟩
  · rw [if_neg h]
    obtain ⟨o, rfl⟩ : ∃ o : Nat, order = o := ⟨order.toNat, by omega⟩
    have key : Base.stateDim o y.length n < y.length ↔
        ∃ k, n = some k ∧ k ≠ 0 ∧ (k : Int) * o < y.length := by
      have h1 : ¬ y.length * o < y.length := not_lt.2 (Nat.le_mul_of_pos_right _ (by omega))
      cases n with
      | none => simp only [Base.stateDim, Int.toNat_natCast]; simp [h1]
      | some k =>
        simp only [Base.stateDim, Int.toNat_natCast, Option.some.injEq, exists_eq_left']
        split_ifs with hk
        · simp [h1, hk]
        · exact ⟨fun h => ⟨hk, by exact_mod_cast h⟩, fun h => by exact_mod_cast h.2⟩
    dsimp only
    split_ifs with hd
    · simp only [Except.error.injEq]
      exact ⟨fun h' => ⟨h'.symm, .inr (.inr (key.1 hd))⟩, fun h' => h'.1.symm⟩
    · simp only [reduceCtorEq, false_iff, not_and]
      rintro _ (h' | h' | h')
      · omega
      · omega
      · exact hd (key.2 h')

example : Base.init 1 2 [3, 4, 5] (some 2) = .error .valueError :=
  (C88_make 1 2 [3, 4, 5] (some 2) _).2 ⟨rfl, .inr (.inr ⟨2, rfl, by norm_num, by norm_num⟩)⟩

/-- C88: the setters of the initial state accept exactly the vectors of the size of the state (x_init) or of
the output (y_init), for each class of dynamical systems. -/
theorem C88_initial (x : List ℝ) :
    (∀ s : Exponential, (x.length ≠ s.dimX → Raises (Exponential.setXInit x) .valueError s) ∧
      (x.length ≠ s.dimY → Raises (Exponential.setYInit x) .valueError s)) ∧
    (∀ s : SpringDamper, (x.length ≠ s.dimX → Raises (SpringDamper.setXInit x) .valueError s) ∧
      (x.length ≠ s.dimY → Raises (SpringDamper.setYInit x) .valueError s)) ∧
    (∀ s : TimeSystem, (x.length ≠ s.dimX → Raises (TimeSystem.setXInit x) .valueError s) ∧
      (x.length ≠ s.dimY → Raises (TimeSystem.setYInit x) .valueError s)) ∧
    (∀ s : Sigmoid, (x.length ≠ s.dimX → Raises (Sigmoid.setXInit x) .valueError s) ∧
      (x.length ≠ s.dimX → Raises (Sigmoid.setYInit x) .valueError s)) := by
  have hx : ∀ b : Base, x.length ≠ b.dimX → Base.setXInit x b = (.error .valueError, b) :=
    fun b h => by simp [Base.setXInit, h]
  have hy : ∀ b : Base, x.length ≠ b.dimY → Base.setYInit x b = (.error .valueError, b) :=
    fun b h => by simp [Base.setYInit, h]
  refine ⟨fun s => ⟨fun h => ?_, fun h => ?_⟩, fun s => ⟨fun h => ?_, fun h => ?_⟩,
    fun s => ⟨fun h => ?_, fun h => ?_⟩, fun s => ⟨fun h => ?_, fun h => ?_⟩⟩
  · simp only [Raises, Exponential.setXInit, Exponential.inherit, hx s.toBase h]
  · simp only [Raises, Exponential.setYInit, Exponential.inherit, hy s.toBase h]
  · simp only [Raises, SpringDamper.setXInit, SpringDamper.inherit, hx s.toBase h]
  · simp only [Raises, SpringDamper.setYInit, SpringDamper.inherit, hy s.toBase h]
  · simp only [Raises, TimeSystem.setXInit, TimeSystem.inherit, hx s.toBase h]
  · simp only [Raises, TimeSystem.setYInit, TimeSystem.inherit, hy s.toBase h]
  · simp [Raises, Sigmoid.setXInit, h]
  · have : Sigmoid.setXInit x s = (.error .valueError, s) := by simp [Sigmoid.setXInit, h]
    exact PyM.bind_error this

/-- C88: an integration step from a state of the wrong size raises ValueError, for each class of systems and
both methods; the default step is that of Runge and Kutta. -/
theorem C88_steps {σ : Type} [DynSys σ] (s : σ) (dt : ℝ) (x : List ℝ) (h : x.length ≠ DynSys.dimX s) :
    (∀ m, Raises (DynSys.step m dt x) .valueError s) ∧ Raises (DynSys.integrateStep dt x) .valueError s := by
  have h1 : DynSys.eulerStep dt x s = (.error .valueError, s) := by simp [DynSys.eulerStep, h]
  have h2 : DynSys.rungeKuttaStep dt x s = (.error .valueError, s) := by simp [DynSys.rungeKuttaStep, h]
  exact ⟨fun m => by cases m; exacts [h2, h1], h2⟩

/-- C88: integrate_start raises the exceptions of the y_init setter. -/
theorem C88_start {σ : Type} [DynSys σ] (s : σ) (y : List ℝ) (e : PyErr) (t : σ)
    (h : DynSys.setYInit y s = (.error e, t)) :
    DynSys.integrateStart (some y) s = (.error e, t) := by
  unfold DynSys.integrateStart
  exact PyM.bind_error h

/-- C88: a TimeSystem has one state variable; its rate is defined for states with one entry only. -/
theorem C88_time (s : TimeSystem) (x : List ℝ) :
    (x.length ≠ 1 → s.diffEq x = .error .valueError) ∧ (x.length = 1 → ∃ r, s.diffEq x = .ok [r]) := by
  constructor
  · intro h
    match x, h with
    | [], _ => rfl
    | [a], h => exact absurd rfl h
    | a :: b :: l, _ => rfl
  · intro h
    match x, h with
    | [a], _ =>
      unfold TimeSystem.diffEq
      simp only
      split
      · split <;> exact ⟨_, rfl⟩
      · split <;> exact ⟨_, rfl⟩

/-- The hypotheses hold for systems of dimension one and vectors of size two. -/
example : ([3, 4] : List ℝ).length ≠ (Exponential.init 1 [0] [2] (.scalar 5)).dimY ∧
    ([3, 4] : List ℝ).length ≠ DynSys.dimX (Exponential.init 1 [0] [2] (.scalar 5)) ∧
    ([3] : List ℝ).length = (Exponential.init 1 [0] [2] (.scalar 5)).dimY ∧
    DynSys.setYInit [3, 4] (Exponential.init 1 [0] [2] (.scalar 5)) =
      (.error .valueError, Exponential.init 1 [0] [2] (.scalar 5)) := by
  refine ⟨by simp [Exponential.init], ?_, rfl, ?_⟩
  · change 2 ≠ 1
    decide
  · exact ((C88_initial [3, 4]).1 _).2 (by simp [Exponential.init])

end Verif
