import Verif.Model.Exponential
import Verif.Model.TimeSystem
import Verif.Model.SpringDamper
import Verif.Model.Richards
import Verif.Proofs.Integration

/- C15: constructor and initial-state setters of the base class. -/

set_option autoImplicit false

namespace Verif

namespace Base

/-- Assignments a user can make. -/
inductive Op
  | setTau (tau : ℝ)
  | setXInit (x : List ℝ)
  | setYInit (y : List ℝ)

/-- The object after an assignment (accepted or rejected). -/
noncomputable def Op.after : Op → Base → Base
  | .setTau t, s => (Base.setTau t s).2
  | .setXInit x, s => (Base.setXInit x s).2
  | .setYInit y, s => (Base.setYInit y s).2

/-- Objects obtained by construction followed by any sequence of assignments. -/
def Reachable (s : Base) : Prop :=
  ∃ order tau y n s0, init order tau y n = .ok s0 ∧ ∃ ops : List Op,
    s = ops.foldl (fun s op => op.after s) s0

/-- C15: construction succeeds exactly for order 1 or 2 with room for `y_init`; then the state has
the documented size and consists of `y_init` followed by zeros. -/
theorem C15_init (order : Int) (tau : ℝ) (y : List ℝ) (n : Option Nat) :
    (∀ s, init order tau y n = .ok s →
      (order = 1 ∨ order = 2) ∧ s.tau = tau ∧ s.dimY = y.length ∧
      (s.dimX : Int) = order * (match n with
        | none => (y.length : Int)
        | some k => if k = 0 then (y.length : Int) else k) ∧
      s.xInit.length = s.dimX ∧ s.xInit.take y.length = y ∧
      ∀ i, y.length ≤ i → s.xInit.getD i 0 = 0) ∧
    (order ≠ 1 → order ≠ 2 → init order tau y n = .error .valueError) ∧
    (n = none → order = 1 ∨ order = 2 → ∃ s, init order tau y n = .ok s) := by
  refine ⟨fun s h => ?_, fun h1 h2 => ?_, fun hn ho => ?_⟩
  · unfold init at h
    split at h
    · cases h
    · rename_i hord
      by_cases hd : stateDim order y.length n < y.length
      · simp [hd] at h
      · simp only [hd, if_false, Except.ok.injEq] at h
        subst h
        have ho : order = 1 ∨ order = 2 := by omega
        refine ⟨ho, rfl, rfl, ?_, ?_, ?_, ?_⟩
        · rcases ho with rfl | rfl
          · cases n with
            | none => simp [stateDim]
            | some k => by_cases hk : k = 0 <;> simp [stateDim, hk]
          · cases n with
            | none => simp [stateDim]; omega
            | some k =>
              by_cases hk : k = 0
              · simp [stateDim, hk]; omega
              · simp [stateDim, hk]; omega
        · simp only [List.length_append, length_vzeros]; omega
        · simp
        · intro i hi
          show (y ++ vzeros _).getD i 0 = 0
          rw [show i = y.length + (i - y.length) by omega, getD_append_right', getD_vzeros]
  · unfold init
    rw [if_pos (by omega)]
  · subst hn
    unfold init
    rw [if_neg (by omega)]
    simp only
    have : ¬ (stateDim order y.length none < y.length) := by
      rcases ho with rfl | rfl
      · simp [stateDim]
      · show ¬ (y.length * 2 < y.length)
        omega
    rw [if_neg this]
    exact ⟨_, rfl⟩

/-- C15: wrong size is rejected with `ValueError` and nothing changes; the right size is accepted. -/
theorem C15_setXInit (s : Base) (x : List ℝ) :
    (x.length ≠ s.dimX → setXInit x s = (.error .valueError, s)) ∧
    (x.length = s.dimX → setXInit x s = (.ok (), { s with xInit := x })) := by
  constructor
  · intro h; simp [setXInit, h]
  · intro h; simp [setXInit, h]

theorem setYInit_run (s : Base) (hle : s.dimY ≤ s.dimX) (y : List ℝ) (h : y.length = s.dimY) :
    setYInit y s = (.ok (), { s with xInit := y ++ vzeros (s.dimX - s.dimY) }) := by
  have : (y ++ vzeros (s.dimX - s.dimY) : List ℝ).length = s.dimX := by
    simp only [List.length_append, length_vzeros, h]; omega
  simp [setYInit, h, (C15_setXInit s _).2 this]

/-- C15: the invariant of all reachable objects. -/
theorem C15_size_invariant {s : Base} (h : Reachable s) :
    s.xInit.length = s.dimX ∧ s.dimY ≤ s.dimX := by
  obtain ⟨order, tau, y, n, s0, h0, ops, rfl⟩ := h
  have hinv : s0.xInit.length = s0.dimX ∧ s0.dimY ≤ s0.dimX := by
    obtain ⟨h1, h2, h3, h4, h5, h6, h7⟩ := (C15_init order tau y n).1 s0 h0
    refine ⟨h5, ?_⟩
    have : (s0.xInit.take y.length).length = y.length := by rw [h6]
    rw [List.length_take] at this
    omega
  clear h0
  have after_x : ∀ x s, (Op.setXInit x).after s = (setXInit x s).2 := fun _ _ => rfl
  have after_y : ∀ x s, (Op.setYInit x).after s = (setYInit x s).2 := fun _ _ => rfl
  induction ops generalizing s0 with
  | nil => exact hinv
  | cons op ops ih =>
    apply ih
    show (op.after s0).xInit.length = (op.after s0).dimX ∧ (op.after s0).dimY ≤ (op.after s0).dimX
    cases op with
    | setTau t => exact ⟨hinv.1, hinv.2⟩
    | setXInit x =>
      by_cases hx : x.length = s0.dimX
      · rw [after_x, (C15_setXInit s0 x).2 hx]; exact ⟨hx, hinv.2⟩
      · rw [after_x, (C15_setXInit s0 x).1 hx]; exact hinv
    | setYInit y =>
      by_cases hy : y.length = s0.dimY
      · rw [after_y, setYInit_run s0 hinv.2 y hy]
        refine ⟨?_, hinv.2⟩
        simp only [List.length_append, length_vzeros, hy]; omega
      · have : setYInit y s0 = (.error .valueError, s0) := by simp [setYInit, hy]
        rw [after_y, this]; exact hinv

/-- C15: assignment of `y_init` to a reachable object.  Wrong size: `ValueError`, nothing changes.
Right size: `y_init` reads back, the rest of the initial state is 0, everything else is unchanged. -/
theorem C15_setYInit {s : Base} (hr : Reachable s) (y : List ℝ) :
    (y.length ≠ s.dimY → setYInit y s = (.error .valueError, s)) ∧
    (y.length = s.dimY → ∃ s', setYInit y s = (.ok (), s') ∧ s'.yInit = y ∧
      (∀ i, s.dimY ≤ i → s'.xInit.getD i 0 = 0) ∧ s'.xInit.length = s.dimX ∧
      s'.tau = s.tau ∧ s'.dimX = s.dimX ∧ s'.dimY = s.dimY) := by
  constructor
  · intro h; simp [setYInit, h]
  · intro h
    obtain ⟨_, hle⟩ := C15_size_invariant hr
    refine ⟨_, setYInit_run s hle y h, ?_, ?_, ?_, rfl, rfl, rfl⟩
    · show (y ++ vzeros _).take s.dimY = y
      rw [← h, List.take_left']
      rfl
    · intro i hi
      show (y ++ vzeros _).getD i 0 = 0
      rw [show i = y.length + (i - y.length) by omega, getD_append_right', getD_vzeros]
    · simp only [List.length_append, length_vzeros, h]; omega

/-- A reachable object of order 2, after an accepted and a rejected assignment. -/
example : ∃ s, Reachable s ∧ s.dimY = 2 ∧ s.dimX = 4 := by
  refine ⟨_, ⟨2, 1, [1, 2], none, _, rfl, [.setYInit [3, 4], .setXInit [1]], rfl⟩, ?_, ?_⟩ <;>
    simp [Op.after, setXInit, setYInit, PyM.bind_apply, vzeros, stateDim]

end Base

/-! ### The subclasses inherit the constructor and the setters -/

/-- The constructors of the subclasses produce the base object that `DynamicalSystem.__init__`
produces for order 1 (order 2 for the spring-damper system). -/
theorem C15_subclass_init (tau : ℝ) (y ya : List ℝ) (p : Par ℝ) (k : Option (Par ℝ)) (m : Par ℝ)
    (b : Bool) (ra ti v : Par ℝ) :
    Base.init 1 tau y = .ok (Exponential.init tau y ya p).toBase ∧
    Base.init 2 tau y = .ok (SpringDamper.init tau y ya p k m).toBase ∧
    Base.init 1 tau [if b then 1 else 0] = .ok (TimeSystem.init tau b).toBase ∧
    Base.init 1 tau y = .ok (Richards.init tau y ra ti p v).toBase := by
  refine ⟨?_, ?_, ?_, ?_⟩
  · simp [Base.init, Base.stateDim, Exponential.init, vzeros]
  · simp only [Base.init, SpringDamper.init]
    rw [if_neg (by omega), if_neg (by show ¬ (y.length * 2 < y.length); omega)]
    have : Base.stateDim 2 y.length none - y.length = y.length := by
      show y.length * 2 - y.length = _
      omega
    rw [this]
    rfl
  · simp [Base.init, Base.stateDim, TimeSystem.init, TimeSystem.start, vzeros]
  · simp [Base.init, Base.stateDim, Richards.init, vzeros]

namespace DynSys

/-- `integrate_start` with a new initial state: the `y_init` setter is used, then the (new) initial
state and its rate are returned. -/
theorem C12_integrate_start {σ : Type} [DynSys σ] (s s1 s2 : σ) (y xd : List ℝ)
    (h1 : setYInit y s = (.ok (), s1)) (h2 : diffEq (xInit s1) s1 = (.ok xd, s2)) :
    integrateStart (some y) s = (.ok (xInit s1, xd), s2) := by
  unfold integrateStart
  simp only
  rw [PyM.bind_ok h1, PyM.self_bind, PyM.bind_ok h2]
  rfl

/-- `integrate_start` with a rejected initial state raises and changes nothing else. -/
theorem C12_integrate_start_rejected {σ : Type} [DynSys σ] (s s1 : σ) (y : List ℝ) (e : PyErr)
    (h1 : setYInit y s = (.error e, s1)) :
    integrateStart (some y) s = (.error e, s1) := by
  unfold integrateStart
  simp only
  rw [PyM.bind_error h1]

/-- `integrate_step` is a Runge-Kutta step. -/
theorem C12_integrate_step {σ : Type} [DynSys σ] {I : σ → Prop} {n : Nat} {x0 : List ℝ}
    {f : List ℝ → List ℝ} (h : Realises I n x0 f) (s : σ) (hs : I s) (x : List ℝ)
    (hx : x.length = n) (dt : ℝ) :
    ∃ x' s', integrateStep dt x s = (.ok (x', f x'), s') ∧ I s' ∧ Spec.IsRK4Step f n dt x x' := by
  obtain ⟨s', e, i⟩ := h.rungeKuttaStep hs hx dt
  exact ⟨_, s', e, i, h.rk4_spec hx dt⟩

end DynSys

/-- Concrete case: a spring-damper system started in a new position starts at rest there. -/
example (s : SpringDamper) (h : s = SpringDamper.init 1 [0] [1] (.scalar 20)) :
    ∃ s', DynSys.integrateStart (some [5]) s = (.ok ([5, 0], s'.diffEq [5, 0]), s') := by
  subst h
  have h1 : DynSys.setYInit [5] (SpringDamper.init 1 [0] [1] (.scalar 20)) =
      (.ok (), { SpringDamper.init 1 [0] [1] (.scalar 20) with xInit := [5, 0] }) := by
    show SpringDamper.setYInit [5] _ = _
    unfold SpringDamper.setYInit SpringDamper.inherit
    simp only
    rw [Base.setYInit_run _ (by simp [SpringDamper.init]) _ rfl]
    rfl
  exact ⟨_, DynSys.C12_integrate_start _ _ _ _ _ h1 rfl⟩

end Verif
