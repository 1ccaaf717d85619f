import Verif.Model.DynamicalSystem
import Verif.Spec.Integration
import Verif.Proofs.Vec
import Mathlib.Tactic.Linarith
import Mathlib.Tactic.NormNum

/- Helper lemmas about the integration methods of the base class. -/

set_option autoImplicit false

namespace Verif

namespace DynSys

variable {σ : Type} [DynSys σ]

/-- `differential_equation` behaves as the function `f` on all states of the right size, as long as
the object satisfies `I`; the call may change the object, but `I`, the dimension and the initial
state stay. -/
structure Realises (I : σ → Prop) (n : Nat) (x0 : List ℝ) (f : List ℝ → List ℝ) : Prop where
  dim : ∀ s, I s → dimX s = n
  init : ∀ s, I s → xInit s = x0
  initLen : x0.length = n
  diff : ∀ s x, I s → x.length = n → ∃ s', diffEq x s = (.ok (f x), s') ∧ I s'
  len : ∀ x, x.length = n → (f x).length = n

variable {I : σ → Prop} {n : Nat} {x0 : List ℝ} {f : List ℝ → List ℝ}

theorem Realises.eulerStep (h : Realises I n x0 f) {s : σ} (hs : I s) {x : List ℝ}
    (hx : x.length = n) (dt : ℝ) :
    ∃ s', DynSys.eulerStep dt x s = (.ok (vadd x (vscale dt (f x)), f x), s') ∧ I s' := by
  obtain ⟨s', h1, h2⟩ := h.diff s x hs hx
  refine ⟨s', ?_, h2⟩
  unfold DynSys.eulerStep
  rw [PyM.self_bind, if_neg (by simp [h.dim s hs, hx]), PyM.bind_ok h1]
  rfl

/-- The new state of a Runge-Kutta step for the function `f`. -/
noncomputable def rkNew (f : List ℝ → List ℝ) (dt : ℝ) (x : List ℝ) : List ℝ :=
  let k1 := f x
  let k2 := f (vadd x (vscale (dt * 0.5) k1))
  let k3 := f (vadd x (vscale (dt * 0.5) k2))
  let k4 := f (vadd x (vscale dt k3))
  vadd x (vdivs (vscale dt (vadd (vadd k1 (vscale 2 (vadd k2 k3))) k4)) 6)

theorem Realises.len_vadd (h : Realises I n x0 f) {x y : List ℝ} (hx : x.length = n)
    (hy : y.length = n) (c : ℝ) : (vadd x (vscale c (f y))).length = n := by
  simp [hx, h.len y hy]

theorem Realises.len_rkNew (h : Realises I n x0 f) {x : List ℝ} (hx : x.length = n) (dt : ℝ) :
    (rkNew f dt x).length = n := by
  have h1 := h.len_vadd hx hx (dt * 0.5)
  have h2 := h.len_vadd hx h1 (dt * 0.5)
  have h3 := h.len_vadd hx h2 dt
  simp [rkNew, hx, h.len _ hx, h.len _ h1, h.len _ h2, h.len _ h3]

theorem Realises.rungeKuttaStep (h : Realises I n x0 f) {s : σ} (hs : I s) {x : List ℝ}
    (hx : x.length = n) (dt : ℝ) :
    ∃ s', DynSys.rungeKuttaStep dt x s = (.ok (rkNew f dt x, f (rkNew f dt x)), s') ∧ I s' := by
  have l1 := h.len_vadd hx hx (dt * 0.5)
  have l2 := h.len_vadd hx l1 (dt * 0.5)
  have l3 := h.len_vadd hx l2 dt
  have l4 := h.len_rkNew hx dt
  obtain ⟨s1, e1, i1⟩ := h.diff s x hs hx
  obtain ⟨s2, e2, i2⟩ := h.diff s1 _ i1 l1
  obtain ⟨s3, e3, i3⟩ := h.diff s2 _ i2 l2
  obtain ⟨s4, e4, i4⟩ := h.diff s3 _ i3 l3
  obtain ⟨s5, e5, i5⟩ := h.diff s4 _ i4 l4
  refine ⟨s5, ?_, i5⟩
  unfold DynSys.rungeKuttaStep
  rw [PyM.self_bind, if_neg (by simp [h.dim s hs, hx]), PyM.bind_ok e1, PyM.bind_ok e2,
    PyM.bind_ok e3, PyM.bind_ok e4]
  exact (PyM.bind_ok e5).trans rfl

/-- One step for the function `f`, as a function. -/
noncomputable def stepFn (f : List ℝ → List ℝ) (m : Method) (dt : ℝ) (x : List ℝ) :
    List ℝ × List ℝ :=
  match m with
  | .rungeKutta => (rkNew f dt x, f (rkNew f dt x))
  | .euler => (vadd x (vscale dt (f x)), f x)

theorem Realises.step (h : Realises I n x0 f) {s : σ} (hs : I s) {x : List ℝ}
    (hx : x.length = n) (m : Method) (dt : ℝ) :
    ∃ s', DynSys.step m dt x s = (.ok (stepFn f m dt x), s') ∧ I s' := by
  cases m with
  | rungeKutta => exact h.rungeKuttaStep hs hx dt
  | euler => exact h.eulerStep hs hx dt

theorem Realises.len_step (h : Realises I n x0 f) {x : List ℝ}
    (hx : x.length = n) (m : Method) (dt : ℝ) : (stepFn f m dt x).1.length = n := by
  cases m with
  | rungeKutta => exact h.len_rkNew hx dt
  | euler => exact h.len_vadd hx hx dt

/-- The rows after the first, as a function. -/
noncomputable def rowsFn (f : List ℝ → List ℝ) (m : Method) (tPrev : ℝ) (x : List ℝ) :
    List ℝ → List (List ℝ × List ℝ)
  | [] => []
  | t :: ts => stepFn f m (t - tPrev) x :: rowsFn f m t (stepFn f m (t - tPrev) x).1 ts

theorem Realises.integrateLoop (h : Realises I n x0 f) (m : Method) (ts : List ℝ) :
    ∀ {s : σ} (_ : I s) {x : List ℝ} (_ : x.length = n) (tPrev : ℝ),
      ∃ s', DynSys.integrateLoop m tPrev x ts s = (.ok (rowsFn f m tPrev x ts), s') ∧ I s' := by
  induction ts with
  | nil => intro s hs x _ tPrev; exact ⟨s, rfl, hs⟩
  | cons t ts ih =>
    intro s hs x hx tPrev
    obtain ⟨s1, e1, i1⟩ := h.step hs hx m (t - tPrev)
    obtain ⟨s2, e2, i2⟩ := ih i1 (h.len_step hx m (t - tPrev)) t
    refine ⟨s2, ?_, i2⟩
    unfold DynSys.integrateLoop
    rw [PyM.bind_ok e1, PyM.bind_ok e2]
    rfl

theorem Realises.integrateStart (h : Realises I n x0 f) {s : σ} (hs : I s) :
    ∃ s', DynSys.integrateStart none s = (.ok (x0, f x0), s') ∧ I s' := by
  obtain ⟨s', h1, h2⟩ := h.diff s x0 hs h.initLen
  refine ⟨s', ?_, h2⟩
  unfold DynSys.integrateStart
  simp only
  rw [PyM.self_bind, h.init s hs, PyM.bind_ok h1]
  rfl

theorem Realises.integrate (h : Realises I n x0 f) {s : σ} (hs : I s) (m : Method)
    (t0 : ℝ) (ts : List ℝ) :
    ∃ s', DynSys.integrate (t0 :: ts) m s =
      (.ok ((x0, f x0) :: rowsFn f m t0 x0 ts), s') ∧ I s' := by
  obtain ⟨s1, e1, i1⟩ := h.integrateStart hs
  obtain ⟨s2, e2, i2⟩ := h.integrateLoop m ts i1 h.initLen t0
  refine ⟨s2, ?_, i2⟩
  unfold DynSys.integrate
  rw [PyM.bind_ok e1]
  simp only
  rw [PyM.bind_ok e2]
  rfl

theorem rowsFn_length (m : Method) (ts : List ℝ) : ∀ (t0 : ℝ) (x : List ℝ),
    (rowsFn f m t0 x ts).length = ts.length := by
  induction ts with
  | nil => intros; rfl
  | cons t ts ih => intro t0 x; simp [rowsFn, ih]

theorem rowsFn_next (m : Method) (xd0 : List ℝ) (ts : List ℝ) : ∀ (t0 : ℝ) (x : List ℝ) (i : Nat)
    (h1 : i + 1 < (t0 :: ts).length) (h2 : i + 1 < ((x, xd0) :: rowsFn f m t0 x ts).length),
    ((x, xd0) :: rowsFn f m t0 x ts)[i + 1] =
      stepFn f m ((t0 :: ts)[i + 1] - (t0 :: ts)[i]) ((x, xd0) :: rowsFn f m t0 x ts)[i].1 := by
  induction ts generalizing xd0 with
  | nil => intro t0 x i h1; simp at h1
  | cons t ts ih =>
    intro t0 x i h1 h2
    cases i with
    | zero => simp [rowsFn]
    | succ i =>
      have := ih (stepFn f m (t - t0) x).2 t (stepFn f m (t - t0) x).1 i (by simpa using h1)
        (by simpa [rowsFn] using h2)
      simpa [rowsFn] using this

theorem Realises.rows_len (h : Realises I n x0 f) (m : Method) (ts : List ℝ) :
    ∀ {x : List ℝ} (_ : x.length = n) (tPrev : ℝ),
      ∀ r ∈ rowsFn f m tPrev x ts, r.1.length = n := by
  induction ts with
  | nil => intro x _ _ r hr; simp [rowsFn] at hr
  | cons t ts ih =>
    intro x hx tPrev r hr
    simp only [rowsFn, List.mem_cons] at hr
    rcases hr with rfl | hr
    · exact h.len_step hx m _
    · exact ih (h.len_step hx m _) _ r hr

/-- The step function meets the specification of the two methods. -/
theorem Realises.euler_spec (h : Realises I n x0 f) {x : List ℝ} (hx : x.length = n) (dt : ℝ) :
    Spec.IsEulerStep f n dt x (stepFn f .euler dt x).1 := by
  refine ⟨h.len_step hx .euler dt, fun i hi => ?_⟩
  simp only [stepFn]
  rw [getD_vadd (by omega) (by simp [h.len x hx]; omega), getD_vscale]

theorem Realises.rk4_spec (h : Realises I n x0 f) {x : List ℝ} (hx : x.length = n) (dt : ℝ) :
    Spec.IsRK4Step f n dt x (stepFn f .rungeKutta dt x).1 := by
  have h1 := h.len_vadd hx hx (dt * 0.5)
  have h2 := h.len_vadd hx h1 (dt * 0.5)
  have h3 := h.len_vadd hx h2 dt
  refine ⟨_, _, _, h1, h2, h3, h.len_step hx .rungeKutta dt, fun i hi => ⟨?_, ?_, ?_, ?_⟩⟩
  · rw [getD_vadd (by omega) (by simp [h.len x hx]; omega), getD_vscale]; ring
  · rw [getD_vadd (by omega) (by simp [h.len _ h1]; omega), getD_vscale]; ring
  · rw [getD_vadd (by omega) (by simp [h.len _ h2]; omega), getD_vscale]
  · simp only [stepFn, rkNew]
    have e0 := h.len x hx
    have e1 := h.len _ h1
    have e2 := h.len _ h2
    have e3 := h.len _ h3
    rw [getD_vadd (by omega) (by simp [e0, e1, e2, e3]; omega), getD_vdivs, getD_vscale,
      getD_vadd (by simp [e0, e1, e2]; omega) (by omega), getD_vadd (by omega)
      (by simp [e1, e2]; omega), getD_vscale, getD_vadd (by omega) (by omega)]
    ring

end DynSys

end Verif
