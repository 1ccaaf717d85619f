import Verif.Proofs.Integration
import Verif.Props.Exponential

/- C12: integrate() is the iteration of single steps from the initial state. -/

set_option autoImplicit false

namespace Verif

open Spec

namespace DynSys

variable {σ : Type} [DynSys σ]

/-- What one row of the result must be, given the previous state, for each method: the state is
obtained by an Euler/Runge-Kutta step; the rate belongs to the old state for Euler and to the new
state for Runge-Kutta. -/
def RowSpec (f : List ℝ → List ℝ) (n : Nat) (m : Method) (dt : ℝ) (x : List ℝ)
    (row : List ℝ × List ℝ) : Prop :=
  match m with
  | .euler => IsEulerStep f n dt x row.1 ∧ row.2 = f x
  | .rungeKutta => IsRK4Step f n dt x row.1 ∧ row.2 = f row.1

/-- C12: for every system whose differential equation is a function `f` of the state (see
`Realises`; instances below), `integrate` with at least one time succeeds, has one row per
time, starts with the initial state and its rate of change, and each further row results from
the previous one by one step of length `ts[i+1]-ts[i]`. -/
theorem C12_integrate_is_iteration {I : σ → Prop} {n : Nat} {x0 : List ℝ} {f : List ℝ → List ℝ}
    (h : Realises I n x0 f) (s : σ) (hs : I s) (m : Method) (ts : List ℝ) (hts : ts ≠ []) :
    ∃ rows s', integrate ts m s = (.ok rows, s') ∧ I s' ∧
      IsIteration (RowSpec f n m) (x0, f x0) ts rows := by
  cases ts with
  | nil => exact absurd rfl hts
  | cons t0 ts =>
    obtain ⟨s', e, i⟩ := h.integrate hs m t0 ts
    refine ⟨_, s', e, i, ⟨by simp [rowsFn_length], rfl, ?_⟩⟩
    intro i hi hi'
    rw [rowsFn_next m (f x0) ts t0 x0 i hi hi']
    have hlen : (((x0, f x0) :: rowsFn f m t0 x0 ts)[i]'(by omega)).1.length = n := by
      have hmem := List.getElem_mem (l := (x0, f x0) :: rowsFn f m t0 x0 ts)
        (n := i) (by omega)
      rcases List.mem_cons.mp hmem with heq | hmem
      · rw [heq]; exact h.initLen
      · exact h.rows_len m ts h.initLen t0 _ hmem
    cases m with
    | rungeKutta => exact ⟨h.rk4_spec hlen _, rfl⟩
    | euler => exact ⟨h.euler_spec hlen _, rfl⟩

/-- C12: without times, `integrate` raises `IndexError` (row 0 cannot be assigned). -/
theorem C12_integrate_empty {I : σ → Prop} {n : Nat} {x0 : List ℝ} {f : List ℝ → List ℝ}
    (h : Realises I n x0 f) (s : σ) (hs : I s) (m : Method) :
    (integrate [] m s).1 = .error .indexError := by
  obtain ⟨s1, e1, _⟩ := h.integrateStart hs
  unfold integrate
  rw [PyM.bind_ok e1]
  rfl

/-- C12: states of the wrong size are rejected and the object is not changed. -/
theorem C12_wrong_size_rejected (s : σ) (x : List ℝ) (hx : x.length ≠ dimX s) (m : Method)
    (dt : ℝ) : step m dt x s = (.error .valueError, s) := by
  cases m <;> simp [step, eulerStep, rungeKuttaStep, hx]

/-- C12: a step of length 0 leaves the state unchanged. -/
theorem C12_zero_step {I : σ → Prop} {n : Nat} {x0 : List ℝ} {f : List ℝ → List ℝ}
    (h : Realises I n x0 f) (s : σ) (hs : I s) (m : Method) (x : List ℝ) (hx : x.length = n) :
    ∃ s', step m 0 x s = (.ok (x, f x), s') ∧ I s' := by
  obtain ⟨s', e, i⟩ := h.step hs hx m 0
  refine ⟨s', ?_, i⟩
  rw [e]
  have hnew : (stepFn f m 0 x).1 = x := by
    apply ext_getD 0 (by rw [h.len_step hx, hx])
    intro j hj
    rw [h.len_step hx] at hj
    cases m with
    | euler => rw [(h.euler_spec hx 0).2 j hj]; ring
    | rungeKutta =>
      obtain ⟨u2, u3, u4, _, _, _, _, hall⟩ := h.rk4_spec hx 0
      rw [(hall j hj).2.2.2]; ring
  cases m with
  | euler => rw [show stepFn f .euler 0 x = (x, f x) from Prod.ext hnew rfl]
  | rungeKutta =>
    have : (stepFn f .rungeKutta 0 x).2 = f x := by
      show f (rkNew f 0 x) = f x
      rw [show rkNew f 0 x = x from hnew]
    rw [show stepFn f .rungeKutta 0 x = (x, f x) from Prod.ext hnew this]

end DynSys

/-- The exponential system meets the hypothesis of the C12 theorems. -/
theorem Exponential.realises (s : Exponential) (h : s.Wf) :
    DynSys.Realises (· = s) s.dimY s.xInit s.diffEq where
  dim := by rintro _ rfl; exact h.dim
  init := by rintro _ rfl; rfl
  initLen := h.xInit
  diff := by rintro _ x rfl _; exact ⟨_, rfl, rfl⟩
  len := fun _ hx => Exponential.diffEq_length h hx

example : DynSys.Realises (· = Exponential.init 2 [1, 5] [0, 3] (.array [4, 1])) 2 [1, 5]
    (Exponential.init 2 [1, 5] [0, 3] (.array [4, 1])).diffEq :=
  Exponential.realises _ ⟨rfl, rfl, rfl, rfl⟩

end Verif
