import Verif.Model.CppDmp

/-
What a C++ Dmp consists of after it has been constructed (C89).
-/

noncomputable section

set_option autoImplicit false

namespace Verif.Cpp.Spec

/-- An exponential system with one value per entry of `x0`. -/
structure IsDecay (e : Exponential) (τ : ℝ) (x0 x1 : List ℝ) (r : ℝ) : Prop where
  tau : e.tau = τ
  start : e.xInit = x0
  sizeX : e.dimX = x0.length
  sizeY : e.dimY = x0.length
  goal : e.xAttr = x1
  rate : e.alpha = r

/-- The members that do not depend on the type; `n` is the size of the state. -/
structure IsDmp (s : Dmp) (n : Nat) (τ : ℝ) (y0 y1 : List ℝ) (fs : List (Option AnyFa))
    (α : ℝ) (sc : ForcingScaling) (am : List ℝ) : Prop where
  size : s.dimX = n
  dims : s.dimY = y0.length
  tau : s.tau = τ
  start : s.xInit = y0 ++ List.replicate (n - y0.length) 0
  goal : s.yAttr = y1
  fas : s.fas = fs
  scaling : s.scaling = sc
  amplitudes : s.amplitudes = am
  springTau : s.spring.tau = τ
  springSize : s.spring.dimX = 2 * y0.length
  springDims : s.spring.dimY = y0.length
  springStart : s.spring.xInit = y0 ++ List.replicate y0.length 0
  springGoal : s.spring.yAttr = y1
  damping : s.spring.damping = α
  stiffness : s.spring.spring = α ^ 2 / 4
  mass : s.spring.mass = 1

/-- The systems for the names of the types that C++ has. -/
def HasSystems (s : Dmp) (dmpType : String) (tau : ℝ) (start goal : List ℝ) : Prop :=
  (dmpType = "IJSPEERT_2002_MOVEMENT" → s.goal = none ∧
    (∃ p, s.phase = some (.exponential p) ∧ IsDecay p tau [1] [0] 4) ∧
    ∃ q, s.gating = some (.exponential q) ∧ IsDecay q tau [1] [0] 4) ∧
  (dmpType = "KULVICIUS_2012_JOINING" ∨ dmpType = "COUNTDOWN_2013" →
    (∃ g, s.goal = some g ∧ IsDecay g tau start goal 15) ∧
    (∃ p, s.phase = some (.time p) ∧ p.tau = tau ∧ p.dimX = 1 ∧ p.dimY = 1 ∧
      (p.countDown = true ↔ dmpType = "COUNTDOWN_2013") ∧
      p.xInit = if dmpType = "COUNTDOWN_2013" then [1] else [0]) ∧
    ∃ q, s.gating = some (.sigmoid q) ∧ q.tau = tau ∧ q.dimX = 1 ∧ q.dimY = 1 ∧ q.xInit = [1] ∧
      q.maxRate = -10 ∧ q.inflRatio = 0.9 * tau ∧ q.ks = [1 + Real.exp (-9 * tau ^ 2)]) ∧
  (dmpType ≠ "IJSPEERT_2002_MOVEMENT" → dmpType ≠ "KULVICIUS_2012_JOINING" → dmpType ≠ "COUNTDOWN_2013" →
    s.goal = none ∧ s.phase = none ∧ s.gating = none)

/-- What the forcing term of dimension `i` is multiplied with. -/
def factor (sc : ForcingScaling) (y0 y1 am : List ℝ) (i : Nat) : ℝ :=
  match sc with
  | .noScaling => 1
  | .gMinusY0 => y1.getD i 0 - y0.getD i 0
  | .amplitude => am.getD i 0

/-- State and rate of change of a Dmp with `n` dimensions at the start of the movement; `f` is the forcing
term, and `k` the stiffness of the spring. -/
structure Starts (x xd : List ℝ) (n : Nat) (τ : ℝ) (dmpType : String) (y0 y1 : List ℝ) (k : ℝ)
    (f : Nat → ℝ) : Prop where
  size : x.length = 3 * n + 2
  rates : xd.length = 3 * n + 2
  position : ∀ i, i < n → x.getD i 0 = y0.getD i 0
  still : ∀ i, i < n → x.getD (n + i) 0 = 0
  goal : ∀ i, i < n → x.getD (2 * n + i) 0 =
    if dmpType = "IJSPEERT_2002_MOVEMENT" then y1.getD i 0 else y0.getD i 0
  phase : x.getD (3 * n) 0 = if dmpType = "KULVICIUS_2012_JOINING" then 0 else 1
  gating : x.getD (3 * n + 1) 0 = 1
  velocity : ∀ i, i < n → xd.getD i 0 = 0
  acceleration : ∀ i, i < n → xd.getD (n + i) 0 =
    if dmpType = "IJSPEERT_2002_MOVEMENT" then (k * (y1.getD i 0 - y0.getD i 0) + f i) / τ else f i / τ
  goalRate : ∀ i, i < n → xd.getD (2 * n + i) 0 =
    if dmpType = "IJSPEERT_2002_MOVEMENT" then 0 else 15 * (y1.getD i 0 - y0.getD i 0) / τ
  phaseRate : xd.getD (3 * n) 0 =
    if dmpType = "IJSPEERT_2002_MOVEMENT" then -4 / τ
    else if dmpType = "KULVICIUS_2012_JOINING" then 1 / τ else -1 / τ
  gatingRate : xd.getD (3 * n + 1) 0 =
    if dmpType = "IJSPEERT_2002_MOVEMENT" then -4 / τ else -10 * (1 - 1 / (1 + Real.exp (-9 * τ ^ 2)))

end Verif.Cpp.Spec
