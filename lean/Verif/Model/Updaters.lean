import Verif.Model.Py
import Mathlib.Analysis.SpecialFunctions.Log.Basic
import Mathlib.LinearAlgebra.Matrix.Notation
import Mathlib.LinearAlgebra.Matrix.Defs

/- dmpbbo/bbo: costs to weights, updaters, Gaussian distributions. -/

set_option autoImplicit false

namespace Verif

noncomputable section

/-- Python's `max` of a sequence of numbers; `none` is the ValueError for an empty sequence. -/
def pyMax : List ℝ → Option ℝ
  | [] => none
  | x :: l => some (l.foldl max x)

/-- Python's `min` of a sequence of numbers; `none` is the ValueError for an empty sequence. -/
def pyMin : List ℝ → Option ℝ
  | [] => none
  | x :: l => some (l.foldl min x)

/-- The eliteness parameter (updaters.py:62, 223): PI-BB uses it as a number, CEM and CMA-ES as an
integer number of samples. -/
inductive Elite
  | int (z : Int)
  | float (x : ℝ)

/-- The value as a number. -/
def Elite.toReal : Elite → ℝ
  | .int z => z
  | .float x => x

/-- updaters.py:230 `np.atleast_1d(x)[0]`. A scalar cost is a list of length 1. -/
def firstCost : List ℝ → Except PyErr ℝ
  | [] => .error .indexError
  | c :: _ => .ok c

/-- updaters.py:230: the first component of all costs. -/
def totalCosts (costs : List (List ℝ)) : Except PyErr (List ℝ) := costs.mapM firstCost

/-- updaters.py:234-241 PI-BB weights before normalisation. -/
def piBBWeights (costs : List ℝ) (h : ℝ) : Except PyErr (List ℝ) :=
  match pyMax costs, pyMin costs with
  | some hi, some lo =>
    let range := hi - lo
    if range = 0 then .ok (List.replicate costs.length 1)
    else .ok ((costs.map fun x => -h * (x - lo) / range).map Real.exp)
  | _, _ => .error .valueError

/-- updaters.py:248-250 CEM weights before normalisation. `idx` is the result of `np.argsort`;
`indices[0:mu]` with negative `mu` leaves out entries at the end. -/
def cemWeights (idx : List Nat) (mu : Int) (w : List ℝ) : Except PyErr (List ℝ) :=
  if mu = 0 then .error .zeroDivision
  else
    let elite := if mu < 0 then idx.take (idx.length - (-mu).toNat) else idx.take mu.toNat
    .ok (elite.foldl (fun w i => w.set i (1 / (mu : ℝ))) w)

/-- updaters.py:254: the assignment in iteration `ii` of the CMA-ES loop. -/
def cmaStep (idx : List Nat) (mu : Int) (w : List ℝ) (ii : Nat) : Except PyErr (List ℝ) :=
  match idx[ii]? with
  | none => .error .indexError
  | some i => .ok (w.set i (Real.log ((mu : ℝ) + 1 / 2) - Real.log ((ii : ℝ) + 1)))

/-- updaters.py:253-254 CMA-ES weights before normalisation. `range(mu)` is empty for negative
`mu`. -/
def cmaWeights (idx : List Nat) (mu : Int) (w : List ℝ) : Except PyErr (List ℝ) :=
  (List.range mu.toNat).foldlM (cmaStep idx mu) w

/-- updaters.py:275 `weights / sum(weights)`. If the sum is 0, all weights would be `nan`. -/
def normalise (w : List ℝ) : Except PyErr (List ℝ) :=
  if w = [] then .ok []
  else if w.sum = 0 then .error .nanResult
  else .ok (w.map fun x => x / w.sum)

/-- updaters.py:218-277 costs_to_weights. `argsort` is `np.argsort`, whose order of equal costs is
not specified. A float eliteness is a TypeError for CEM and CMA-ES (slice and range need
integers). The recursion in line 263 passes the total costs. -/
def costsToWeights (argsort : List ℝ → List Nat) (costs : List (List ℝ)) (method : String)
    (elite : Elite) : Except PyErr (List ℝ) := do
  let costs ← totalCosts costs
  if method = "PI-BB" then normalise (← piBBWeights costs elite.toReal)
  else if method = "CEM" ∨ method = "CMA-ES" then
    match elite with
    | .float _ => .error .typeError
    | .int mu =>
      let idx := argsort costs
      let w := List.replicate costs.length 0
      if method = "CEM" then normalise (← cemWeights idx mu w)
      else normalise (← cmaWeights idx mu w)
  else normalise (← piBBWeights costs elite.toReal)

/-- Lower or upper bound of a bounded distribution: one number for all dimensions, or one per
dimension. -/
inductive Bound (n : Nat)
  | scalar (x : ℝ)
  | vector (v : Fin n → ℝ)

/-- The bound in dimension `j`. -/
def Bound.get {n : Nat} : Bound n → Fin n → ℝ
  | .scalar x, _ => x
  | .vector v, j => v j

/-- DistributionGaussian.py:72-85 and DistributionGaussianBounded.py:27-35. The sizes of mean and
covariance are fixed to `n` by the type (the ValueError of line 82 is `Dist.init`). `bounds` is
`none` for a DistributionGaussian. -/
structure Dist (n : Nat) where
  mean : Fin n → ℝ
  covar : Matrix (Fin n) (Fin n) ℝ
  bounds : Option (Option (Bound n) × Option (Bound n))

/-- DistributionGaussian.py:72-85: the sizes of mean and covariance must agree. -/
def Dist.init {m n : Nat} (mean : Fin m → ℝ) (covar : Matrix (Fin n) (Fin n) ℝ)
    (bounds : Option (Option (Bound n) × Option (Bound n))) : Except PyErr (Dist n) :=
  if h : m = n then .ok ⟨fun j => mean (Fin.cast h.symm j), covar, bounds⟩ else .error .valueError

/-- `ndarray.clip(lower, upper)` on one number: the upper bound wins if they cross. -/
def clip (lower upper : Option ℝ) (x : ℝ) : ℝ :=
  let x := match lower with
    | none => x
    | some l => max x l
  match upper with
  | none => x
  | some u => min x u

/-- DistributionGaussian.py:86-92 and DistributionGaussianBounded.py:44-47 generate_samples. `draw`
is the arbitrary result of `np.random.multivariate_normal`. Clipping with neither bound given is
a ValueError (in numpy before 2.1). -/
def Dist.generateSamples {n : Nat} (d : Dist n) (draw : List (Fin n → ℝ)) :
    Except PyErr (List (Fin n → ℝ)) :=
  match d.bounds with
  | none => .ok draw
  | some (none, none) => .error .valueError
  | some (lower, upper) =>
    .ok (draw.map fun s j => clip (lower.map fun b => b.get j) (upper.map fun b => b.get j) (s j))

/-- `np.average(samples, 0, weights)`. -/
def average {n : Nat} (samples : List (Fin n → ℝ)) (w : List ℝ) : Except PyErr (Fin n → ℝ) :=
  if w.length ≠ samples.length then .error .valueError
  else if w.sum = 0 then .error .zeroDivision
  else .ok fun j => (List.zipWith (fun x s => x * s j) w samples).sum / w.sum

/-- Limits for the diagonal (updaters.py:187-208): a scalar, or one number per dimension. -/
inductive Limit
  | scalar (x : ℝ)
  | vector (v : List ℝ)

/-- updaters.py:189-194, 201-206: the squared limit for dimension `i`. -/
def Limit.level (l : Limit) (i : Nat) : Except PyErr ℝ :=
  match l with
  | .scalar x => .ok (x ^ 2)
  | .vector v => match v[i]? with
    | none => .error .indexError
    | some x => .ok (x ^ 2)

/-- Assignment to one diagonal entry. -/
def setDiag {n : Nat} (c : Matrix (Fin n) (Fin n) ℝ) (i : Fin n) (v : ℝ) :
    Matrix (Fin n) (Fin n) ℝ :=
  fun a b => if a = i ∧ b = i then v else c a b

/-- updaters.py:187-196: cap the diagonal. -/
def capDiag {n : Nat} (limit : Option Limit) (c : Matrix (Fin n) (Fin n) ℝ) :
    Except PyErr (Matrix (Fin n) (Fin n) ℝ) :=
  match limit with
  | none => .ok c
  | some l => (List.finRange n).foldlM (fun (c : Matrix (Fin n) (Fin n) ℝ) (i : Fin n) => do
      let level ← l.level i
      .ok (if c i i > level then setDiag c i level else c)) c

/-- updaters.py:199-208: raise the diagonal. -/
def raiseDiag {n : Nat} (limit : Option Limit) (c : Matrix (Fin n) (Fin n) ℝ) :
    Except PyErr (Matrix (Fin n) (Fin n) ℝ) :=
  match limit with
  | none => .ok c
  | some l => (List.finRange n).foldlM (fun (c : Matrix (Fin n) (Fin n) ℝ) (i : Fin n) => do
      let level ← l.level i
      .ok (if c i i < level then setDiag c i level else c)) c

/-- updaters.py:169-172: weighted covariance of the samples around the current mean. -/
def weightedCovar {n : Nat} (samples : List (Fin n → ℝ)) (w : List ℝ) (mean : Fin n → ℝ) :
    Matrix (Fin n) (Fin n) ℝ :=
  fun a b => (List.zipWith (fun x s => x * (s a - mean a) * (s b - mean b)) w samples).sum

/-- updaters.py:125-145: settings of UpdaterCovarAdaptation. -/
structure Adaptation where
  diagonalMax : Option Limit
  diagonalMin : Option Limit
  diagOnly : Bool
  learningRate : ℝ

/-- updaters.py:143-145: the learning rate is checked. -/
def Adaptation.init (diagonalMax diagonalMin : Option Limit) (diagOnly : Bool)
    (learningRate : ℝ) : Except PyErr Adaptation :=
  if learningRate > 1 ∨ learningRate < 0 then .error .valueError
  else .ok ⟨diagonalMax, diagonalMin, diagOnly, learningRate⟩

/-- updaters.py:176-177: `np.diag(np.diag(covar_new))`, the matrix with everything off the diagonal
set to 0. -/
def diagPart {n : Nat} (c : Matrix (Fin n) (Fin n) ℝ) : Matrix (Fin n) (Fin n) ℝ :=
  Matrix.of fun a b => if a = b then c a b else 0

/-- updaters.py:169-208: the new covariance matrix. -/
def Adaptation.covar {n : Nat} (u : Adaptation) (samples : List (Fin n → ℝ)) (w : List ℝ)
    (d : Dist n) : Except PyErr (Matrix (Fin n) (Fin n) ℝ) := do
  let c := weightedCovar samples w d.mean
  let c := if u.diagOnly then diagPart c else c
  let c := if u.learningRate < 1 then (1 - u.learningRate) • d.covar + u.learningRate • c else c
  let c ← capDiag u.diagonalMax c
  raiseDiag u.diagonalMin c

/-- The three updaters (updaters.py:40-215), with what they do with the covariance matrix. -/
inductive UpdaterKind
  | mean
  | decay (factor : ℝ)
  | adapt (u : Adaptation)

/-- updaters.py:50-51, 90-92, 138-143: settings of an updater. -/
structure Updater where
  elite : Elite
  method : String
  kind : UpdaterKind

/-- updaters.py:53-74, 94-118, 147-215 update_distribution. The state is the distribution that is
passed in; results are the new distribution and the weights. The new one is a deep copy in which
mean and covariance are replaced, i.e. bounds are kept. -/
def Updater.update {n : Nat} (argsort : List ℝ → List Nat) (u : Updater)
    (samples : List (Fin n → ℝ)) (costs : List (List ℝ)) : PyM (Dist n) (Dist n × List ℝ) := do
  let d ← PyM.self
  let w ← PyM.lift (costsToWeights argsort costs u.method u.elite)
  let meanNew ← PyM.lift (average samples w)
  let covarNew ← PyM.lift (match u.kind with
    | .mean => .ok d.covar
    | .decay factor => .ok ((factor * factor) • d.covar)
    | .adapt a => a.covar samples w d)
  pure ({ d with mean := meanNew, covar := covarNew }, w)

end

end Verif
