import Mathlib.Algebra.Order.Field.Basic
import Mathlib.Algebra.BigOperators.Group.List.Basic
import Verif.Model.Py

/-
Model of dmpbbo/dmps/Trajectory.py, over an arbitrary ordered field `K` (exact arithmetic).

Not modelled: plotting, as_dataframe. savetxt and loadtxt are in Model/CppTrajectory,
apply_low_pass_filter is in Model/LowPass.
-/

set_option autoImplicit false

namespace Verif

/-- A 2-D numpy array: number of columns and rows (a well-formed array is rectangular, see
`Arr2.Wf`). -/
structure Arr2 (K : Type) where
  cols : Nat
  rows : List (List K)

namespace Arr2

variable {K : Type}

/-- numpy arrays are rectangular. -/
def Wf (a : Arr2 K) : Prop := ∀ r ∈ a.rows, r.length = a.cols

/-- `a.shape` -/
def shape (a : Arr2 K) : Nat × Nat := (a.rows.length, a.cols)

end Arr2

/-- A numpy array of dimension 1 or 2. -/
inductive Arr (K : Type)
  | one (a : List K)
  | two (a : Arr2 K)

namespace Arr

variable {K : Type}

/-- `a.shape[0]` -/
def len : Arr K → Nat
  | one a => a.length
  | two a => a.rows.length

/-- Trajectory.py:37-38, 43-44, 51-52: a 1-D array of size `n` becomes an `n × 1` array, another
size is rejected by `reshape`. -/
def asColumns (n : Nat) : Arr K → Except PyErr (Arr2 K)
  | one a => if a.length = n then .ok ⟨1, a.map fun x => [x]⟩ else .error .valueError
  | two a => .ok a

/-- numpy arrays are rectangular. -/
def Wf : Arr K → Prop
  | one _ => True
  | two a => a.Wf

end Arr

/-- Python slice index: negative indices count from the end, the result is clipped to `[0, n]`
(Python language reference, used at Trajectory.py:277-282 and 86-90). -/
def sliceIndex (n : Nat) (i : Int) : Nat :=
  if i < 0 then (i + n).toNat else min i.toNat n

/-- `l[a:b]` -/
def pySlice {α : Type} (a b : Int) (l : List α) : List α :=
  (l.take (sliceIndex l.length b)).drop (sliceIndex l.length a)

/-- `np.argmax` of a boolean array: index of the first `True`, 0 if there is none. -/
def argmaxBool (l : List Bool) : Nat :=
  match l.findIdx? id with
  | some i => i
  | none => 0

section

variable {K : Type} [Field K] [LinearOrder K]

/-- `np.diff` -/
def diff (ts : List K) : List K := List.zipWith (fun b a => b - a) ts.tail ts

/-- Trajectory.py:35 `np.mean(np.diff(ts))`; `none` is `nan` (mean of an empty array). -/
def meanDiff (ts : List K) : Option K :=
  if (diff ts).length = 0 then none else some ((diff ts).sum / ((diff ts).length : K))

/-- `np.convolve(a, v)` (mode "full"): entry `k` is the sum of `a[j] * v[k-j]`. -/
def convolve (a v : List K) : List K :=
  (List.range (a.length + v.length - 1)).map fun k =>
    ((List.range a.length).map fun j => if j ≤ k then a.getD j 0 * v.getD (k - j) 0 else 0).sum

/-- Column `j` of the rows of an array. -/
def column (rows : List (List K)) (j : Nat) : List K := rows.map fun r => r.getD j 0

/-- Trajectory.py:583-600 diffnc. `none` for `dt` is `nan`.
Line 598 raises IndexError for one row; `np.convolve` (line 595) raises ValueError for an empty
array (with no columns there is no call of convolve, and line 598 raises IndexError). -/
def diffnc (xs : Arr2 K) (dt : Option K) : Except PyErr (Arr2 K) :=
  if xs.rows.length = 0 then .error (if xs.cols = 0 then .indexError else .valueError)
  else if xs.rows.length = 1 then .error .indexError
  else match dt with
    | none => .error .nanResult
    | some dt =>
      if dt = 0 then .error .nanResult
      else
        let fil := [1 / 2 / dt, 0 / 2 / dt, -1 / 2 / dt]
        let n := xs.rows.length
        let xs2 := (List.range (n + 2)).map fun k => (List.range xs.cols).map fun j =>
          (convolve (column xs.rows j) fil).getD k 0
        let mid := (xs2.drop 1).take n
        let mid := mid.set 0 (mid.getD 1 [])
        let mid := mid.set (n - 1) (mid.getD (n - 2) [])
        .ok ⟨xs.cols, mid⟩

/-- A Trajectory object. `misc` is 2-D when present (the constructor accepts a 1-D array too, which
is not modelled). -/
structure Trajectory (K : Type) where
  ts : List K
  dtMean : Option K
  ys : Arr2 K
  yds : Arr2 K
  ydds : Arr2 K
  misc : Option (Arr2 K)
  dim : Nat

namespace Trajectory

/-- Trajectory.py:40-46, 48-54: given derivatives are checked, missing ones are computed. -/
def derivative (ys from' : Arr2 K) (dt : Option K) (n : Nat) : Option (Arr K) →
    Except PyErr (Arr2 K)
  | none => diffnc from' dt
  | some a => do
    let a ← a.asColumns n
    if ys.shape ≠ a.shape then .error .valueError else .ok a

/-- Trajectory.py:30-69 __init__. -/
def init (ts : List K) (ys : Arr K) (yds ydds : Option (Arr K)) (misc : Option (Arr2 K)) :
    Except PyErr (Trajectory K) :=
  let n := ts.length
  if n ≠ ys.len then .error .valueError
  else do
    let dt := meanDiff ts
    let ys ← ys.asColumns n
    let yds ← derivative ys ys dt n yds
    let ydds ← derivative ys yds dt n ydds
    if (misc.any fun m => n != m.rows.length) then .error .valueError
    else .ok ⟨ts, dt, ys, yds, ydds, misc, ys.cols⟩

/-- `matrix[:, a:b]` -/
def colSlice (m : Arr2 K) (a b : Int) : Arr2 K :=
  ⟨sliceIndex m.cols b - sliceIndex m.cols a, m.rows.map (pySlice a b)⟩

/-- Trajectory.py:71-92 from_matrix. -/
def fromMatrix (m : Arr2 K) (nDimsMisc : Nat := 0) : Except PyErr (Trajectory K) :=
  let nDims : Int := Int.fdiv ((m.cols : Int) - 1 - nDimsMisc) 3
  if m.cols = 0 then .error .indexError
  else
    init (m.rows.map fun r => r.getD 0 0)
      (.two (colSlice m 1 (1 * nDims + 1)))
      (some (.two (colSlice m (1 * nDims + 1) (2 * nDims + 1))))
      (some (.two (colSlice m (2 * nDims + 1) (3 * nDims + 1))))
      (some (colSlice m (3 * nDims + 1) m.cols))

/-- Trajectory.py:166-172 length. -/
def length (s : Trajectory K) : Nat := s.ts.length

/-- Trajectory.py:174-180 duration (IndexError if there are no samples). -/
def duration (s : Trajectory K) : Except PyErr K :=
  match s.ts.getLast?, s.ts.head? with
  | some b, some a => .ok (b - a)
  | _, _ => .error .indexError

/-- Trajectory.py:155-164 has_misc. -/
def hasMisc (s : Trajectory K) : Bool :=
  match s.misc with
  | none => false
  | some m => decide (m.rows.length * m.cols > 0)

/-- Trajectory.py:190-199 dim_misc. -/
def dimMisc (s : Trajectory K) : Nat :=
  if s.hasMisc then (match s.misc with
    | some m => m.cols
    | none => 0) else 0

/-- Trajectory.py:201-207 y_init. -/
def yInit (s : Trajectory K) : Except PyErr (List K) :=
  match s.ys.rows.head? with
  | some y => .ok y
  | none => .error .indexError

/-- Trajectory.py:209-215 y_final. -/
def yFinal (s : Trajectory K) : Except PyErr (List K) :=
  match s.ys.rows.getLast? with
  | some y => .ok y
  | none => .error .indexError

/-- Trajectory.py:149-153 misc setter. -/
def setMisc (m : Arr2 K) : PyM (Trajectory K) Unit := do
  let s ← PyM.self
  if m.rows.length ≠ s.length then PyM.raise .valueError
  else PyM.modify fun s => { s with misc := some m }

/-- Trajectory.py:217-220 set_start_time_to_zero. -/
def setStartTimeToZero : PyM (Trajectory K) Unit := do
  let s ← PyM.self
  match s.ts.head? with
  | none => PyM.raise .indexError
  | some t0 => PyM.modify fun s => { s with ts := s.ts.map fun t => t - t0 }

/-- Trajectory.py:222-227 get_range_per_dim (ValueError for an empty trajectory). -/
def rangePerDim (s : Trajectory K) : Except PyErr (List K) :=
  match s.ys.rows with
  | [] => .error .valueError
  | r :: rs => .ok ((List.range s.ys.cols).map fun j =>
      (rs.map fun q => q.getD j 0).foldl max (r.getD j 0) -
        (rs.map fun q => q.getD j 0).foldl min (r.getD j 0))

/-- Rows `start:end` of an array. -/
def rowSlice (a b : Int) (m : Arr2 K) : Arr2 K := ⟨m.cols, pySlice a b m.rows⟩

/-- Trajectory.py:277-282: the slices at the end of crop. -/
def cropRows (a b : Int) (s : Trajectory K) : Trajectory K :=
  { s with
    ts := pySlice a b s.ts
    ys := rowSlice a b s.ys
    yds := rowSlice a b s.yds
    ydds := rowSlice a b s.ydds
    misc := s.misc.map (rowSlice a b) }

/-- Trajectory.py:229-282 crop with as_times=False. -/
def cropIndices (start stop : Int) : PyM (Trajectory K) Unit := do
  let s ← PyM.self
  if s.ts.length = 0 then pure ()
  else if start ≥ stop then PyM.raise .valueError
  else PyM.modify (cropRows start stop)

/-- Trajectory.py:229-282 crop with as_times=True. -/
def cropTimes (start stop : K) : PyM (Trajectory K) Unit := do
  let s ← PyM.self
  match s.ts.head?, s.ts.getLast? with
  | some first, some last =>
    if start ≥ stop then PyM.raise .valueError
    else if start > last then pure ()
    else if stop < first then pure ()
    else
      let a := if start ≤ first then 0 else argmaxBool (s.ts.map fun t => decide (t ≥ start))
      let b := if stop ≥ last then s.ts.length - 1
        else argmaxBool (s.ts.map fun t => decide (t ≥ stop))
      PyM.modify (cropRows a b)
  | _, _ => pure ()

/-- `np.concatenate` of two 2-D arrays along axis 0. -/
def concat (a b : Arr2 K) : Except PyErr (Arr2 K) :=
  if a.cols = b.cols then .ok ⟨a.cols, a.rows ++ b.rows⟩ else .error .valueError

/-- A computation that may raise, inside a method. -/
def lift {α : Type} (e : Except PyErr α) : PyM (Trajectory K) α :=
  match e with
  | .ok a => pure a
  | .error e => PyM.raise e

/-- Trajectory.py:438-444, 455-461: concatenation of positions, velocities, accelerations and misc
(`misc` is dropped if one of the two has none); `swap` puts the data of `other` first. -/
def concatData (swap : Bool) (other : Trajectory K) : PyM (Trajectory K) Unit := do
  let order (a b : Arr2 K) := if swap then concat b a else concat a b
  let s ← PyM.self
  let ys ← lift (order s.ys other.ys)
  PyM.modify fun s => { s with ys := ys }
  let yds ← lift (order s.yds other.yds)
  PyM.modify fun s => { s with yds := yds }
  let ydds ← lift (order s.ydds other.ydds)
  PyM.modify fun s => { s with ydds := ydds }
  match s.misc, other.misc with
  | some a, some b => do
    let m ← lift (order a b)
    PyM.modify fun s => { s with misc := some m }
  | _, _ => PyM.modify fun s => { s with misc := none }

/-- Trajectory.py:429-444 append (of another object). -/
def append (other : Trajectory K) : PyM (Trajectory K) Unit := do
  let s ← PyM.self
  match other.ts.head?, s.ts.getLast? with
  | some o0, some last =>
    match s.dtMean with
    | none => PyM.raise .nanResult
    | some dt => do
      PyM.modify fun s => { s with ts := s.ts ++ other.ts.map fun t => (t - o0) + (last + dt) }
      concatData false other
  | _, _ => PyM.raise .indexError

/-- Trajectory.py:445-461 prepend (of another object). -/
def prepend (other : Trajectory K) : PyM (Trajectory K) Unit := do
  setStartTimeToZero
  let d ← lift other.duration
  match other.dtMean with
  | none => PyM.raise .nanResult
  | some dt => do
    PyM.modify fun s => { s with ts := s.ts.map fun t => t + (d + dt) }
    PyM.modify fun s => { s with ts := other.ts ++ s.ts }
    concatData true other

/-- `np.arange(0.0, n*dt, dt)` for a number of samples `n` and a non-zero step: `n` values
(in exact arithmetic). A zero or `nan` step is rejected by numpy. -/
def arange (n : Nat) (dt : Option K) : Except PyErr (List K) :=
  match dt with
  | none => .error .valueError
  | some dt => if dt = 0 then .error .valueError
      else .ok ((List.range n).map fun (i : Nat) => (i : K) * dt)

/-- Trajectory.py:285-292, 296-303: the padding trajectory. -/
def padding (n : Nat) (s : Trajectory K) (y : Except PyErr (List K)) :
    Except PyErr (Trajectory K) := do
  let ts ← arange n s.dtMean
  let y ← y
  init ts (.two ⟨y.length, List.replicate n y⟩)
    (some (.two ⟨s.yds.cols, List.replicate n (List.replicate s.yds.cols 0)⟩))
    (some (.two ⟨s.ydds.cols, List.replicate n (List.replicate s.ydds.cols 0)⟩)) none

/-- Trajectory.py:284-293 pad_front. -/
def padFront (n : Nat) : PyM (Trajectory K) Unit := do
  let s ← PyM.self
  let p ← lift (padding n s s.yInit)
  prepend p

/-- Trajectory.py:295-304 pad_end. -/
def padEnd (n : Nat) : PyM (Trajectory K) Unit := do
  let s ← PyM.self
  let p ← lift (padding n s s.yFinal)
  append p

/-- Trajectory.py:463-474 as_matrix (column_stack rejects different numbers of rows). -/
def asMatrix (s : Trajectory K) : Except PyErr (Arr2 K) :=
  let n := s.ts.length
  if s.ys.rows.length = n ∧ s.yds.rows.length = n ∧ s.ydds.rows.length = n then
    let base := (List.range n).map fun i =>
      s.ts.getD i 0 :: (s.ys.rows.getD i [] ++ s.yds.rows.getD i [] ++ s.ydds.rows.getD i [])
    match s.misc with
    | none => .ok ⟨1 + s.ys.cols + s.yds.cols + s.ydds.cols, base⟩
    | some m =>
      if m.rows.length = n then
        .ok ⟨1 + s.ys.cols + s.yds.cols + s.ydds.cols + m.cols, List.zipWith (· ++ ·) base m.rows⟩
      else .error .valueError
  else .error .valueError

/-- Trajectory.py:520-526 recompute_derivatives. -/
def recomputeDerivatives : PyM (Trajectory K) Unit := do
  let s ← PyM.self
  let yds ← lift (diffnc s.ys s.dtMean)
  PyM.modify fun s => { s with yds := yds }
  let ydds ← lift (diffnc yds s.dtMean)
  PyM.modify fun s => { s with ydds := ydds }

/-- Trajectory.py:319-325: coefficients of the polynomial in one dimension. -/
def polyCoeffs (y0 v0 a0 y1 v1 a1 : K) : K × K × K × K × K × K :=
  (y0, v0, a0 / 2,
    -10 * y0 - 6 * v0 - 5 / 2 * a0 + 10 * y1 - 4 * v1 + 1 / 2 * a1,
    15 * y0 + 8 * v0 + 2 * a0 - 15 * y1 + 7 * v1 - a1,
    -6 * y0 - 3 * v0 - 1 / 2 * a0 + 6 * y1 - 3 * v1 + 1 / 2 * a1)

/-- Trajectory.py:336-338 position in one dimension at relative time `t`. -/
def polyPos (c : K × K × K × K × K × K) (t : K) : K :=
  match c with
  | (a0, a1, a2, a3, a4, a5) => a0 + a1 * t + a2 * t ^ 2 + a3 * t ^ 3 + a4 * t ^ 4 + a5 * t ^ 5

/-- Trajectory.py:339-341 velocity in one dimension at relative time `t`. -/
def polyVel (c : K × K × K × K × K × K) (t : K) : K :=
  match c with
  | (_, a1, a2, a3, a4, a5) =>
    a1 + 2 * a2 * t + 3 * a3 * t ^ 2 + 4 * a4 * t ^ 3 + 5 * a5 * t ^ 4

/-- Trajectory.py:342 acceleration in one dimension at relative time `t`. -/
def polyAcc (c : K × K × K × K × K × K) (t : K) : K :=
  match c with
  | (_, _, a2, a3, a4, a5) => 2 * a2 + 6 * a3 * t + 12 * a4 * t ^ 2 + 20 * a5 * t ^ 3

/-- Trajectory.py:306-347 from_polynomial. The six vectors must have the same size (numpy would
also broadcast arrays of size 1, not modelled). With zero duration the result would be `nan`. -/
def fromPolynomial (ts : List K) (y0 v0 a0 y1 v1 a1 : List K) : Except PyErr (Trajectory K) :=
  if v0.length ≠ y0.length ∨ a0.length ≠ y0.length ∨ y1.length ≠ y0.length ∨
      v1.length ≠ y0.length ∨ a1.length ≠ y0.length then .error .valueError
  else match ts.head?, ts.getLast? with
    | some first, some last =>
      let T := last - first
      if T = 0 then .error .nanResult
      else
        let c (j : Nat) := polyCoeffs (y0.getD j 0) (v0.getD j 0) (a0.getD j 0) (y1.getD j 0)
          (v1.getD j 0) (a1.getD j 0)
        let table (f : Nat → K → K) : Arr2 K :=
          ⟨y0.length, ts.map fun t => (List.range y0.length).map fun j => f j ((t - first) / T)⟩
        init ts (.two (table fun j t => polyPos (c j) t))
          (some (.two (table fun j t => polyVel (c j) t / T)))
          (some (.two (table fun j t => polyAcc (c j) t / T ^ 2))) none
    | _, _ => .error .indexError

/-- Trajectory.py:363-365: index of the first time that is not before the viapoint time. -/
def viapointStep (ts : List K) (viapointTime : K) : Nat :=
  (ts.takeWhile fun t => decide (t < viapointTime)).length

/-- Trajectory.py:349-393 from_viapoint_polynomial. -/
def fromViapointPolynomial (ts y0 via : List K) (viapointTime : K) (y1 : List K) :
    Except PyErr (Trajectory K) :=
  let k := viapointStep ts viapointTime
  let n := y0.length
  let zeros := List.replicate n (0 : K)
  let y := via.take n
  let yd := (via.take (2 * n)).drop n
  let ydd := (via.take (3 * n)).drop (2 * n)
  do
    let traj1 ← fromPolynomial (ts.take k) y0 zeros zeros y yd ydd
    let traj2 ← fromPolynomial (ts.drop k) y yd ydd y1 zeros zeros
    match append traj2 traj1 with
    | (.ok _, t) => .ok t
    | (.error e, _) => .error e

/-- Trajectory.py:419-421 position of a minimum-jerk movement in one dimension. -/
def minJerkPos (y0 y1 s : K) : K := y0 + (y1 - y0) * (6 * s ^ 5 - 15 * s ^ 4 + 10 * s ^ 3)

/-- Trajectory.py:423 velocity. -/
def minJerkVel (y0 y1 D s : K) : K := (y1 - y0) / D * (30 * s ^ 4 - 60 * s ^ 3 + 30 * s ^ 2)

/-- Trajectory.py:425 acceleration. -/
def minJerkAcc (y0 y1 D s : K) : K :=
  (y1 - y0) / (D * D) * (120 * s ^ 3 - 180 * s ^ 2 + 60 * s)

/-- Trajectory.py:395-427 from_min_jerk (line 411: the duration is taken to be the last time). -/
def fromMinJerk (ts y0 y1 : List K) : Except PyErr (Trajectory K) :=
  match ts.getLast? with
  | none => .error .indexError
  | some D =>
    if y1.length ≠ y0.length then .error .valueError
    else if D = 0 then .error .nanResult
    else
      let table (f : K → K → K → K) : Arr2 K :=
        ⟨y0.length, ts.map fun t => (List.range y0.length).map fun j =>
          f (y0.getD j 0) (y1.getD j 0) (t / D)⟩
      init ts (.two (table fun a b s => minJerkPos a b s))
        (some (.two (table fun a b s => minJerkVel a b D s)))
        (some (.two (table fun a b s => minJerkAcc a b D s))) none

end Trajectory

end

end Verif
