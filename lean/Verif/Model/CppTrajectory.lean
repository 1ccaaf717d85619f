import Mathlib.Algebra.Order.Archimedean.Real.Basic
import Verif.Model.CppSystems
import Verif.Model.Trajectory

/-
Model of src/dmp/Trajectory.cpp, src/eigenutils/eigen_file_io.tpp, and of savetxt and loadtxt in
dmpbbo/dmps/Trajectory.py.

Simplifications: real numbers instead of doubles (but numbers in text files are rounded); asserts are
active; a text file is the list of its lines, and a line is the list of its numbers (separated by blanks,
none at the end of the line).
-/

set_option autoImplicit false

noncomputable section

namespace Verif

/-- The number that is read from the text of `x` with `k` decimals (ties are rounded up, which the C library
does not always do). -/
def roundTo (k : Nat) (x : ℝ) : ℝ := (round (x * 10 ^ k) : ℝ) / 10 ^ k

/-- A text file of numbers. -/
abbrev Lines := List (List ℝ)

namespace Trajectory

/-- Trajectory.py:492-497 savetxt: the lines that are written (7 decimals). -/
def savetxt (s : Trajectory ℝ) : Except PyErr Lines := do
  let m ← s.asMatrix
  return m.rows.map (List.map (roundTo 7))

/-- Trajectory.py:499-518 loadtxt (lines 510-518 are those of from_matrix). `np.loadtxt` skips empty lines and rejects lines of different lengths
(ValueError); it returns a 1-D array for one row, one column or no rows, so that unpacking its shape
(line 509) is a ValueError. -/
def loadtxt (ls : Lines) (nDimsMisc : Nat := 0) : Except PyErr (Trajectory ℝ) :=
  match ls.filter fun l => decide (l ≠ []) with
  | [] => .error .valueError
  | [_] => .error .valueError
  | r :: rs =>
    if rs.any fun l => l.length != r.length then .error .valueError
    else if r.length = 1 then .error .valueError
    else fromMatrix ⟨r.length, r :: rs⟩ nDimsMisc

end Trajectory

namespace Cpp

/-- Trajectory.hpp:240-244, members; matrices as in the model of Python. -/
structure Trajectory where
  ts : List ℝ
  ys : Arr2 ℝ
  yds : Arr2 ℝ
  ydds : Arr2 ℝ
  misc : Arr2 ℝ

/-- Eigen's `isZero`, with the default precision for doubles. -/
def isZero (v : List ℝ) : Bool := v.all fun x => decide (|x| ≤ 1 / 10 ^ 12)

/-- Eigen's `isApprox`, with the default precision for doubles. -/
def isApprox (v w : List ℝ) : Bool :=
  decide ((List.zipWith (fun a b => (a - b) * (a - b)) v w).sum ≤
    (1 / 10 ^ 12) ^ 2 * min (v.map fun a => a * a).sum (w.map fun a => a * a).sum)

namespace Trajectory

/-- Trajectory.cpp:38, the default constructor. -/
def empty : Trajectory := ⟨[], ⟨0, []⟩, ⟨0, []⟩, ⟨0, []⟩, ⟨0, []⟩⟩

/-- Trajectory.cpp:40-58, constructor (`misc` is a 0 × 0 matrix by default). -/
def init (ts : List ℝ) (ys yds ydds : Arr2 ℝ) (misc : Arr2 ℝ := ⟨0, []⟩) : CppResult Trajectory :=
  let misc := if misc.cols = 0 then ⟨0, List.replicate ts.length []⟩ else misc
  if ts.length = ys.rows.length ∧ ts.length = yds.rows.length ∧ ts.length = ydds.rows.length ∧
      ts.length = misc.rows.length ∧ ys.cols = yds.cols ∧ ys.cols = ydds.cols then
    .ok ⟨ts, ys, yds, ydds, misc⟩
  else .error .assertion

/-- Trajectory.hpp:101, number of time steps. -/
def length (t : Trajectory) : Nat := t.ts.length

/-- Trajectory.hpp:111, number of dimensions. -/
def dim (t : Trajectory) : Nat := t.ys.cols

/-- Trajectory.hpp:116, number of miscellaneous variables. -/
def dimMisc (t : Trajectory) : Nat := t.misc.cols

/-- Trajectory.cpp:60-67, with a warning and the result 0 for an empty trajectory. -/
def duration (t : Trajectory) : ℝ :=
  match t.ts.head?, t.ts.getLast? with
  | some a, some b => b - a
  | _, _ => 0

/-- Trajectory.hpp:121, first position. -/
def initialY (t : Trajectory) : CppResult (List ℝ) :=
  match t.ys.rows.head? with
  | some y => .ok y
  | none => .error .assertion

/-- Trajectory.hpp:126, last position. -/
def finalY (t : Trajectory) : CppResult (List ℝ) :=
  match t.ys.rows.getLast? with
  | some y => .ok y
  | none => .error .assertion

/-- Trajectory.cpp:69-83 set_misc: a matrix with one row is replicated, other numbers of rows only give a
message. -/
def setMisc (m : Arr2 ℝ) (t : Trajectory) : Trajectory :=
  if m.rows.length = t.ts.length then { t with misc := m }
  else if m.rows.length = 1 then
    { t with misc := ⟨m.cols, List.replicate t.ts.length (m.rows.headD [])⟩ }
  else t

/-- Trajectory.cpp:91-94, 96-99, 101-105: the asserts for the last row of one and the first row of the other
matrix. -/
def continues (a b : Arr2 ℝ) : Bool :=
  match a.rows.getLast?, b.rows.head? with
  | some v, some w => if isZero v || isZero w then isZero v && isZero w else isApprox v w
  | _, _ => false

/-- Trajectory.cpp:113-115, 117-119, 121-124, 130-133: the rows of one matrix and those of the other but
the first. -/
def join (a b : Arr2 ℝ) : Arr2 ℝ := ⟨a.cols, a.rows ++ b.rows.drop 1⟩

/-- Trajectory.cpp:85-135 append. -/
def append (o t : Trajectory) : CppResult Trajectory :=
  if t.dim ≠ o.dim then .error .assertion
  else match t.ts.getLast?, o.ts.head? with
    | some a, some b =>
      if a ≠ b then .error .assertion
      else if continues t.ys o.ys && continues t.yds o.yds && continues t.ydds o.ydds then
        if t.dimMisc ≠ o.dimMisc then .error .assertion
        else .ok
          { ts := t.ts ++ o.ts.drop 1
            ys := join t.ys o.ys
            yds := join t.yds o.yds
            ydds := join t.ydds o.ydds
            misc := if t.dimMisc = 0 then
              ⟨0, List.replicate (t.length + o.length - 1) []⟩ else join t.misc o.misc }
      else .error .assertion
    | _, _ => .error .assertion

/-- Trajectory.cpp:137-140 getRangePerDim (Eigen does not accept maxCoeff of no rows). -/
def rangePerDim (t : Trajectory) : CppResult (List ℝ) :=
  match t.ys.rows with
  | [] => .error .assertion
  | r :: rs => .ok ((List.range t.ys.cols).map fun j =>
      (rs.map fun q => q.getD j 0).foldl max (r.getD j 0) -
        (rs.map fun q => q.getD j 0).foldl min (r.getD j 0))

/-- A matrix with one row for each time and one column for each dimension. -/
def table (ts : List ℝ) (n : Nat) (f : Nat → ℝ → ℝ) : Arr2 ℝ :=
  ⟨n, ts.map fun t => (List.range n).map fun j => f j t⟩

/-- Trajectory.cpp:142-172 generateMinJerkTrajectory. -/
def minJerk (ts yFrom yTo : List ℝ) : CppResult Trajectory :=
  match ts.getLast? with
  | none => .error .assertion
  | some D =>
    if yTo.length ≠ yFrom.length then .error .assertion
    else if D = 0 then .error .nan
    else
      let a (j : Nat) := yTo.getD j 0 - yFrom.getD j 0
      init ts
        (table ts yFrom.length fun j t =>
          yFrom.getD j 0 + a j * (6 * (t / D) ^ 5 - 15 * (t / D) ^ 4 + 10 * (t / D) ^ 3))
        (table ts yFrom.length fun j t =>
          a j / D * (30 * (t / D) ^ 4 - 60 * (t / D) ^ 3 + 30 * (t / D) ^ 2))
        (table ts yFrom.length fun j t =>
          a j / (D * D) * (120 * (t / D) ^ 3 - 180 * (t / D) ^ 2 + 60 * (t / D)))

/-- Trajectory.cpp:174-210 generatePolynomialTrajectory. Vectors of different sizes are rejected by Eigen. -/
def polynomial (ts y0 v0 a0 y1 v1 a1 : List ℝ) : CppResult Trajectory :=
  if v0.length ≠ y0.length ∨ a0.length ≠ y0.length ∨ y1.length ≠ y0.length ∨ v1.length ≠ y0.length ∨
      a1.length ≠ y0.length then .error .assertion
  else match ts.head?, ts.getLast? with
    | some first, some last =>
      let D := last - first
      if D = 0 then .error .nan
      else
        let c0 (j : Nat) := y0.getD j 0
        let c1 (j : Nat) := v0.getD j 0
        let c2 (j : Nat) := a0.getD j 0 / 2
        let c3 (j : Nat) := -10 * y0.getD j 0 - 6 * v0.getD j 0 - 2.5 * a0.getD j 0 + 10 * y1.getD j 0 -
          4 * v1.getD j 0 + 0.5 * a1.getD j 0
        let c4 (j : Nat) := 15 * y0.getD j 0 + 8 * v0.getD j 0 + 2 * a0.getD j 0 - 15 * y1.getD j 0 +
          7 * v1.getD j 0 - a1.getD j 0
        let c5 (j : Nat) := -6 * y0.getD j 0 - 3 * v0.getD j 0 - 0.5 * a0.getD j 0 + 6 * y1.getD j 0 -
          3 * v1.getD j 0 + 0.5 * a1.getD j 0
        let rel (t : ℝ) := (t - first) / D
        init ts
          (table ts y0.length fun j t => c0 j + c1 j * rel t + c2 j * rel t ^ 2 + c3 j * rel t ^ 3 +
            c4 j * rel t ^ 4 + c5 j * rel t ^ 5)
          (table ts y0.length fun j t => (c1 j + 2 * c2 j * rel t + 3 * c3 j * rel t ^ 2 +
            4 * c4 j * rel t ^ 3 + 5 * c5 j * rel t ^ 4) / D)
          (table ts y0.length fun j t => (2 * c2 j + 6 * c3 j * rel t + 12 * c4 j * rel t ^ 2 +
            20 * c5 j * rel t ^ 3) / D ^ 2)
    | _, _ => .error .assertion

/-- Trajectory.cpp:224-227: the first time step that is not before the viapoint. -/
def viapointStep : List ℝ → ℝ → Nat
  | [], _ => 0
  | t :: ts, v => if t < v then viapointStep ts v + 1 else 0

/-- Trajectory.cpp:212-255 generatePolynomialTrajectoryThroughViapoint. -/
def viapoint (ts yFrom via : List ℝ) (viapointTime : ℝ) (yTo : List ℝ) : CppResult Trajectory :=
  let n := yFrom.length
  if n ≠ yTo.length then .error .assertion
  else if 3 * n ≠ via.length then .error .assertion
  else
    let k := viapointStep ts viapointTime
    if k ≥ ts.length then .ok empty
    else do
      let zero := List.replicate n (0 : ℝ)
      let y := via.take n
      let yd := (via.drop n).take n
      let ydd := (via.drop (2 * n)).take n
      let t1 ← polynomial (ts.take (k + 1)) yFrom zero zero y yd ydd
      let t2 ← polynomial (ts.drop k) y yd ydd yTo zero zero
      append t2 t1

/-- Trajectory.cpp:257-261 asMatrix (also 263-271, `operator<<`). -/
def asMatrix (t : Trajectory) : Arr2 ℝ :=
  ⟨1 + 3 * t.dim + t.dimMisc, (List.range t.length).map fun i =>
    t.ts.getD i 0 :: (t.ys.rows.getD i [] ++ t.yds.rows.getD i [] ++ t.ydds.rows.getD i [] ++
      t.misc.rows.getD i [])⟩

/-- Trajectory.cpp:301-305: columns `a .. a+n-1` of a matrix (Eigen's `block`). -/
def columns (m : Arr2 ℝ) (a n : Nat) : Arr2 ℝ := ⟨n, m.rows.map fun r => (r.drop a).take n⟩

/-- Trajectory.cpp:297-307: the second part of readFromFile. Division of integers truncates. A negative number
of miscellaneous variables is not modelled. -/
def ofMatrix (m : Arr2 ℝ) (nDimsMisc : Nat) : CppResult Trajectory :=
  let n := Int.tdiv ((m.cols : Int) - 1 - nDimsMisc) 3
  if n < 0 then .error .assertion
  else
    let d := n.toNat
    if 1 + 3 * d + nDimsMisc > m.cols then .error .assertion
    else init (m.rows.map fun r => r.getD 0 0) (columns m 1 d) (columns m (1 + d) d)
      (columns m (1 + 2 * d) d) (columns m (1 + 3 * d) nDimsMisc)

end Trajectory

/-! ### Files -/

/-- What `loadMatrix` and `saveMatrix` see of the file system. -/
structure Disk where
  files : String → Option Lines
  directories : String → Bool
  /-- `create_directories` succeeds -/
  creatable : String → Bool
  /-- the file can be opened for writing -/
  writable : String → Bool

/-- eigen_file_io.tpp:51-58: the numbers that are appended for one line; an empty line repeats the last
number (of which there is none at the beginning: an uninitialised variable is used). -/
def readNumbers : Lines → Option ℝ → CppResult (List ℝ)
  | [], _ => .ok []
  | [] :: _, none => .error .null
  | [] :: ls, some d => do
    let v ← readNumbers ls (some d)
    .ok (d :: v)
  | l :: ls, d => do
    let v ← readNumbers ls (l.getLast?.or d)
    .ok (l ++ v)

/-- eigen_file_io.tpp:31-69 loadMatrix; `none` if the file does not exist. No lines: integer division by
0. -/
def loadMatrix (name : String) (k : Disk) : CppResult (Option (Arr2 ℝ)) :=
  match k.files name with
  | none => .ok none
  | some ls => do
    let v ← readNumbers ls none
    if ls.length = 0 then .error .divZero
    else
      let nCols := v.length / ls.length
      .ok (some ⟨nCols, (List.range ls.length).map fun i =>
        (List.range nCols).map fun j => v.getD (i * nCols + j) 0⟩)

/-- eigen_file_io.tpp:107-135 saveMatrix (6 decimals). -/
def saveMatrix (name : String) (m : Arr2 ℝ) (overwrite : Bool) (k : Disk) : Bool × Disk :=
  if (k.files name).isSome && !overwrite then (false, k)
  else if !k.writable name then (false, k)
  else (true, { k with
    files := fun n => if n = name then some (m.rows.map (List.map (roundTo 6))) else k.files n })

/-- eigen_file_io.tpp:78-99 saveMatrix with a directory. -/
def saveMatrixIn (directory name : String) (m : Arr2 ℝ) (overwrite : Bool) (k : Disk) : Bool × Disk :=
  if directory = "" then (false, k)
  else if !k.directories directory && !k.creatable directory then (false, k)
  else
    let k' := { k with directories := fun n => decide (n = directory) || k.directories n }
    (true, (saveMatrix (directory ++ "/" ++ name) m overwrite k').2)

namespace Trajectory

/-- Trajectory.cpp:273-279 saveToFile with a directory. -/
def saveIn (t : Trajectory) (directory name : String) (overwrite : Bool) (k : Disk) : Bool × Disk :=
  saveMatrixIn directory name t.asMatrix overwrite k

/-- Trajectory.cpp:281-286 saveToFile. -/
def save (t : Trajectory) (name : String) (overwrite : Bool) (k : Disk) : Bool × Disk :=
  saveMatrix name t.asMatrix overwrite k

/-- Trajectory.cpp:288-308 readFromFile; an empty trajectory if there is no such file. -/
def readFile (name : String) (nDimsMisc : Nat) (k : Disk) : CppResult Trajectory := do
  match ← loadMatrix name k with
  | none => .ok empty
  | some m => ofMatrix m nDimsMisc

end Trajectory

end Cpp

end Verif
