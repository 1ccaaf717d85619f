import Verif.Model.CppDmp
import Verif.Model.CppTrajectory

/-
Model of src/dmp/Dmp.cpp:337-352, 364-388: states of a Dmp as trajectories. Asserts are active.
-/

set_option autoImplicit false

noncomputable section

namespace Verif.Cpp

/-- Eigen's `m.block(0, j, T, n)`, read (the macros of Dmp.cpp:69-74 begin in row 0). -/
def block (m : Arr2 ℝ) (j T n : Nat) : CppResult (Arr2 ℝ) :=
  if m.rows.length < T ∨ m.cols < j + n then .error .assertion
  else .ok ⟨n, (m.rows.take T).map fun r => (r.drop j).take n⟩

namespace Dmp

/-- Dmp.cpp:337-352 statesAsTrajectory: positions, velocities and accelerations. Real division; the model of
division by zero is that of `posVelAcc`. -/
def statesAsMatrices (x xd : Arr2 ℝ) (s : Dmp) : CppResult (Arr2 ℝ × Arr2 ℝ × Arr2 ℝ) := do
  let d := s.dimY
  let T := x.rows.length
  let y ← block x (0 * d + 0) T d
  let yd ← block xd (0 * d + 0) T d
  let zd ← block xd (1 * d + 0) T d
  return (y, yd, ⟨zd.cols, zd.rows.map fun r => vdivs r s.tau⟩)

/-- Dmp.cpp:364-388 statesAsTrajectory: a Trajectory. -/
def statesAsTrajectory (ts : List ℝ) (x xd : Arr2 ℝ) (s : Dmp) : CppResult Trajectory := do
  let d := s.dimY
  let T := ts.length
  if T ≠ x.rows.length then throw .assertion
  if T ≠ xd.rows.length then throw .assertion
  if x.cols ≠ xd.cols then throw .assertion
  let y ← block x (0 * d + 0) T d
  let yd ← block xd (0 * d + 0) T d
  let zd ← block xd (1 * d + 0) T d
  Trajectory.init ts y yd ⟨zd.cols, zd.rows.map fun r => vdivs r s.tau⟩

end Dmp

end Verif.Cpp
