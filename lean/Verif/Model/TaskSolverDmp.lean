import Verif.Model.Dmp
import Verif.Model.Trajectory
import Verif.Model.BasisFunctions
import Mathlib.Algebra.Order.Floor.Ring

/-
Model of dmpbbo/bbo_of_dmps/TaskSolverDmp.py.

The Dmps are kept in a memory and referred to by their position in the memory, because the file is
about which object is changed. Objects that are parts of Dmps (subsystems, function approximators,
arrays) belong to one Dmp only in this model. The result as a pandas data frame
(`return_dataframe=True`) is not modelled.
-/

set_option autoImplicit false

namespace Verif

noncomputable section

/-- The memory: all Dmps of the program. -/
structure Memory where
  dmps : List Dmp

namespace Memory

/-- A call of a method of the Dmp at position `r`. -/
def onDmp {α : Type} (r : Nat) (m : PyM Dmp α) : PyM Memory α := ⟨fun mem =>
  match mem.dmps[r]? with
  | none => (.error .attributeError, mem)
  | some s => ((m s).1, { dmps := mem.dmps.set r (m s).2 })⟩

/-- `copy.deepcopy(dmp)`: a new object with the same contents; the result is the reference to it. -/
def deepcopy (r : Nat) : PyM Memory Nat := ⟨fun mem =>
  match mem.dmps[r]? with
  | none => (.error .attributeError, mem)
  | some s => (.ok mem.dmps.length, { dmps := mem.dmps ++ [s] })⟩

end Memory

/-- The object of class TaskSolverDmp, TaskSolverDmp.py:31-35. `dmp` is a reference. -/
structure TaskSolverDmp where
  dmp : Nat
  integrateTime : ℝ
  nTimeSteps : Int

namespace TaskSolverDmp

/-- TaskSolverDmp.py:31-35 `__init__`. Division by zero raises an exception for Python floats. -/
def init (dmp : Nat) (dt factor : ℝ) : PyM Memory TaskSolverDmp := do
  let copy ← Memory.deepcopy dmp
  let tau ← Memory.onDmp dmp (PyM.reads fun s => s.tau)
  let integrateTime := tau * factor
  if dt = 0 then PyM.raise .zeroDivision
  else return { dmp := copy, integrateTime := integrateTime, nTimeSteps := ⌊integrateTime / dt⌋ + 1 }

/-- `np.linspace(lo, hi, n)`, which rejects negative numbers of points. -/
def linspaceInt (lo hi : ℝ) (n : Int) : Except PyErr (List ℝ) :=
  if n < 0 then .error .valueError else .ok (linspace lo hi n.toNat)

/-- TaskSolverDmp.py:37-51 perform_rollout_dmp, for `return_dataframe=False`. -/
def performRolloutDmp (solver : TaskSolverDmp) (dmp : Nat) : PyM Memory (Arr2 ℝ) := do
  let ts ← PyM.lift (linspaceInt 0 solver.integrateTime solver.nTimeSteps)
  let sol ← Memory.onDmp dmp (Dmp.analytical (some ts))
  let dmp ← Memory.onDmp dmp PyM.self
  let traj ← PyM.lift (dmp.asTrajectory ts sol.xs sol.xds)
  PyM.lift traj.asMatrix

/-- TaskSolverDmp.py:53-61 perform_rollout. The method does not change the solver itself. -/
def performRollout (solver : TaskSolverDmp) (sample : List ℝ) : PyM Memory (Arr2 ℝ) := do
  Memory.onDmp solver.dmp (Dmp.setParamVector sample)
  performRolloutDmp solver solver.dmp

end TaskSolverDmp

end

end Verif
