import Verif.Model.CppJson
import Verif.Model.CppTrajectory
import Verif.Model.BasisFunctions
import Verif.Model.TaskSolverDmp

/-
The integration tests in tests/integration: programs in C++ that load what Python has saved, and write their results to
files, and programs in Python that call them and compare the results with those of Python. Plotting is not modelled, nor
the printing with the option "verbose". Directories have names without spaces (the commands are interpreted by a shell).
-/

set_option autoImplicit false

namespace Verif

noncomputable section

namespace IntegrationTests

/-- The files that the tests use. Files with json contain a value; its text is not modelled. -/
structure Dir where
  json : String → Option Json
  disk : Cpp.Disk

namespace Dir

/-- json_for_cpp.py:57-67 savejson_for_cpp, for the json value of an object. -/
def saveJson (name : String) (j : Json) : PyM Dir Unit := do
  let k ← PyM.self
  if k.disk.writable name then PyM.modify fun k => { k with json := fun n => if n = name then some j else k.json n }
  else PyM.raise .ioError

/-- `np.savetxt(name, a)`: 18 decimals after the first digit, which is enough for every double to be read as the same
number. Simplified: numbers are not rounded. -/
def savetxt (name : String) (ls : Lines) : PyM Dir Unit := do
  let k ← PyM.self
  if k.disk.writable name then
    PyM.modify fun k => { k with disk := { k.disk with files := fun n => if n = name then some ls else k.disk.files n } }
  else PyM.raise .ioError

/-- `np.loadtxt(name)`: empty lines are skipped, lines of different lengths rejected. The result is squeezed by numpy, but
in the tests always reshaped or one-dimensional. -/
def loadtxt (name : String) (k : Dir) : Except PyErr Lines :=
  match k.disk.files name with
  | none => .error .ioError
  | some ls =>
    match ls.filter fun l => decide (l ≠ []) with
    | [] => .ok []
    | r :: rs => if rs.any fun l => l.length != r.length then .error .valueError else .ok (r :: rs)

/-- saveMatrix of C++ (its result is not used by the programs). -/
def saveMatrix (name : String) (cols : Nat) (rows : List (List ℝ)) (k : Dir) : Dir :=
  { k with disk := (Cpp.saveMatrix name ⟨cols, rows⟩ true k.disk).2 }

/-- saveMatrix of C++ with a directory. -/
def saveMatrixIn (directory name : String) (cols : Nat) (rows : List (List ℝ)) (k : Dir) : Dir :=
  { k with disk := (Cpp.saveMatrixIn directory name ⟨cols, rows⟩ true k.disk).2 }

end Dir

/-- execute_binary.py:24-53 execute_binary: the exit code of the program, or whether it crashed, is not looked at. -/
def executeBinary (installed : Bool) (program : Dir → CppResult Int × Dir) : PyM Dir Unit :=
  if installed then PyM.modify fun k => (program k).2 else PyM.raise .valueError

/-! ### Comparison -/

/-- `np.max(np.abs(a - np.reshape(b, a.shape)))`: ValueError if the numbers of entries differ, or if there are none. -/
def maxDiff (a : List (List ℝ)) (b : Lines) : Except PyErr ℝ :=
  if a.flatten.length ≠ b.flatten.length then .error .valueError
  else
    match List.zipWith (fun x y => |x - y|) a.flatten b.flatten with
    | [] => .error .valueError
    | d :: ds => .ok (ds.foldl max d)

/-- test_function_approximators.py:118 `np.max(np.abs(a - b))` for one-dimensional arrays: an array with one entry is
broadcast. -/
def maxDiffBroadcast (a b : List ℝ) : Except PyErr ℝ :=
  let a' := if a.length = 1 then List.replicate b.length (a.headD 0) else a
  let b' := if b.length = 1 then List.replicate a.length (b.headD 0) else b
  maxDiff [a'] [b']

/-- `assert max_diff < 10e-7`. -/
def close (m : ℝ) : Except PyErr Unit := if m < 10 * (1 / 10 ^ 7) then .ok () else .error .runtimeError

/-! ### Dynamical systems -/

/-- loadMatrix of C++ for a vector: Eigen asserts that there is one column. -/
def loadVector (name : String) (k : Cpp.Disk) : CppResult (Option (List ℝ)) := do
  match ← Cpp.loadMatrix name k with
  | none => return none
  | some m => if m.cols = 1 then return some (m.rows.map fun r => r.getD 0 0) else throw .assertion

/-- testDynamicalSystems.cpp:38-117, main. -/
def systemsProgram (directory basename : String) (k : Dir) : CppResult Int × Dir :=
  match k.json (directory ++ "/" ++ basename ++ "_for_cpp.json") with
  | none => (.ok (-1), k)
  | some j =>
    match Cpp.AnySystem.fromJson j with
    | .error e => (.error e, k)
    | .ok d? =>
      match loadVector (directory ++ "/ts.txt") k.disk with
      | .error e => (.error e, k)
      | .ok none => (.ok (-1), k)
      | .ok (some ts) =>
        match d? with
        | none => (.error .null, k)
        | some d =>
          match d.analytical ts with
          | .error e => (.error e, k)
          | .ok (xs, xds) =>
            let k := k.saveMatrix (directory ++ "/xs_analytical.txt") d.base.dimX xs
            let k := k.saveMatrix (directory ++ "/xds_analytical.txt") d.base.dimX xds
            match Cpp.run .euler ts d with
            | .error e => (.error e, k)
            | .ok (rows, d) =>
              let k := k.saveMatrix (directory ++ "/xs_euler.txt") d.base.dimX (rows.map Prod.fst)
              let k := k.saveMatrix (directory ++ "/xds_euler.txt") d.base.dimX (rows.map Prod.snd)
              match Cpp.run .rungeKutta ts d with
              | .error e => (.error e, k)
              | .ok (rows, d) =>
                let k := k.saveMatrix (directory ++ "/xs_rungekutta.txt") d.base.dimX (rows.map Prod.fst)
                let k := k.saveMatrix (directory ++ "/xds_rungekutta.txt") d.base.dimX (rows.map Prod.snd)
                (.ok 0, k)

section

variable {τ : Type} [DynSys τ]

/-- A method of the system under test. -/
def onSystem {α : Type} (m : PyM τ α) : PyM (τ × Dir) α := ⟨fun p => ((m p.1).1, ((m p.1).2, p.2))⟩

/-- An operation on files. -/
def onDir {α : Type} (m : PyM Dir α) : PyM (τ × Dir) α := ⟨fun p => ((m p.2).1, (p.1, (m p.2).2))⟩

/-- test_dynamical_systems.py:171-172 and 188-189: `n` steps with the same step size. -/
def fixedLoop (m : DynSys.Method) (dt : ℝ) (x : List ℝ) : Nat → PyM τ (List (List ℝ × List ℝ))
  | 0 => pure []
  | n + 1 => do
    let r ← DynSys.step m dt x
    let rest ← fixedLoop m dt r.1 n
    pure (r :: rest)

/-- test_dynamical_systems.py:170-172 and 187-189, for arrays with `n` rows. -/
def fixedSteps (m : DynSys.Method) (dt : ℝ) (n : Nat) : PyM τ (List (List ℝ × List ℝ)) := do
  let r0 ← DynSys.integrateStart
  match n with
  | 0 => PyM.raise .indexError
  | n + 1 => do
    let rows ← fixedLoop m dt r0.1 n
    pure (r0 :: rows)

/-- test_dynamical_systems.py:156-161, 173-178 and 190-195: the states are compared; the rates of change are loaded. -/
def compare (xsName xdsName : String) (xs : List (List ℝ)) (k : Dir) : Except PyErr Unit := do
  let xsCpp ← k.loadtxt xsName
  let _ ← k.loadtxt xdsName
  let m ← maxDiff xs xsCpp
  close m

/-- test_dynamical_systems.py:141-195, for the system with this name. The file written by savejson (line 144) is not
modelled. -/
def testSystem (installed : Bool) (json : τ → Json) (analytical : List ℝ → PyM τ (List (List ℝ) × List (List ℝ)))
    (directory name : String) (ts : List ℝ) (dt : ℝ) : PyM (τ × Dir) Unit := do
  let p ← PyM.self
  onDir (Dir.saveJson (directory ++ "/" ++ name ++ "_for_cpp.json") (json p.1))
  onDir (executeBinary installed (systemsProgram directory name))
  let sol ← onSystem (analytical ts)
  let p ← PyM.self
  PyM.lift (compare (directory ++ "/xs_analytical.txt") (directory ++ "/xds_analytical.txt") sol.1 p.2)
  let rows ← onSystem (fixedSteps .euler dt ts.length)
  let p ← PyM.self
  PyM.lift (compare (directory ++ "/xs_euler.txt") (directory ++ "/xds_euler.txt") (rows.map Prod.fst) p.2)
  let rows ← onSystem (fixedSteps .rungeKutta dt ts.length)
  let p ← PyM.self
  PyM.lift (compare (directory ++ "/xs_rungekutta.txt") (directory ++ "/xds_rungekutta.txt") (rows.map Prod.fst) p.2)

end

/-- The systems of the dictionary `dyn_systems`, test_dynamical_systems.py:105-125. -/
inductive System
  | sub (s : Sub)
  | spring (s : SpringDamper)

/-- test_dynamical_systems.py:141-195. -/
def System.test (installed : Bool) (directory name : String) (ts : List ℝ) (dt : ℝ) (s : System) (k : Dir) :
    Except PyErr Unit × Dir :=
  match s with
  | .sub s =>
    let r := testSystem installed Sub.json Sub.analytical directory name ts dt (s, k)
    (r.1, r.2.2)
  | .spring s =>
    let r := testSystem installed SpringDamper.json (fun ts => PyM.reads fun s => s.analytical ts) directory name ts dt (s, k)
    (r.1, r.2.2)

/-- test_dynamical_systems.py:139-195, the loop over the systems. -/
def testAll (installed : Bool) (directory : String) (ts : List ℝ) (dt : ℝ) : List (String × System) → PyM Dir Unit
  | [] => pure ()
  | (name, s) :: rest => do
    ⟨s.test installed directory name ts dt⟩
    testAll installed directory ts dt rest

/-- test_dynamical_systems.py:130-195, for systems with time constant `tau`. -/
def systemsTest (installed : Bool) (directory : String) (tau : ℝ) (systems : List (String × System)) : PyM Dir Unit := do
  let dt : ℝ := 0.01
  let duration := 1.25 * tau
  let ts ← PyM.lift (TaskSolverDmp.linspaceInt 0 duration (⌈duration / dt⌉ + 1))
  Dir.savetxt (directory ++ "/ts.txt") (ts.map fun t => [t])
  testAll installed directory ts dt systems

/-- test_dynamical_systems.py:98-125, the systems that are tested. -/
def dynSystems : List (String × System) :=
  let tau : ℝ := 0.6
  let init2 : List ℝ := [0.5, 1.0]
  let attr2 : List ℝ := [0.8, 0.1]
  let init1 : List ℝ := [0.5]
  let attr1 : List ℝ := [0.8]
  [("ExponentialSystem_1D", .sub (.exponential (Exponential.init tau init1 attr1 (.scalar 6)))),
    ("ExponentialSystem_2D", .sub (.exponential (Exponential.init tau init2 attr2 (.scalar 6)))),
    ("SigmoidSystem_1D", .sub (.sigmoid (Sigmoid.init tau init1 (.scalar (-10)) (.scalar 0.8)))),
    ("SigmoidSystem_2D", .sub (.sigmoid (Sigmoid.init tau init2 (.scalar (-10)) (.scalar 0.8)))),
    ("SpringDamperSystem_1D", .spring (SpringDamper.init tau init1 attr1 (.scalar 12))),
    ("SpringDamperSystem_2D", .spring (SpringDamper.init tau init2 attr2 (.scalar 12))),
    ("TimeSystem", .sub (.time (TimeSystem.init tau))),
    ("TimeCountDownSystem", .sub (.time (TimeSystem.init tau true)))]

/-! ### Function approximators -/

/-- testFunctionApproximators.cpp:37-84, main. -/
def faProgram (directory faName : String) (nDims : Nat) (k : Dir) : CppResult Int × Dir :=
  let basename := faName ++ "_" ++ toString nDims ++ "D"
  match k.json (directory ++ "/" ++ basename ++ "_for_cpp.json") with
  | none => (.ok (-1), k)
  | some j =>
    match Cpp.AnyFa.fromJson j with
    | .error e => (.error e, k)
    | .ok fa? =>
      match Cpp.loadMatrix (directory ++ "/" ++ basename ++ "_inputs.txt") k.disk with
      | .error e => (.error e, k)
      | .ok none => (.ok (-1), k)
      | .ok (some m) =>
        match fa? with
        | none => (.error .null, k)
        | some fa =>
          match fa.predict fun (i : Fin m.rows.length) (j : Fin m.cols) => (m.rows.getD i []).getD j 0 with
          | .error e => (.error e, k)
          | .ok outputs =>
            (.ok 0, k.saveMatrix (directory ++ "/" ++ basename ++ "_outputs.txt") 1 (List.ofFn fun i => [outputs i]))

/-- test_function_approximators.py:99-121, for a trained function approximator and the inputs `inputs_grid`. The file
written by savejson (line 104) is not modelled. -/
def faTest (installed : Bool) (directory faName : String) (fa : Fa) {N d : Nat} (inputs : Fin N → Fin d → ℝ) :
    PyM Dir Unit := do
  let outputs ← PyM.lift (fa.predict inputs)
  let basename := faName ++ "_" ++ toString d ++ "D"
  Dir.saveJson (directory ++ "/" ++ basename ++ "_for_cpp.json") fa.json
  Dir.savetxt (directory ++ "/" ++ basename ++ "_inputs.txt") (List.ofFn fun i => List.ofFn (inputs i))
  executeBinary installed (faProgram directory faName d)
  let k ← PyM.self
  let outputsCpp ← PyM.lift (k.loadtxt (directory ++ "/" ++ basename ++ "_outputs.txt"))
  let m ← PyM.lift (maxDiffBroadcast (List.ofFn outputs) outputsCpp.flatten)
  PyM.lift (close m)

/-! ### Dmps -/

/-- testDmp.cpp:38-104, main. -/
def dmpProgram (directory name : String) (k : Dir) : CppResult Int × Dir :=
  match k.json (directory ++ "/" ++ name ++ "_for_cpp.json") with
  | none => (.ok (-1), k)
  | some j =>
    match Cpp.Dmp.fromJson j with
    | .error e => (.error e, k)
    | .ok c =>
      match loadVector (directory ++ "/ts.txt") k.disk with
      | .error e => (.error e, k)
      | .ok none => (.ok (-1), k)
      | .ok (some ts) =>
        match c.analytical ts with
        | .error e => (.error e, k)
        | .ok sol =>
          let k := k.saveMatrixIn directory "xs_ana.txt" c.dimX sol.xs
          let k := k.saveMatrixIn directory "xds_ana.txt" c.dimX sol.xds
          let k := k.saveMatrixIn directory "forcing_terms_ana.txt" c.dimY sol.forcing
          let k := k.saveMatrixIn directory "fa_outputs_ana.txt" c.dimY sol.fa
          match c.run ts with
          | .error e => (.error e, k)
          | .ok (rows, c) =>
            let k := k.saveMatrix (directory ++ "/xs_step.txt") c.dimX (rows.map Prod.fst)
            let k := k.saveMatrix (directory ++ "/xds_step.txt") c.dimX (rows.map Prod.snd)
            (.ok 0, k)

/-- test_dmp.py:66-113, for a Dmp and the times of the trajectory it was trained with. The file written by savejson (line
90) is not modelled. -/
def dmpTest (installed : Bool) (directory : String) (ts : List ℝ) : PyM (Dmp × Dir) Unit := do
  let sol ← onSystem (Dmp.analytical (some ts))
  let rows ← onSystem (Dmp.integrate ts .rungeKutta)
  let p ← PyM.self
  onDir (Dir.saveJson (directory ++ "/dmp_for_cpp.json") p.1.json)
  onDir (Dir.savetxt (directory ++ "/ts.txt") (ts.map fun t => [t]))
  onDir (executeBinary installed (dmpProgram directory "dmp"))
  let p ← PyM.self
  let xsAna ← PyM.lift (p.2.loadtxt (directory ++ "/xs_ana.txt"))
  let _ ← PyM.lift (p.2.loadtxt (directory ++ "/xds_ana.txt"))
  let _ ← PyM.lift (p.2.loadtxt (directory ++ "/forcing_terms_ana.txt"))
  let _ ← PyM.lift (p.2.loadtxt (directory ++ "/fa_outputs_ana.txt"))
  let xsStep ← PyM.lift (p.2.loadtxt (directory ++ "/xs_step.txt"))
  let _ ← PyM.lift (p.2.loadtxt (directory ++ "/xds_step.txt"))
  let diffAna ← PyM.lift (maxDiff sol.xs xsAna)
  let diffStep ← PyM.lift (maxDiff (rows.map Prod.fst) xsStep)
  PyM.lift (close diffAna)
  PyM.lift (close diffStep)

end IntegrationTests

end

end Verif
