import Verif.Model.Py
import Mathlib.Data.Real.Basic
import Mathlib.Data.List.Dedup

/- bbo/LearningSession.py and bbo_of_dmps/LearningSessionTask.py: the database of a learning
session. Objects live on a heap, so that sharing between the cache and the client is visible. -/

set_option autoImplicit false

namespace Verif

/-! ### Names -/

/-- `i_sample`, if not None: an integer or a string. Booleans are not modelled. -/
inductive Label
  | int (i : Int)
  | str (s : String)
  deriving DecidableEq

/-- `f"{i:0<width>d}"` for a natural number. -/
def pad (width : Nat) (i : Nat) : String :=
  String.ofList (List.replicate (width - (Nat.toDigits 10 i).length) '0' ++ Nat.toDigits 10 i)

/-- `f"{i:0<width>d}"`: the sign counts for the width. -/
def padInt (width : Nat) : Int → String
  | .ofNat i => pad width i
  | .negSucc i => "-" ++ pad (width - 1) (i + 1)

/-- Components of a relative path, as `pathlib.PurePosixPath` does it: empty components and "." are
dropped. Absolute names (starting with "/") are not modelled. -/
def splitPath (s : String) : List String :=
  ((s.toList.splitOn '/').map String.ofList).filter fun c => c ≠ "" ∧ c ≠ "."

/-- Result of get_base_name: a string, or a `Path` (of which only the components matter for
comparison and hashing). A string and a `Path` are never equal in Python. -/
inductive Key
  | str (s : String)
  | path (parts : List String)
  deriving DecidableEq

/-- LearningSession.py:327-332: the name with the sample. -/
def sampleName (name : String) : Option Label → String
  | some (.int i) => padInt 3 i ++ "_" ++ name
  | some (.str s) => if s ≠ "" then s ++ "_" ++ name else name
  | none => name

/-- LearningSession.py:312-338 get_base_name. -/
def baseName (name : String) (iUpdate : Option Int) (iSample : Option Label) : Key :=
  let basename := sampleName name iSample
  match iUpdate with
  | some i => .path (splitPath ("update" ++ padInt 5 i) ++ splitPath basename)
  | none => .str basename

/-- Components of the file relative to the root directory (LearningSession.py:352, 377, 417), without
extension. -/
def Key.parts : Key → List String
  | .str s => splitPath s
  | .path p => p

/-- File types. -/
inductive Ext
  | json
  | csv
  | txt
  deriving DecidableEq

/-- A file below the root directory. Since the extensions contain no ".", the file name determines
the pair. -/
structure File where
  parts : List String
  ext : Ext
  deriving DecidableEq

/-! ### Objects -/

/-- What the session needs to know about objects. -/
class Storable (V : Type) where
  /-- LearningSession.py:422-430: arrays, lists and integers are saved as txt, data frames as csv,
  all others as json. -/
  kind : V → Ext
  /-- The object that is read from the file to which an object was written. -/
  reload : V → V
  /-- A Python integer. -/
  ofNat : Nat → V
  /-- `int(np.atleast_1d(x)[0])`, where this is defined. -/
  toNat : V → Option Nat
  /-- The rows of a two-dimensional array; the entries of a one-dimensional array are rows with one
  entry. -/
  rows : V → Option (List (List ℝ))
  /-- The entries of `np.atleast_1d` of an array. -/
  row : V → Option (List ℝ)

/-- The session together with the objects and files it works on.
Fields `nSamples`, `hasDir`, `cache` and `lastUpdate` are those set in LearningSession.py:240-243;
`task` tells whether this is a LearningSessionTask. `hasDir` is false if the directory is None; the
directories "" and "." (for which saving fails in `os.makedirs("")`) are not modelled.
`heap` contains all objects, which are referred to by their position. `cache` maps keys to objects,
the latest entry coming first. `files` are the files written so far (the latest first); a later
entry for the same file replaces an earlier one. -/
structure World (V : Type) where
  nSamples : Nat
  hasDir : Bool
  task : Bool
  cache : List (Key × Nat)
  lastUpdate : Option Int
  heap : List V
  files : List (File × V)

variable {V : Type}

/-- Create an object. -/
def World.alloc (v : V) : PyM (World V) Nat := do
  let w ← PyM.self
  PyM.modify fun w => { w with heap := w.heap ++ [v] }
  return w.heap.length

/-- The content of a file. -/
def World.read (w : World V) (f : File) : Option V := w.files.lookup f

/-- Write a file. -/
def World.write (f : File) (v : V) : PyM (World V) Unit :=
  PyM.modify fun w => { w with files := (f, v) :: w.files }

/-- LearningSession.py:408-432 save, with the root directory of the session. Assumes that
`os.makedirs` and writing succeed. -/
def World.save [Storable V] (v : V) (key : Key) : PyM (World V) File := do
  let f : File := ⟨key.parts, Storable.kind v⟩
  World.write f v
  return f

/-- LearningSession.py:395-406 tell, for an object with value `v`. The copy in the cache is a new
object. -/
def World.tellBase [Storable V] (v : V) (name : String) (iUpdate : Option Int)
    (iSample : Option Label) : PyM (World V) (Option File) := do
  let key := baseName name iUpdate iSample
  let r ← World.alloc v
  PyM.modify fun w => { w with cache := (key, r) :: w.cache }
  if (← PyM.self).hasDir then
    return some (← World.save v key)
  else return none

/-- A directory exists if a file has been written to it or below it. -/
def World.dirExists (w : World V) (dir : List String) : Bool :=
  w.files.any fun e => dir.isPrefixOf e.1.parts.dropLast

/-- `jc.savejson`, which (in contrast to `save`) does not create directories. -/
def World.savejson (parts : List String) (v : V) : PyM (World V) Unit := do
  if (← PyM.self).dirExists parts.dropLast then World.write ⟨parts, .json⟩ v
  else PyM.raise .ioError

/-- `f"{abs_basename}_for_cpp"`. -/
def forCppParts (parts : List String) : List String :=
  parts.dropLast ++ [parts.getLastD "" ++ "_for_cpp"]

/-- Do three consecutive characters spell "dmp"? -/
def hasDmp : List Char → Bool
  | 'd' :: 'm' :: 'p' :: _ => true
  | _ :: cs => hasDmp cs
  | [] => false

/-- LearningSessionTask.py:54: `"dmp" in name`. -/
def dmpIn (name : String) : Bool := hasDmp name.toList

/-- LearningSession.py:395-406 and LearningSessionTask.py:45-62 tell. -/
def World.tell [Storable V] (v : V) (name : String) (iUpdate : Option Int := none)
    (iSample : Option Label := none) : PyM (World V) (Option File) := do
  let w ← PyM.self
  if w.task && dmpIn name && w.hasDir then
    let parts := (baseName name iUpdate iSample).parts
    World.savejson parts v
    World.savejson (forCppParts parts) v
  World.tellBase v name iUpdate iSample

/-- The value of an object. -/
def World.deref (w : World V) (r : Nat) : Except PyErr V :=
  match w.heap[r]? with
  | some v => .ok v
  | none => .error .indexError

/-- LearningSession.py:378-389: the object read from file; json is preferred over csv over txt. -/
def World.load [Storable V] (w : World V) (key : Key) : Except PyErr V :=
  match w.read ⟨key.parts, .json⟩ with
  | some v => .ok (Storable.reload v)
  | none => match w.read ⟨key.parts, .csv⟩ with
    | some v => .ok (Storable.reload v)
    | none => match w.read ⟨key.parts, .txt⟩ with
      | some v => .ok (Storable.reload v)
      | none => .error .ioError

/-- LearningSession.py:358-393 ask. Returns the object, which is a copy if it is in the cache, but the
cached object itself if it is read from file. -/
def World.ask [Storable V] (name : String) (iUpdate : Option Int := none)
    (iSample : Option Label := none) : PyM (World V) Nat := do
  let key := baseName name iUpdate iSample
  let w ← PyM.self
  match w.cache.lookup key with
  | some r => World.alloc (← PyM.lift (w.deref r))
  | none =>
    if w.hasDir then
      let r ← World.alloc (← PyM.lift (w.load key))
      PyM.modify fun w => { w with cache := (key, r) :: w.cache }
      return r
    else PyM.raise .keyError

/-- The value of the object returned by ask. -/
def World.askValue [Storable V] (name : String) (iUpdate : Option Int := none)
    (iSample : Option Label := none) : PyM (World V) V := do
  let r ← World.ask name iUpdate iSample
  PyM.lift ((← PyM.self).deref r)

/-- LearningSession.py:340-356 exists. -/
def World.exists (w : World V) (name : String) (iUpdate : Option Int := none)
    (iSample : Option Label := none) : Bool :=
  let key := baseName name iUpdate iSample
  if (w.cache.lookup key).isSome then true
  else if w.hasDir then
    (w.read ⟨key.parts, .json⟩).isSome || (w.read ⟨key.parts, .txt⟩).isSome ||
      (w.read ⟨key.parts, .csv⟩).isSome
  else false

/-- LearningSession.py:238-248 and LearningSessionTask.py:33-43, __init__: a new session on given
objects and files. `kwargs` are told in turn. The python files with the source code of the cost
function or task (lines 250-257 and 36-43) are not modelled. -/
def World.init [Storable V] (nSamples : Nat) (hasDir task : Bool) (kwargs : List (String × V)) :
    PyM (World V) Unit := do
  PyM.modify fun w => { w with nSamples, hasDir, task, cache := [], lastUpdate := none }
  let _ ← World.tell (Storable.ofNat nSamples) "n_samples_per_update"
  kwargs.forM fun kw => do
    let _ ← World.tell kw.2 kw.1

/-- LearningSession.py:259-269 from_dir. -/
def World.fromDir [Storable V] (task : Bool) : PyM (World V) Unit := do
  match (← PyM.self).read ⟨["n_samples_per_update"], .txt⟩ with
  | none => PyM.raise .ioError
  | some v => match Storable.toNat (Storable.reload v) with
    | none => PyM.raise .valueError
    | some n => World.init n true task []

/-- LearningSession.py:271-279 add_eval. -/
def World.addEval [Storable V] (iUpdate : Int) (evalSample evalCost : V) : PyM (World V) Unit := do
  let _ ← World.tell evalCost "eval_cost" (some iUpdate)
  let _ ← World.tell evalSample "eval_sample" (some iUpdate)

/-- LearningSession.py:281-297 add_update. -/
def World.addUpdate [Storable V] (iUpdate : Int) (distribution samples costs weights : V)
    (distributionNew : Option V) : PyM (World V) Unit := do
  let _ ← World.tell distribution "distribution" (some iUpdate)
  let _ ← World.tell samples "samples" (some iUpdate)
  let _ ← World.tell costs "costs" (some iUpdate)
  let _ ← World.tell weights "weights" (some iUpdate)
  if let some d := distributionNew then
    let _ ← World.tell d "distribution_new" (some iUpdate)
  PyM.modify fun w => { w with lastUpdate := some iUpdate }

/-- LearningSessionTask.py:64-75 add_rollout. -/
def World.addRollout [Storable V] (iUpdate : Int) (iSample : Label) (sample costVars cost : V) :
    PyM (World V) Unit := do
  let _ ← World.tell sample "sample" (some iUpdate) (some iSample)
  let _ ← World.tell costVars "cost_vars" (some iUpdate) (some iSample)
  let _ ← World.tell cost "cost" (some iUpdate) (some iSample)

/-- LearningSessionTask.py:77-86 add_eval_task. -/
def World.addEvalTask [Storable V] (iUpdate : Int) (evalSample evalCostVars evalCost : V) :
    PyM (World V) Unit := do
  World.addEval iUpdate evalSample evalCost
  let _ ← World.tell evalCostVars "eval_cost_vars" (some iUpdate)

/-- LearningSession.py:434-440 save_all: write the objects in the cache to another directory. Result
are the files in that directory, the latest first. -/
def World.saveAll [Storable V] (w : World V) : Except PyErr (List (File × V)) :=
  -- A dict keeps the position of the first insertion and the value of the last one.
  (w.cache.map Prod.fst).dedup.reverse.foldlM (fun (files : List (File × V)) (key : Key) =>
    match w.cache.lookup key with
    | none => .error .keyError
    | some r => do
      let v ← w.deref r
      .ok ((⟨key.parts, Storable.kind v⟩, v) :: files)) []

/-! ### Queries -/

/-- Does the entry match `update[0-9]*`? -/
def isUpdateEntry (s : String) : Bool :=
  match s.toList with
  | 'u' :: 'p' :: 'd' :: 'a' :: 't' :: 'e' :: c :: _ => c.isDigit
  | _ => false

/-- `str(Path(...))` of the entries of the root directory: directories, and files with extension. -/
def Ext.str : Ext → String
  | .json => ".json"
  | .csv => ".csv"
  | .txt => ".txt"

/-- The entry of the root directory that belongs to a file. -/
def File.entry (f : File) : String :=
  match f.parts with
  | [] => ""
  | [name] => name ++ f.ext.str
  | dir :: _ => dir

/-- `int(s)` for strings of decimal digits; other forms of integers (signs, underscores, blanks) are
not modelled. -/
def pyInt (s : String) : Except PyErr Int :=
  if s ≠ "" ∧ s.toList.all Char.isDigit then .ok (Nat.ofDigitChars 10 s.toList 0)
  else .error .valueError

/-- `max` of a list of strings, i.e. the last one in the sorted list. -/
def lastSorted (l : List String) : Option String :=
  l.foldl (fun acc s => match acc with
    | none => some s
    | some a => some (if a ≤ s then s else a)) none

/-- LearningSession.py:299-310 get_n_updates. None is returned without directory if no update was
added. `.replace("update", "")` only removes the beginning of the entry (further occurrences
of "update" would make `int` fail with or without them being removed unless digits remain, which
is not modelled). -/
def World.getNUpdates (w : World V) : Except PyErr (Option Int) :=
  if !w.hasDir then .ok w.lastUpdate
  else
    match lastSorted ((w.files.map fun e => e.1.entry).filter isUpdateEntry) with
    | none => .error .indexError
    | some dir => do .ok (some (← pyInt (String.ofList (dir.toList.drop 6))))

/-- `np.mean(rows, axis=0)`. -/
noncomputable def meanRows (rows : List (List ℝ)) : List ℝ :=
  (List.range (rows.headD []).length).map fun j => (rows.map fun r => r.getD j 0).sum / rows.length

/-- LearningSession.py:470-483 get_sample_costs. -/
def World.getSampleCosts [Storable V] (iUpdate : Int) : PyM (World V) (List (List ℝ)) := do
  if (← PyM.self).exists "costs" (some iUpdate) then
    let v ← World.askValue "costs" (some iUpdate)
    match Storable.rows v with
    | some rows => return rows
    | none => PyM.raise .typeError
  else
    (List.range (← PyM.self).nSamples).mapM fun (s : Nat) => do
      let v ← World.askValue "costs" (some iUpdate) (some (.int s))
      match Storable.row v with
      | some row => return row
      | none => PyM.raise .typeError

/-- LearningSession.py:452-468 get_eval_costs, followed by `np.atleast_1d` of line 498. The mean of no
samples is nan. -/
noncomputable def World.getEvalCosts [Storable V] (iUpdate : Int) : PyM (World V) (List ℝ × ℝ) := do
  if (← PyM.self).exists "cost" (some 0) (some (.str "eval")) then
    let v ← World.askValue "cost" (some iUpdate) (some (.str "eval"))
    match Storable.row v with
    | some row => return (row, iUpdate * (← PyM.self).nSamples)
    | none => PyM.raise .typeError
  else
    let costs ← World.getSampleCosts iUpdate
    if costs = [] then PyM.raise .nanResult
    else return (meanRows costs, (iUpdate + 1 / 2) * (← PyM.self).nSamples)

/-- LearningSession.py:442-445 get_eval_cost_before_after. -/
noncomputable def World.getEvalCostBeforeAfter [Storable V] : PyM (World V) (List ℝ × List ℝ) := do
  let before ← World.getEvalCosts 0
  match ← PyM.lift (← PyM.self).getNUpdates with
  | none => PyM.raise .typeError
  | some n =>
    let after ← World.getEvalCosts (n - 1)
    return (before.1, after.1)

/-- LearningSession.py:447-450 get_cost_ratio. Division by 0 gives inf or nan. -/
noncomputable def World.getCostRatio [Storable V] : PyM (World V) ℝ := do
  let (before, after) ← World.getEvalCostBeforeAfter
  match after, before with
  | a :: _, b :: _ => if b = 0 then PyM.raise .nanResult else return a / b
  | _, _ => PyM.raise .indexError

/-- LearningSession.py:485-499 get_learning_curve, without the labels. -/
noncomputable def World.getLearningCurve [Storable V] : PyM (World V) (List (List ℝ)) := do
  match ← PyM.lift (← PyM.self).getNUpdates with
  | none => PyM.raise .typeError
  | some n =>
    (List.range n.toNat).mapM fun (i : Nat) => do
      let (costs, iSample) ← World.getEvalCosts (i : Int)
      return iSample :: costs

end Verif
