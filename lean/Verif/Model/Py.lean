/-
A small semantic domain for Python methods: exceptions and mutable objects.

This file does not model a particular file of /repo; it fixes the meaning of
"a method of an object" used by all the model files.
-/

set_option autoImplicit false

namespace Verif

/-- Kinds of exceptions raised by the modelled code (the message text is not modelled). -/
inductive PyErr
  | valueError
  | typeError
  | indexError
  | keyError
  | attributeError
  | ioError
  | zeroDivision
  | linAlgError
  | runtimeError
  /-- Not a Python exception: marks a computation whose numpy result would contain `nan` or `inf`.
  The model does not follow the object any further. -/
  | nanResult
  deriving DecidableEq, Repr

/-- A Python method on an object with state `σ`: it either returns a value or raises, and in
both cases leaves a (possibly changed) object behind. -/
structure PyM (σ α : Type) : Type where
  run : σ → Except PyErr α × σ

/-- `m s` runs the method `m` on the object `s`. -/
instance {σ α : Type} : CoeFun (PyM σ α) (fun _ => σ → Except PyErr α × σ) := ⟨PyM.run⟩

namespace PyM

variable {σ α β : Type}

/-- `return a` -/
protected def pure (a : α) : PyM σ α := ⟨fun s => (.ok a, s)⟩

/-- Sequencing: an exception aborts the rest, changes made so far stay. -/
protected def bind (m : PyM σ α) (f : α → PyM σ β) : PyM σ β := ⟨fun s =>
  match m s with
  | (.ok a, s') => f a s'
  | (.error e, s') => (.error e, s')⟩

instance : Monad (PyM σ) where
  pure := PyM.pure
  bind := PyM.bind

/-- `raise e` -/
def raise (e : PyErr) : PyM σ α := ⟨fun s => (.error e, s)⟩

/-- Read `self`. -/
def self : PyM σ σ := ⟨fun s => (.ok s, s)⟩

/-- Overwrite fields of `self`. -/
def modify (f : σ → σ) : PyM σ Unit := ⟨fun s => (.ok (), f s)⟩

/-- A method that only reads `self` and never raises. -/
def reads (f : σ → α) : PyM σ α := ⟨fun s => (.ok (f s), s)⟩

/-- A computation that does not touch `self` and may raise. -/
def lift (e : Except PyErr α) : PyM σ α := ⟨fun s => (e, s)⟩

@[ext] theorem ext' {m m' : PyM σ α} (h : ∀ s, m s = m' s) : m = m' := by
  cases m; cases m'; congr; exact funext h

@[simp] theorem pure_apply (a : α) (s : σ) : (pure a : PyM σ α) s = (.ok a, s) := rfl

theorem bind_apply (m : PyM σ α) (f : α → PyM σ β) (s : σ) :
    (m >>= f) s = match m s with
      | (.ok a, s') => f a s'
      | (.error e, s') => (.error e, s') := rfl

theorem bind_ok {m : PyM σ α} {f : α → PyM σ β} {s s' : σ} {a : α} (h : m s = (.ok a, s')) :
    (m >>= f) s = f a s' := by
  rw [bind_apply, h]

theorem bind_error {m : PyM σ α} {f : α → PyM σ β} {s s' : σ} {e : PyErr}
    (h : m s = (.error e, s')) : (m >>= f) s = (.error e, s') := by
  rw [bind_apply, h]

@[simp] theorem raise_apply (e : PyErr) (s : σ) : (raise e : PyM σ α) s = (.error e, s) := rfl
@[simp] theorem self_apply (s : σ) : (self : PyM σ σ) s = (.ok s, s) := rfl
@[simp] theorem modify_apply (f : σ → σ) (s : σ) : modify f s = (.ok (), f s) := rfl
@[simp] theorem reads_apply (f : σ → α) (s : σ) : reads f s = (.ok (f s), s) := rfl

@[simp] theorem lift_apply (e : Except PyErr α) (s : σ) : (lift e : PyM σ α) s = (e, s) := rfl

@[simp] theorem lift_ok_bind (a : α) (f : α → PyM σ β) :
    ((lift (.ok a) : PyM σ α) >>= f) = f a := rfl

@[simp] theorem lift_error_bind (e : PyErr) (f : α → PyM σ β) :
    ((lift (.error e) : PyM σ α) >>= f) = raise e := rfl

@[simp] theorem pure_bind (a : α) (f : α → PyM σ β) : ((pure a : PyM σ α) >>= f) = f a := rfl
@[simp] theorem self_bind (f : σ → PyM σ β) (s : σ) : ((self : PyM σ σ) >>= f) s = f s s := rfl
@[simp] theorem modify_bind (g : σ → σ) (f : Unit → PyM σ β) (s : σ) :
    (modify g >>= f) s = f () (g s) := rfl
@[simp] theorem reads_bind (g : σ → α) (f : α → PyM σ β) (s : σ) :
    (reads g >>= f) s = f (g s) s := rfl
@[simp] theorem raise_bind (e : PyErr) (f : α → PyM σ β) : ((raise e : PyM σ α) >>= f) = raise e :=
  rfl

instance : LawfulMonad (PyM σ) := LawfulMonad.mk'
  (id_map := fun x => by
    refine ext' fun s => ?_
    change (x >>= pure) s = x s
    rw [bind_apply]
    rcases h : x s with ⟨r, s'⟩
    cases r <;> rfl)
  (pure_bind := fun _ _ => rfl)
  (bind_assoc := fun x f g => by
    refine ext' fun s => ?_
    rw [bind_apply, bind_apply, bind_apply]
    rcases h : x s with ⟨r, s'⟩
    cases r <;> rfl)

end PyM

end Verif
