import Verif.Model.Session

/- What a client of a learning session does and sees, independently of how the session works. -/

set_option autoImplicit false

namespace Verif

/-- Name, update and sample under which something is stored. -/
abbrev SKey := String × Option Int × Option Label

/-- What a client does. Objects are numbered. -/
inductive Event (V : Type)
  /-- The client creates object `r` with value `v`. -/
  | create (r : Nat) (v : V)
  /-- The client changes the value of object `r` to `v`. -/
  | modify (r : Nat) (v : V)
  /-- The client tells object `r`. -/
  | tell (r : Nat) (k : SKey)
  /-- The client asks and gets object `r`, whose value is `v`. -/
  | ask (r : Nat) (v : V) (k : SKey)
  /-- The client asks and gets an exception. -/
  | askFailed (e : PyErr) (k : SKey)

namespace Spec

variable {V : Type}

/-- The value of an object, given the events up to now (the latest first). -/
def objVal : List (Event V) → Nat → Option V
  | [], _ => none
  | .create r' v :: es, r => if r = r' then some v else objVal es r
  | .modify r' v :: es, r => if r = r' then some v else objVal es r
  | .tell _ _ :: es, r => objVal es r
  | .ask r' v _ :: es, r => if r = r' then some v else objVal es r
  | .askFailed _ _ :: es, r => objVal es r

/-- The value of the latest tell for a key, given the events up to now (the latest first). `proj`
says what counts as the same key. -/
def told {K : Type} [DecidableEq K] (proj : SKey → K) : List (Event V) → K → Option V
  | [], _ => none
  | .tell r k' :: es, k => if k = proj k' then objVal es r else told proj es k
  | .create _ _ :: es, k => told proj es k
  | .modify _ _ :: es, k => told proj es k
  | .ask _ _ _ :: es, k => told proj es k
  | .askFailed _ _ :: es, k => told proj es k

/-- The value of the latest of a sequence of tells for a key (the latest first). -/
def latest {K : Type} [DecidableEq K] (proj : SKey → K) : List (V × SKey) → K → Option V
  | [], _ => none
  | (v, k') :: ts, k => if k = proj k' then some v else latest proj ts k

end Spec

end Verif
