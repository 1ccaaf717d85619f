import Verif.Model.Py

/-
Specification for C88: a call that is rejected.
-/

set_option autoImplicit false

namespace Verif.Spec

/-- The call raises the exception `e` and leaves the object as it was. -/
def Raises {σ α : Type} (m : PyM σ α) (e : PyErr) (s : σ) : Prop := m s = (.error e, s)

end Verif.Spec
