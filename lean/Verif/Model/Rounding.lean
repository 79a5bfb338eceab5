/-
Rounding of results, as a parameter of the models that compute.
-/
import Mathlib.Algebra.Order.Field.Basic

namespace CenCalVM
variable {K : Type}

/-- Rounding of results to the types `float` (values of a payload, libsrc/cencalvm/storage/Payload.h) and `double`. -/
structure Rd (K : Type) where
  single : K → K
  double : K → K

/-- Exact arithmetic. -/
def Rd.exact : Rd K := ⟨id, id⟩

end CenCalVM
