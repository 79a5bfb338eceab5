/-
Specification vocabulary for rounding.
-/
import Verif.Model.Rounding
import Verif.Model.Float

namespace CenCalVM
variable {K : Type}

/-- Results are not rounded. -/
def Rd.Exact (rd : Rd K) : Prop := ∀ x, rd.single x = x ∧ rd.double x = x

/-- Results are rounded to the 24 binary digits of `float` and the 53 of `double`, each in some direction. -/
def Rd.Binary [Field K] [LinearOrder K] [FloorRing K] (rs rdb : IntRound K) (rd : Rd K) : Prop :=
  rd.single = fl rs 24 ∧ rd.double = fl rdb 53

theorem Rd.Exact.eq {rd : Rd K} (h : rd.Exact) : rd = Rd.exact := by
  cases rd with
  | mk a b =>
    have e1 : a = id := funext fun x => (h x).1
    have e2 : b = id := funext fun x => (h x).2
    rw [e1, e2]; rfl

theorem Rd.exact_exact : (Rd.exact : Rd K).Exact := fun _ => ⟨rfl, rfl⟩
@[simp] theorem Rd.exact_single (x : K) : (Rd.exact : Rd K).single x = x := rfl
@[simp] theorem Rd.exact_double (x : K) : (Rd.exact : Rd K).double x = x := rfl

end CenCalVM
