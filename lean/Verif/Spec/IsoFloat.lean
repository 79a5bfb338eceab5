/-
Vocabulary of the properties of the application cencalvmisosurface computing in double precision.
-/
import Verif.Spec.IsoApp
import Verif.Model.Float

namespace CenCalVM
namespace IsoApp
variable {K : Type} [Field K] [LinearOrder K] [FloorRing K]

/-- Elevations are computed in double precision, rounding in some direction, and the number of iterations from an upper estimate
of the logarithm that is almost one: `2 ^ clog x` is at least `x`, but for a part in a million. -/
def Arith.Double (ri : IntRound K) (ar : Arith K) : Prop :=
  ar.rd = fl ri 53 ∧ ∀ x, 1 / 2 < x → x ≤ 1000000 → x * (1 - 1 / 2 ^ 20) ≤ 2 ^ ar.clog x

/-- A number of type `double`, at most `10^6` in size. -/
def IsElev (ri : IntRound K) (x : K) : Prop := fl ri 53 x = x ∧ |x| ≤ 1000000

end IsoApp
end CenCalVM
