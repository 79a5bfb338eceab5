/-
Vocabulary of the properties of the grader in `float` and `double`.
-/
import Verif.Spec.GradeFloat
import Verif.Spec.Rounding

namespace CenCalVM
namespace VsGrader
variable {K : Type} [Field K] [LinearOrder K] [FloorRing K]

/-- `n` points, `res` apart, on a line of length `len`: one more point would lie beyond its end, and the last one lies beyond by no more
than a fraction of 2^-50 of the line and one step. -/
structure Fills (n : Nat) (len res : K) : Prop where
  beyond : len < n * res
  last : ((n : K) - 1) * res ≤ len + (len + res) / 2 ^ 50

/-- The payload stored agrees with the answer `p` of the query, its speed raised to the minimum, up to a fraction of 2^-23. -/
structure StoredFrom (minVs : K) (p r : Payload K) : Prop where
  vs : |r.vs - max p.vs minVs| ≤ |max p.vs minVs| / 2 ^ 23
  vp : |r.vp - p.vp| ≤ |p.vp| / 2 ^ 23
  density : |r.density - p.density| ≤ |p.density| / 2 ^ 23
  qp : |r.qp - p.qp| ≤ |p.qp| / 2 ^ 23
  qs : |r.qs - p.qs| ≤ |p.qs| / 2 ^ 23
  depth : |r.depth - p.depth| ≤ |p.depth| / 2 ^ 23
  faultBlock : r.faultBlock = p.faultBlock
  zone : r.zone = p.zone

/-- The payload of a point without a shear wave speed. -/
def Marked (r : Payload K) : Prop := r = ⟨10 ^ 10, 10 ^ 10, 10 ^ 10, 10 ^ 10, 10 ^ 10, 10 ^ 10, 999, 999⟩

end VsGrader
end CenCalVM
