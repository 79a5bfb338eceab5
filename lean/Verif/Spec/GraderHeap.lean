/-
What a call to a `VsGrader` leaves behind, in the words of property C152.
-/
import Verif.Model.GraderHeap
import Verif.Spec.Heap

namespace CenCalVM
namespace Mem

/-- Two arrays of `n` elements, if `n` is positive. -/
def pairOf (n : Int) : List Nat := if 0 < n then [n.toNat, n.toNat] else []

/-- Sizes of the arrays that a call leaves: the eight values, if the extraction ends with an exception; the two arrays of
the pass (vertical, along the length, along the width), if that ends with one. -/
def left : GraderCall → List Nat
  | .run _ _ _ (.extract _) => [8]
  | .run _ _ ht (.grade (some (0, _))) => pairOf ht
  | .run len _ _ (.grade (some (1, _))) => pairOf len
  | .run _ wid _ (.grade (some (2, _))) => pairOf wid
  | _ => []

end Mem
end CenCalVM
