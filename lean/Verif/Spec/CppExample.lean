/-
What the properties of the example in C++ speak about.
-/
import Verif.Spec.Print

namespace CenCalVM
namespace CppExample
open QueryApp (Line)
open Print
variable {K : Type} [Field K] [LinearOrder K]

/-- The second line has the location of the first, and of its values the seventh and the eighth, fault block and zone. -/
def TwoOf (l l' : Line K) : Prop :=
  l'.lon = l.lon ∧ l'.lat = l.lat ∧ l'.elev = l.elev ∧ ∃ b z, l.vals[6]? = some b ∧ l.vals[7]? = some z ∧ l'.vals = [b, z]

/-- The words are the five numbers of a line with two values, the last two exactly. -/
def ReadsTwo (l : Line K) (ws : List (List Char)) : Prop :=
  ∃ b z w0 w1 w2 w3 w4, l.vals = [b, z] ∧ ws = [w0, w1, w2, w3, w4] ∧ Reads 0.000005 l.lon w0 ∧ Reads 0.000005 l.lat w1 ∧
    Reads 0.05 l.elev w2 ∧ Reads 0 b w3 ∧ Reads 0 z w4

/-- All numbers of such a line but the first have a blank in front of them in their columns. -/
def FitsTwo (l : Line K) : Prop :=
  Within (-9.99999) 99.99999 l.lat ∧ Within (-99999.9) 999999.9 l.elev ∧ ∀ x ∈ l.vals, Within (-999) 9999 x

end CppExample
end CenCalVM
