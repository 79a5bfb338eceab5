/-
What reading back the log means.
-/
import Verif.Spec.Print
import Verif.Model.Scientific

namespace CenCalVM
namespace Print
variable {K : Type} [Field K] [LinearOrder K]

/-- The power of ten written by a sign and digits. -/
def expValue : List Char → Option K
  | '+' :: t => (natValue t).map fun n => 10 ^ n
  | '-' :: t => (natValue t).map fun n => 1 / 10 ^ n
  | _ => none

/-- The number written by digits, with a point and more digits, the letter e, a sign and digits. -/
def unsignedSci (t : List Char) : Option K :=
  match t.span (· ≠ 'e') with
  | (a, _ :: b) => (unsignedValue a).bind fun x => (expValue b).map fun y => x * y
  | _ => none

/-- The number written in scientific notation, possibly with a minus sign. -/
def sciValue : List Char → Option K
  | '-' :: t => (unsignedSci t).map fun x => -x
  | t => unsignedSci t

/-- A word is a number in scientific notation, with one digit before the point and six behind it, that differs from `x` by at
most `x / 2000000`. -/
def ReadsSci (x : K) (w : List Char) : Prop :=
  (∃ y, sciValue w = some y ∧ |y - x| ≤ |x| / 2000000) ∧
    ∃ s a b, w = s ++ a ++ 'e' :: b ∧ (s = [] ∨ s = ['-']) ∧ a.length = 8 ∧ a[1]? = some '.'

/-- The cells of a row: what is between commas, without the blanks in front. -/
def cells (t : List Char) : List (List Char) := (t.splitOnP (· = ',')).map (·.dropWhile isBlank)

/-- The rows of a text. -/
def rows (t : List Char) : List (List Char) := t.splitOnP (· = '\n')

/-- A row of the log about a location. -/
def LogRow (l : K × K × K) (t : List Char) : Prop :=
  ∃ a b c, cells t = [a, b, c, "No data".toList] ∧ ReadsSci l.1 a ∧ ReadsSci l.2.1 b ∧ ReadsSci l.2.2 c

end Print
end CenCalVM
