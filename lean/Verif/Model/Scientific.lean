/-
How numbers are printed in the log and in warnings.
-/
import Mathlib.Data.Int.Log
import Verif.Model.Print

namespace CenCalVM
namespace Print

/-- The exponent of conversion `e` of the C library (libsrc/cencalvm/query/VMQuery.cc:232-236): a sign and at least two digits. -/
def expText (e : Int) : List Char :=
  (if e < 0 then '-' else '+') :: (if e.natAbs < 10 then ['0', digitChar e.natAbs] else digits e.natAbs)

variable {K : Type} [Field K] [LinearOrder K] [IsStrictOrderedRing K] [FloorRing K]

/-- The digits and the exponent of conversion `e` with `p` decimals (libsrc/cencalvm/query/VMQuery.cc:232-236): the number is divided by a power of ten so that
one digit is before the point; if rounding (`ri`) gives a second one the exponent is one more. -/
def sciDigits (ri : IntRound K) (p : Nat) (x : K) : Nat × Int :=
  let e := Int.log 10 |x|
  let m := (ri.toInt (|x| / 10 ^ (e - p))).toNat
  if m = 10 ^ (p + 1) then (10 ^ p, e + 1) else (m, e)

/-- Conversion `e` of the C library with `p` decimals, libsrc/cencalvm/query/VMQuery.cc:232-236.  There is no negative zero in
the model, and no number too small for a normal `double`. -/
def sciText (ri : IntRound K) (p : Nat) (x : K) : List Char :=
  let d := sciDigits ri p x
  (if x < 0 then ['-'] else []) ++ (digits (d.1 / 10 ^ p) ++ '.' :: lastDigits p (d.1 % 10 ^ p)) ++ 'e' :: expText d.2

/-- The format of the numbers in the log and in warnings, libsrc/cencalvm/query/VMQuery.cc:232-236,240-244: `scientific` with
precision 6.  The others are left as they are. -/
def sciFmt (ri : IntRound K) (fmt : Fmt K) : Fmt K := { fmt with sci := fun x => String.ofList (sciText ri 6 x) }

end Print
end CenCalVM
