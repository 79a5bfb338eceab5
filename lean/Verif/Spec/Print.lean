/-
What reading back an output file means.
-/
import Verif.Model.Print

namespace CenCalVM
namespace Print

/-- White space. -/
def isBlank (c : Char) : Bool := c = ' ' || c = '\t' || c = '\n' || c = '\r'

/-- The words of a text: what is left after cutting at white space. -/
def words (t : List Char) : List (List Char) := (t.splitOnP isBlank).filter fun w => decide (w ≠ [])

/-- The number written by a row of decimal digits. -/
def natValue (t : List Char) : Option Nat :=
  if t ≠ [] ∧ ∀ c ∈ t, c.isDigit = true then some (t.foldl (fun v c => 10 * v + (c.toNat - '0'.toNat)) 0) else none

variable {K : Type} [Field K] [LinearOrder K]

/-- The number written by digits, possibly with a point and more digits. -/
def unsignedValue (t : List Char) : Option K :=
  match t.span (· ≠ '.') with
  | (a, []) => (natValue a).map fun n : Nat => (n : K)
  | (a, _ :: b) => (natValue a).bind fun n : Nat => (natValue b).map fun d : Nat => (n : K) + (d : K) / 10 ^ b.length

/-- The number written in decimal notation, possibly with a minus sign. -/
def numberValue : List Char → Option K
  | '-' :: t => (unsignedValue t).map fun x => -x
  | t => unsignedValue t

/-- A word is a number in decimal notation that differs from `x` by at most `ε`. -/
def Reads (ε : K) (x : K) (w : List Char) : Prop := ∃ y, numberValue w = some y ∧ |y - x| ≤ ε

/-- Rounding to a nearest integer. -/
def Nearest (ri : IntRound K) : Prop := ∀ x, |(ri.toInt x : K) - x| ≤ 1 / 2

/-- A number between two others. -/
def Within (lo hi x : K) : Prop := lo ≤ x ∧ x ≤ hi

end Print

namespace QueryApp
open Print
variable {K : Type} [Field K] [LinearOrder K]

/-- The words are the twelve numbers of a line: longitude and latitude to half a unit of the fifth decimal, the two
identifiers exactly, the rest to half a unit of the first decimal. -/
def ReadsBack (l : Line K) (ws : List (List Char)) : Prop :=
  List.Forall₂ (fun (xe : K × K) w => Reads xe.2 xe.1 w)
    ((l.lon :: l.lat :: l.elev :: l.vals).zip
      [0.000005, 0.000005, 0.05, 0.05, 0.05, 0.05, 0.05, 0.05, 0.05, 0, 0, 0.05]) ws ∧ l.vals.length = 9

/-- The nine values have a blank in front of them in their columns. -/
def ValuesFit (vals : List K) : Prop :=
  List.Forall₂ (fun (b : K × K) x => Within b.1 b.2 x)
    [(-9999.9, 99999.9), (-9999.9, 99999.9), (-9999.9, 99999.9), (-99999.9, 999999.9), (-99999.9, 999999.9),
      (-99999.9, 999999.9), (-999, 9999), (-999, 9999), (-99999.9, 999999.9)] vals

/-- All numbers of a line but the first have a blank in front of them in their columns. -/
def Fits (l : Line K) : Prop := Within (-9.99999) 99.99999 l.lat ∧ Within (-99999.9) 999999.9 l.elev ∧ ValuesFit l.vals

/-- Some number of a line other than the first fills its column. -/
def Overflows (l : Line K) : Prop :=
  l.lat ≤ -10 ∨ 100 ≤ l.lat ∨ l.elev ≤ -100000 ∨ 1000000 ≤ l.elev ∨
    ∃ (i : Nat) (x : K), l.vals[i]? = some x ∧
      (i < 3 ∧ (x ≤ -10000 ∨ 100000 ≤ x) ∨ (3 ≤ i ∧ i < 6 ∨ i = 8) ∧ (x ≤ -100000 ∨ 1000000 ≤ x) ∨
        (i = 6 ∨ i = 7) ∧ (x ≤ -1000 ∨ 10000 ≤ x))

/-- The identifiers of the octants of a database are numbers of 16 bits, as they are stored,
libsrc/cencalvm/storage/Payload.h:46,55. -/
def Ids16 (db : Db K) : Prop :=
  ∀ e ∈ db.entries, (-2 ^ 15 ≤ e.payload.faultBlock ∧ e.payload.faultBlock < 2 ^ 15) ∧ -2 ^ 15 ≤ e.payload.zone ∧ e.payload.zone < 2 ^ 15

/-- The numbers stored in a database fit the columns. -/
def StoredFits (db : Db K) : Prop :=
  ∀ e ∈ db.entries,
    (∀ x ∈ [e.payload.vp, e.payload.vs, e.payload.density], Within (-9999.9) 99999.9 x) ∧
    (∀ x ∈ [e.payload.qp, e.payload.qs, e.payload.depth], Within (-99999.9) 999999.9 x) ∧
    Within (-999) 9999 (e.payload.faultBlock : K) ∧ Within (-999) 9999 (e.payload.zone : K)

/-- The ground elevation that follows from an octant, the sum of centroid elevation and depth, fits its column. -/
def ElevFits (g : Geom K) (e : Entry K) : Prop :=
  ∀ c, g.addrToLonLatElev e.addr = .ok c → Within (-99999.9) 999999.9 (c.2.2 + e.payload.depth)

end QueryApp

namespace IsoApp
open Print
variable {K : Type} [Field K] [LinearOrder K]

/-- The words are the three numbers of a line. -/
def ReadsBack (l : Line K) (ws : List (List Char)) : Prop :=
  ∃ a b c, ws = [a, b, c] ∧ Reads 0.000005 l.lon a ∧ Reads 0.000005 l.lat b ∧ Reads 0.05 l.dist c

end IsoApp

namespace FExample
open Print
variable {K : Type} [Field K] [LinearOrder K]

/-- A column holds a number to within `ε`, right-aligned, or asterisks if the number does not fit. -/
def Column (w : Nat) (ε lo hi x : K) (t : List Char) : Prop :=
  t.length = w ∧ ((∃ v, words t = [v] ∧ Reads ε x v) ∨ t = List.replicate w '*' ∧ ¬ Within lo hi x)

end FExample
end CenCalVM
