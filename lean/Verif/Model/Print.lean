/-
How the programs print the numbers of their output files.
-/
import Verif.Model.Float
import Verif.Model.QueryApp
import Verif.Model.IsoApp
import Verif.Model.CExample
import Verif.Model.FExample

namespace CenCalVM
namespace Print

/-! ### Numbers as text

The conversions of the C library, which print numbers in applications/query/cencalvmquery.cc:314-331,
applications/query/cencalvmisosurface.cc:407-414 and examples/query/c/cencalvmcquery.c:295-301. -/

/-- The character of a decimal digit (in the numbers printed in applications/query/cencalvmquery.cc:314-331). -/
def digitChar (d : Nat) : Char := Char.ofNat (48 + d)

/-- The decimal digits of a number; the first argument bounds their number (applications/query/cencalvmquery.cc:314-331). -/
def digitsUpTo : Nat → Nat → List Char
  | 0, _ => []
  | f + 1, n => if n < 10 then [digitChar n] else digitsUpTo f (n / 10) ++ [digitChar (n % 10)]

/-- The decimal digits of a number, without leading zeros (applications/query/cencalvmquery.cc:314-331). -/
def digits (n : Nat) : List Char := digitsUpTo (n + 1) n

/-- The last `p` decimal digits of a number (those after the point, applications/query/cencalvmquery.cc:314-331). -/
def lastDigits : Nat → Nat → List Char
  | 0, _ => []
  | p + 1, n => lastDigits p (n / 10) ++ [digitChar (n % 10)]

/-- Conversion `d` of the C library: an integer in decimal notation (applications/query/cencalvmquery.cc:328-329). -/
def intText (n : Int) : List Char := (if n < 0 then ['-'] else []) ++ digits n.natAbs

/-- Filling up with blanks on the left to a width (`std::setw`, applications/query/cencalvmquery.cc:317-330); longer texts are
left alone. -/
def padLeft (w : Nat) (t : List Char) : List Char := List.replicate (w - t.length) ' ' ++ t

variable {K : Type} [Field K] [LinearOrder K]

/-- Conversion `f` of the C library with `p` decimals (applications/query/cencalvmquery.cc:314-330): the digits of the number rounded (`ri`) to a multiple of `10 ^ -p`.  The
sign is that of the number, so that a small negative one gives `-0.0`.  There is no negative zero in the model. -/
def fixedText (ri : IntRound K) (p : Nat) (x : K) : List Char :=
  let m := (ri.toInt (|x| * 10 ^ p)).toNat
  (if x < 0 then ['-'] else []) ++ (digits (m / 10 ^ p) ++ (if p = 0 then [] else '.' :: lastDigits p (m % 10 ^ p)))

/-- Conversion of a `double` to `int`, e.g. applications/query/cencalvmquery.cc:328: towards zero; undefined if `int` cannot hold
the result. -/
def toInt [FloorRing K] (x : K) : Outcome Int :=
  let n := if 0 ≤ x then ⌊x⌋ else ⌈x⌉
  if -2 ^ 31 ≤ n ∧ n < 2 ^ 31 then .ok n else .ub

/-! ### Output streams of C++ -/

/-- An output stream (`fileOut`, applications/query/cencalvmquery.cc:282): the flags `fixed` and `scientific`, precision, width of the next number, and the text written. -/
structure OStream where
  fixed : Bool
  scientific : Bool
  precision : Nat
  width : Nat
  text : List Char
  deriving DecidableEq

/-- A stream just opened, applications/query/cencalvmquery.cc:282. -/
def OStream.new : OStream := ⟨false, false, 6, 0, []⟩

/-- What is passed to a stream with `<<`, applications/query/cencalvmquery.cc:314-331: the manipulators of `iomanip`, numbers,
and texts. -/
inductive Put (K : Type)
  | resetScientific
  | setFixed
  | precision (n : Nat)
  | width (n : Nat)
  | real (x : K)
  | int (n : Int)
  | text (s : String)

/-- The formatting of numbers (applications/query/cencalvmquery.cc:314-331): rounding, and the formats without flags, with `scientific`, and with both (none is used). -/
structure Printer (K : Type) [Field K] [LinearOrder K] where
  ri : IntRound K
  other : Bool → Bool → Nat → K → List Char

/-- A `double` in the format of the stream, applications/query/cencalvmquery.cc:314-316. -/
def OStream.format (pr : Printer K) (s : OStream) (x : K) : List Char :=
  if s.fixed && !s.scientific then fixedText pr.ri s.precision x else pr.other s.fixed s.scientific s.precision x

/-- `operator<<`, applications/query/cencalvmquery.cc:314-331: the width holds for the next number or text and is 0 afterwards. -/
def OStream.put (pr : Printer K) (s : OStream) : Put K → OStream
  | .resetScientific => { s with scientific := false }
  | .setFixed => { s with fixed := true }
  | .precision n => { s with precision := n }
  | .width n => { s with width := n }
  | .real x => { s with text := s.text ++ padLeft s.width (s.format pr x), width := 0 }
  | .int n => { s with text := s.text ++ padLeft s.width (intText n), width := 0 }
  | .text t => { s with text := s.text ++ padLeft s.width t.toList, width := 0 }

/-- Several `operator<<` in a row, applications/query/cencalvmquery.cc:314-331. -/
def OStream.putAll (pr : Printer K) (s : OStream) (ps : List (Put K)) : OStream := ps.foldl (OStream.put pr) s

end Print

/-! ### The programs -/

namespace QueryApp
open Print
variable {K : Type} [Field K] [LinearOrder K] [FloorRing K]

/-- Writing one line, applications/query/cencalvmquery.cc:314-331.  The array has nine elements. -/
def putLine (pr : Printer K) (s : OStream) (l : Line K) : Outcome OStream :=
  match l.vals with
  | [v0, v1, v2, v3, v4, v5, v6, v7, v8] => do
    let block ← toInt v6
    let zone ← toInt v7
    .ok (s.putAll pr [.resetScientific, .setFixed, .precision 5, .width 10, .real l.lon, .width 9, .real l.lat, .precision 1,
      .width 9, .real l.elev, .precision 1, .width 8, .real v0, .width 8, .real v1, .width 8, .real v2, .width 9, .real v3,
      .width 9, .real v4, .width 9, .real v5, .width 5, .int block, .width 5, .int zone, .width 9, .real v8, .text "\n"])
  | _ => .ub

/-- The lines one after the other, applications/query/cencalvmquery.cc:300-335: the flags and precision of the stream stay. -/
def putLines (pr : Printer K) : OStream → List (Line K) → Outcome OStream
  | s, [] => .ok s
  | s, l :: ls => do
    let s ← putLine pr s l
    putLines pr s ls

/-- The text of the output file, applications/query/cencalvmquery.cc:280-341. -/
def fileText (pr : Printer K) (lines : List (Line K)) : Outcome (List Char) := do
  let s ← putLines pr .new lines
  .ok s.text

end QueryApp

namespace IsoApp
open Print
variable {K : Type} [Field K] [LinearOrder K]

/-- Writing one line, applications/query/cencalvmisosurface.cc:407-414. -/
def putLine (pr : Printer K) (s : OStream) (l : Line K) : OStream :=
  s.putAll pr [.resetScientific, .setFixed, .precision 5, .width 10, .real l.lon, .width 9, .real l.lat, .precision 1,
    .width 9, .real l.dist, .text "\n"]

/-- The text of the output file after `main` returned, applications/query/cencalvmisosurface.cc:364-425. -/
def fileText (pr : Printer K) (lines : List (Line K)) : List Char := (lines.foldl (putLine pr) .new).text

end IsoApp

namespace Print

/-! ### `fprintf` -/

/-- An argument of `fprintf` after the format, examples/query/c/cencalvmcquery.c:295-301. -/
inductive Arg (K : Type)
  | real (x : K)
  | int (n : Int)

/-- Where in a format (examples/query/c/cencalvmcquery.c:295-301) `fprintf` is: outside a conversion, in its width, or in its precision. -/
inductive Where
  | outside
  | width (w : Nat)
  | precision (w p : Nat)

variable {K : Type} [Field K] [LinearOrder K]

/-- `fprintf` with the conversions `%wd` and `%w.pf` (examples/query/c/cencalvmcquery.c:295-301): the text written.  Other conversions, and arguments of another type than
the conversion asks for, are taken as undefined; arguments left over are ignored. -/
def fprintf (ri : IntRound K) : Where → List Char → List (Arg K) → Outcome (List Char)
  | .outside, [], _ => .ok []
  | .width _, [], _ => .ub
  | .precision _ _, [], _ => .ub
  | .outside, c :: cs, as =>
    if c = '%' then fprintf ri (.width 0) cs as
    else do
      let t ← fprintf ri .outside cs as
      .ok (c :: t)
  | .width w, c :: cs, as =>
    if c.isDigit then fprintf ri (.width (10 * w + (c.toNat - 48))) cs as
    else if c = '.' then fprintf ri (.precision w 0) cs as
    else if c = 'd' then
      match as with
      | .int n :: as => do
        let t ← fprintf ri .outside cs as
        .ok (padLeft w (intText n) ++ t)
      | _ => .ub
    else .ub
  | .precision w p, c :: cs, as =>
    if c.isDigit then fprintf ri (.precision w (10 * p + (c.toNat - 48))) cs as
    else if c = 'f' then
      match as with
      | .real x :: as => do
        let t ← fprintf ri .outside cs as
        .ok (padLeft w (fixedText ri p x) ++ t)
      | _ => .ub
    else .ub

/-! ### Formatted output of Fortran -/

/-- The edit descriptors used, `fw.d` and `iw`, examples/query/f77/cencalvmf77query.f:207. -/
inductive Edit
  | f (w d : Nat)
  | i (w : Nat)
  deriving DecidableEq

/-- A field of Fortran (examples/query/f77/cencalvmf77query.f:207): what does not fit is replaced by asterisks.  (A zero before the decimal point may be left out if there
is no room for it; with the format of the program there always is.) -/
def field (w : Nat) (t : List Char) : List Char := if t.length ≤ w then padLeft w t else List.replicate w '*'

/-- Formatted output of the numbers of one record, examples/query/f77/cencalvmf77query.f:205-207.  A number of the wrong type is an error at run time. -/
def record (ri : IntRound K) : List Edit → List (Arg K) → Outcome (List Char)
  | .f w d :: es, .real x :: as => do
    let t ← record ri es as
    .ok (field w (fixedText ri d x) ++ t)
  | .i w :: es, .int n :: as => do
    let t ← record ri es as
    .ok (field w (intText n) ++ t)
  | _, [] => .ok []
  | _, _ => .ub

end Print

namespace CExample
open Print QueryApp
variable {K : Type} [Field K] [LinearOrder K] [FloorRing K]

/-- Writing one line, examples/query/c/cencalvmcquery.c:295-301 (with `ALLVALS`). -/
def lineText (ri : IntRound K) (l : Line K) : Outcome (List Char) :=
  match l.vals with
  | [v0, v1, v2, v3, v4, v5, v6, v7, v8] => do
    let t1 ← fprintf ri .outside "%10.5f%9.5f%9.1f".toList [.real l.lon, .real l.lat, .real l.elev]
    let block ← toInt v6
    let zone ← toInt v7
    let t2 ← fprintf ri .outside "%8.1f%8.1f%8.1f%9.1f%9.1f%9.1f%5d%5d%9.1f\n".toList
      [.real v0, .real v1, .real v2, .real v3, .real v4, .real v5, .int block, .int zone, .real v8]
    .ok (t1 ++ t2)
  | _ => .ub

/-- The text of the output file, examples/query/c/cencalvmcquery.c:284-313. -/
def fileText (ri : IntRound K) : List (Line K) → Outcome (List Char)
  | [] => .ok []
  | l :: ls => do
    let t ← lineText ri l
    let ts ← fileText ri ls
    .ok (t ++ ts)

end CExample

namespace FExample
open Print QueryApp
variable {K : Type} [Field K] [LinearOrder K] [FloorRing K]

/-- The format of the output file, examples/query/f77/cencalvmf77query.f:207. -/
def format20 : List Edit := [.f 9 4, .f 8 4, .f 9 1, .f 8 1, .f 8 1, .f 8 1, .f 9 1, .f 9 1, .f 9 1, .i 5, .i 5, .f 9 1]

/-- Writing one line, examples/query/f77/cencalvmf77query.f:205-207; `int` truncates, and the result is undefined if an integer
cannot hold it. -/
def lineText (ri : IntRound K) (l : Line K) : Outcome (List Char) :=
  match l.vals with
  | [v1, v2, v3, v4, v5, v6, v7, v8, v9] => do
    let block ← toInt v7
    let zone ← toInt v8
    record ri format20 [.real l.lon, .real l.lat, .real l.elev, .real v1, .real v2, .real v3, .real v4, .real v5, .real v6,
      .int block, .int zone, .real v9]
  | _ => .ub

/-- The records of the output file, examples/query/f77/cencalvmf77query.f:189-209. -/
def fileRecords (ri : IntRound K) : List (Line K) → Outcome (List (List Char))
  | [] => .ok []
  | l :: ls => do
    let t ← lineText ri l
    let ts ← fileRecords ri ls
    .ok (t :: ts)

end FExample
end CenCalVM
