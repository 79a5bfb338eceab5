/-
Formatted input from text files (`std::istream`), as used by the ingester and the applications.
-/
import Verif.Model.Basic
import Verif.Model.Rounding

namespace CenCalVM

/-- State of a `std::istream` over a text: what is left to read, `eofbit` and `failbit`. -/
structure Stream where
  rest : List Char
  eof : Bool
  fail : Bool
  deriving DecidableEq, Repr

namespace Stream

/-- A freshly opened file. -/
def ofText (s : List Char) : Stream := ⟨s, false, false⟩

/-- `good()`. -/
def good (s : Stream) : Bool := !s.eof && !s.fail

/-- Whitespace of the C locale. -/
def isSpace (c : Char) : Bool :=
  c == ' ' || c == '\t' || c == '\n' || c == '\r' || c == Char.ofNat 11 || c == Char.ofNat 12

/-- Extraction `s >> v` into a variable with value `old`.  If the stream is not good, or only whitespace is left,
`failbit` is set and the variable keeps its value.  Otherwise leading whitespace is skipped and the characters
accepted by `scan` are consumed; reaching the end sets `eofbit`; if they do not form a value the variable gets `bad` and
`failbit` is set. -/
def extract {α : Type} (scan : List Char → List Char × List Char) (conv : List Char → Option α) (bad : α) (s : Stream)
    (old : α) : Stream × α :=
  if !s.good then ({ s with fail := true }, old)
  else match s.rest.dropWhile isSpace with
    | [] => (⟨[], true, true⟩, old)
    | c :: cs =>
      let r := scan (c :: cs)
      match conv r.1 with
      | some v => (⟨r.2, r.2.isEmpty, false⟩, v)
      | none => (⟨r.2, r.2.isEmpty, true⟩, bad)

end Stream

/-- How numbers are read: which characters a number may consist of (a prefix of the text), and its value.  The rules of
`std::num_get` and the values as `double` (`real`), `float` (`real32`), `int` and `int16_t` are parameters, and so is the
rounding of what is computed with the numbers read. -/
structure NumFmt (K : Type) where
  scan : List Char → List Char × List Char
  real : List Char → Option K
  real32 : List Char → Option K
  int : List Char → Option Int
  int16 : List Char → Option Int
  scan_eq : ∀ t, (scan t).1 ++ (scan t).2 = t
  rd : Rd K := Rd.exact

end CenCalVM
