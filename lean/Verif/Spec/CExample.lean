/-
Vocabulary of the properties of the example program cencalvmcquery.
-/
import Verif.Spec.QueryApp
import Verif.Spec.CApi
import Verif.Model.CExample

namespace CenCalVM
namespace CExample
open QueryApp (LocText)
variable {K : Type} [Field K] [LinearOrder K]

/-- Input files of numbers only: locations, each followed by something (a line end), up to white space at the end or a
last location not followed by anything (which is not among those listed). -/
inductive NumbersOnly (nf : NumFmt K) : List Char → List (K × K × K) → Prop
  | blank {t : List Char} (h : ∀ c ∈ t, Stream.isSpace c = true) : NumbersOnly nf t []
  | last {t : List Char} {l : K × K × K} (h : LocText nf t l []) : NumbersOnly nf t []
  | cons {t t' : List Char} {l : K × K × K} {ls : List (K × K × K)} (h : LocText nf t l t') (hne : t' ≠ [])
      (h' : NumbersOnly nf t' ls) : NumbersOnly nf t (l :: ls)

/-- The text starts with locations, up to some rest. -/
inductive StartsWith (nf : NumFmt K) : List Char → List (K × K × K) → List Char → Prop
  | nil {t : List Char} : StartsWith nf t [] t
  | cons {t t' rest : List Char} {l : K × K × K} {ls : List (K × K × K)} (h : LocText nf t l t')
      (h' : StartsWith nf t' ls rest) : StartsWith nf t (l :: ls) rest

/-- After white space the text goes on with a character no number starts with. -/
def Stuck (nf : NumFmt K) (t : List Char) : Prop :=
  ∃ sp c cs, t = sp ++ c :: cs ∧ (∀ c ∈ sp, Stream.isSpace c = true) ∧ Stream.isSpace c = false ∧ nf.scan (c :: cs) = ([], c :: cs)

/-- The options whose argument is copied to an array. -/
def isText (c : Char) : Bool := c ∈ ['d', 'e', 'i', 'l', 'o', 't']

end CExample
end CenCalVM
