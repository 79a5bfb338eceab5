/-
Vocabulary of the properties of the Fortran interface.
-/
import Verif.Model.Fortran
import Verif.Spec.CApi

namespace CenCalVM
namespace Fortran
variable {K : Type} [Field K] [LinearOrder K]

/-- The character variable holds the word `tok`: blanks, the word, nothing or a blank and more text, and then a terminating
character. -/
def Holds (var : List Char) (tok : String) : Prop :=
  ∃ ws rest more, var = ws ++ tok.toList ++ rest ++ NUL :: more ∧ (∀ c ∈ ws, Stream.isSpace c = true) ∧
    tok ≠ "" ∧ (∀ c ∈ tok.toList, Stream.isSpace c = false ∧ c ≠ NUL) ∧
    (rest = [] ∨ ∃ b r, rest = b :: r ∧ Stream.isSpace b = true) ∧ NUL ∉ rest

/-- The C function a Fortran function stands for. -/
inductive Stands : Fn K → CApi.Fn K → Prop where
  | open (d) : Stands (.open d) (.open d)
  | close (f fx) : Stands (.close f fx) (.close f fx)
  | queryType (n) : Stands (.queryType n) (.queryType n)
  | queryRes (r) : Stands (.queryRes r) (.queryRes r)
  | filename {v n l} : Holds v n → 0 < l → Stands (.filename v l) (.filename n)
  | cacheSize (n) : Stands (.cacheSize n) (.cacheSize n)
  | filenameExt {v n l} : Holds v n → 0 < l → Stands (.filenameExt v l) (.filenameExt n)
  | cacheSizeExt (n) : Stands (.cacheSizeExt n) (.cacheSizeExt n)
  | squash (f l) : Stands (.squash f l) (.squash f l)
  | query (n x y z) : Stands (.query n x y z) (.query n x y z)
  | errorHandler : Stands .errorHandler .errorHandler
  | errLogFilename {v n} : Holds v n → Stands (.errLogFilename v) (.errLogFilename n)
  | errLoggingOn (f) : Stands (.errLoggingOn f) (.errLoggingOn f)
  | errResetStatus : Stands .errResetStatus .errResetStatus
  | errStatus : Stands .errStatus .errStatus

end Fortran
end CenCalVM
