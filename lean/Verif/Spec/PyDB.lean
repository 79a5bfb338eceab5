/-
Vocabulary of the properties of the Python class for the spatial database.
-/
import Verif.Model.PyDB

namespace CenCalVM
namespace PyDB
variable {K : Type} [Field K] [LinearOrder K]

/-- The value of a property: what was set, or the default if nothing was. -/
def Value (set : Settings K) (name : String) (dflt v : Val K) : Prop := set name = some v ∨ (set name = none ∧ v = dflt)

/-- The settings with one property set. -/
def setting (set : Settings K) (name : String) (v : Val K) : Settings K := fun n => if n = name then some v else set n

/-- Every property that is set has a value of its type. -/
def Typed (set : Settings K) : Prop :=
  (∀ n ∈ ["query_type", "filename", "filename_ext"], ∀ v, set n = some v → ∃ s, v = .str s) ∧
  (∀ n ∈ ["query_res", "squash_limit", "min_vs"], ∀ v, set n = some v → ∃ x, v = .num x) ∧
  (∀ n ∈ ["cache_size", "cache_size_ext"], ∀ v, set n = some v → ∃ k, v = .int k) ∧
  (∀ n ∈ ["squash", "project_downward"], ∀ v, set n = some v → ∃ b, v = .bool b)

end PyDB
end CenCalVM
