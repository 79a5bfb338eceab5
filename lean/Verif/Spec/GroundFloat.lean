/-
Vocabulary of the properties of the ground elevation and of squashing in double precision.
-/
import Verif.Spec.Query
import Verif.Model.Float

namespace CenCalVM
variable {K : Type} [Field K] [LinearOrder K]

/-- A multiple of 2^-32 m of at most 2^19 m in size. -/
def Fine (x : K) : Prop := ∃ k : ℤ, x = k / 2 ^ 32 ∧ |k| ≤ 2 ^ 51

/-- A depth as a model holds it: a `float` that is 0 or between 1/512 m and 2^19 m in size. -/
def OrdinaryDepth [FloorRing K] (ri : IntRound K) (x : K) : Prop := fl ri 24 x = x ∧ (x = 0 ∨ 1 / 512 ≤ |x|) ∧ |x| ≤ 2 ^ 19

/-- All depths of a database are ordinary. -/
def Db.OrdinaryDepths [FloorRing K] (ri : IntRound K) (db : Db K) : Prop := ∀ e ∈ db.entries, OrdinaryDepth ri e.payload.depth

end CenCalVM
