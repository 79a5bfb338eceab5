/-
Specification vocabulary for averages over filled octants.
-/
import Verif.Spec.Average

namespace CenCalVM
variable {K : Type} [Field K] [LinearOrder K]

/-- Material of one kind: solid, or else water. -/
def OfKind (solid : Bool) (p : Payload K) : Prop := if solid then 0 < p.vs else ¬ 0 < p.vs ∧ 0 < p.vp

/-- Every finest cell of `k` lies in a stored octant. -/
def Db.Covers (db : Db K) (k : Key) : Prop :=
  ∀ j : Key, j.Octant → j.level = 31 → k.Contains j → ∃ e ∈ db.entries, e.addr.toKey.Contains j

/-- The values of what lies in `k`, each times its volume (in cubic ticks), added up. -/
def Db.volumeSum (db : Db K) (r : Payload K → K) (k : Key) : K :=
  ((db.entries.filter fun e => decide (k.Contains e.addr.toKey)).map fun e => r e.payload * (e.addr.toKey.size : K) ^ 3).sum

end CenCalVM
