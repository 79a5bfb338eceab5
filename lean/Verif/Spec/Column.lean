import Verif.Spec.Query
import Verif.Spec.Geometry

/-! Columns of the model: the octants above and below one point of the map, and depths below a common ground. -/

namespace CenCalVM

variable {K : Type} [Field K] [LinearOrder K]

/-- The octant lies in the column above and below the point with horizontal root coordinates `u v`. -/
def Key.InColumn (k : Key) (u v : K) : Prop := axisHas k.x.toNat k.size u ∧ axisHas k.y.toNat k.size v

/-- Elevation, in metres, of the middle of the octant. -/
def Key.midElev (k : Key) : K := 12800 - (1638400 - axisMiddle k.z.toNat k.size) / 4

/-- Height of the octant in metres. -/
def Key.height (k : Key) : K := 1638400 / 4 / 2 ^ k.level

/-- The depths stored in the column over `u v` are depths below the ground elevation `h`: for every leaf of the
column, the elevation of its middle plus its stored depth is `h`. -/
def Db.DepthsBelow (rd : Rd K) (d : Db K) (u v h : K) : Prop :=
  ∀ e ∈ d.entries, e.addr.type = .leaf → e.addr.toKey.InColumn u v →
    rd.double (e.addr.toKey.midElev + e.payload.depth) = h

end CenCalVM
