/-
Specification of the root cube: what it means for a location to have given coordinates along the root axes
and for an octant to contain them.
-/
import Verif.Spec.Octree
import Verif.Model.Geometry

namespace CenCalVM

variable {K : Type} [Field K]

/-- The axes of a frame are orthonormal. -/
def Frame.Rigid (f : Frame K) : Prop := f.cosAz ^ 2 + f.sinAz ^ 2 = 1

/-- The location (lon, lat, elev) lies at distance `p`, `q` from the root corner along the two horizontal
root axes `(cos, -sin)` and `(sin, cos)`, and at height `r` of the vertically exaggerated (factor 4) cube of
edge 1638400 m whose top is at elevation 12800 m. -/
def AtRootCoords (f : Frame K) (proj : Projector K) (lon lat elev p q r : K) : Prop :=
  proj.project lon lat =
    .ok (f.xNWRoot + (p * f.cosAz + q * f.sinAz), f.yNWRoot + (q * f.cosAz - p * f.sinAz)) ∧
  4 * (12800 - elev) = 1638400 - r

/-- The middle, in metres, of the interval of `s` ticks starting at tick `t`. -/
def axisMiddle (t s : Nat) : K := ((t : K) + (s : K) / 2) * (1638400 / 2 ^ 31)

/-- The location lies `d` metres southeast and `w` metres northeast (along azimuths 143.638 and 53.638 degrees) of the northwest
corner of the detailed model in the projected plane. -/
def FromCorner (proj : Projector ℝ) (lon lat d w : ℝ) : Prop :=
  proj.project lon lat =
    .ok (-74937.817 + d * Real.sin (143.638 * (Real.pi / 180)) + w * Real.sin (53.638 * (Real.pi / 180)),
      380186.124 + d * Real.cos (143.638 * (Real.pi / 180)) + w * Real.cos (53.638 * (Real.pi / 180)))

variable [LinearOrder K]

/-- One axis of the closed root cube. -/
def inClosed (v : K) : Prop := 0 ≤ v ∧ v ≤ 1638400
/-- One axis of the root cube without its upper face. -/
def inHalfOpen (v : K) : Prop := 0 ≤ v ∧ v < 1638400

/-- `v` (metres) lies in the half-open interval of `s` ticks starting at tick `t`; the root edge is `2^31`
ticks long. -/
def axisHas (t s : Nat) (v : K) : Prop :=
  (t : K) * (1638400 / 2 ^ 31) ≤ v ∧ v < ((t : K) + (s : K)) * (1638400 / 2 ^ 31)

/-- The octant's cube contains the point with root coordinates `p q r`. -/
def Key.HasPoint (k : Key) (p q r : K) : Prop :=
  axisHas k.x.toNat k.size p ∧ axisHas k.y.toNat k.size q ∧ axisHas k.z.toNat k.size r

end CenCalVM
