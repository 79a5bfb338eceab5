/-
Binary floating-point arithmetic, and the central California geometry computed with it, operation by operation.
-/
import Verif.Model.Geometry
import Mathlib.Data.Int.Log

namespace CenCalVM

/-- Rounding of a number to an integer in some direction: it keeps the order and leaves integers alone.  All rounding directions of
IEEE 754 are of this kind. -/
structure IntRound (K : Type) [Field K] [LinearOrder K] where
  toInt : K → ℤ
  mono : ∀ x y, x ≤ y → toInt x ≤ toInt y
  fix : ∀ n : ℤ, toInt n = n

variable {K : Type} [Field K] [LinearOrder K] [FloorRing K]

/-- Rounding to `prec` significant binary digits (53 for `double`, 24 for `float`).  The exponent is not bounded: overflow and
subnormal numbers are left out. -/
def fl (ri : IntRound K) (prec : ℕ) (x : K) : K :=
  if x = 0 then 0
  else ri.toInt (x / 2 ^ (Int.log 2 |x| - (prec - 1 : ℕ))) * 2 ^ (Int.log 2 |x| - (prec - 1 : ℕ))

namespace GeomCenCA

/-- Edge length of an octant, libsrc/cencalvm/storage/GeomCenCA.icc:18-22, GeomCenCA.cc:102,129; `rd` rounds the result of an
operation. -/
def edgeLenFl (rd : K → K) (level : Nat) : K := rd (ROOTLEN / 2 ^ level)

/-- First root axis, libsrc/cencalvm/storage/GeomCenCA.cc:88-89. -/
def rootPFl (rd : K → K) (f : Frame K) (x y : K) : K :=
  rd (rd (rd (x - f.xNWRoot) * f.cosAz) - rd (rd (y - f.yNWRoot) * f.sinAz))
/-- Second root axis, libsrc/cencalvm/storage/GeomCenCA.cc:90-91. -/
def rootQFl (rd : K → K) (f : Frame K) (x y : K) : K :=
  rd (rd (rd (x - f.xNWRoot) * f.sinAz) + rd (rd (y - f.yNWRoot) * f.cosAz))
/-- Vertical root axis, libsrc/cencalvm/storage/GeomCenCA.cc:92. -/
def rootRFl (rd : K → K) (elev : K) : K := rd (rd (rd (elev - MAXELEV) * VERTEXAG) + ROOTLEN)

/-- Ticks, libsrc/cencalvm/storage/GeomCenCA.cc:103-108. -/
def tickFl (rd : K → K) (p : K) (level : Nat) : BitVec 32 :=
  tickLen level * BitVec.ofNat 32 ⌊rd (p / edgeLenFl rd level)⌋₊

/-- `GeomCenCA::lonLatElevToAddr`, libsrc/cencalvm/storage/GeomCenCA.cc:70-112, with rounding.  The members of the frame and
`cos(azR)`, `sin(azR)` are numbers of type `double`; contracted multiply-add instructions are not used. -/
def lonLatElevToAddrFl (rd : K → K) (f : Frame K) (proj : Projector K) (a : Addr) (lon lat elev : K) : Outcome (Addr × Int) :=
  if a.level < 32 then
    match proj.project lon lat with
    | .exc m => .exc m
    | .ub => .ub
    | .ok (x, y) =>
      let p := rootPFl rd f x y
      let q := rootQFl rd f x y
      let r := rootRFl rd elev
      if p < 0 ∨ p > ROOTLEN ∨ q < 0 ∨ q > ROOTLEN ∨ r < 0 ∨ r > ROOTLEN then
        .ok ({ a with x := -1, y := -1, z := -1 }, 1)
      else
        .ok ({ a with x := tickFl rd p a.level, y := tickFl rd q a.level, z := tickFl rd r a.level }, 0)
  else .ub

/-- Centroid coordinate along one root axis, libsrc/cencalvm/storage/GeomCenCA.cc:131-133. -/
def centroidCoordFl (rd : K → K) (tick : BitVec 32) (level : Nat) : K :=
  rd (rd (rd ((tick.toNat : K) / ((tickLen level).toNat : K)) + 1 / 2) * edgeLenFl rd level)

/-- Projected x of root coordinates, libsrc/cencalvm/storage/GeomCenCA.cc:137. -/
def projXFl (rd : K → K) (f : Frame K) (p q : K) : K := rd (rd (f.xNWRoot + rd (p * f.cosAz)) + rd (q * f.sinAz))
/-- Projected y of root coordinates, libsrc/cencalvm/storage/GeomCenCA.cc:138. -/
def projYFl (rd : K → K) (f : Frame K) (p q : K) : K := rd (rd (f.yNWRoot - rd (p * f.sinAz)) + rd (q * f.cosAz))
/-- Elevation of the vertical root coordinate, libsrc/cencalvm/storage/GeomCenCA.cc:139. -/
def elevOfRootFl (rd : K → K) (r : K) : K := rd (rd (rd (r - ROOTLEN) / VERTEXAG) + MAXELEV)

/-- `GeomCenCA::addrToLonLatElev`, libsrc/cencalvm/storage/GeomCenCA.cc:116-141, with rounding. -/
def addrToLonLatElevFl (rd : K → K) (f : Frame K) (proj : Projector K) (a : Addr) : Outcome (K × K × K) :=
  if a.level < 32 then
    let p := centroidCoordFl rd a.x a.level
    let q := centroidCoordFl rd a.y a.level
    let r := centroidCoordFl rd a.z a.level
    match proj.invProject (projXFl rd f p q) (projYFl rd f p q) with
    | .ok (lon, lat) => .ok (lon, lat, elevOfRootFl rd r)
    | .exc m => .exc m
    | .ub => .ub
  else .ub

/-- `GeomCenCA::level`, libsrc/cencalvm/storage/GeomCenCA.icc:25-29, with rounding and the library's logarithm `lg`. -/
noncomputable def levelFl (rd lg : ℝ → ℝ) (res : ℝ) : Outcome Int :=
  if res ≤ 0 then .ub else intOf (rd (0.5 + rd (lg (rd (ROOTLEN / res)) / lg 2)))

/-- The geometry object computing with rounding; the level function stays a parameter. -/
def geomFl (rd : K → K) (f : Frame K) (proj : Projector K) (level : K → Outcome Int) : Geom K where
  lonLatElevToAddr := lonLatElevToAddrFl rd f proj
  addrToLonLatElev := addrToLonLatElevFl rd f proj
  edgeLen := edgeLenFl rd
  level := level
  vertExag := VERTEXAG

end GeomCenCA
end CenCalVM
