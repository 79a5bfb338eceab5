/-
The abstract geometry used by queries and ingestion, and the central California geometry.
-/
import Verif.Model.Octant
import Mathlib.Algebra.Order.Floor.Ring
import Mathlib.Analysis.SpecialFunctions.Log.Basic
import Mathlib.Analysis.SpecialFunctions.Trigonometric.Basic

namespace CenCalVM

/-- Virtual interface `cencalvm::storage::Geometry`, libsrc/cencalvm/storage/Geometry.h.
`lonLatElevToAddr` takes and returns the address it updates, with its integer return code. -/
structure Geom (K : Type) where
  lonLatElevToAddr : Addr → K → K → K → Outcome (Addr × Int)
  addrToLonLatElev : Addr → Outcome (K × K × K)
  edgeLen : Nat → K
  level : K → Outcome Int
  vertExag : K

/-- `Projector::project` and `invProject`, libsrc/cencalvm/storage/Projector.cc:63-111.
The map projection itself (proj library) is a parameter; either direction may throw. -/
structure Projector (K : Type) where
  project : K → K → Outcome (K × K)
  invProject : K → K → Outcome (K × K)

/-- Orientation and origin of the root cube: `cos`/`sin` of the azimuth and the projected coordinates of
its north-west corner (members `_projXNWRoot`, `_projYNWRoot`). -/
structure Frame (K : Type) where
  cosAz : K
  sinAz : K
  xNWRoot : K
  yNWRoot : K

namespace GeomCenCA

section
variable {K : Type} [Field K]

/-- `GeomCenCA::_ROOTLEN`, libsrc/cencalvm/storage/GeomCenCA.cc:31. -/
def ROOTLEN : K := 1638400
/-- `GeomCenCA::_VERTEXAG`, libsrc/cencalvm/storage/GeomCenCA.cc:33. -/
def VERTEXAG : K := 4
/-- `GeomCenCA::_MAXELEV`, libsrc/cencalvm/storage/GeomCenCA.cc:38. -/
def MAXELEV : K := 12800

/-- Edge length of an octant of a level, libsrc/cencalvm/storage/GeomCenCA.icc:16-21.  A shift by 32 or more is undefined in C;
the functions below and the callers in other files give levels up to 31, or test for it. -/
def edgeLen (level : Nat) : K := ROOTLEN / 2 ^ level

/-- Tick length of a level, `0x80000000 >> level`, libsrc/cencalvm/storage/GeomCenCA.cc:104,130. -/
def tickLen (level : Nat) : BitVec 32 := 0x80000000#32 >>> level

/-- First root axis, libsrc/cencalvm/storage/GeomCenCA.cc:88-89. -/
def rootP (f : Frame K) (x y : K) : K := (x - f.xNWRoot) * f.cosAz - (y - f.yNWRoot) * f.sinAz
/-- Second root axis, libsrc/cencalvm/storage/GeomCenCA.cc:90-91. -/
def rootQ (f : Frame K) (x y : K) : K := (x - f.xNWRoot) * f.sinAz + (y - f.yNWRoot) * f.cosAz
/-- Vertical root axis, libsrc/cencalvm/storage/GeomCenCA.cc:92. -/
def rootR (elev : K) : K := (elev - MAXELEV) * VERTEXAG + ROOTLEN
/-- Projected x from root coordinates, libsrc/cencalvm/storage/GeomCenCA.cc:137. -/
def projX (f : Frame K) (p q : K) : K := f.xNWRoot + p * f.cosAz + q * f.sinAz
/-- Projected y from root coordinates, libsrc/cencalvm/storage/GeomCenCA.cc:138. -/
def projY (f : Frame K) (p q : K) : K := f.yNWRoot - p * f.sinAz + q * f.cosAz
/-- Elevation from the vertical root coordinate, libsrc/cencalvm/storage/GeomCenCA.cc:139. -/
def elevOfRoot (r : K) : K := (r - ROOTLEN) / VERTEXAG + MAXELEV

/-- Centroid coordinate along one root axis, libsrc/cencalvm/storage/GeomCenCA.cc:131-133. -/
def centroidCoord (tick : BitVec 32) (level : Nat) : K :=
  ((tick.toNat : K) / ((tickLen level).toNat : K) + 1 / 2) * edgeLen level

/-- `GeomCenCA::addrToLonLatElev`, libsrc/cencalvm/storage/GeomCenCA.cc:116-141. -/
def addrToLonLatElev (f : Frame K) (proj : Projector K) (a : Addr) : Outcome (K × K × K) :=
  if a.level < 32 then
    let p := centroidCoord a.x a.level
    let q := centroidCoord a.y a.level
    let r := centroidCoord a.z a.level
    match proj.invProject (projX f p q) (projY f p q) with
    | .ok (lon, lat) => .ok (lon, lat, elevOfRoot r)
    | .exc m => .exc m
    | .ub => .ub
  else .ub

variable [LinearOrder K] [FloorRing K]

/-- `tickLen*etree_tick_t(p / res)`, libsrc/cencalvm/storage/GeomCenCA.cc:103-108: conversion to an
unsigned 32-bit integer by truncation (the value is not negative here), then 32-bit multiplication. -/
def tick (p : K) (level : Nat) : BitVec 32 :=
  tickLen level * BitVec.ofNat 32 ⌊p / edgeLen level⌋₊

/-- `GeomCenCA::lonLatElevToAddr`, libsrc/cencalvm/storage/GeomCenCA.cc:70-112. -/
def lonLatElevToAddr (f : Frame K) (proj : Projector K) (a : Addr) (lon lat elev : K) :
    Outcome (Addr × Int) :=
  if a.level < 32 then
    match proj.project lon lat with
    | .exc m => .exc m
    | .ub => .ub
    | .ok (x, y) =>
      let p := rootP f x y
      let q := rootQ f x y
      let r := rootR elev
      if p < 0 ∨ p > ROOTLEN ∨ q < 0 ∨ q > ROOTLEN ∨ r < 0 ∨ r > ROOTLEN then
        .ok ({ a with x := -1, y := -1, z := -1 }, 1)
      else
        .ok ({ a with x := tick p a.level, y := tick q a.level, z := tick r a.level }, 0)
  else .ub

/-- The geometry object for a given rotation frame, projection and level function. -/
def geom (f : Frame K) (proj : Projector K) (level : K → Outcome Int) : Geom K where
  lonLatElevToAddr := lonLatElevToAddr f proj
  addrToLonLatElev := addrToLonLatElev f proj
  edgeLen := edgeLen
  level := level
  vertExag := VERTEXAG

end

/-- `_AZ*M_PI/180.0`, libsrc/cencalvm/storage/GeomCenCA.cc:32,87. -/
noncomputable def azR : ℝ := 53.638 * Real.pi / 180

/-- Members set by the constructor `GeomCenCA::GeomCenCA`, libsrc/cencalvm/storage/GeomCenCA.cc:43-52. -/
noncomputable def frame : Frame ℝ where
  cosAz := Real.cos azR
  sinAz := Real.sin azR
  xNWRoot := -74937.817 - 409600 * Real.cos azR - 204800 * Real.sin azR
  yNWRoot := 380186.124 + 409600 * Real.sin azR - 204800 * Real.cos azR

/-- `int(x)` of C++ for a real value: truncation toward zero; out of the range of `int` it is undefined. -/
noncomputable def intOf (v : ℝ) : Outcome Int :=
  let t := if 0 ≤ v then ⌊v⌋ else ⌈v⌉
  if -2 ^ 31 ≤ t ∧ t < 2 ^ 31 then .ok t else .ub

/-- `GeomCenCA::level`, libsrc/cencalvm/storage/GeomCenCA.icc:25-29.  For `res ≤ 0` the logarithm is
infinite or NaN and its conversion to `int` undefined. -/
noncomputable def level (res : ℝ) : Outcome Int :=
  if res ≤ 0 then .ub else intOf (0.5 + Real.log (ROOTLEN / res) / Real.log 2)

/-- `GeomCenCA` as the code constructs it (the projection stays a parameter). -/
noncomputable def cenCA (proj : Projector ℝ) : Geom ℝ := geom frame proj level

end GeomCenCA

end CenCalVM
