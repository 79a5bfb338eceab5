/-
Address arithmetic of Geometry and AvgEngine.
-/
import Verif.Model.Basic

namespace CenCalVM

/-- `Geometry::_LEFTMOSTONE`, libsrc/cencalvm/storage/Geometry.cc:22-23 (also AvgEngine.cc:28-29). -/
def LEFTMOSTONE : BitVec 32 := ~~~((~~~(0 : BitVec 32)) >>> 1)

/-- `Geometry::findAncestor`, libsrc/cencalvm/storage/Geometry.cc:37-52.
The mask is built by an arithmetic right shift of the signed tick. -/
def findAncestor (child : Addr) (ancestorLevel : Int) : Outcome Addr :=
  if 0 ≤ ancestorLevel ∧ ancestorLevel < child.level then
    let mask : BitVec 32 := LEFTMOSTONE.sshiftRight ancestorLevel.toNat
    .ok { x := child.x &&& mask, y := child.y &&& mask, z := child.z &&& mask,
          level := ancestorLevel.toNat, type := .interior }
  else .ub

/-- `AvgEngine::_childOctantBit`, libsrc/cencalvm/average/AvgEngine.cc:487-497. -/
def childOctantBit (a : Addr) : BitVec 8 :=
  let mask : BitVec 32 := LEFTMOSTONE >>> a.level
  let shifts := (if mask &&& a.z ≠ 0 then 4 else 0) + (if mask &&& a.y ≠ 0 then 2 else 0) +
    (if mask &&& a.x ≠ 0 then 1 else 0)
  BitVec.ofNat 8 1 <<< shifts

/-- `AvgEngine::_sameAddr`, libsrc/cencalvm/average/AvgEngine.cc:502-513 (`t` is always 0). -/
def sameAddr (a b : Addr) : Bool :=
  a.x == b.x && a.y == b.y && a.z == b.z && a.level == b.level

end CenCalVM
