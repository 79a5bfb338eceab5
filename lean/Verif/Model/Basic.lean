/-
Shared vocabulary of the model: outcomes of a C++ call, payloads, octant addresses.
-/
import Mathlib.Algebra.Order.Field.Basic

namespace CenCalVM

/-- Outcome of a C++ call.  `ok` is a normal return, `exc` a `throw std::runtime_error(msg)`,
`ub` a failed `assert` or other undefined behaviour (null dereference, read of an uninitialised
variable, out-of-range shift or float-to-int conversion).  `ub` is never merged with a normal result. -/
inductive Outcome (α : Type _) where
  | ok (a : α)
  | exc (msg : String)
  | ub
  deriving DecidableEq, Repr

namespace Outcome

/-- Sequencing of calls: an exception or undefined behaviour stops the caller. -/
def bind {α β : Type _} : Outcome α → (α → Outcome β) → Outcome β
  | ok a, f => f a
  | exc m, _ => exc m
  | ub, _ => ub

instance : Monad Outcome where
  pure := ok
  bind := bind

@[simp] theorem bind_ok {α β : Type _} (a : α) (f : α → Outcome β) : (ok a >>= f) = f a := rfl
@[simp] theorem bind_exc {α β : Type _} (m : String) (f : α → Outcome β) :
    ((exc m : Outcome α) >>= f) = exc m := rfl
@[simp] theorem bind_ub {α β : Type _} (f : α → Outcome β) : ((ub : Outcome α) >>= f) = ub := rfl
@[simp] theorem pure_eq {α : Type _} (a : α) : (pure a : Outcome α) = ok a := rfl

end Outcome

/-- `cencalvm::storage::PayloadStruct`, libsrc/cencalvm/storage/Payload.h:31-56.
`float` fields are elements of the ordered field `K` (no rounding); `int16_t` fields are integers. -/
structure Payload (K : Type) where
  vp : K
  vs : K
  density : K
  qp : K
  qs : K
  depth : K
  faultBlock : Int
  zone : Int
  deriving DecidableEq, Repr

section Constants
variable {K : Type} [Field K]

/-- `Payload::NODATAVAL`, libsrc/cencalvm/storage/Payload.cc:26. -/
def NODATAVAL : K := -999
/-- `Payload::NODATABLOCK`, libsrc/cencalvm/storage/Payload.cc:27. -/
def NODATABLOCK : Int := 0
/-- `Payload::NODATAZONE`, libsrc/cencalvm/storage/Payload.cc:28. -/
def NODATAZONE : Int := 0
/-- `Payload::INTERIORBLOCK`, libsrc/cencalvm/storage/Payload.cc:30. -/
def INTERIORBLOCK : Int := -999
/-- `Payload::INTERIORZONE`, libsrc/cencalvm/storage/Payload.cc:31. -/
def INTERIORZONE : Int := -999

/-- `VMQuery::_setNoData`, libsrc/cencalvm/query/VMQuery.cc:505-516. -/
def noDataPayload : Payload K :=
  { vp := NODATAVAL, vs := NODATAVAL, density := NODATAVAL, qp := NODATAVAL, qs := NODATAVAL,
    depth := NODATAVAL, faultBlock := NODATABLOCK, zone := NODATAZONE }
end Constants

/-- `etree_type_t` of libetree (`ETREE_LEAF`, `ETREE_INTERIOR`), used e.g. in
libsrc/cencalvm/storage/Geometry.cc:51 and libsrc/cencalvm/query/VMQuery.cc:309,323. -/
inductive OctType where
  | leaf
  | interior
  deriving DecidableEq, Repr

/-- The part of libetree's `etree_addr_t` that identifies an octant: unsigned 32-bit ticks of the lower
corner and the level.  The time tick `t` is 0 everywhere in the code (GeomCenCA.cc:99,109,
Geometry.cc:49, AvgEngine.cc:50,95) and is left out; `level` is a C `int`, modelled as a natural
number (negative levels are outcomes of the function computing them). -/
structure Key where
  x : BitVec 32
  y : BitVec 32
  z : BitVec 32
  level : Nat
  deriving DecidableEq, Repr

/-- libetree's `etree_addr_t`. -/
structure Addr extends Key where
  type : OctType
  deriving DecidableEq, Repr

/-- `ETREE_MAXLEVEL` of libetree. -/
def ETREE_MAXLEVEL : Nat := 31

end CenCalVM
