/-
Specification of the external etree library used by the code (trusted; libetree is not part of /repo).
A database is the list of its octants in the order the cursor visits them.
-/
import Verif.Model.Basic
import Mathlib.Order.Lattice

namespace CenCalVM

/-- Octant index within its parent from one bit of each coordinate: `x + 2 y + 4 z`. -/
def octDigit (bx bY bz : Bool) : Nat :=
  (if bx then 1 else 0) + (if bY then 2 else 0) + (if bz then 4 else 0)

namespace Key

/-- Digit of the Morton code at bit position `i` of the ticks. -/
def digit (k : Key) (i : Nat) : Nat := octDigit (k.x.getLsbD i) (k.y.getLsbD i) (k.z.getLsbD i)

/-- The Z-order key: the 32 Morton digits from the most significant bit, then the level
(an octant precedes its descendants).  Compared lexicographically. -/
def zkey (k : Key) : List Nat := ((List.range 32).map fun i => k.digit (31 - i)) ++ [k.level]

/-- The tick value with everything below the cell size of level `l` cleared. -/
def truncTick (v : BitVec 32) (l : Nat) : BitVec 32 := (v >>> (31 - l)) <<< (31 - l)

/-- The cell of level `l` containing the lower corner of `k`. -/
def trunc (k : Key) (l : Nat) : Key :=
  { x := truncTick k.x l, y := truncTick k.y l, z := truncTick k.z l, level := l }

end Key

/-- One stored octant: address (with type) and payload. -/
structure Entry (K : Type) where
  addr : Addr
  payload : Payload K
  deriving DecidableEq, Repr

/-- An etree database: octants in cursor order. -/
structure Db (K : Type) where
  entries : List (Entry K)
  deriving DecidableEq, Repr

namespace Db
variable {K : Type}

/-- The empty database (`etree_open` with `O_CREAT|O_TRUNC`). -/
def empty : Db K := ⟨[]⟩

/-- The stored octant with the given key. -/
def lookup (db : Db K) (k : Key) : Option (Entry K) := db.entries.find? (fun e => e.addr.toKey = k)

/-- Search at levels `l, l-1, ..., 0`. -/
def searchFrom (db : Db K) (k : Key) : Nat → Option (Entry K)
  | 0 => db.lookup (k.trunc 0)
  | l + 1 => match db.lookup (k.trunc (l + 1)) with
    | some e => some e
    | none => db.searchFrom k l

/-- `etree_search`: the deepest stored octant equal to or containing `k`; `none` is the error return. -/
def search (db : Db K) (k : Key) : Option (Entry K) := db.searchFrom k k.level

/-- Insertion at the place given by the Z-order. -/
def insertSorted (e : Entry K) : List (Entry K) → List (Entry K)
  | [] => [e]
  | f :: fs => if e.addr.zkey < f.addr.zkey then e :: f :: fs else f :: insertSorted e fs

/-- `etree_insert`: fails (`none`) if an octant with that key is stored. -/
def insert (db : Db K) (e : Entry K) : Option (Db K) :=
  match db.lookup e.addr.toKey with
  | some _ => none
  | none => some ⟨insertSorted e db.entries⟩

/-- `etree_append`: fails (`none`) unless the key is larger than that of the last octant. -/
def append (db : Db K) (e : Entry K) : Option (Db K) :=
  match db.entries.getLast? with
  | none => some ⟨[e]⟩
  | some l => if l.addr.zkey < e.addr.zkey then some ⟨db.entries ++ [e]⟩ else none

/-- `etree_update`: replaces the payload of the stored octant, fails (`none`) if there is none. -/
def update (db : Db K) (k : Key) (p : Payload K) : Option (Db K) :=
  match db.lookup k with
  | none => none
  | some _ => some ⟨db.entries.map fun e => if e.addr.toKey = k then { e with payload := p } else e⟩

/-- Databases that libetree can hold: keys strictly increasing in Z-order. -/
def Sorted (db : Db K) : Prop := db.entries.Pairwise fun a b => a.addr.zkey < b.addr.zkey

end Db

end CenCalVM
