/-
Dynamic memory: which blocks are allocated, accessed and deleted by query/VMQuery, average/AvgEngine, create/GridIngester
and the passes of vsgrader/VsGrader.
-/
import Verif.Model.QueryApi
import Verif.Model.AvgEngine
import Verif.Model.GridIngester

namespace CenCalVM
namespace Mem

/-- A block of memory: `size` elements, from `new[]` (`arr`) or from `new` (one element). -/
structure Block where
  id : Nat
  size : Nat
  arr : Bool
  deriving DecidableEq, Repr

/-- `new` or `new[]`; reading or writing element `i` of a block; `delete[]` (`arr`) or `delete`. -/
inductive Event where
  | new (b : Block)
  | access (id : Nat) (i : Int)
  | delete (id : Nat) (arr : Bool)
  deriving DecidableEq, Repr

/-- The allocator: the next block, and what has been done so far.  Every allocation succeeds and gives a block of its own. -/
structure Heap where
  next : Nat
  log : List Event
  deriving DecidableEq, Repr

/-- Nothing done yet. -/
def Heap.init : Heap := ⟨0, []⟩
/-- `new T` (the pointer is `next`). -/
def Heap.one (h : Heap) : Heap := ⟨h.next + 1, h.log ++ [.new ⟨h.next, 1, false⟩]⟩
/-- `new T[n]` (the pointer is `next`). -/
def Heap.array (h : Heap) (n : Nat) : Heap := ⟨h.next + 1, h.log ++ [.new ⟨h.next, n, true⟩]⟩
/-- `p[i]`. -/
def Heap.access (h : Heap) (p : Nat) (i : Int) : Heap := { h with log := h.log ++ [.access p i] }
/-- `p[i]` for a list of indices. -/
def Heap.accesses (h : Heap) (p : Nat) : List Nat → Heap
  | [] => h
  | i :: is => (h.access p i).accesses p is
/-- `delete p`. -/
def Heap.delete (h : Heap) (p : Nat) : Heap := { h with log := h.log ++ [.delete p false] }
/-- `delete[] p`. -/
def Heap.deleteArray (h : Heap) (p : Nat) : Heap := { h with log := h.log ++ [.delete p true] }
/-- `delete[] p` for a pointer that may be null, which has no effect then. -/
def Heap.deleteArrayOpt (h : Heap) : Option Nat → Heap
  | none => h
  | some p => h.deleteArray p

/-- The blocks of a `GeomCenCA`: itself and its projector (libsrc/cencalvm/storage/GeomCenCA.cc:50). -/
structure GeomPtr where
  self : Nat
  proj : Nat
  deriving DecidableEq, Repr

/-- `new GeomCenCA` (libsrc/cencalvm/storage/GeomCenCA.cc:43-52; also `clone`, 61-66): pointers. -/
def Heap.geomPtr (h : Heap) : GeomPtr := ⟨h.next, h.next + 1⟩
/-- `new GeomCenCA`, libsrc/cencalvm/storage/GeomCenCA.cc:43-52: what it allocates. -/
def Heap.newGeom (h : Heap) : Heap := (h.one.one).access h.next 0
/-- `delete` of a `GeomCenCA`: the destructor, libsrc/cencalvm/storage/GeomCenCA.cc:55-58, then the object. -/
def Heap.deleteGeom (h : Heap) (p : GeomPtr) : Heap := ((h.access p.self 0).delete p.proj).delete p.self
/-- The same for a pointer that may be null. -/
def Heap.deleteGeomOpt (h : Heap) : Option GeomPtr → Heap
  | none => h
  | some p => h.deleteGeom p

section query
variable {K : Type} [Field K] [LinearOrder K]

/-- A query object with its pointers `_pQueryVals`, `_pGeom`, `_pErrHandler` (libsrc/cencalvm/query/VMQuery.h:307-310;
`none` is null) and `_pLogFile` of the error handler (libsrc/cencalvm/storage/ErrorHandler.h:130). -/
structure Query (K : Type) where
  s : VMQuery.Session K
  vals : Option Nat
  geom : Option GeomPtr
  err : Nat
  log : Nat
  heap : Heap

/-- A use of the error handler, which may write to its log. -/
def useErr (o : Query K) (h : Heap) : Heap := (h.access o.err 0).access o.log 0

/-- Constructor, libsrc/cencalvm/query/VMQuery.cc:32-53, with that of `ErrorHandler`,
libsrc/cencalvm/storage/ErrorHandler.cc:23-29. -/
def newQuery (g : Geom K) (fs : Files) : Query K :=
  let h := Heap.init.newGeom
  let e := h.next
  let h := (h.one.one).access e 0
  let v := h.next
  let h := (h.array 9).accesses v (List.range 9)
  ⟨⟨VMQuery.init g, fs, []⟩, some v, some Heap.init.geomPtr, e, e + 1, h⟩

/-- `geometry`, libsrc/cencalvm/query/VMQuery.cc:68-72. -/
def geometry (o : Query K) (g : Option (Geom K)) : Outcome (Query K) :=
  match o.geom, g with
  | some p, some g =>
    let h := o.heap.deleteGeom p
    .ok { o with s := { o.s with q := { o.s.q with geom := some g } }, geom := some h.geomPtr, heap := h.newGeom }
  | some _, none => .ub
  | none, _ => .ok { o with s := { o.s with q := { o.s.q with geom := none } } }

/-- `queryVals`, libsrc/cencalvm/query/VMQuery.cc:147-186.  The error handler is taken as used, even if all names are
known. -/
def queryVals (o : Query K) (names : List String) (numVals : Int) : Outcome (Query K) := do
  let q ← VMQuery.setQueryVals o.s.q names numVals
  if numVals > 0 then
    let h := o.heap.deleteArrayOpt o.vals
    .ok { o with
      s := { o.s with q := q }
      vals := some h.next
      heap := useErr o ((h.array numVals.toNat).accesses h.next (List.range numVals.toNat)) }
  else .ok { o with s := { o.s with q := q } }

/-- What a query does with a pointer that is not null (libsrc/cencalvm/query/VMQuery.cc:201). -/
def useGeom (h : Heap) : Option GeomPtr → Heap
  | none => h
  | some p => (h.access p.self 0).access p.proj 0

/-- The loop over `_pQueryVals`, libsrc/cencalvm/query/VMQuery.cc:249-250. -/
def useVals (h : Heap) (n : Nat) : Option Nat → Heap
  | none => h
  | some v => h.accesses v (List.range n)

/-- One call, libsrc/cencalvm/query/VMQuery.cc:68-290 and libsrc/cencalvm/query/VMQuery.icc:18-67.  The error handler is
taken as used in every call that may use it; a query uses the geometry, the error handler and the array of values, of
which it reads `_querySize` elements. -/
def call (fmt : Fmt K) (canOpen : String → Bool) (o : Query K) : VMQuery.Call K → Outcome (Query K)
  | .geometry g => geometry o g
  | .queryVals names n => queryVals o names n
  | .query n lon lat elev => do
    let s ← VMQuery.call fmt canOpen o.s (.query n lon lat elev)
    .ok { o with s := s, heap := useVals (useErr o (useGeom o.heap o.geom)) o.s.q.queryVals.length o.vals }
  | c => do
    let s ← VMQuery.call fmt canOpen o.s c
    .ok { o with s := s, heap := useErr o o.heap }

/-- A history of calls. -/
def run (fmt : Fmt K) (canOpen : String → Bool) : Query K → List (VMQuery.Call K) → Outcome (Query K)
  | o, [] => .ok o
  | o, c :: cs => do
    let o ← call fmt canOpen o c
    run fmt canOpen o cs

/-- Destructor, libsrc/cencalvm/query/VMQuery.cc:57-63, with that of `ErrorHandler`,
libsrc/cencalvm/storage/ErrorHandler.cc:32-35.  If `etree_close` fails in the call of `close`, the error handler is used
through a null pointer. -/
def destroy (fail failExt : Bool) (o : Query K) : Outcome Heap := do
  let h := (o.heap.deleteArrayOpt o.vals).deleteGeomOpt o.geom
  let h := ((h.access o.err 0).delete o.log).delete o.err
  let _ ← VMQuery.destroy fail failExt o.s.q
  .ok h

end query

/-! ### The pending octants of the averaging engine -/

/-- `_pPendingOctants` and for each of its elements `data.pSum` and `pAddr` (libsrc/cencalvm/average/AvgEngine.h:73-86). -/
structure EnginePtr where
  octs : Nat
  elems : List (Nat × Nat)

/-- The loop of the constructor from element `i` on, `n` elements, libsrc/cencalvm/average/AvgEngine.cc:43-55. -/
def newPending (octs : Nat) : Nat → Nat → Heap → Heap × List (Nat × Nat)
  | _, 0, h => (h, [])
  | i, n + 1, h =>
    let s := h.next
    let h := h.one.access octs i
    let a := h.next
    let h := ((h.one.access octs i).access a 0).access octs i
    let r := newPending octs (i + 1) n h
    (r.1, (s, a) :: r.2)

/-- Constructor, libsrc/cencalvm/average/AvgEngine.cc:33-69. -/
def newEngine (h : Heap) : Heap × EnginePtr :=
  let r := newPending h.next 0 AvgEngine.pendingSize (h.array AvgEngine.pendingSize)
  (r.1, ⟨h.next, r.2⟩)

/-- The loop of the destructor from element `i` on, libsrc/cencalvm/average/AvgEngine.cc:75-78. -/
def deletePending (octs : Nat) : Nat → List (Nat × Nat) → Heap → Heap
  | _, [], h => h
  | i, (s, a) :: r, h => deletePending octs (i + 1) r ((((h.access octs i).delete s).access octs i).delete a)

/-- Destructor, libsrc/cencalvm/average/AvgEngine.cc:72-81. -/
def deleteEngine (p : EnginePtr) (h : Heap) : Heap := (deletePending p.octs 0 p.elems h).deleteArray p.octs

/-! ### Ingestion of grids -/

/-- A `GridIngester` with its pointer `_pGeom` (libsrc/cencalvm/create/GridIngester.h:126). -/
structure Ingester where
  geom : Option GeomPtr
  heap : Heap

/-- Constructor, libsrc/cencalvm/create/GridIngester.cc:35-44. -/
def newIngester (h : Heap) : Ingester := ⟨none, h⟩

/-- `geometry`, libsrc/cencalvm/create/GridIngester.cc:56-59; `g` says whether the argument is not null. -/
def Ingester.geometry (o : Ingester) (g : Bool) : Ingester :=
  let h := o.heap.deleteGeomOpt o.geom
  if g then ⟨some h.geomPtr, h.newGeom⟩ else ⟨none, h⟩

/-- `run`, libsrc/cencalvm/create/GridIngester.cc:64-88, with `_readParams`, 93-133: the array of names, of which `used` are
read afterwards (all if no grid raises an exception).  `params` is the text of the parameter file, if it can be opened.
The creator and the grids allocate nothing. -/
def Ingester.run (o : Ingester) (params : Option (List Char)) (used : Nat) : Ingester :=
  match params with
  | none => o
  | some text =>
    let n := (GridIngester.readParams text).length
    let h := ((o.heap.array n).accesses o.heap.next (List.range n)).accesses o.heap.next (List.range (min used n))
    { o with heap := useGeom h o.geom }

/-- The public calls of `GridIngester` that touch memory (libsrc/cencalvm/create/GridIngester.h:41-95). -/
inductive IngesterCall where
  | geometry (g : Bool)
  | run (params : Option (List Char)) (used : Nat)

/-- One call, libsrc/cencalvm/create/GridIngester.cc:56-88. -/
def Ingester.call (o : Ingester) : IngesterCall → Ingester
  | .geometry g => o.geometry g
  | .run params used => o.run params used

/-- A history of calls; the caller catches exceptions. -/
def Ingester.history (o : Ingester) : List IngesterCall → Ingester
  | [] => o
  | c :: cs => (o.call c).history cs

/-- Destructor, libsrc/cencalvm/create/GridIngester.cc:48-51. -/
def Ingester.destroy (o : Ingester) : Heap := o.heap.deleteGeomOpt o.geom

/-! ### A pass of the grader -/

/-- What `_limitDiff` does with the arrays `d` (data) and `c` (flags) of length `n`,
extensions/applications/vsgrader/VsGrader.cc:560-587; elements changed are taken as changed always. -/
def limitDiff (d c n : Nat) (h : Heap) : Heap :=
  let h := h.accesses c (List.range n)
  let up := fun (h : Heap) (i : Nat) => ((h.access d i).access d ((i : Int) - 1)).access c i
  let h := ((List.range (n - 1)).map (· + 1)).foldl up h
  let down := fun (h : Heap) (i : Nat) => ((h.access d i).access d ((i : Int) + 1)).access c i
  (List.range (n - 1)).reverse.foldl down h

/-- The rows of a pass, extensions/applications/vsgrader/VsGrader.cc:388-405: pull, limit, push. -/
def rows (d c n : Nat) : Nat → Heap → Heap
  | 0, h => h
  | k + 1, h => rows d c n k (((limitDiff d c n (h.accesses d (List.range n))).accesses c (List.range n)).accesses d (List.range n))

/-- A pass with arrays of length `num` over `k` rows, extensions/applications/vsgrader/VsGrader.cc:385-408, 413-437, 442-466;
`raises` says whether an exception is raised in the last of them, from where on nothing is done.  No arrays if the length
is not positive. -/
def pass (num : Int) (k : Nat) (raises : Bool) (h : Heap) : Heap :=
  let n := if num > 0 then num.toNat else 0
  let d := if n > 0 then some h.next else none
  let h := if n > 0 then h.array n else h
  let c := if n > 0 then some h.next else none
  let h := if n > 0 then h.array n else h
  let h := match d, c with
    | some d, some c => rows d c n k h
    | _, _ => h
  if raises then h else (h.deleteArrayOpt d).deleteArrayOpt c

end Mem
end CenCalVM
