/-
Dynamic memory of a `VsGrader`: its geometry, the array of values of the extraction, and the arrays of the three passes.
-/
import Verif.Model.Heap

namespace CenCalVM
namespace Mem

/-- A `VsGrader` with its pointer `_pGeom` (extensions/applications/vsgrader/VsGrader.h:214; `none` is null). -/
structure Grader where
  geom : Option GeomPtr
  heap : Heap

/-- Constructor, extensions/applications/vsgrader/VsGrader.cc:60: a geometry is there from the start. -/
def newGrader (h : Heap) : Grader := ⟨some h.geomPtr, h.newGeom⟩

/-- `geometry`, extensions/applications/vsgrader/VsGrader.cc:75-79; `g` says whether the argument is not null. -/
def Grader.geometry (o : Grader) (g : Bool) : Grader :=
  let h := o.heap.deleteGeomOpt o.geom
  if g then ⟨some h.geomPtr, h.newGeom⟩ else ⟨none, h⟩

/-- Where a run ends, once the parameters are read: with an exception on opening a database, in the extraction after `k` points
(in the query, or in the insertion), after the extraction (closing, packing or opening again), or in the grading: with an exception in
row `k` of pass `i` (from 0; from 3 on: on closing), or normally. -/
inductive Stop where
  | opening
  | extract (k : Nat)
  | pack
  | grade (stop : Option (Nat × Nat))
  deriving DecidableEq, Repr

/-- The body of the loops of `_extract` for `k` points, extensions/applications/vsgrader/VsGrader.cc:303-334, with the array `d` of
eight values: the query writes them, then they are read.  The query object and the creator allocate for themselves (the former in
`Mem.Query`). -/
def points (geom : Option GeomPtr) (d : Nat) : Nat → Heap → Heap
  | 0, h => h
  | k + 1, h => points geom d k (useGeom (((useGeom h geom).accesses d (List.range 8)).accesses d (List.range 8)) geom)

/-- The passes of `_grade`, extensions/applications/vsgrader/VsGrader.cc:382-466: length of the arrays and number of rows of each. -/
def passes (geom : Option GeomPtr) : List (Int × Nat) → Option (Nat × Nat) → Heap → Heap
  | [], _, h => h
  | (n, _) :: _, some (0, k), h => pass n k true (useGeom h geom)
  | (n, r) :: ps, some (i + 1, k), h => passes geom ps (some (i, k)) (pass n r false (useGeom h geom))
  | (n, r) :: ps, none, h => passes geom ps none (pass n r false (useGeom h geom))

/-- `run` after `_readParams`, extensions/applications/vsgrader/VsGrader.cc:84-91, with `_initialize`, 253-264, `_extract`, 269-342,
`_pack`, 346-352, and `_grade`, 357-474.  `len`, `wid`, `ht` are the numbers of points.  Without a geometry the assertion of
`_initialize` fails. -/
def Grader.run (o : Grader) (len wid ht : Int) (stop : Stop) : Outcome Grader :=
  match o.geom with
  | none => .ub
  | some _ =>
    let h := useGeom o.heap o.geom
    let full := (points o.geom h.next (len.toNat * wid.toNat * ht.toNat) (h.array 8)).deleteArray h.next
    match stop with
    | .opening => .ok { o with heap := h }
    | .extract k => .ok { o with heap := points o.geom h.next (k + 1) (h.array 8) }
    | .pack => .ok { o with heap := full }
    | .grade s =>
      let ps := [(ht, len.toNat * wid.toNat), (len, ht.toNat * wid.toNat), (wid, ht.toNat * len.toNat)]
      .ok { o with heap := passes o.geom ps s full }

/-- The public calls of `VsGrader` that touch memory (extensions/applications/vsgrader/VsGrader.h:45-99); `unread` is a run ended by
`_readParams`. -/
inductive GraderCall where
  | geometry (g : Bool)
  | unread
  | run (len wid ht : Int) (stop : Stop)
  deriving DecidableEq, Repr

/-- One call, extensions/applications/vsgrader/VsGrader.cc:75-91. -/
def Grader.call (o : Grader) : GraderCall → Outcome Grader
  | .geometry g => .ok (o.geometry g)
  | .unread => .ok o
  | .run len wid ht stop => o.run len wid ht stop

/-- A history of calls; the caller catches exceptions. -/
def Grader.history (o : Grader) : List GraderCall → Outcome Grader
  | [] => .ok o
  | c :: cs => match o.call c with
    | .ok o => o.history cs
    | .exc m => .exc m
    | .ub => .ub

/-- Destructor, extensions/applications/vsgrader/VsGrader.cc:67-70. -/
def Grader.destroy (o : Grader) : Heap := o.heap.deleteGeomOpt o.geom

end Mem
end CenCalVM
