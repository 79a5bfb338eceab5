/-
The arrays of cencalvmisosurface.
-/
import Verif.Model.IsoApp
import Verif.Model.Heap

namespace CenCalVM
namespace IsoApp
open QueryApp (Env)
open Mem (Heap)
variable {K : Type} [Field K] [LinearOrder K]

/-- A query for a single value into the array at `p`, e.g. applications/query/cencalvmisosurface.cc:235-236: the query writes the
elements of the array (libsrc/cencalvm/query/VMQuery.cc:248-289), then the first is read. -/
def valueAtMem (fmt : Fmt K) (p : Nat) (q : VMQuery K) (fs : Files) (lon lat elev : K) (h : Heap) : Outcome ((K × VMQuery K × Files) × Heap) := do
  let r ← valueAt fmt q fs lon lat elev
  .ok (r, (h.accesses p (List.range 1)).access p 0)

/-- The loop of `queryElev`, applications/query/cencalvmisosurface.cc:242-252. -/
def groundLoopMem (ar : Arith K) (fmt : Fmt K) (p : Nat) (lon lat elev : K) :
    Nat → Nat → VMQuery K → Files → Heap → Outcome ((K × VMQuery K × Files) × Heap)
  | 0, _, q, fs, h => .ok ((elev, q, fs), h)
  | n + 1, iter, q, fs, h => do
    let elevQ := ar.rd (elev + ar.rd (iter * (-12.5)))
    let r ← valueAtMem fmt p q fs lon lat elevQ h
    if r.1.1 > 0 then .ok ((elevQ, r.1.2), r.2) else groundLoopMem ar fmt p lon lat elev n (iter + 1) r.1.2.1 r.1.2.2 r.2

/-- `queryElev`, applications/query/cencalvmisosurface.cc:209-257: `new` at line 231, `delete[]` at line 254. -/
def queryElevMem (ar : Arith K) (fmt : Fmt K) (q : VMQuery K) (fs : Files) (lon lat : K) (h : Heap) :
    Outcome ((K × VMQuery K × Files) × Heap) := do
  let q ← VMQuery.setQueryVals q ["Elevation"] 1
  if q.err.status ≠ .OK then .exc "Could not get elevation."
  else do
    let p := h.next
    let h := h.array 1
    let r ← valueAtMem fmt p q fs lon lat (-5000) h
    let q ← VMQuery.setQueryVals r.1.2.1 ["Vs"] 1
    let r ← groundLoopMem ar fmt p lon lat r.1.1 10 0 q r.1.2.2 r.2
    .ok (r.1, r.2.deleteArray p)

/-- One iteration of the search, applications/query/cencalvmisosurface.cc:286-318. -/
def searchRoundMem (ar : Arith K) (fmt : Fmt K) (p : Nat) (target lon lat upper lower : K) (q : VMQuery K) (fs : Files) (h : Heap) :
    Outcome ((Round K × VMQuery K × Files) × Heap) := do
  let u ← valueAtMem fmt p q fs lon lat upper h
  let l ← valueAtMem fmt p u.1.2.1 u.1.2.2 lon lat lower u.2
  let m ← valueAtMem fmt p l.1.2.1 l.1.2.2 lon lat (ar.middle upper lower) l.2
  .ok ((decideRound target upper (ar.middle upper lower) lower u.1.1 l.1.1 m.1.1, m.1.2), m.2)

/-- The loop of `searchVs`, applications/query/cencalvmisosurface.cc:285-319. -/
def searchLoopMem (ar : Arith K) (fmt : Fmt K) (p : Nat) (target lon lat : K) :
    Nat → K → K → K → VMQuery K → Files → Heap → Outcome ((Option K × VMQuery K × Files) × Heap)
  | 0, _, _, elevVs, q, fs, h => .ok ((some elevVs, q, fs), h)
  | n + 1, upper, lower, _, q, fs, h => do
    let r ← searchRoundMem ar fmt p target lon lat upper lower q fs h
    match r.1.1 with
    | .next u l e => searchLoopMem ar fmt p target lon lat n u l e r.1.2.1 r.1.2.2 r.2
    | .done e => .ok ((some e, r.1.2), r.2)
    | .exit => .ok ((none, r.1.2), r.2)

/-- `searchVs`, applications/query/cencalvmisosurface.cc:260-322: `new` at line 274, and no `delete[]`. -/
def searchVsMem (ar : Arith K) (fmt : Fmt K) (q : VMQuery K) (fs : Files) (target lon lat upper lower : K) (h : Heap) :
    Outcome ((Option K × VMQuery K × Files) × Heap) := do
  let n ← niters ar upper lower
  let p := h.next
  let h := h.array 1
  let q ← VMQuery.setQueryVals q ["Vs"] 1
  searchLoopMem ar fmt p target lon lat n.toNat upper lower lower q fs h

/-- The queries for one location, applications/query/cencalvmisosurface.cc:390-393. -/
def locateMem (ar : Arith K) (fmt : Fmt K) (o : Options K) (q : VMQuery K) (fs : Files) (lon lat : K) (h : Heap) :
    Outcome ((Option K × VMQuery K × Files) × Heap) := do
  let t ← queryElevMem ar fmt q fs lon lat h
  let r ← searchVsMem ar fmt t.1.2.1 t.1.2.2 o.vs lon lat (limits ar o t.1.1).1 (limits ar o t.1.1).2 t.2
  .ok ((r.1.1.map (distIsosurf ar t.1.1), r.1.2), r.2)

/-- Returning from `main`, applications/query/cencalvmisosurface.cc:400,432,434: the arrays are not touched. -/
def leaveMem (env : Env K) (q : VMQuery K) (code : Int) (lines : List (Line K)) (h : Heap) : Outcome (Result K × Heap) := do
  let r ← leave env q code lines
  .ok (r, h)

/-- After the loop, applications/query/cencalvmisosurface.cc:420-433. -/
def finishMem (env : Env K) (q : VMQuery K) (lines : List (Line K)) (h : Heap) : Outcome (Result K × Heap) :=
  let q := VMQuery.close env.closeFail env.closeFailExt q
  if q.err.status ≠ .OK then leaveMem env q 1 lines h else leaveMem env q 0 lines h

/-- The loop over the locations, applications/query/cencalvmisosurface.cc:388-418.  If an exception ends the program, what was
done at this location before it is left out. -/
def loopMem (ar : Arith K) (env : Env K) (o : Options K) :
    Nat → Stream → K × K → VMQuery K → Files → List (Line K) → Heap → Outcome (Result K × Heap)
  | 0, _, _, _, _, _, _ => .ub
  | n + 1, s, loc, q, fs, lines, h =>
    if s.good && env.outGood lines.length then
      match locateMem ar env.fmt o q fs loc.1 loc.2 h with
      | .ub => .ub
      | .exc _ => .ok (⟨.abort, lines⟩, h)
      | .ok ((none, _, _), h) => .ok (⟨.exit, lines⟩, h)
      | .ok ((some dist, q, fs), h) =>
        if q.err.status = .ERROR then leaveMem env q 1 lines h
        else
          let next := readLoc env.nf s loc
          loopMem ar env o n next.1 next.2 (QueryApp.settle q) fs (lines ++ [⟨loc.1, loc.2, dist⟩]) h
    else finishMem env q lines h

/-- `main` after the command line has been read, applications/query/cencalvmisosurface.cc:347-434: `new` at line 372, for an array
that is never used. -/
def runMem (ar : Arith K) (env : Env K) (o : Options K) : Outcome (Result K × Heap) := do
  let q ← setup env o (VMQuery.init env.geom)
  match env.input o.filenameIn with
  | none => leaveMem env q 1 [] Heap.init
  | some text =>
    if env.canWrite o.filenameOut then
      let h := Heap.init.array 1
      let r := readLoc env.nf (Stream.ofText text) (0, 0)
      loopMem ar env o (text.length + 1) r.1 r.2 q (fun _ => "") [] h
    else leaveMem env q 1 [] Heap.init

end IsoApp
end CenCalVM
