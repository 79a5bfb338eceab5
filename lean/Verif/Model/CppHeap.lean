/-
The array of the example in C++, which is also that of cencalvmquery if all values are asked for.
-/
import Verif.Model.CppExample
import Verif.Model.Heap

namespace CenCalVM
namespace CppExample
open QueryApp (Options Env Line Result leave)
open VMQuery (openDb query)
open Mem (Heap)
variable {K : Type} [Field K] [LinearOrder K]

/-- The elements of `pVals` that are written to the file, examples/query/cpp/cencalvmcppquery.cc:317-331; with all values
applications/query/cencalvmquery.cc:322-330. -/
def printed (all : Bool) : List Nat := if all then [0, 1, 2, 3, 4, 5, 6, 7, 8] else [0, 1]

/-- Returning from `main`, e.g. examples/query/cpp/cencalvmcppquery.cc:352: the array is not touched. -/
def leaveMem (env : Env K) (r : Result K) (h : Heap) : Outcome (Result K × Heap) := do
  let r ← leave env r
  .ok (r, h)

/-- After the loop, examples/query/cpp/cencalvmcppquery.cc:339-352, applications/query/cencalvmquery.cc:338-350. -/
def finishMem (env : Env K) (q : VMQuery K) (fs : Files) (lines : List (Line K)) (h : Heap) : Outcome (Result K × Heap) := do
  let r ← finish env q fs lines
  .ok (r, h)

/-- The loop over the locations, examples/query/cpp/cencalvmcppquery.cc:294-337, applications/query/cencalvmquery.cc:300-335.  The
query writes as many elements as values have been chosen (`_querySize`, libsrc/cencalvm/query/VMQuery.cc:249); `p` is `pVals`. -/
def loopMem (env : Env K) (all : Bool) (p : Nat) :
    Nat → Stream → K × K × K → VMQuery K → Files → List (Line K) → Heap → Outcome (Result K × Heap)
  | 0, _, _, _, _, _, _ => .ub
  | n + 1, s, loc, q, fs, lines, h =>
    if s.good && env.outGood lines.length then do
      let r ← query env.fmt q fs (numVals all) loc.1 loc.2.1 loc.2.2
      let h := h.accesses p (List.range q.queryVals.length)
      if r.1.err.status = .ERROR then leaveMem env ⟨1, lines, r.1, r.2.1⟩ h
      else
        let q := if .OK ≠ r.1.err.status then { r.1 with err := r.1.err.resetStatus } else r.1
        let h := h.accesses p (printed all)
        let next := readLoc env.nf s loc
        loopMem env all p n next.1 next.2 q r.2.1 (lines ++ [⟨loc.1, loc.2.1, loc.2.2, r.2.2⟩]) h
    else finishMem env q fs lines h

/-- `main` after the command line has been read, examples/query/cpp/cencalvmcppquery.cc:173-353 (with all values also
applications/query/cencalvmquery.cc:189-350): `new` at line 284 (290), no `delete[]`. -/
def runMem (env : Env K) (all : Bool) (o : Options K) (fs : Files) : Outcome (Result K × Heap) :=
  let st := start env o fs
  let q0 : VMQuery K := { VMQuery.init env.geom with err := st.1 }
  match configure o q0 with
  | none => leaveMem env ⟨1, [], q0, st.2⟩ Heap.init
  | some q => do
    match ← chooseVals all q with
    | none => leaveMem env ⟨1, [], q, st.2⟩ Heap.init
    | some q => do
      let q ← openDb env.disk q
      match checked q with
      | none => leaveMem env ⟨1, [], q, st.2⟩ Heap.init
      | some q =>
        match selectType o q with
        | none => leaveMem env ⟨1, [], q, st.2⟩ Heap.init
        | some q =>
          match env.input o.filenameIn with
          | none => leaveMem env ⟨1, [], q, st.2⟩ Heap.init
          | some text =>
            if env.canWrite o.filenameOut then
              let p := Heap.init.next
              let h := Heap.init.array (numVals all).toNat
              let r := readLoc env.nf (Stream.ofText text) (0, 0, 0)
              loopMem env all p (text.length + 1) r.1 r.2 q st.2 [] h
            else leaveMem env ⟨1, [], q, st.2⟩ Heap.init

end CppExample
end CenCalVM
