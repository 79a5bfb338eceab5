/-
The array of the example in C.
-/
import Verif.Model.CExample
import Verif.Model.Heap

namespace CenCalVM
namespace CExample
open QueryApp (Options Env Line)
open CApi (World)
open Mem (Heap)
variable {K : Type} [Field K] [LinearOrder K]

/-- The number of values that a query of the object with handle `h` writes (`_querySize`, libsrc/cencalvm/query/VMQuery.cc:249-250). -/
def chosen (w : World K) (h : Nat) : Nat :=
  match w.objs h with
  | some q => q.queryVals.length
  | none => 0

/-- The loop over the locations, examples/query/c/cencalvmcquery.c:284-306, with the array `p`: `cencalvm_query` writes the values
chosen, lines 299-301 read nine.  Beside the result (`none` if the loop has not ended after the given number of rounds) stands
what has been done with the array by then; in a round with undefined behaviour or an exception, up to the call. -/
def loopMem (env : Env K) (h p : Nat) :
    Nat → Stream → K × K × K → List (Line K) → World K → Heap → Option (Outcome (Result K)) × Heap
  | 0, _, _, _, _, m => (none, m)
  | n + 1, s, loc, lines, w, m =>
    if s.eof then (some (finish env h lines w), m)
    else match ask env h loc w with
      | .ub => (some .ub, m)
      | .exc e => (some (.exc e), m)
      | .ok none => (some (.ok ⟨1, lines⟩), m.accesses p (List.range (chosen w h)))
      | .ok (some (w', vals)) =>
        let m := (m.accesses p (List.range (chosen w h))).accesses p [0, 1, 2, 3, 4, 5, 6, 7, 8]
        let next := scanLoc env.nf s loc
        loopMem env h p n next.1 next.2 (lines ++ [⟨loc.1, loc.2.1, loc.2.2, vals⟩]) w' m

/-- `main` after the command line has been read, examples/query/c/cencalvmcquery.c:168-325: `malloc` of nine numbers at line 275 (with
`ALLVALS`), no `free`. -/
def runMem (env : Env K) (o : Options K) (fs : Files) (rounds : Nat) : Option (Outcome (Result K)) × Heap :=
  match prepare env o fs with
  | .ub => (some .ub, Heap.init)
  | .exc m => (some (.exc m), Heap.init)
  | .ok none => (some (.ok ⟨1, []⟩), Heap.init)
  | .ok (some (h, w)) =>
    match env.input o.filenameIn with
    | none => (some (.ok ⟨1, []⟩), Heap.init)
    | some text =>
      if env.canWrite o.filenameOut then
        let r := scanLoc env.nf (Stream.ofText text) (0, 0, 0)
        loopMem env h Heap.init.next rounds r.1 r.2 [] w (Heap.init.array 9)
      else (some (.ok ⟨1, []⟩), Heap.init)

end CExample
end CenCalVM
