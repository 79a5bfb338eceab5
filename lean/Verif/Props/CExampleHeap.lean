/-
Properties of the array of the example in C.
-/
import Verif.Lemmas.CExampleHeap
import Verif.Props.CExample

set_option linter.unusedSectionVars false

namespace CenCalVM
namespace CExample
open QueryApp (Options Env Line exEnv exEnvErr exOpts exText)
open Mem (Heap Block Has Live Proper)
variable {K : Type} [Field K] [LinearOrder K]

/-! ### C153 -/

/-- With the array taken away, this is the run of C94. -/
theorem C153_same (env : Env K) (o : Options K) (fs : Files) (rounds : Nat) :
    (runMem env o fs rounds).1 = run env o fs rounds := runMem_fst env o fs rounds

/-- C153: in every run of the example in C, after any number of rounds and also if it never ends, every access to the array of
values, by the query and when a line is written, has been to one of its elements; and there is no more than this one array,
whatever the number of locations. -/
theorem C153 (env : Env K) (o : Options K) (fs : Files) (rounds : Nat) :
    Proper (runMem env o fs rounds).2.log ∧
      ∀ b b', Live (runMem env o fs rounds).2.log b → Live (runMem env o fs rounds).2.log b' → b = b' := by
  rcases runMem_has env o fs rounds with h | h
  · exact ⟨h.inv.proper, fun b _ hb _ => absurd (h.kept b hb) List.not_mem_nil⟩
  · exact ⟨h.inv.proper, fun b b' hb hb' => (List.mem_singleton.1 (h.kept b hb)).trans (List.mem_singleton.1 (h.kept b' hb')).symm⟩

/-- How it ended, and how often the array was allocated, accessed and freed. -/
def countedMem (r : Option (Outcome (Result ℚ)) × Heap) : Option (Int × List (Line ℚ)) × Nat × Nat × Nat :=
  (codeLines r.1, (r.2.log.filter fun e => match e with | .new _ => true | _ => false).length,
    (r.2.log.filter fun e => match e with | .access _ _ => true | _ => false).length,
    (r.2.log.filter fun e => match e with | .delete _ _ => true | _ => false).length)
/-- Two locations: twice nine elements are written and read. -/
example : (countedMem (runMem (exEnv exText) exOpts (fun _ => "") 3)).2 = (1, 36, 0) := by decide +kernel
/-- The endless run of C94, after five rounds. -/
example : countedMem (runMem (exEnv exComment) exOpts (fun _ => "") 5) = (none, 1, 90, 0) := by decide +kernel

end CExample
end CenCalVM
