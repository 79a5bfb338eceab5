/-
Properties of the arrays of cencalvmquery and of the example in C++.
-/
import Verif.Lemmas.CppHeap
import Verif.Props.CppExample

set_option linter.unusedSectionVars false

namespace CenCalVM
namespace CppExample
open QueryApp (Options Env Line Result exEnv exEnvErr exOpts exText)
open Mem (Heap Block Has Live Proper)
variable {K : Type} [Field K] [LinearOrder K]

/-! ### C150 -/

/-- With the array taken away, this is the run of the example, and with all values that of cencalvmquery. -/
theorem C150_same (env : Env K) (all : Bool) (o : Options K) (fs : Files) :
    (∀ r, runMem env all o fs = .ok r → run env all o fs = .ok r.1 ∧ (all = true → QueryApp.run env o fs = .ok r.1)) ∧
    (∀ x, run env all o fs = .ok x → ∃ h, runMem env all o fs = .ok (x, h)) := by
  have h := drop_run_cpp env all o fs
  have key : (∀ r, runMem env all o fs = .ok r → run env all o fs = .ok r.1) ∧
      (∀ x, run env all o fs = .ok x → ∃ h, runMem env all o fs = .ok (x, h)) := by
    rw [← h]
    cases runMem env all o fs with
    | ub => exact ⟨fun _ h => (by cases h), fun _ h => (by cases h)⟩
    | exc m => exact ⟨fun _ h => (by cases h), fun _ h => (by cases h)⟩
    | ok r =>
      refine ⟨fun _ h => (by cases h; rfl), fun x h => ?_⟩
      cases h
      exact ⟨r.2, rfl⟩
  refine ⟨fun r hr => ⟨key.1 r hr, ?_⟩, key.2⟩
  rintro rfl
  rw [← run_eq]
  exact key.1 r hr

/-- C150: in every run of cencalvmquery and of the example in C++, for all values and for two, every access to the array of values,
by the query and when a line is written, is to one of its elements; and at the end no more than this one array is left, whatever the
number of locations. -/
theorem C150 {env : Env K} {all : Bool} {o : Options K} {fs : Files} {r : Result K × Heap} (h : runMem env all o fs = .ok r) :
    Proper r.2.log ∧ ∀ b b', Live r.2.log b → Live r.2.log b' → b = b' := by
  rcases run_has_cpp h with h | h
  · exact ⟨h.inv.proper, fun b _ hb _ => absurd (h.kept b hb) List.not_mem_nil⟩
  · exact ⟨h.inv.proper, fun b b' hb hb' => (List.mem_singleton.1 (h.kept b hb)).trans (List.mem_singleton.1 (h.kept b' hb')).symm⟩

/-- Exit code, number of lines, and what was done with the array. -/
def counted (r : Outcome (Result ℚ × Heap)) : Option (Int × Nat × Nat × List (Nat × Int)) :=
  match r with
  | .ok (r, h) => some (r.code, r.lines.length, (h.log.filter fun e => match e with | .new _ => true | _ => false).length,
      h.log.filterMap fun e => match e with | .access p i => some (p, i) | _ => none)
  | _ => none
/-- Two locations and two values: four elements written, four read. -/
example : counted (runMem (exEnv exText) false exOpts fun _ => "") =
    some (0, 2, 1, [(0, 0), (0, 1), (0, 0), (0, 1), (0, 0), (0, 1), (0, 0), (0, 1)]) := by decide +kernel
/-- All values, with an error at the second location. -/
example : counted (runMem (exEnvErr "220 40 -200000\n220 40 -100\n220 40 -200000\n") true exOpts fun _ => "") =
    some (1, 1, 1, ([0, 1, 2, 3, 4, 5, 6, 7, 8] ++ [0, 1, 2, 3, 4, 5, 6, 7, 8] ++ [0, 1, 2, 3, 4, 5, 6, 7, 8]).map fun i => (0, i)) := by
  decide +kernel

end CppExample
end CenCalVM
