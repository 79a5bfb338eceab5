/-
Properties of the standard error of the example in C++.
-/
import Verif.Lemmas.CppConsole
import Verif.Props.CppExample
import Verif.Props.QueryConsole

set_option linter.unusedSectionVars false

namespace CenCalVM
namespace CppExample
open QueryApp (Options Env Line Result Report exEnvSaid exOpts exText codeSaid)
variable {K : Type} [Field K] [LinearOrder K] [IsStrictOrderedRing K]

/-! ### C146 -/

/-- C146, the run: with the text taken away, this is the run of the example. -/
theorem C146_same (env : Env K) (all : Bool) (o : Options K) (fs : Files) :
    (∀ r, runSaid env all o fs = .ok r → run env all o fs = .ok r.result) ∧
    (∀ x, run env all o fs = .ok x → ∃ t, runSaid env all o fs = .ok ⟨x, t⟩) ∧
    ((∃ m, runSaid env all o fs = .exc m) ↔ ∃ m, run env all o fs = .exc m) := by
  have h := bare_run_cpp env all o fs
  rw [← h]
  cases runSaid env all o fs with
  | ub => exact ⟨fun _ h => (by cases h), fun _ h => (by cases h), ⟨fun ⟨_, h⟩ => (by cases h), fun ⟨_, h⟩ => (by cases h)⟩⟩
  | exc m => exact ⟨fun _ h => (by cases h), fun _ h => (by cases h), ⟨fun _ => ⟨m, rfl⟩, fun _ => ⟨m, rfl⟩⟩⟩
  | ok r =>
    refine ⟨fun _ h => (by cases h; rfl), fun x h => ?_, ⟨fun ⟨_, h⟩ => (by cases h), fun ⟨_, h⟩ => (by cases h)⟩⟩
    cases h
    exact ⟨r.err, rfl⟩

/-- C146: compiled for all values, the example ends as cencalvmquery does with the same settings and files, and writes the same
text to standard error; but after the two complaints about the type of query and the resolution, where each writes its own help
text and ends with 1. -/
theorem C146 (env : Env K) (o : Options K) (fs : Files) :
    (∀ r, QueryApp.runSaid env o fs = .ok r → ∃ r', runSaid env true o fs = .ok r' ∧ r'.result = r.result ∧
      (r'.err = r.err ∨ r.result.code = 1 ∧ ∃ t, (t = "Query resolution must be a positive value." ∨
          t = "Could not parse query string '" ++ o.queryType ++ "' into a known type of query.") ∧
        r.err = t ++ QueryApp.usage ∧ r'.err = t ++ usage)) ∧
    ∀ r', runSaid env true o fs = .ok r' → ∃ r, QueryApp.runSaid env o fs = .ok r := by
  rcases runSaid_near env o fs with h | ⟨res, t, ht, h1, h2, h3⟩
  · rw [h]
    exact ⟨fun r hr => ⟨r, hr, rfl, Or.inl rfl⟩, fun r hr => ⟨r, hr⟩⟩
  · refine ⟨fun r hr => ⟨_, h3, ?_, Or.inr ⟨?_, t, ht, ?_, rfl⟩⟩, fun r _ => ⟨_, h2⟩⟩
    all_goals
      have e := hr.symm.trans h2
      injection e with e
    · exact (congrArg Report.result e).symm
    · exact (congrArg (fun x => x.result.code) e).trans h1
    · exact congrArg Report.err e

/-- One location with data, one without. -/
example : codeSaid (runSaid (exEnvSaid "220 40 -100\n220 40 -200000\n") true exOpts fun _ => "") =
    some (0, "WARNING: No data for 220, 40, -200000.\n") := by decide +kernel
/-- An error in the second location. -/
example : codeSaid (runSaid { exEnvSaid "220 40 -200000\n220 40 -100\n220 40 -200000\n" with
      geom := (QueryApp.exEnvErr "").geom } true exOpts fun _ => "") =
    some (1, "WARNING: No data for 220, 40, -200000.\ninverse") := by decide +kernel
/-- A type of query that is not known. -/
example : codeSaid (runSaid (exEnvSaid "220 40 -100\n") true { exOpts with queryType := "best" } fun _ => "") =
    some (1, "Could not parse query string 'best' into a known type of query." ++ usage) := by decide +kernel

/-! ### C147 -/

/-- C147: compiled for two values, wherever cencalvmquery succeeds with the same settings and files the example succeeds and
writes the same text to standard error: the same warnings in the same order. -/
theorem C147 {env : Env K} {o : Options K} {fs : Files} {r : Report K} (h : QueryApp.runSaid env o fs = .ok r)
    (h0 : r.result.code = 0) : ∃ r', runSaid env false o fs = .ok r' ∧ r'.result.code = 0 ∧ r'.err = r.err := runSaid_two h h0

example : codeSaid (runSaid (exEnvSaid "220 40 -100\n220 40 -200000\n") false exOpts fun _ => "") =
    some (0, "WARNING: No data for 220, 40, -200000.\n") := by decide +kernel
example : codeSaid (QueryApp.runSaid (exEnvSaid "220 40 -100\n220 40 -200000\n") exOpts fun _ => "") =
    some (0, "WARNING: No data for 220, 40, -200000.\n") := by decide +kernel
/-- Where cencalvmquery fails at the ground elevation the texts differ: the example has two warnings and no error. -/
example : codeSaid (runSaid { exEnvSaid "220 40 -200000\n220 40 -100\n220 40 -200000\n" with
      geom := (QueryApp.exEnvErr "").geom } false exOpts fun _ => "") =
    some (0, "WARNING: No data for 220, 40, -200000.\nWARNING: No data for 220, 40, -200000.\n") := by decide +kernel

end CppExample
end CenCalVM
