/-
Properties C132 and C133: what the example program in C writes to standard error.
-/
import Verif.Lemmas.CExampleConsole
import Verif.Props.QueryConsole
import Verif.Props.CExample

set_option linter.unusedSectionVars false

namespace CenCalVM
namespace CExample
open QueryApp (Options Env Line LineSaid Speaks TypeNamed exOpts exEnvSaid exText)
variable {K : Type} [Field K] [LinearOrder K] [IsStrictOrderedRing K]

/-- C132: the program that keeps its text on standard error is the program of C94. -/
theorem C132_same (env : Env K) (o : Options K) (fs : Files) (n : Nat) :
    (runSaid env o fs n).map (fun x => do let r ← x; Outcome.ok r.result) = run env o fs n := bare_run env o fs n

/-- C132: if the program ends, standard error holds, in order, what is to be written for each line of the output, as for
cencalvmquery; after that nothing follows if it ends with 0, and if it ends with 1 the reason, which is true.  Missing: the
message about an output file that cannot be opened names the input file (`C132_false`); that about an extended database which
cannot be closed names the other database (as `C130_false`). -/
theorem C132_partial {env : Env K} {o : Options K} {fs : Files} {n : Nat} {r : Report K} (h : runSaid env o fs n = some (.ok r)) :
    ∃ ts tail, r.err = String.join ts ++ tail ∧ List.Forall₂ (LineSaid env.fmt o) r.result.lines ts ∧
      (r.result.code = 0 ∧ tail = "" ∨ r.result.code = 1 ∧ Reason env o tail) := run_said h

/-- Exit code and standard error, to compare. -/
def codeSaid : Option (Outcome (Report ℚ)) → Option (Int × String)
  | some (.ok r) => some (r.result.code, r.err)
  | _ => none

/-- One location with data, one without. -/
example : codeSaid (runSaid (exEnvSaid "220 40 -100\n220 40 -200000\n") exOpts (fun _ => "") 3) =
    some (0, "WARNING: No data for 220, 40, -200000.\n") := by decide +kernel
/-- The second location ends with an error. -/
example : codeSaid (runSaid { exEnvSaid "220 40 -200000\n220 40 -100\n220 40 -200000\n" with
      geom := (QueryApp.exEnvErr "").geom } exOpts (fun _ => "") 4) =
    some (1, "WARNING: No data for 220, 40, -200000.\ninverse") := by decide +kernel
/-- A database that is not there. -/
example : codeSaid (runSaid (exEnvSaid exText) { exOpts with filenameDB := "missing" } (fun _ => "") 4) =
    some (1, "Could not open the etree database 'missing' for querying.\n") := by decide +kernel

/-- C132 is false: the message about an output file that cannot be opened names the input file, which can. -/
theorem C132_false : codeSaid (runSaid { exEnvSaid exText with canWrite := fun _ => false } { exOpts with filenameIn := "in", filenameOut := "out" } (fun _ => "") 4) =
    some (1, "Could not open file 'in' to write query data.\n") := by decide +kernel

/-- C133: if the program ends and has written nothing to standard error then it ends with 0 and there was data for every
location.  The messages of the exceptions of the geometry are taken not to be empty. -/
theorem C133 {env : Env K} {o : Options K} {fs : Files} {n : Nat} {r : Report K} (hg : Speaks env.geom)
    (h : runSaid env o fs n = some (.ok r)) (he : r.err = "") : r.result.code = 0 ∧ ∀ l ∈ r.result.lines, l.vals[6]? ≠ some 0 := by
  obtain ⟨ts, tail, h1, h2, h3⟩ := C132_partial h
  rw [he] at h1
  obtain ⟨h4, h5⟩ := QueryApp.append_eq_empty h1.symm
  refine ⟨?_, QueryApp.quiet_lines h2 h4⟩
  rcases h3 with ⟨h3, -⟩ | ⟨-, h3⟩
  · exact h3
  · exfalso
    cases h3 with
    | openExt => exact QueryApp.append_ne_empty (QueryApp.append_ne_empty (by decide)) h5
    | openDb => exact QueryApp.append_ne_empty (QueryApp.append_ne_empty (by decide)) h5
    | resolution => exact QueryApp.append_ne_empty (by decide) h5
    | queryType => exact QueryApp.append_ne_empty (QueryApp.append_ne_empty (QueryApp.append_ne_empty (by decide))) h5
    | input => exact QueryApp.append_ne_empty (QueryApp.append_ne_empty (by decide)) h5
    | output => exact QueryApp.append_ne_empty (QueryApp.append_ne_empty (by decide)) h5
    | query hq h he => exact QueryApp.query_error hg hq h he h5
    | close => exact QueryApp.append_ne_empty (QueryApp.append_ne_empty (by decide)) h5

/-- C133: unless the type of query is WAVERES, nothing is written if the program ends with 0 and there was data for every
location. -/
theorem C133_quiet {env : Env K} {o : Options K} {fs : Files} {n : Nat} {r : Report K} (hw : ∀ res, ¬ TypeNamed o .WAVERES res)
    (h : runSaid env o fs n = some (.ok r)) (hc : r.result.code = 0) (hl : ∀ l ∈ r.result.lines, l.vals[6]? ≠ some 0) : r.err = "" := by
  obtain ⟨ts, tail, h1, h2, h3⟩ := C132_partial h
  rcases h3 with ⟨-, rfl⟩ | ⟨h3, -⟩
  · rw [h1, QueryApp.lines_quiet hw h2 hl]
    rfl
  · rw [h3] at hc; exact absurd hc (by decide)

/-- Two locations with data. -/
example : codeSaid (runSaid (exEnvSaid "220 40 -100\n220 40 -150\n") exOpts (fun _ => "") 3) = some (0, "") := by decide +kernel
/-- The geometry of the examples speaks, as it has no exceptions (see Props/QueryConsole), and their type of query is MAXRES. -/
example (res : ℚ) : ¬ TypeNamed exOpts .WAVERES res := QueryApp.exOpts_notWave res

end CExample
end CenCalVM
