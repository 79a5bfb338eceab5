/-
The command line of cencalvmquery with the help texts it brings forth.
-/
import Verif.Model.QueryConsole

namespace CenCalVM
namespace QueryApp
variable {K : Type} [Field K] [LinearOrder K]

/-- The loop over the options, applications/query/cencalvmquery.cc:112-157, with standard error: `usage()` for `-h`, followed by
`exit(0)`, and for what `getopt` does not know (lines 155-156), where the loop goes on.  The messages of `getopt` itself are left
out. -/
def parseLoopSaid (cv : Conv K) : List Opt → Options K → Nat → String → Option (Options K × Nat) × String
  | [], o, n, t => (some (o, n), t)
  | .arg c v :: os, o, n, t => parseLoopSaid cv os (setOpt cv o c v) (n + 2) t
  | .flag _ :: _, _, _, t => (none, t ++ usage)
  | .unknown :: os, o, n, t => parseLoopSaid cv os o n (t ++ usage)

/-- `parseArgs`, applications/query/cencalvmquery.cc:78-165: the settings or the exit code, and standard error. -/
def parseArgsSaid (cv : Conv K) (argv : List (List Char)) : Except Int (Options K) × String :=
  match parseLoopSaid cv (spec.getopt argv) defaults 1 "" with
  | (none, t) => (.error 0, t)
  | (some (o, n), t) =>
    if n ≠ argv.length + 1 ∨ o.filenameIn.length = 0 ∨ o.filenameOut.length = 0 ∨ o.filenameDB.length = 0 then (.error 1, t ++ usage)
    else (.ok o, t)

/-- `main`, applications/query/cencalvmquery.cc:170-351: exit code, lines written, and standard error. -/
def mainSaid (env : Env K) (cv : Conv K) (argv : List (List Char)) (fs : Files) : Outcome (Int × List (Line K) × String) :=
  match parseArgsSaid cv argv with
  | (.error c, t) => .ok (c, [], t)
  | (.ok o, t) => do
    let r ← runSaid env o fs
    .ok (r.result.code, r.result.lines, t ++ r.err)

end QueryApp
end CenCalVM
