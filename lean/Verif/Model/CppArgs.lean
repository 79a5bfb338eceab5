/-
The command line of the example in C++ with the help texts it brings forth.
-/
import Verif.Model.CppConsole

namespace CenCalVM
namespace CppExample
open QueryApp (Options Conv Env Line)
variable {K : Type} [Field K] [LinearOrder K]

/-- The loop over the options, examples/query/cpp/cencalvmcppquery.cc:93-139, with standard error: `usage()` for `-h`, followed by
`exit(0)`, and for what `getopt` does not know, where the loop goes on.  The messages of `getopt` itself are left out. -/
def parseLoopSaid (cv : Conv K) : List Opt → Options K → Nat → String → Option (Options K × Nat) × String
  | [], o, n, t => (some (o, n), t)
  | .arg c v :: os, o, n, t => parseLoopSaid cv os (setOpt cv o c v) (n + 2) t
  | .flag _ :: _, _, _, t => (none, t ++ usage)
  | .unknown :: os, o, n, t => parseLoopSaid cv os o n (t ++ usage)

/-- `parseArgs`, examples/query/cpp/cencalvmcppquery.cc:60-148: the settings or the exit code, and standard error. -/
def parseArgsSaid (cv : Conv K) (argv : List (List Char)) : Except Int (Options K) × String :=
  match parseLoopSaid cv (spec.getopt argv) defaults 1 "" with
  | (none, t) => (.error 0, t)
  | (some (o, n), t) =>
    if n ≠ argv.length + 1 ∨ o.filenameIn.length = 0 ∨ o.filenameOut.length = 0 ∨ o.filenameDB.length = 0 then (.error 1, t ++ usage)
    else (.ok o, t)

end CppExample
end CenCalVM
