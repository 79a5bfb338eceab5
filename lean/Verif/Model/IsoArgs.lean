/-
The command line of cencalvmisosurface with its help text.
-/
import Verif.Model.IsoConsole

namespace CenCalVM
namespace IsoApp
open QueryApp (Env Conv)
variable {K : Type} [Field K] [LinearOrder K]

/-- The text of `usage`, applications/query/cencalvmisosurface.cc:32-49. -/
def usage : String :=
  "usage: cencalvmisosurface [-h] -v vs -i fileIn -o fileOut -d dbfile\n" ++
  "       [-e dbextfile] [-c cacheSize] [-s squashLimit] [-z elevMin]\n" ++
  "\n" ++
  "  -v vs         Value of shear wave speed for isosurface\n" ++
  "  -s squashLim  Turn on squashing of topography and set limit\n" ++
  "  -i fileIn     File containing list of locations: 'lon lat'.\n" ++
  "  -o fileOut    Output file with locations and elev of isosurface.\n" ++
  "  -d dbfile     Etree database file to query.\n" ++
  "  -e dbextfile  Etree extended database file to query.\n" ++
  "  -c cacheSize  Size of cache in MB to use in query\n" ++
  "  -s squashLim  Turn on squashing of topography and set limit\n" ++
  "  -z elevMin    Minimum elevation to consider for isosurface\n" ++
  "  -h            Display usage and exit.\n"

/-- The loop over the options, applications/query/cencalvmisosurface.cc:83-127, with standard error: `usage()` at `-h` and at what
`getopt` does not know, each followed by `exit`.  The messages of `getopt` itself are left out. -/
def parseLoopSaid (cv : Conv K) : List Opt → Options K → Nat → String → Except Int (Options K × Nat) × String
  | [], o, n, t => (.ok (o, n), t)
  | .arg c v :: os, o, n, t => parseLoopSaid cv os (setOpt cv o c v) (n + 2) t
  | .flag _ :: _, _, _, t => (.error 0, t ++ usage)
  | .unknown :: _, _, _, t => (.error 1, t ++ usage)

/-- `parseArgs`, applications/query/cencalvmisosurface.cc:53-137: the settings or the exit code, and standard error. -/
def parseArgsSaid (cv : Conv K) (argv : List (List Char)) : Except Int (Options K) × String :=
  match parseLoopSaid cv (spec.getopt argv) defaults 1 "" with
  | (.error c, t) => (.error c, t)
  | (.ok (o, n), t) =>
    if n ≠ argv.length + 1 ∨ o.vs = 0 ∨ o.filenameIn.length = 0 ∨ o.filenameOut.length = 0 ∨ o.filenameDB.length = 0 then
      (.error 1, t ++ usage)
    else (.ok o, t)

/-- `main`, applications/query/cencalvmisosurface.cc:327-434, with standard error. -/
def mainSaid (ar : Arith K) (env : Env K) (cv : Conv K) (argv : List (List Char)) : Outcome (Report K) :=
  match parseArgsSaid cv argv with
  | (.error c, t) => .ok ⟨⟨.ret c, []⟩, t⟩
  | (.ok o, t) => do
    let r ← runSaid ar env o
    .ok ⟨r.result, t ++ r.err⟩

end IsoApp
end CenCalVM
