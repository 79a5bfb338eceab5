/-
What the example in C++ writes to standard error.
-/
import Verif.Model.CppExample
import Verif.Model.QueryConsole

namespace CenCalVM
namespace CppExample
open QueryApp (Options Env Line Result Conv Report leave leaveSaid)
open VMQuery (setFilename setFilenameExt setCacheSize setCacheSizeExt setQueryRes setQueryVals squash openDb queryType query sameName)

/-- The text of `usage`, examples/query/cpp/cencalvmcppquery.cc:38-57. -/
def usage : String :=
  "usage: cencalvmcppquery [-h] -i fileIn -o fileOut -d dbfile\n" ++
  "       [-l logfile] [-t queryType] [-r res] [-e dbextfile]\n" ++
  "       [-c cacheSize] [-s squashLimit]\n" ++
  "\n" ++
  "  -i fileIn     File containing list of locations: 'lon lat elev'.\n" ++
  "  -o fileOut    Output file with locations and material properties.\n" ++
  "  -d dbfile     Etree database file to query.\n" ++
  "  -e dbextfile  Etree extended database file to query.\n" ++
  "  -t queryType  Type of query {'maxres', 'fixedres', 'waveres'}\n" ++
  "  -r res        Resolution for query (not needed for maxres queries\n" ++
  "  -c cacheSize  Size of cache in MB to use in query\n" ++
  "  -s squashLim  Turn on squashing of topography and set limit\n" ++
  "  -h            Display usage and exit.\n" ++
  "  -l logfile    Log file for warnings about no data for locations.\n"

variable {K : Type} [Field K] [LinearOrder K]

/-- The tests of the status after each setting, e.g. examples/query/cpp/cencalvmcppquery.cc:188-191: `error` is what is written
before `return 1`. -/
def checkedSaid (q : VMQuery K) : Except String (VMQuery K) := if .OK ≠ q.err.status then .error q.err.message else .ok q

/-- The settings before the choice of values, examples/query/cpp/cencalvmcppquery.cc:186-223. -/
def configureSaid (o : Options K) (q : VMQuery K) : Except String (VMQuery K) := do
  let q ← checkedSaid (setFilename q o.filenameDB)
  let q ← checkedSaid (setCacheSize q o.cacheSize)
  let q ← if "" ≠ o.filenameDBExt then do
      let q ← checkedSaid (setFilenameExt q o.filenameDBExt)
      checkedSaid (setCacheSizeExt q o.cacheSize)
    else .ok q
  if o.squashLimit ≠ 1000000 then checkedSaid (squash q true o.squashLimit) else .ok q

/-- The choice of values at compile time, examples/query/cpp/cencalvmcppquery.cc:225-236. -/
def chooseValsSaid (all : Bool) (q : VMQuery K) : Outcome (Except String (VMQuery K)) :=
  if all then .ok (.ok q)
  else do
    let q ← setQueryVals q ["FaultBlock", "Zone"] 2
    .ok (checkedSaid q)

/-- The type of query, examples/query/cpp/cencalvmcppquery.cc:245-265. -/
def selectTypeSaid (o : Options K) (q : VMQuery K) : Except String (VMQuery K) :=
  if sameName o.queryType "maxres" then .ok (queryType q 0)
  else if o.queryRes < 0 then .error ("Query resolution must be a positive value." ++ usage)
  else
    let q := setQueryRes q o.queryRes
    if sameName o.queryType "fixedres" then .ok (queryType q 1)
    else if sameName o.queryType "waveres" then .ok (queryType q 2)
    else .error ("Could not parse query string '" ++ o.queryType ++ "' into a known type of query." ++ usage)

/-- After the loop, examples/query/cpp/cencalvmcppquery.cc:339-352. -/
def finishSaid (env : Env K) (q : VMQuery K) (fs : Files) (lines : List (Line K)) (t : String) : Outcome (Report K) :=
  let q := VMQuery.close env.closeFail env.closeFailExt q
  if .OK ≠ q.err.status then leaveSaid env ⟨1, lines, q, fs⟩ (t ++ q.err.message) else leaveSaid env ⟨0, lines, q, fs⟩ t

/-- The loop over the locations, examples/query/cpp/cencalvmcppquery.cc:294-337, with the text written so far. -/
def loopSaid (env : Env K) (all : Bool) :
    Nat → Stream → K × K × K → VMQuery K → Files → List (Line K) → String → Outcome (Report K)
  | 0, _, _, _, _, _, _ => .ub
  | n + 1, s, loc, q, fs, lines, t =>
    if s.good && env.outGood lines.length then do
      let r ← query env.fmt q fs (numVals all) loc.1 loc.2.1 loc.2.2
      let next := readLoc env.nf s loc
      if .OK ≠ r.1.err.status then
        let t := t ++ r.1.err.message
        if .ERROR = r.1.err.status then leaveSaid env ⟨1, lines, r.1, r.2.1⟩ t
        else
          loopSaid env all n next.1 next.2 { r.1 with err := r.1.err.resetStatus } r.2.1
            (lines ++ [⟨loc.1, loc.2.1, loc.2.2, r.2.2⟩]) t
      else loopSaid env all n next.1 next.2 r.1 r.2.1 (lines ++ [⟨loc.1, loc.2.1, loc.2.2, r.2.2⟩]) t
    else finishSaid env q fs lines t

/-- `main` after the command line has been read, examples/query/cpp/cencalvmcppquery.cc:173-353. -/
def runSaid (env : Env K) (all : Bool) (o : Options K) (fs : Files) : Outcome (Report K) :=
  let st := start env o fs
  let q0 : VMQuery K := { VMQuery.init env.geom with err := st.1 }
  match configureSaid o q0 with
  | .error t => leaveSaid env ⟨1, [], q0, st.2⟩ t
  | .ok q => do
    match ← chooseValsSaid all q with
    | .error t => leaveSaid env ⟨1, [], q, st.2⟩ t
    | .ok q => do
      let q ← openDb env.disk q
      match checkedSaid q with
      | .error t => leaveSaid env ⟨1, [], q, st.2⟩ t
      | .ok q =>
        match selectTypeSaid o q with
        | .error t => leaveSaid env ⟨1, [], q, st.2⟩ t
        | .ok q =>
          match env.input o.filenameIn with
          | none => leaveSaid env ⟨1, [], q, st.2⟩ ("Could not open file '" ++ o.filenameIn ++ "' to read query locations.\n")
          | some text =>
            if env.canWrite o.filenameOut then
              let r := readLoc env.nf (Stream.ofText text) (0, 0, 0)
              loopSaid env all (text.length + 1) r.1 r.2 q st.2 [] ""
            else leaveSaid env ⟨1, [], q, st.2⟩ ("Could not open file '" ++ o.filenameOut ++ "' to receive query data.\n")

end CppExample
end CenCalVM
