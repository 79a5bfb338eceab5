/-
What cencalvmquery writes to standard error.
-/
import Verif.Model.QueryApp

namespace CenCalVM
namespace QueryApp

/-- The text of `usage`, applications/query/cencalvmquery.cc:31-73. -/
def usage : String :=
  "usage: cencalvmquery [-h] -i fileIn -o fileOut -d dbfile\n" ++
  "       [-l logfile] [-t queryType] [-r res] [-e dbextfile]\n" ++
  "       [-c cacheSize] [-s squashLimit]\n" ++
  "\n" ++
  "  -h            Display usage and exit.\n" ++
  "  -i fileIn     File containing list of locations: 'lon lat elev'.\n" ++
  "  -o fileOut    Output file with locations and material properties.\n" ++
  "  -d dbfile     Etree database file to query.\n" ++
  "  -e dbextfile  Etree extended database file to query.\n" ++
  "  -l logfile    Log file for warnings about no data for locations.\n" ++
  "  -t queryType  Type of query {'maxres', 'fixedres', 'waveres'}\n" ++
  "  -r res        Resolution for query (not needed for maxres queries)\n" ++
  "  -c cacheSize  Size of cache in MB to use in query\n" ++
  "  -s squashLim  Turn on squashing of topography and set limit\n" ++
  "\n" ++
  "Each line of the output file will have the following values:\n" ++
  "  0: longitude (WGS84)\n" ++
  "  1: latitude (WGS84)\n" ++
  "  2: elevation (m)\n" ++
  "  3: Vp (m/s)\n" ++
  "  4: Vs (m/s)\n" ++
  "  5: density (kg/m**3)\n" ++
  "  6: Qp\n" ++
  "  7: Qs\n" ++
  "  8: Depth from free surface (m)\n" ++
  "  9: Fault block id\n" ++
  "  10: Zone id\n" ++
  "  11: Elevation (m) of ground surface at longitude/latitude\n" ++
  "\n" ++
  "Notes:\n" ++
  "\n" ++
  "  1. Values are not interpolated from the Etree database. That is, queries\n" ++
  "     for any point within a grid cell in the database will return the\n" ++
  "     values for the grid cell that correspond to its centroid.\n" ++
  "\n" ++
  "  2. The elevation for a given longitude/latitude can differ between\n" ++
  "     database cells at different resolutions because the centroid will\n" ++
  "     shift horizontally as the resolution changes.\n" ++ "\n"

/-- How the program ends and what it has written to standard error, applications/query/cencalvmquery.cc:189-350. -/
structure Report (K : Type) where
  result : Result K
  err : String

variable {K : Type} [Field K] [LinearOrder K]
open VMQuery (setFilename setFilenameExt setCacheSize setCacheSizeExt setQueryRes squash openDb queryType query sameName)

/-- Returning from `main`; the destructor of the query object writes nothing (libsrc/cencalvm/query/VMQuery.cc:54-64). -/
def leaveSaid (env : Env K) (r : Result K) (t : String) : Outcome (Report K) := do
  let r ← leave env r
  .ok ⟨r, t⟩

/-- The tests of the status after each setting, e.g. applications/query/cencalvmquery.cc:205-208: `error` is what is written
before `return 1`. -/
def checkedSaid (q : VMQuery K) : Except String (VMQuery K) := if q.err.status ≠ .OK then .error q.err.message else .ok q

/-- Setting the extended database, applications/query/cencalvmquery.cc:218-230. -/
def setExtSaid (o : Options K) (q : VMQuery K) : Except String (VMQuery K) :=
  if "" ≠ o.filenameDBExt then do
    let q ← checkedSaid (setFilenameExt q o.filenameDBExt)
    checkedSaid (setCacheSizeExt q o.cacheSize)
  else .ok q

/-- Setting up squashing, applications/query/cencalvmquery.cc:233-239. -/
def setSquashSaid (o : Options K) (q : VMQuery K) : Except String (VMQuery K) :=
  if o.squashLimit ≠ 1000000 then checkedSaid (squash q true o.squashLimit) else .ok q

/-- The settings before opening, applications/query/cencalvmquery.cc:204-239. -/
def configureSaid (o : Options K) (q : VMQuery K) : Except String (VMQuery K) := do
  let q ← checkedSaid (setFilename q o.filenameDB)
  let q ← checkedSaid (setCacheSize q o.cacheSize)
  let q ← setExtSaid o q
  setSquashSaid o q

/-- The type of query, applications/query/cencalvmquery.cc:252-271. -/
def selectTypeSaid (o : Options K) (q : VMQuery K) : Except String (VMQuery K) :=
  if sameName o.queryType "maxres" then .ok (queryType q 0)
  else if o.queryRes < 0 then .error ("Query resolution must be a positive value." ++ usage)
  else
    let q := setQueryRes q o.queryRes
    if sameName o.queryType "fixedres" then .ok (queryType q 1)
    else if sameName o.queryType "waveres" then .ok (queryType q 2)
    else .error ("Could not parse query string '" ++ o.queryType ++ "' into a known type of query." ++ usage)

/-- After the loop, applications/query/cencalvmquery.cc:338-350. -/
def finishSaid (env : Env K) (q : VMQuery K) (fs : Files) (lines : List (Line K)) (t : String) : Outcome (Report K) :=
  let q := VMQuery.close env.closeFail env.closeFailExt q
  if q.err.status ≠ .OK then leaveSaid env ⟨1, lines, q, fs⟩ (t ++ q.err.message) else leaveSaid env ⟨0, lines, q, fs⟩ t

/-- The message of a warning or error, applications/query/cencalvmquery.cc:305-306. -/
def say (q : VMQuery K) (t : String) : String := if q.err.status ≠ .OK then t ++ q.err.message else t

/-- The loop over the locations, applications/query/cencalvmquery.cc:300-335, with the text written so far. -/
def loopSaid (env : Env K) : Nat → Stream → K × K × K → VMQuery K → Files → List (Line K) → String → Outcome (Report K)
  | 0, _, _, _, _, _, _ => .ub
  | n + 1, s, loc, q, fs, lines, t =>
    if s.good && env.outGood lines.length then do
      let r ← query env.fmt q fs 9 loc.1 loc.2.1 loc.2.2
      if r.1.err.status = .ERROR then leaveSaid env ⟨1, lines, r.1, r.2.1⟩ (say r.1 t)
      else
        let next := readLoc env.nf s loc
        loopSaid env n next.1 next.2 (settle r.1) r.2.1 (lines ++ [⟨loc.1, loc.2.1, loc.2.2, r.2.2⟩]) (say r.1 t)
    else finishSaid env q fs lines t

/-- `main` after the command line has been read, applications/query/cencalvmquery.cc:189-350. -/
def runSaid (env : Env K) (o : Options K) (fs : Files) : Outcome (Report K) :=
  let st := start env o fs
  let q0 : VMQuery K := { VMQuery.init env.geom with err := st.1 }
  match configureSaid o q0 with
  | .error t => leaveSaid env ⟨1, [], q0, st.2⟩ t
  | .ok q => do
    let q ← openDb env.disk q
    match checkedSaid q >>= selectTypeSaid o with
    | .error t => leaveSaid env ⟨1, [], q, st.2⟩ t
    | .ok q =>
      match env.input o.filenameIn with
      | none => leaveSaid env ⟨1, [], q, st.2⟩ ("Could not open file '" ++ o.filenameIn ++ "' to read query locations.\n")
      | some text =>
        if env.canWrite o.filenameOut then
          let r := readLoc env.nf (Stream.ofText text) (0, 0, 0)
          loopSaid env (text.length + 1) r.1 r.2 q st.2 [] ""
        else leaveSaid env ⟨1, [], q, st.2⟩ ("Could not open file '" ++ o.filenameOut ++ "' to receive query data.\n")

end QueryApp
end CenCalVM
