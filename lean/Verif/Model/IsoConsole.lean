/-
What cencalvmisosurface writes to standard error.
-/
import Verif.Model.IsoApp

namespace CenCalVM
namespace IsoApp
variable {K : Type}

/-- How the program ends and what it has written to standard error, applications/query/cencalvmisosurface.cc:347-434.  What
the C++ library writes when an exception is not caught is left out. -/
structure Report (K : Type) where
  result : Result K
  err : String
  deriving DecidableEq

variable [Field K] [LinearOrder K]
open QueryApp (Env)

/-- The tests of the status in `initialize`, e.g. applications/query/cencalvmisosurface.cc:157-160: the object and the text, and
whether to go on. -/
def setting (r : VMQuery K × Option String) (f : VMQuery K → VMQuery K) : VMQuery K × Option String :=
  match r.2 with
  | some t => (r.1, some t)
  | none => (f r.1, if (f r.1).err.status ≠ .OK then some (f r.1).err.message else none)

/-- `initialize`, applications/query/cencalvmisosurface.cc:140-206, with what it writes. -/
def setupSaid (env : Env K) (o : Options K) (q : VMQuery K) : Outcome (VMQuery K × String) := do
  let r := setting (q, none) fun q => VMQuery.setFilename q o.filenameDB
  let r := setting r fun q => VMQuery.setCacheSize q o.cacheSize
  let r := setting r fun q => VMQuery.setFilenameExt q o.filenameDBExt
  let r := setting r fun q => VMQuery.setCacheSizeExt q o.cacheSize
  let r := if o.squashLimit ≠ 1000000 then setting r fun q => VMQuery.squash q true o.squashLimit else r
  match r.2 with
  | some t => .ok (r.1, t)
  | none => do
    let q ← VMQuery.openDb env.disk r.1
    if q.err.status ≠ .OK then .ok (q, q.err.message) else .ok (VMQuery.queryType q 0, "")

/-- `queryElev`, applications/query/cencalvmisosurface.cc:209-257; `error` is what is written before the exception. -/
def queryElevSaid (ar : Arith K) (fmt : Fmt K) (q : VMQuery K) (fs : Files) (lon lat : K) :
    Outcome (Except String (K × VMQuery K × Files)) := do
  let q ← VMQuery.setQueryVals q ["Elevation"] 1
  if q.err.status ≠ .OK then .ok (.error q.err.message)
  else do
    let r ← valueAt fmt q fs lon lat (-5000)
    let q ← VMQuery.setQueryVals r.2.1 ["Vs"] 1
    let g ← groundLoop ar fmt lon lat r.1 10 0 q r.2.2
    .ok (.ok g)

/-- The message before `exit(1)`, applications/query/cencalvmisosurface.cc:309-316. -/
def rangeSaid (fmt : Fmt K) (target lon lat upper lower middle vsU vsL vsM : K) : String :=
  "Invalid search range!\n" ++ "Target vs: " ++ fmt.gen target ++ "\n" ++
  "Location: (" ++ fmt.gen lon ++ ", " ++ fmt.gen lat ++ ")\n" ++
  "Upper Vs(z=" ++ fmt.gen upper ++ "): " ++ fmt.gen vsU ++ "\n" ++
  "Lower Vs(z=" ++ fmt.gen lower ++ "): " ++ fmt.gen vsL ++ "\n" ++
  "Middle Vs(z=" ++ fmt.gen middle ++ "): " ++ fmt.gen vsM ++ "\n"

/-- The loop of `searchVs`, applications/query/cencalvmisosurface.cc:285-319; `error` is what is written before `exit(1)`. -/
def searchLoopSaid (ar : Arith K) (fmt : Fmt K) (target lon lat : K) :
    Nat → K → K → K → VMQuery K → Files → Outcome (Except String K × VMQuery K × Files)
  | 0, _, _, elevVs, q, fs => .ok (.ok elevVs, q, fs)
  | n + 1, upper, lower, _, q, fs => do
    let u ← valueAt fmt q fs lon lat upper
    let l ← valueAt fmt u.2.1 u.2.2 lon lat lower
    let m ← valueAt fmt l.2.1 l.2.2 lon lat (ar.middle upper lower)
    match decideRound target upper (ar.middle upper lower) lower u.1 l.1 m.1 with
    | .next u l e => searchLoopSaid ar fmt target lon lat n u l e m.2.1 m.2.2
    | .done e => .ok (.ok e, m.2)
    | .exit => .ok (.error (rangeSaid fmt target lon lat upper lower (ar.middle upper lower) u.1 l.1 m.1), m.2)

/-- `searchVs`, applications/query/cencalvmisosurface.cc:260-322. -/
def searchVsSaid (ar : Arith K) (fmt : Fmt K) (q : VMQuery K) (fs : Files) (target lon lat upper lower : K) :
    Outcome (Except String K × VMQuery K × Files) := do
  let n ← niters ar upper lower
  let q ← VMQuery.setQueryVals q ["Vs"] 1
  searchLoopSaid ar fmt target lon lat n.toNat upper lower lower q fs

/-- What comes of a location, applications/query/cencalvmisosurface.cc:390-404: a distance with the object, or what is written
before `exit(1)` or the exception. -/
inductive Found (K : Type) where
  | dist (d : K) (q : VMQuery K) (fs : Files)
  | exit (t : String)
  | abort (t : String)

/-- The queries for one location, applications/query/cencalvmisosurface.cc:390-393. -/
def locateSaid (ar : Arith K) (fmt : Fmt K) (o : Options K) (q : VMQuery K) (fs : Files) (lon lat : K) : Outcome (Found K) := do
  match ← queryElevSaid ar fmt q fs lon lat with
  | .error t => .ok (.abort t)
  | .ok t => do
    let r ← searchVsSaid ar fmt t.2.1 t.2.2 o.vs lon lat (limits ar o t.1).1 (limits ar o t.1).2
    match r.1 with
    | .error t => .ok (.exit t)
    | .ok e => .ok (.dist (distIsosurf ar t.1 e) r.2.1 r.2.2)

/-- Returning from `main`; the destructor of the query object writes nothing (libsrc/cencalvm/query/VMQuery.cc:54-64). -/
def leaveSaid (env : Env K) (q : VMQuery K) (code : Int) (lines : List (Line K)) (t : String) : Outcome (Report K) := do
  let r ← leave env q code lines
  .ok ⟨r, t⟩

/-- After the loop, applications/query/cencalvmisosurface.cc:420-433. -/
def finishSaid (env : Env K) (q : VMQuery K) (lines : List (Line K)) (t : String) : Outcome (Report K) :=
  let q := VMQuery.close env.closeFail env.closeFailExt q
  if q.err.status ≠ .OK then leaveSaid env q 1 lines (t ++ q.err.message) else leaveSaid env q 0 lines t

/-- The message of a warning or error, applications/query/cencalvmisosurface.cc:396-397. -/
def say (q : VMQuery K) (t : String) : String := if q.err.status ≠ .OK then t ++ q.err.message else t

/-- The loop over the locations, applications/query/cencalvmisosurface.cc:388-418, with the text written so far. -/
def loopSaid (ar : Arith K) (env : Env K) (o : Options K) :
    Nat → Stream → K × K → VMQuery K → Files → List (Line K) → String → Outcome (Report K)
  | 0, _, _, _, _, _, _ => .ub
  | n + 1, s, loc, q, fs, lines, t =>
    if s.good && env.outGood lines.length then
      match locateSaid ar env.fmt o q fs loc.1 loc.2 with
      | .ub => .ub
      | .exc _ => .ok ⟨⟨.abort, lines⟩, t⟩
      | .ok (.abort t') => .ok ⟨⟨.abort, lines⟩, t ++ t'⟩
      | .ok (.exit t') => .ok ⟨⟨.exit, lines⟩, t ++ t'⟩
      | .ok (.dist dist q fs) =>
        if q.err.status = .ERROR then leaveSaid env q 1 lines (say q t)
        else
          let next := readLoc env.nf s loc
          loopSaid ar env o n next.1 next.2 (QueryApp.settle q) fs (lines ++ [⟨loc.1, loc.2, dist⟩]) (say q t)
    else finishSaid env q lines t

/-- `main` after the command line has been read, applications/query/cencalvmisosurface.cc:347-434. -/
def runSaid (ar : Arith K) (env : Env K) (o : Options K) : Outcome (Report K) := do
  let q ← setupSaid env o (VMQuery.init env.geom)
  match env.input o.filenameIn with
  | none => leaveSaid env q.1 1 [] (q.2 ++ "Could not open file '" ++ o.filenameIn ++ "' to read query locations.\n")
  | some text =>
    if env.canWrite o.filenameOut then
      let r := readLoc env.nf (Stream.ofText text) (0, 0)
      loopSaid ar env o (text.length + 1) r.1 r.2 q.1 (fun _ => "") [] q.2
    else leaveSaid env q.1 1 [] (q.2 ++ "Could not open file '" ++ o.filenameOut ++ "' to receive query data.\n")

end IsoApp
end CenCalVM
