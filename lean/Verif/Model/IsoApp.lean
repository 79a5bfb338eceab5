/-
The application cencalvmisosurface.
-/
import Verif.Model.QueryApp
import Mathlib.Data.Int.Log

namespace CenCalVM
namespace IsoApp
variable {K : Type}

/-- The settings of cencalvmisosurface, applications/query/cencalvmisosurface.cc:331-340 (`queryRes` is not used). -/
structure Options (K : Type) where
  vs : K
  filenameIn : String
  filenameOut : String
  filenameDB : String
  filenameDBExt : String
  cacheSize : Int
  squashLimit : K
  elevMin : K

/-- Values before the command line is read, applications/query/cencalvmisosurface.cc:331-340. -/
def defaults [Field K] : Options K := ⟨0, "", "", "", "", 128, 1000000, -45000⟩

/-- The option letters, applications/query/cencalvmisosurface.cc:83. -/
def spec : OptSpec := ⟨['c', 'd', 'e', 'i', 'o', 's', 'v', 'z'], ['h']⟩

/-- One option with an argument, applications/query/cencalvmisosurface.cc:86-122. -/
def setOpt (cv : QueryApp.Conv K) (o : Options K) (c : Char) (v : String) : Options K :=
  match c with
  | 'c' => { o with cacheSize := cv.atoi v }
  | 'd' => { o with filenameDB := v }
  | 'e' => { o with filenameDBExt := v }
  | 'i' => { o with filenameIn := v }
  | 'o' => { o with filenameOut := v }
  | 's' => { o with squashLimit := cv.atof v }
  | 'v' => { o with vs := cv.atof v }
  | 'z' => { o with elevMin := cv.atof v }
  | _ => o

/-- The loop over the options with the count of words parsed, applications/query/cencalvmisosurface.cc:83-127: the exit code
is 0 at `-h` and 1 at an unknown option. -/
def parseLoop (cv : QueryApp.Conv K) : List Opt → Options K → Nat → Except Int (Options K × Nat)
  | [], o, n => .ok (o, n)
  | .arg c v :: os, o, n => parseLoop cv os (setOpt cv o c v) (n + 2)
  | .flag _ :: _, _, _ => .error 0
  | .unknown :: _, _, _ => .error 1

/-- `parseArgs`, applications/query/cencalvmisosurface.cc:53-137, on the words after the program name: the settings, or the
exit code. -/
def parseArgs [Field K] [DecidableEq K] (cv : QueryApp.Conv K) (argv : List (List Char)) : Except Int (Options K) :=
  match parseLoop cv (spec.getopt argv) defaults 1 with
  | .error c => .error c
  | .ok (o, n) =>
    if n ≠ argv.length + 1 ∨ o.vs = 0 ∨ o.filenameIn.length = 0 ∨ o.filenameOut.length = 0 ∨ o.filenameDB.length = 0 then .error 1
    else .ok o

/-- The numbers of one line of output, applications/query/cencalvmisosurface.cc:407-414 (Model/Print has how they are printed). -/
structure Line (K : Type) where
  lon : K
  lat : K
  dist : K
  deriving DecidableEq

/-- How the program ends. -/
inductive Ending where
  /-- `return` from `main`: files are closed. -/
  | ret (code : Int)
  /-- `exit(1)` in `searchVs`: automatic objects are not destroyed, so lines still in the buffer of the output stream are
  lost. -/
  | exit
  /-- An exception that is not caught (`std::terminate`): lines still in the buffer are lost. -/
  | abort
  deriving DecidableEq, Repr

/-- How the program ends, and the lines passed to the output stream (those in the output file if `main` returned). -/
structure Result (K : Type) where
  ending : Ending
  lines : List (Line K)
  deriving DecidableEq

/-- How the program computes with elevations (applications/query/cencalvmisosurface.cc:242-322,391-404): `rd` rounds the result of
an operation to `double`, `clog x` is `ceil(log(x) / log(2.0))` (271). -/
structure Arith (K : Type) where
  rd : K → K
  clog : K → Int

variable [Field K] [LinearOrder K]
open QueryApp (Env checked)

/-- Exact arithmetic (`niters_real`). -/
def Arith.exact [FloorRing K] : Arith K := ⟨id, Int.clog 2⟩

/-- The middle between two elevations, applications/query/cencalvmisosurface.cc:292. -/
def Arith.middle (ar : Arith K) (upper lower : K) : K := ar.rd (0.5 * ar.rd (upper + lower))

/-- `initialize`, applications/query/cencalvmisosurface.cc:140-206.  Its result is not used by `main` (line 351), so only the
query object matters.  The test `"" != filenameDBExt` (line 172) compares pointers and holds always. -/
def setup (env : Env K) (o : Options K) (q : VMQuery K) : Outcome (VMQuery K) := do
  let q := VMQuery.setFilename q o.filenameDB
  let q := VMQuery.setCacheSize q o.cacheSize
  let q := VMQuery.setFilenameExt q o.filenameDBExt
  let q := VMQuery.setCacheSizeExt q o.cacheSize
  let q := if o.squashLimit ≠ 1000000 then VMQuery.squash q true o.squashLimit else q
  let q ← VMQuery.openDb env.disk q
  if q.err.status ≠ .OK then .ok q else .ok (VMQuery.queryType q 0)

/-- A query for a single value, e.g. applications/query/cencalvmisosurface.cc:235-236. -/
def valueAt (fmt : Fmt K) (q : VMQuery K) (fs : Files) (lon lat elev : K) : Outcome (K × VMQuery K × Files) := do
  let r ← VMQuery.query fmt q fs 1 lon lat elev
  match r.2.2 with
  | [v] => .ok (v, r.1, r.2.1)
  | _ => .ub

/-- The loop of `queryElev`, applications/query/cencalvmisosurface.cc:242-252, from iteration `iter` with `n` left. -/
def groundLoop (ar : Arith K) (fmt : Fmt K) (lon lat elev : K) : Nat → Nat → VMQuery K → Files → Outcome (K × VMQuery K × Files)
  | 0, _, q, fs => .ok (elev, q, fs)
  | n + 1, iter, q, fs => do
    let elevQ := ar.rd (elev + ar.rd (iter * (-12.5)))
    let r ← valueAt fmt q fs lon lat elevQ
    if r.1 > 0 then .ok (elevQ, r.2) else groundLoop ar fmt lon lat elev n (iter + 1) r.2.1 r.2.2

/-- `queryElev`, applications/query/cencalvmisosurface.cc:209-257. -/
def queryElev (ar : Arith K) (fmt : Fmt K) (q : VMQuery K) (fs : Files) (lon lat : K) : Outcome (K × VMQuery K × Files) := do
  let q ← VMQuery.setQueryVals q ["Elevation"] 1
  if q.err.status ≠ .OK then .exc "Could not get elevation."
  else do
    let r ← valueAt fmt q fs lon lat (-5000)
    let q ← VMQuery.setQueryVals r.2.1 ["Vs"] 1
    groundLoop ar fmt lon lat r.1 10 0 q r.2.2

/-- What one iteration of the search does. -/
inductive Round (K : Type) where
  | next (upper lower elevVs : K)
  | done (elevVs : K)
  | exit

/-- The decision of one iteration, applications/query/cencalvmisosurface.cc:292,296-318. -/
def decideRound (target upper middle lower vsU vsL vsM : K) : Round K :=
  if target > vsU ∧ target ≤ vsM then .next upper middle middle
  else if target > vsM ∧ target ≤ vsL then .next middle lower lower
  else if target ≤ vsU then .done upper
  else if vsL < 0 then .done 1000000
  else .exit

/-- One iteration of the search, applications/query/cencalvmisosurface.cc:286-318. -/
def searchRound (ar : Arith K) (fmt : Fmt K) (target lon lat upper lower : K) (q : VMQuery K) (fs : Files) : Outcome (Round K × VMQuery K × Files) := do
  let u ← valueAt fmt q fs lon lat upper
  let l ← valueAt fmt u.2.1 u.2.2 lon lat lower
  let m ← valueAt fmt l.2.1 l.2.2 lon lat (ar.middle upper lower)
  .ok (decideRound target upper (ar.middle upper lower) lower u.1 l.1 m.1, m.2)

/-- The loop of `searchVs`, applications/query/cencalvmisosurface.cc:285-319; `none` is `exit(1)`. -/
def searchLoop (ar : Arith K) (fmt : Fmt K) (target lon lat : K) : Nat → K → K → K → VMQuery K → Files → Outcome (Option K × VMQuery K × Files)
  | 0, _, _, elevVs, q, fs => .ok (some elevVs, q, fs)
  | n + 1, upper, lower, _, q, fs => do
    let r ← searchRound ar fmt target lon lat upper lower q fs
    match r.1 with
    | .next u l e => searchLoop ar fmt target lon lat n u l e r.2.1 r.2.2
    | .done e => .ok (some e, r.2)
    | .exit => .ok (none, r.2)

/-- The number of iterations, `int(1 + ceil(log((upper - lower) / 25.0) / log(2.0)))`,
applications/query/cencalvmisosurface.cc:270-271; converting the logarithm of a number that is not positive is undefined. -/
def niters (ar : Arith K) (upper lower : K) : Outcome Int :=
  if 0 < ar.rd (ar.rd (upper - lower) / 25) then .ok (1 + ar.clog (ar.rd (ar.rd (upper - lower) / 25))) else .ub

/-- `searchVs`, applications/query/cencalvmisosurface.cc:260-322. -/
def searchVs (ar : Arith K) (fmt : Fmt K) (q : VMQuery K) (fs : Files) (target lon lat upper lower : K) : Outcome (Option K × VMQuery K × Files) := do
  let n ← niters ar upper lower
  let q ← VMQuery.setQueryVals q ["Vs"] 1
  searchLoop ar fmt target lon lat n.toNat upper lower lower q fs

/-- The upper and lower limit of the search, applications/query/cencalvmisosurface.cc:391-392. -/
def limits (ar : Arith K) (o : Options K) (elevTopo : K) : K × K :=
  if o.squashLimit ≠ 1000000 then (0, ar.rd (-elevTopo + o.elevMin)) else (elevTopo, o.elevMin)

/-- The number written, applications/query/cencalvmisosurface.cc:404. -/
def distIsosurf (ar : Arith K) (elevTopo elevVs : K) : K := if elevVs ≠ 1000000 then ar.rd (elevTopo - elevVs) else -999

/-- The queries for one location, applications/query/cencalvmisosurface.cc:390-393. -/
def locate (ar : Arith K) (fmt : Fmt K) (o : Options K) (q : VMQuery K) (fs : Files) (lon lat : K) : Outcome (Option K × VMQuery K × Files) := do
  let t ← queryElev ar fmt q fs lon lat
  let r ← searchVs ar fmt t.2.1 t.2.2 o.vs lon lat (limits ar o t.1).1 (limits ar o t.1).2
  .ok (r.1.map (distIsosurf ar t.1), r.2)

/-- Reading a location, applications/query/cencalvmisosurface.cc:377,417. -/
def readLoc (nf : NumFmt K) (s : Stream) (loc : K × K) : Stream × (K × K) :=
  let r1 := GridIngester.readReal nf s loc.1
  let r2 := GridIngester.readReal nf r1.1 loc.2
  (r2.1, r1.2, r2.2)

/-- Returning from `main`: the query object is destroyed (closing databases still open). -/
def leave (env : Env K) (q : VMQuery K) (code : Int) (lines : List (Line K)) : Outcome (Result K) := do
  VMQuery.destroy env.closeFail env.closeFailExt q
  .ok ⟨.ret code, lines⟩

/-- After the loop, applications/query/cencalvmisosurface.cc:420-433. -/
def finish (env : Env K) (q : VMQuery K) (lines : List (Line K)) : Outcome (Result K) :=
  let q := VMQuery.close env.closeFail env.closeFailExt q
  if q.err.status ≠ .OK then leave env q 1 lines else leave env q 0 lines

/-- The loop over the locations, applications/query/cencalvmisosurface.cc:388-418.  The first argument bounds the number of
rounds; each round reads part of the text, so the length of the text suffices (`loop_ends`). -/
def loop (ar : Arith K) (env : Env K) (o : Options K) : Nat → Stream → K × K → VMQuery K → Files → List (Line K) → Outcome (Result K)
  | 0, _, _, _, _, _ => .ub
  | n + 1, s, loc, q, fs, lines =>
    if s.good && env.outGood lines.length then
      match locate ar env.fmt o q fs loc.1 loc.2 with
      | .ub => .ub
      | .exc _ => .ok ⟨.abort, lines⟩
      | .ok (none, _, _) => .ok ⟨.exit, lines⟩
      | .ok (some dist, q, fs) =>
        if q.err.status = .ERROR then leave env q 1 lines
        else
          let next := readLoc env.nf s loc
          loop ar env o n next.1 next.2 (QueryApp.settle q) fs (lines ++ [⟨loc.1, loc.2, dist⟩])
    else finish env q lines

/-- `main` after the command line has been read, applications/query/cencalvmisosurface.cc:347-434. -/
def run (ar : Arith K) (env : Env K) (o : Options K) : Outcome (Result K) := do
  let q ← setup env o (VMQuery.init env.geom)
  match env.input o.filenameIn with
  | none => leave env q 1 []
  | some text =>
    if env.canWrite o.filenameOut then
      let r := readLoc env.nf (Stream.ofText text) (0, 0)
      loop ar env o (text.length + 1) r.1 r.2 q (fun _ => "") []
    else leave env q 1 []

/-- `main`, applications/query/cencalvmisosurface.cc:327-434. -/
def main (ar : Arith K) (env : Env K) (cv : QueryApp.Conv K) (argv : List (List Char)) : Outcome (Result K) :=
  match parseArgs cv argv with
  | .error c => .ok ⟨.ret c, []⟩
  | .ok o => run ar env o

end IsoApp
end CenCalVM
