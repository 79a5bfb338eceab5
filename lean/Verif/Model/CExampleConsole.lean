/-
What the example program in C writes to standard error.
-/
import Verif.Model.CExample

namespace CenCalVM
namespace CExample
open CApi (World)
open QueryApp (Options Env Line)
variable {K : Type}

/-- The text of `usage`, examples/query/c/cencalvmcquery.c:33-51. -/
def usage : String :=
  "usage: cencalvmcquery [-h] -i fileIn -o fileOut -d dbfile\n" ++
  "       [-l logfile] [-t queryType] [-r res] [-e dbextfile]\n" ++
  "       [-c cacheSize] [-s squashlimit] \n" ++
  "\n" ++
  "  -i fileIn     File containing list of locations: 'lon lat elev'.\n" ++
  "  -o fileOut    Output file with locations and material properties.\n" ++
  "  -d dbfile     Etree database file to query.\n" ++
  "  -e dbextfile  Etree extended database file to query.\n" ++
  "  -t queryType  Type of query {'maxres', 'fixedres', 'waveres'}\n" ++
  "  -r res        Resolution for query (not needed for maxres queries\n" ++
  "  -c cacheSize  Size of cache in MB to use in query\n" ++
  "  -s squashLim  Turn on squashing of topography and set limit\n" ++
  "  -h            Display usage and exit.\n" ++
  "  -l logfile    Log file for messages.\n"

/-- How the program ends and what it has written to standard error, examples/query/c/cencalvmcquery.c:168-325. -/
structure Report (K : Type) where
  result : Result K
  err : String

variable [Field K] [LinearOrder K]

/-- The message `cencalvm_error_message` returns, e.g. examples/query/c/cencalvmcquery.c:188.  Simplification: a null pointer,
returned for a null handle only, prints as nothing. -/
def message (env : Env K) (h : Nat) (w : World K) : Outcome (World K × String) := do
  let r ← CApi.callFn env.fmt env.canLog w h .errMessage
  match r.2 with
  | .text (some t) => .ok (r.1, t)
  | _ => .ok (r.1, "")

/-- A call whose result is tested, e.g. examples/query/c/cencalvmcquery.c:187-190: `error` is what is written before `return 1`. -/
def checkedSaid (env : Env K) (h : Nat) (f : CApi.Fn K) (w : World K) : Outcome (Except String (World K)) := do
  let r ← CApi.callFn env.fmt env.canLog w h f
  match r.2 with
  | .code n =>
    if 0 ≠ n then do
      let m ← message env h r.1
      .ok (.error (m.2 ++ "\n"))
    else .ok (.ok r.1)
  | _ => .ok (.error "")

/-- Going on after a call that was tested, e.g. examples/query/c/cencalvmcquery.c:187-196. -/
def thenSaid {α : Type} (x : Outcome (Except String (World K))) (f : World K → Outcome (Except String α)) : Outcome (Except String α) := do
  match ← x with
  | .error t => .ok (.error t)
  | .ok w => f w

/-- Setting the extended database, examples/query/c/cencalvmcquery.c:199-209. -/
def setExtSaid (env : Env K) (o : Options K) (h : Nat) (w : World K) : Outcome (Except String (World K)) :=
  if o.filenameDBExt ≠ "" then
    thenSaid (checkedSaid env h (.filenameExt o.filenameDBExt) w) (checkedSaid env h (.cacheSizeExt o.cacheSize))
  else .ok (.ok w)

/-- Setting up squashing, examples/query/c/cencalvmcquery.c:212-216. -/
def setSquashSaid (env : Env K) (o : Options K) (h : Nat) (w : World K) : Outcome (Except String (World K)) :=
  if o.squashLimit ≠ 1000000 then checkedSaid env h (.squash 1 o.squashLimit) w else .ok (.ok w)

/-- The settings and opening the databases, examples/query/c/cencalvmcquery.c:187-234 (with `ALLVALS`). -/
def configureSaid (env : Env K) (o : Options K) (h : Nat) (w : World K) : Outcome (Except String (World K)) :=
  thenSaid (checkedSaid env h (.filename o.filenameDB) w) fun w => thenSaid (checkedSaid env h (.cacheSize o.cacheSize) w) fun w =>
  thenSaid (setExtSaid env o h w) fun w => thenSaid (setSquashSaid env o h w) fun w => checkedSaid env h (.open env.disk) w

/-- The type of query, examples/query/c/cencalvmcquery.c:237-256. -/
def selectTypeSaid (env : Env K) (o : Options K) (h : Nat) (w : World K) : Outcome (Except String (World K)) :=
  if VMQuery.sameName o.queryType "maxres" then do
    let w ← unchecked env h (.queryType 0) w
    .ok (.ok w)
  else if o.queryRes < 0 then .ok (.error ("Query resolution must be a positive value." ++ usage))
  else do
    let w ← unchecked env h (.queryRes o.queryRes) w
    if VMQuery.sameName o.queryType "fixedres" then do
      let w ← unchecked env h (.queryType 1) w
      .ok (.ok w)
    else if VMQuery.sameName o.queryType "waveres" then do
      let w ← unchecked env h (.queryType 2) w
      .ok (.ok w)
    else .ok (.error ("Could not parse query string '" ++ o.queryType ++ "'  into a known type of query." ++ usage))

/-- After a query that did not return 0, examples/query/c/cencalvmcquery.c:287-291: the message, and the world unless it is
`return 1`. -/
def settleSaid (env : Env K) (h : Nat) (w : World K) : Outcome (String × Option (World K)) := do
  let m ← message env h w
  let r ← CApi.callFn env.fmt env.canLog m.1 h .errStatus
  match r.2 with
  | .code 2 => .ok (m.2, none)
  | _ => do
    let w ← unchecked env h .errResetStatus r.1
    .ok (m.2, some w)

/-- The query of one round, examples/query/c/cencalvmcquery.c:286-292: what is written, and the values left in the array unless
it is `return 1`. -/
def askSaid (env : Env K) (h : Nat) (loc : K × K × K) (w : World K) : Outcome (String × Option (World K × List K)) := do
  let r ← CApi.callFn env.fmt env.canLog w h (.query 9 loc.1 loc.2.1 loc.2.2)
  match r.2 with
  | .answer n (some vals) =>
    if 0 ≠ n then do
      let m ← settleSaid env h r.1
      .ok (m.1, m.2.map fun w => (w, vals))
    else .ok ("", some (r.1, vals))
  | _ => .ub

/-- After the loop, examples/query/c/cencalvmcquery.c:309-324. -/
def finishSaid (env : Env K) (h : Nat) (lines : List (Line K)) (t : String) (w : World K) : Outcome (Report K) := do
  let w ← unchecked env h (.close env.closeFail env.closeFailExt) w
  let r ← CApi.callFn env.fmt env.canLog w h .errStatus
  match r.2 with
  | .code 0 => do
    let _ ← CApi.destroyQuery env.closeFail env.closeFailExt r.1 h
    .ok ⟨⟨0, lines⟩, t⟩
  | _ => do
    let m ← message env h r.1
    .ok ⟨⟨1, lines⟩, t ++ m.2 ++ "\n"⟩

/-- The loop over the locations, examples/query/c/cencalvmcquery.c:284-306, with the text written so far. -/
def loopSaid (env : Env K) (h : Nat) :
    Nat → Stream → K × K × K → List (Line K) → String → World K → Option (Outcome (Report K))
  | 0, _, _, _, _, _ => none
  | n + 1, s, loc, lines, t, w =>
    if s.eof then some (finishSaid env h lines t w)
    else match askSaid env h loc w with
      | .ub => some .ub
      | .exc m => some (.exc m)
      | .ok (t', none) => some (.ok ⟨⟨1, lines⟩, t ++ t'⟩)
      | .ok (t', some (w, vals)) =>
        let next := scanLoc env.nf s loc
        loopSaid env h n next.1 next.2 (lines ++ [⟨loc.1, loc.2.1, loc.2.2, vals⟩]) (t ++ t') w

/-- The program up to opening the files, examples/query/c/cencalvmcquery.c:168-256: `error` is what is written before `return 1`. -/
def prepareSaid (env : Env K) (o : Options K) (fs : Files) : Outcome (Except String (Nat × World K)) := do
  match ← CApi.createQuery env.geom (World.init fs) with
  | (w, .ptr h) =>
    if h = 0 then .ok (.error "Could not create query.\n")
    else do
      let r ← CApi.callFn env.fmt env.canLog w h .errorHandler
      match r.2 with
      | .ptr e =>
        if e = 0 then .ok (.error "Could not get handle to error handler.\n")
        else do
          let w ← start env o e r.1
          thenSaid (thenSaid (configureSaid env o h w) (selectTypeSaid env o h)) fun w => .ok (.ok (h, w))
      | _ => .ok (.error "")
  | _ => .ok (.error "")

/-- `main` after the command line has been read, examples/query/c/cencalvmcquery.c:168-325, for at most the given number of
rounds. -/
def runSaid (env : Env K) (o : Options K) (fs : Files) (rounds : Nat) : Option (Outcome (Report K)) :=
  match prepareSaid env o fs with
  | .ub => some .ub
  | .exc m => some (.exc m)
  | .ok (.error t) => some (.ok ⟨⟨1, []⟩, t⟩)
  | .ok (.ok (h, w)) =>
    match env.input o.filenameIn with
    | none => some (.ok ⟨⟨1, []⟩, "Could not open file '" ++ o.filenameIn ++ "' to read query locations.\n"⟩)
    | some text =>
      if env.canWrite o.filenameOut then
        let r := scanLoc env.nf (Stream.ofText text) (0, 0, 0)
        loopSaid env h rounds r.1 r.2 [] "" w
      else some (.ok ⟨⟨1, []⟩, "Could not open file '" ++ o.filenameIn ++ "' to write query data.\n"⟩)

end CExample
end CenCalVM
