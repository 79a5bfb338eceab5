/-
The example program cencalvmcquery, a C program using the C interface.
-/
import Verif.Model.CApi
import Verif.Model.QueryApp

namespace CenCalVM
namespace CExample
open CApi (World Ret)
open QueryApp (Options Env Line Conv)
variable {K : Type}

/-! ### The command line -/

/-- `strcpy` to an array of 256 characters, examples/query/c/cencalvmcquery.c:90-115; one place is needed for the terminating
character, and writing beyond the array is undefined.  Simplification: one place per character. -/
def copied (v : String) (set : String → Options K) : Outcome (Options K) := if v.length < 256 then .ok (set v) else .ub

/-- One option with an argument, examples/query/c/cencalvmcquery.c:83-125. -/
def setOpt (cv : Conv K) (o : Options K) (c : Char) (v : String) : Outcome (Options K) :=
  match c with
  | 'c' => .ok { o with cacheSize := cv.atoi v }
  | 'd' => copied v fun n => { o with filenameDB := n }
  | 'e' => copied v fun n => { o with filenameDBExt := n }
  | 'i' => copied v fun n => { o with filenameIn := n }
  | 'l' => copied v fun n => { o with filenameLog := n }
  | 'o' => copied v fun n => { o with filenameOut := n }
  | 't' => copied v fun n => { o with queryType := n }
  | 'r' => .ok { o with queryRes := cv.atof v }
  | 's' => .ok { o with squashLimit := cv.atof v }
  | _ => .ok o

/-- The loop over the options with the count of words parsed, examples/query/c/cencalvmcquery.c:82-129; `none` is `exit(0)`
after the help text. -/
def parseLoop (cv : Conv K) : List Opt → Options K → Nat → Outcome (Option (Options K × Nat))
  | [], o, n => .ok (some (o, n))
  | .arg c v :: os, o, n => do
    let o ← setOpt cv o c v
    parseLoop cv os o (n + 2)
  | .flag _ :: _, _, _ => .ok none
  | .unknown :: os, o, n => parseLoop cv os o n

/-- The option letters, examples/query/c/cencalvmcquery.c:82. -/
def spec : OptSpec := ⟨['c', 'd', 'e', 'i', 'l', 'o', 'r', 's', 't'], ['h']⟩

/-- Values before the command line is read, examples/query/c/cencalvmcquery.c:152-161. -/
def defaults [Field K] : Options K := ⟨"", "", "", "", "", "maxres", 0, 128, 1000000⟩

/-- `parseArgs`, examples/query/c/cencalvmcquery.c:55-137: the settings, or the exit code. -/
def parseArgs [Field K] (cv : Conv K) (argv : List (List Char)) : Outcome (Except Int (Options K)) := do
  match ← parseLoop cv (spec.getopt argv) defaults 1 with
  | none => .ok (.error 0)
  | some (o, n) =>
    if n ≠ argv.length + 1 ∨ o.filenameIn.length = 0 ∨ o.filenameOut.length = 0 ∨ o.filenameDB.length = 0 then .ok (.error 1)
    else .ok (.ok o)

/-! ### The program -/

/-- How the program ends: exit code and lines in the output file. -/
structure Result (K : Type) where
  code : Int
  lines : List (Line K)

variable [Field K] [LinearOrder K]

/-- A call whose result is tested, e.g. examples/query/c/cencalvmcquery.c:187-190: `none` is `return 1`. -/
def checked (env : Env K) (h : Nat) (f : CApi.Fn K) (w : World K) : Outcome (Option (World K)) := do
  let r ← CApi.callFn env.fmt env.canLog w h f
  match r.2 with
  | .code n => if 0 ≠ n then .ok none else .ok (some r.1)
  | _ => .ok none

/-- A call whose result is not looked at, e.g. examples/query/c/cencalvmcquery.c:238. -/
def unchecked (env : Env K) (h : Nat) (f : CApi.Fn K) (w : World K) : Outcome (World K) := do
  let r ← CApi.callFn env.fmt env.canLog w h f
  .ok r.1

/-- Going on after a call that was tested. -/
def thenDo {α : Type} (x : Outcome (Option (World K))) (f : World K → Outcome (Option α)) : Outcome (Option α) := do
  match ← x with
  | none => .ok none
  | some w => f w

/-- Setting the extended database, examples/query/c/cencalvmcquery.c:199-209. -/
def setExt (env : Env K) (o : Options K) (h : Nat) (w : World K) : Outcome (Option (World K)) :=
  if o.filenameDBExt ≠ "" then thenDo (checked env h (.filenameExt o.filenameDBExt) w) (checked env h (.cacheSizeExt o.cacheSize))
  else .ok (some w)

/-- Setting up squashing, examples/query/c/cencalvmcquery.c:212-216. -/
def setSquash (env : Env K) (o : Options K) (h : Nat) (w : World K) : Outcome (Option (World K)) :=
  if o.squashLimit ≠ 1000000 then checked env h (.squash 1 o.squashLimit) w else .ok (some w)

/-- The settings and opening the databases, examples/query/c/cencalvmcquery.c:187-234 (with `ALLVALS`). -/
def configure (env : Env K) (o : Options K) (h : Nat) (w : World K) : Outcome (Option (World K)) :=
  thenDo (checked env h (.filename o.filenameDB) w) fun w => thenDo (checked env h (.cacheSize o.cacheSize) w) fun w =>
  thenDo (setExt env o h w) fun w => thenDo (setSquash env o h w) fun w => checked env h (.open env.disk) w

/-- The type of query, examples/query/c/cencalvmcquery.c:237-256. -/
def selectType (env : Env K) (o : Options K) (h : Nat) (w : World K) : Outcome (Option (World K)) :=
  if VMQuery.sameName o.queryType "maxres" then do
    let w ← unchecked env h (.queryType 0) w
    .ok (some w)
  else if o.queryRes < 0 then .ok none
  else do
    let w ← unchecked env h (.queryRes o.queryRes) w
    if VMQuery.sameName o.queryType "fixedres" then do
      let w ← unchecked env h (.queryType 1) w
      .ok (some w)
    else if VMQuery.sameName o.queryType "waveres" then do
      let w ← unchecked env h (.queryType 2) w
      .ok (some w)
    else .ok none

/-- One conversion `%lf` of `fscanf`: unlike extraction from a C++ stream it works after an earlier failure, and leaves the
variable alone if there is no number.  Simplification: the same texts are numbers for both. -/
def scanReal (nf : NumFmt K) (s : Stream) (old : K) : Stream × K :=
  let r := GridIngester.readReal nf { s with fail := false } old
  (r.1, if r.1.fail then old else r.2)

/-- `fscanf(fileIn, "%lf %lf %lf", …)`, examples/query/c/cencalvmcquery.c:281, 305: the first failure ends the call. -/
def scanLoc (nf : NumFmt K) (s : Stream) (loc : K × K × K) : Stream × (K × K × K) :=
  let r1 := scanReal nf s loc.1
  if r1.1.fail then (r1.1, r1.2, loc.2.1, loc.2.2)
  else
    let r2 := scanReal nf r1.1 loc.2.1
    if r2.1.fail then (r2.1, r1.2, r2.2, loc.2.2)
    else
      let r3 := scanReal nf r2.1 loc.2.2
      (r3.1, r1.2, r2.2, r3.2)

/-- After a query that did not return 0, examples/query/c/cencalvmcquery.c:287-291: `none` is `return 1`. -/
def settle (env : Env K) (h : Nat) (w : World K) : Outcome (Option (World K)) := do
  let w ← unchecked env h .errMessage w
  let r ← CApi.callFn env.fmt env.canLog w h .errStatus
  match r.2 with
  | .code 2 => .ok none
  | _ => do
    let w ← unchecked env h .errResetStatus r.1
    .ok (some w)

/-- The query of one round, examples/query/c/cencalvmcquery.c:286-292: the values left in the array; `none` is `return 1`. -/
def ask (env : Env K) (h : Nat) (loc : K × K × K) (w : World K) : Outcome (Option (World K × List K)) := do
  let r ← CApi.callFn env.fmt env.canLog w h (.query 9 loc.1 loc.2.1 loc.2.2)
  match r.2 with
  | .answer n (some vals) =>
    if 0 ≠ n then thenDo (settle env h r.1) fun w => .ok (some (w, vals)) else .ok (some (r.1, vals))
  | _ => .ub

/-- After the loop, examples/query/c/cencalvmcquery.c:309-324. -/
def finish (env : Env K) (h : Nat) (lines : List (Line K)) (w : World K) : Outcome (Result K) := do
  let w ← unchecked env h (.close env.closeFail env.closeFailExt) w
  let r ← CApi.callFn env.fmt env.canLog w h .errStatus
  match r.2 with
  | .code 0 => do
    let _ ← CApi.destroyQuery env.closeFail env.closeFailExt r.1 h
    .ok ⟨0, lines⟩
  | _ => .ok ⟨1, lines⟩

/-- The loop over the locations, examples/query/c/cencalvmcquery.c:284-306, for at most the given number of rounds; `none`
if it has not ended by then.  Whether writing succeeds is not tested; all lines are taken to be written. -/
def loop (env : Env K) (h : Nat) : Nat → Stream → K × K × K → List (Line K) → World K → Option (Outcome (Result K))
  | 0, _, _, _, _ => none
  | n + 1, s, loc, lines, w =>
    if s.eof then some (finish env h lines w)
    else match ask env h loc w with
      | .ub => some .ub
      | .exc m => some (.exc m)
      | .ok none => some (.ok ⟨1, lines⟩)
      | .ok (some (w, vals)) =>
        let next := scanLoc env.nf s loc
        loop env h n next.1 next.2 (lines ++ [⟨loc.1, loc.2.1, loc.2.2, vals⟩]) w

/-- Setting the log file, examples/query/c/cencalvmcquery.c:183-184. -/
def start (env : Env K) (o : Options K) (h : Nat) (w : World K) : Outcome (World K) :=
  if o.filenameLog.length > 0 then unchecked env h (.errLogFilename o.filenameLog) w else .ok w

/-- The program up to opening the files, examples/query/c/cencalvmcquery.c:168-256: `none` is `return 1`. -/
def prepare (env : Env K) (o : Options K) (fs : Files) : Outcome (Option (Nat × World K)) := do
  match ← CApi.createQuery env.geom (World.init fs) with
  | (w, .ptr h) =>
    if h = 0 then .ok none
    else do
      let r ← CApi.callFn env.fmt env.canLog w h .errorHandler
      match r.2 with
      | .ptr e =>
        if e = 0 then .ok none
        else do
          let w ← start env o e r.1
          thenDo (thenDo (configure env o h w) (selectType env o h)) fun w => .ok (some (h, w))
      | _ => .ok none
  | _ => .ok none

/-- `main` after the command line has been read, examples/query/c/cencalvmcquery.c:168-325, for at most the given number of
rounds.  The handle of the error handler is that of the query object (see `CApi.World`). -/
def run (env : Env K) (o : Options K) (fs : Files) (rounds : Nat) : Option (Outcome (Result K)) :=
  match prepare env o fs with
  | .ub => some .ub
  | .exc m => some (.exc m)
  | .ok none => some (.ok ⟨1, []⟩)
  | .ok (some (h, w)) =>
    match env.input o.filenameIn with
    | none => some (.ok ⟨1, []⟩)
    | some text =>
      if env.canWrite o.filenameOut then
        let r := scanLoc env.nf (Stream.ofText text) (0, 0, 0)
        loop env h rounds r.1 r.2 [] w
      else some (.ok ⟨1, []⟩)

end CExample
end CenCalVM
