/-
The example in C++, examples/query/cpp/cencalvmcppquery.cc.
-/
import Verif.Model.QueryApp
import Verif.Model.Print

namespace CenCalVM
namespace CppExample
open QueryApp (Options Env Line Result Conv leave)
open VMQuery (setFilename setFilenameExt setCacheSize setCacheSizeExt setQueryRes setQueryVals squash openDb queryType query sameName)

variable {K : Type}

/-- Values before the command line is read, examples/query/cpp/cencalvmcppquery.cc:157-166. -/
def defaults [Field K] : Options K :=
  { filenameIn := "", filenameOut := "", filenameDB := "", filenameDBExt := "", filenameLog := "", queryType := "maxres",
    queryRes := 0, cacheSize := 128, squashLimit := 1000000 }

/-- The option letters, examples/query/cpp/cencalvmcppquery.cc:93. -/
def spec : OptSpec := ⟨['c', 'd', 'e', 'i', 'l', 'o', 'r', 's', 't'], ['h']⟩

/-- One option with an argument, examples/query/cpp/cencalvmcppquery.cc:94-138. -/
def setOpt (cv : Conv K) (o : Options K) (c : Char) (v : String) : Options K :=
  match c with
  | 'c' => { o with cacheSize := cv.atoi v }
  | 'd' => { o with filenameDB := v }
  | 'e' => { o with filenameDBExt := v }
  | 'i' => { o with filenameIn := v }
  | 'l' => { o with filenameLog := v }
  | 'o' => { o with filenameOut := v }
  | 't' => { o with queryType := v }
  | 'r' => { o with queryRes := cv.atof v }
  | 's' => { o with squashLimit := cv.atof v }
  | _ => o

/-- The loop over the options with the count of words parsed, examples/query/cpp/cencalvmcppquery.cc:93-139; `none` is
`exit(0)` after the help text. -/
def parseLoop (cv : Conv K) : List Opt → Options K → Nat → Option (Options K × Nat)
  | [], o, n => some (o, n)
  | .arg c v :: os, o, n => parseLoop cv os (setOpt cv o c v) (n + 2)
  | .flag _ :: _, _, _ => none
  | .unknown :: os, o, n => parseLoop cv os o n

/-- `parseArgs`, examples/query/cpp/cencalvmcppquery.cc:60-148, on the words after the program name: the settings, or the
exit code.  The names of files are cleared before the loop, lines 87-91; they are empty already. -/
def parseArgs [Field K] (cv : Conv K) (argv : List (List Char)) : Except Int (Options K) :=
  match parseLoop cv (spec.getopt argv) defaults 1 with
  | none => .error 0
  | some (o, n) =>
    if n ≠ argv.length + 1 ∨ o.filenameIn.length = 0 ∨ o.filenameOut.length = 0 ∨ o.filenameDB.length = 0 then .error 1
    else .ok o

variable [Field K] [LinearOrder K]

/-- The tests of the status after each setting, e.g. examples/query/cpp/cencalvmcppquery.cc:188-191: `none` is `return 1`. -/
def checked (q : VMQuery K) : Option (VMQuery K) := if .OK ≠ q.err.status then none else some q

/-- The settings before the choice of values, examples/query/cpp/cencalvmcppquery.cc:186-223. -/
def configure (o : Options K) (q : VMQuery K) : Option (VMQuery K) := do
  let q ← checked (setFilename q o.filenameDB)
  let q ← checked (setCacheSize q o.cacheSize)
  let q ← if "" ≠ o.filenameDBExt then do
      let q ← checked (setFilenameExt q o.filenameDBExt)
      checked (setCacheSizeExt q o.cacheSize)
    else some q
  if o.squashLimit ≠ 1000000 then checked (squash q true o.squashLimit) else some q

/-- The choice of values at compile time, examples/query/cpp/cencalvmcppquery.cc:225-236; `all` says whether `ALLVALS` is
defined (it is in the file, line 17). -/
def chooseVals (all : Bool) (q : VMQuery K) : Outcome (Option (VMQuery K)) :=
  if all then .ok (some q)
  else do
    let q ← setQueryVals q ["FaultBlock", "Zone"] 2
    .ok (checked q)

/-- `numVals`, examples/query/cpp/cencalvmcppquery.cc:227,235. -/
def numVals (all : Bool) : Int := if all then 9 else 2

/-- The type of query, examples/query/cpp/cencalvmcppquery.cc:245-265. -/
def selectType (o : Options K) (q : VMQuery K) : Option (VMQuery K) :=
  if sameName o.queryType "maxres" then some (queryType q 0)
  else if o.queryRes < 0 then none
  else
    let q := setQueryRes q o.queryRes
    if sameName o.queryType "fixedres" then some (queryType q 1)
    else if sameName o.queryType "waveres" then some (queryType q 2)
    else none

/-- Reading a location, examples/query/cpp/cencalvmcppquery.cc:290,336. -/
def readLoc (nf : NumFmt K) (s : Stream) (loc : K × K × K) : Stream × (K × K × K) :=
  let lon := GridIngester.readReal nf s loc.1
  let lat := GridIngester.readReal nf lon.1 loc.2.1
  let elev := GridIngester.readReal nf lat.1 loc.2.2
  (elev.1, lon.2, lat.2, elev.2)

/-- After the loop, examples/query/cpp/cencalvmcppquery.cc:339-352. -/
def finish (env : Env K) (q : VMQuery K) (fs : Files) (lines : List (Line K)) : Outcome (Result K) :=
  let q := VMQuery.close env.closeFail env.closeFailExt q
  if .OK ≠ q.err.status then leave env ⟨1, lines, q, fs⟩ else leave env ⟨0, lines, q, fs⟩

/-- The loop over the locations, examples/query/cpp/cencalvmcppquery.cc:294-337.  The first argument bounds the number of
rounds, as in `QueryApp.loop`. -/
def loop (env : Env K) (all : Bool) : Nat → Stream → K × K × K → VMQuery K → Files → List (Line K) → Outcome (Result K)
  | 0, _, _, _, _, _ => .ub
  | n + 1, s, loc, q, fs, lines =>
    if s.good && env.outGood lines.length then do
      let r ← query env.fmt q fs (numVals all) loc.1 loc.2.1 loc.2.2
      if r.1.err.status = .ERROR then leave env ⟨1, lines, r.1, r.2.1⟩
      else
        let q := if .OK ≠ r.1.err.status then { r.1 with err := r.1.err.resetStatus } else r.1
        let next := readLoc env.nf s loc
        loop env all n next.1 next.2 q r.2.1 (lines ++ [⟨loc.1, loc.2.1, loc.2.2, r.2.2⟩])
    else finish env q fs lines

/-- The handler with the log file, examples/query/cpp/cencalvmcppquery.cc:176-184. -/
def start (env : Env K) (o : Options K) (fs : Files) : ErrorHandler × Files :=
  if o.filenameLog.length > 0 then ErrorHandler.init.setLogFilename env.canLog fs o.filenameLog else (ErrorHandler.init, fs)

/-- `main` after the command line has been read, examples/query/cpp/cencalvmcppquery.cc:173-353.  Messages on standard error
are left out; where a setting fails the databases are not open, so it does not matter which object is destroyed. -/
def run (env : Env K) (all : Bool) (o : Options K) (fs : Files) : Outcome (Result K) :=
  let st := start env o fs
  let q0 : VMQuery K := { VMQuery.init env.geom with err := st.1 }
  match configure o q0 with
  | none => leave env ⟨1, [], q0, st.2⟩
  | some q => do
    match ← chooseVals all q with
    | none => leave env ⟨1, [], q, st.2⟩
    | some q => do
      let q ← openDb env.disk q
      match checked q with
      | none => leave env ⟨1, [], q, st.2⟩
      | some q =>
        match selectType o q with
        | none => leave env ⟨1, [], q, st.2⟩
        | some q =>
          match env.input o.filenameIn with
          | none => leave env ⟨1, [], q, st.2⟩
          | some text =>
            if env.canWrite o.filenameOut then
              let r := readLoc env.nf (Stream.ofText text) (0, 0, 0)
              loop env all (text.length + 1) r.1 r.2 q st.2 []
            else leave env ⟨1, [], q, st.2⟩

/-- `main`, examples/query/cpp/cencalvmcppquery.cc:153-353: exit code and lines written. -/
def main (env : Env K) (all : Bool) (cv : Conv K) (argv : List (List Char)) (fs : Files) : Outcome (Int × List (Line K)) :=
  match parseArgs cv argv with
  | .error c => .ok (c, [])
  | .ok o => do
    let r ← run env all o fs
    .ok (r.code, r.lines)

/-! ### The text of the output file -/

open Print
variable [FloorRing K]

/-- The location at the beginning of a line, examples/query/cpp/cencalvmcppquery.cc:308-314. -/
def putLoc (pr : Printer K) (s : OStream) (l : Line K) : OStream :=
  s.putAll pr [.resetScientific, .setFixed, .precision 5, .width 10, .real l.lon, .width 9, .real l.lat, .precision 1,
    .width 9, .real l.elev]

/-- Writing one line, examples/query/cpp/cencalvmcppquery.cc:307-333. -/
def putLine (pr : Printer K) (all : Bool) (s : OStream) (l : Line K) : Outcome OStream :=
  if all then
    match l.vals with
    | [v0, v1, v2, v3, v4, v5, v6, v7, v8] => do
      let block ← toInt v6
      let zone ← toInt v7
      .ok ((putLoc pr s l).putAll pr [.precision 1, .width 8, .real v0, .width 8, .real v1, .width 8, .real v2, .width 9, .real v3,
        .width 9, .real v4, .width 9, .real v5, .width 5, .int block, .width 5, .int zone, .width 9, .real v8, .text "\n"])
    | _ => .ub
  else
    match l.vals with
    | [v0, v1] => do
      let block ← toInt v0
      let zone ← toInt v1
      .ok ((putLoc pr s l).putAll pr [.width 5, .int block, .width 5, .int zone, .text "\n"])
    | _ => .ub

/-- The lines one after the other, examples/query/cpp/cencalvmcppquery.cc:294-337. -/
def putLines (pr : Printer K) (all : Bool) : OStream → List (Line K) → Outcome OStream
  | s, [] => .ok s
  | s, l :: ls => do
    let s ← putLine pr all s l
    putLines pr all s ls

/-- The text of the output file, examples/query/cpp/cencalvmcppquery.cc:276-344. -/
def fileText (pr : Printer K) (all : Bool) (lines : List (Line K)) : Outcome (List Char) := do
  let s ← putLines pr all .new lines
  .ok s.text

end CppExample
end CenCalVM
