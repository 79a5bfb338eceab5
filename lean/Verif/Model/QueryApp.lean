/-
The application cencalvmquery.
-/
import Verif.Model.Query
import Verif.Model.GridIngester

namespace CenCalVM

/-! ### Command lines -/

/-- What `getopt` returns: an option with its argument, an option without, or `'?'`. -/
inductive Opt where
  | arg (c : Char) (v : String)
  | flag (c : Char)
  | unknown
  deriving DecidableEq, Repr

/-- The options of an application: the letters with an argument and those without (the third argument of `getopt`). -/
structure OptSpec where
  args : List Char
  flags : List Char

namespace OptSpec

/-- `getopt` within one word (without its dash): an option with an argument takes the rest of the word, or else the next
word, whatever it is. -/
def letters (sp : OptSpec) : List Char → List (List Char) → List Opt × List (List Char)
  | [], next => ([], next)
  | c :: cs, next =>
    if c ∈ sp.args then
      match cs, next with
      | [], [] => ([.unknown], [])
      | [], v :: next => ([.arg c (String.ofList v)], next)
      | cs, next => ([.arg c (String.ofList cs)], next)
    else
      let r := sp.letters cs next
      ((if c ∈ sp.flags then .flag c else .unknown) :: r.1, r.2)

/-- `getopt` over the words after the program name (GNU version, which passes over words that are no options; a word `--`
ends the options); the calls of the loops at applications/query/cencalvmquery.cc:112 and
applications/query/cencalvmisosurface.cc:83.  `n` bounds the number of words. -/
def scan (sp : OptSpec) : Nat → List (List Char) → List Opt
  | 0, _ => []
  | _, [] => []
  | n + 1, w :: ws =>
    match w with
    | ['-', '-'] => []
    | '-' :: c :: cs =>
      let r := sp.letters (c :: cs) ws
      r.1 ++ sp.scan n r.2
    | _ => sp.scan n ws

/-- All results of `getopt`. -/
def getopt (sp : OptSpec) (argv : List (List Char)) : List Opt := sp.scan argv.length argv

end OptSpec

namespace QueryApp
variable {K : Type}

/-- The settings of cencalvmquery, applications/query/cencalvmquery.cc:172-181. -/
structure Options (K : Type) where
  filenameIn : String
  filenameOut : String
  filenameDB : String
  filenameDBExt : String
  filenameLog : String
  queryType : String
  queryRes : K
  cacheSize : Int
  squashLimit : K

/-- Values before the command line is read, applications/query/cencalvmquery.cc:172-181. -/
def defaults [Field K] : Options K := ⟨"", "", "", "", "", "maxres", 0, 128, 1000000⟩

/-- The option letters, applications/query/cencalvmquery.cc:112. -/
def spec : OptSpec := ⟨['c', 'd', 'e', 'i', 'l', 'o', 'r', 's', 't'], ['h']⟩

/-- `atoi` and `atof` of the C library. -/
structure Conv (K : Type) where
  atoi : String → Int
  atof : String → K

/-- One option with an argument, applications/query/cencalvmquery.cc:113-157. -/
def setOpt (cv : Conv K) (o : Options K) (c : Char) (v : String) : Options K :=
  match c with
  | 'c' => { o with cacheSize := cv.atoi v }
  | 'd' => { o with filenameDB := v }
  | 'e' => { o with filenameDBExt := v }
  | 'i' => { o with filenameIn := v }
  | 'l' => { o with filenameLog := v }
  | 'o' => { o with filenameOut := v }
  | 't' => { o with queryType := v }
  | 'r' => { o with queryRes := cv.atof v }
  | 's' => { o with squashLimit := cv.atof v }
  | _ => o

/-- The loop over the options with the count of words parsed, applications/query/cencalvmquery.cc:112-157; `none` is
`exit(0)` after the help text. -/
def parseLoop (cv : Conv K) : List Opt → Options K → Nat → Option (Options K × Nat)
  | [], o, n => some (o, n)
  | .arg c v :: os, o, n => parseLoop cv os (setOpt cv o c v) (n + 2)
  | .flag _ :: _, _, _ => none
  | .unknown :: os, o, n => parseLoop cv os o n

/-- `parseArgs`, applications/query/cencalvmquery.cc:78-165, on the words after the program name: the settings, or the exit
code. -/
def parseArgs [Field K] (cv : Conv K) (argv : List (List Char)) : Except Int (Options K) :=
  match parseLoop cv (spec.getopt argv) defaults 1 with
  | none => .error 0
  | some (o, n) =>
    if n ≠ argv.length + 1 ∨ o.filenameIn.length = 0 ∨ o.filenameOut.length = 0 ∨ o.filenameDB.length = 0 then .error 1
    else .ok o

/-! ### The program -/

/-- What the program meets: formats, the geometry its query object creates, databases that can be opened, files that can be
read and written, whether the output stream is good after a number of lines, whether closing a database fails.  The output
file, the input file and the log are taken to be different files. -/
structure Env (K : Type) where
  fmt : Fmt K
  nf : NumFmt K
  geom : Geom K
  disk : String → Option (Db K)
  canLog : String → Bool
  input : String → Option (List Char)
  canWrite : String → Bool
  outGood : Nat → Bool
  closeFail : Bool
  closeFailExt : Bool

/-- The numbers of one line of output, applications/query/cencalvmquery.cc:314-331 (Model/Print has how they are printed). -/
structure Line (K : Type) where
  lon : K
  lat : K
  elev : K
  vals : List K
  deriving DecidableEq

/-- How the program ends: exit code, lines in the output file, query object and files. -/
structure Result (K : Type) where
  code : Int
  lines : List (Line K)
  q : VMQuery K
  fs : Files

variable [Field K] [LinearOrder K]
open VMQuery (setFilename setFilenameExt setCacheSize setCacheSizeExt setQueryRes squash openDb queryType query sameName)

/-- Returning from `main`: the query object is destroyed (closing databases still open). -/
def leave (env : Env K) (r : Result K) : Outcome (Result K) := do
  VMQuery.destroy env.closeFail env.closeFailExt r.q
  .ok r

/-- The tests of the status after each setting, e.g. applications/query/cencalvmquery.cc:205-208: `none` is `return 1`. -/
def checked (q : VMQuery K) : Option (VMQuery K) := if q.err.status ≠ .OK then none else some q

/-- Setting the extended database, applications/query/cencalvmquery.cc:218-230. -/
def setExt (o : Options K) (q : VMQuery K) : Option (VMQuery K) :=
  if "" ≠ o.filenameDBExt then (checked (setFilenameExt q o.filenameDBExt)).bind fun q => checked (setCacheSizeExt q o.cacheSize)
  else some q

/-- Setting up squashing, applications/query/cencalvmquery.cc:233-239. -/
def setSquash (o : Options K) (q : VMQuery K) : Option (VMQuery K) :=
  if o.squashLimit ≠ 1000000 then checked (squash q true o.squashLimit) else some q

/-- The settings before opening, applications/query/cencalvmquery.cc:204-239. -/
def configure (o : Options K) (q : VMQuery K) : Option (VMQuery K) :=
  (checked (setFilename q o.filenameDB)).bind fun q => (checked (setCacheSize q o.cacheSize)).bind fun q =>
  (setExt o q).bind fun q => setSquash o q

/-- The type of query, applications/query/cencalvmquery.cc:252-271. -/
def selectType (o : Options K) (q : VMQuery K) : Option (VMQuery K) :=
  if sameName o.queryType "maxres" then some (queryType q 0)
  else if o.queryRes < 0 then none
  else
    let q := setQueryRes q o.queryRes
    if sameName o.queryType "fixedres" then some (queryType q 1)
    else if sameName o.queryType "waveres" then some (queryType q 2)
    else none

/-- Reading a location, applications/query/cencalvmquery.cc:296,334. -/
def readLoc (nf : NumFmt K) (s : Stream) (loc : K × K × K) : Stream × (K × K × K) :=
  let r1 := GridIngester.readReal nf s loc.1
  let r2 := GridIngester.readReal nf r1.1 loc.2.1
  let r3 := GridIngester.readReal nf r2.1 loc.2.2
  (r3.1, r1.2, r2.2, r3.2)

/-- After the loop, applications/query/cencalvmquery.cc:338-350. -/
def finish (env : Env K) (q : VMQuery K) (fs : Files) (lines : List (Line K)) : Outcome (Result K) :=
  let q := VMQuery.close env.closeFail env.closeFailExt q
  if q.err.status ≠ .OK then leave env ⟨1, lines, q, fs⟩ else leave env ⟨0, lines, q, fs⟩

/-- The handler after a query that ended without error, applications/query/cencalvmquery.cc:305-311. -/
def settle (q : VMQuery K) : VMQuery K := if q.err.status ≠ .OK then { q with err := q.err.resetStatus } else q

/-- The loop over the locations, applications/query/cencalvmquery.cc:300-335.  The first argument bounds the number of
rounds; each round reads part of the text, so the length of the text suffices (`loop_ends`). -/
def loop (env : Env K) : Nat → Stream → K × K × K → VMQuery K → Files → List (Line K) → Outcome (Result K)
  | 0, _, _, _, _, _ => .ub
  | n + 1, s, loc, q, fs, lines =>
    if s.good && env.outGood lines.length then do
      let r ← query env.fmt q fs 9 loc.1 loc.2.1 loc.2.2
      if r.1.err.status = .ERROR then leave env ⟨1, lines, r.1, r.2.1⟩
      else
        let next := readLoc env.nf s loc
        loop env n next.1 next.2 (settle r.1) r.2.1 (lines ++ [⟨loc.1, loc.2.1, loc.2.2, r.2.2⟩])
    else finish env q fs lines

/-- The handler with the log file, applications/query/cencalvmquery.cc:200-201. -/
def start (env : Env K) (o : Options K) (fs : Files) : ErrorHandler × Files :=
  if o.filenameLog.length > 0 then ErrorHandler.init.setLogFilename env.canLog fs o.filenameLog else (ErrorHandler.init, fs)

/-- `main` after the command line has been read, applications/query/cencalvmquery.cc:189-350. -/
def run (env : Env K) (o : Options K) (fs : Files) : Outcome (Result K) :=
  let st := start env o fs
  let q0 : VMQuery K := { VMQuery.init env.geom with err := st.1 }
  match configure o q0 with
  | none => leave env ⟨1, [], q0, st.2⟩
  | some q => do
    let q ← openDb env.disk q
    match (checked q).bind (selectType o) with
    | none => leave env ⟨1, [], q, st.2⟩
    | some q =>
      match env.input o.filenameIn with
      | none => leave env ⟨1, [], q, st.2⟩
      | some text =>
        if env.canWrite o.filenameOut then
          let r := readLoc env.nf (Stream.ofText text) (0, 0, 0)
          loop env (text.length + 1) r.1 r.2 q st.2 []
        else leave env ⟨1, [], q, st.2⟩

/-- `main`, applications/query/cencalvmquery.cc:170-351: exit code and lines written. -/
def main (env : Env K) (cv : Conv K) (argv : List (List Char)) (fs : Files) : Outcome (Int × List (Line K)) :=
  match parseArgs cv argv with
  | .error c => .ok (c, [])
  | .ok o => do
    let r ← run env o fs
    .ok (r.code, r.lines)

end QueryApp
end CenCalVM
