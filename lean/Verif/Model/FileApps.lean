/-
The applications that create, pack, average and describe database files: cencalvmgen, cencalvmpack, cencalvmavg,
cencalvminfo.
-/
import Verif.Model.Averager
import Verif.Model.GridIngester
import Verif.Model.QueryApp

namespace CenCalVM
namespace FileApps
variable {K : Type} [Field K] [LinearOrder K]

/-! ### Command lines -/

/-- The loop over the options: the arguments by letter, and the number of words parsed.  `none` is a call of `usage()`,
which exits with code 1, also for `-h` (the `exit(0)` after it is not reached).
applications/average/cencalvmavg.cc:51-74, applications/create/cencalvmpack.cc:50-77,
applications/create/cencalvmgen.cc:57-89, extensions/applications/vsgrader/gradecencalvm.cc:60-97. -/
def parseLoop : List Opt → (Char → String) → Nat → Option ((Char → String) × Nat)
  | [], a, n => some (a, n)
  | .arg c v :: os, a, n => parseLoop os (Function.update a c v) (n + 2)
  | .flag _ :: _, _, _ => none
  | .unknown :: _, _, _ => none

/-- `parseArgs` on the words after the program name, with the letters `files` of the options that name files: the
arguments by letter (all file names nonempty), or `none` for exit code 1.
applications/average/cencalvmavg.cc:41-79, applications/create/cencalvmpack.cc:38-82,
applications/create/cencalvmgen.cc:43-95, extensions/applications/vsgrader/gradecencalvm.cc:44-104. -/
def parseArgs (spec : OptSpec) (files : List Char) (argv : List (List Char)) : Option (Char → String) :=
  match parseLoop (spec.getopt argv) (fun _ => "") 1 with
  | none => none
  | some (a, n) => if n ≠ argv.length + 1 ∨ files.any (fun c => (a c).length = 0) then none else some a

/-- The options of cencalvmavg, applications/average/cencalvmavg.cc:55. -/
def avgSpec : OptSpec := ⟨['i', 'o'], ['h']⟩
/-- The options of cencalvmpack, applications/create/cencalvmpack.cc:54. -/
def packSpec : OptSpec := ⟨['c', 'i', 'o'], ['h']⟩
/-- The options of cencalvmgen, applications/create/cencalvmgen.cc:62. -/
def genSpec : OptSpec := ⟨['c', 'i', 'o', 't'], ['h']⟩
/-- The options of gradecencalvm, extensions/applications/vsgrader/gradecencalvm.cc:66. -/
def gradeSpec : OptSpec := ⟨['c', 'i', 'o', 'p', 't'], ['h']⟩

/-! ### Programs -/

/-- Exit code and files of a program whose body is in a `try` block with handlers that return 1. -/
def finish (r : Run (EtreeDisk K) Unit) : Outcome (Int × EtreeDisk K) :=
  match r with
  | .ok disk _ => .ok (0, disk)
  | .exc _ disk => .ok (1, disk)
  | .ub => .ub

/-- cencalvmavg, applications/average/cencalvmavg.cc:83-105. -/
def avgMain (env : Averager.Env K) (stamp : String) (argv : List (List Char)) (disk : EtreeDisk K) :
    Outcome (Int × EtreeDisk K) :=
  match parseArgs avgSpec ['i', 'o'] argv with
  | none => .ok (1, disk)
  | some a => finish (Averager.average env disk (a 'i') (a 'o') stamp)

/-- cencalvmpack, applications/create/cencalvmpack.cc:86-107; the cache size only affects speed. -/
def packMain (env : EtreeEnv) (argv : List (List Char)) (disk : EtreeDisk K) : Outcome (Int × EtreeDisk K) :=
  match parseArgs packSpec ['i', 'o'] argv with
  | none => .ok (1, disk)
  | some a => finish (VMCreator.packDB env disk (a 'o') (a 'i'))

/-- The description stored by cencalvmgen, applications/create/cencalvmgen.cc:107-110. -/
def genDescription : String :=
  "U.S. Geological Survey\nThomas Brocher, Robert Jachens, Carl Wentworth, Russel Graymer, Robert Simpson, Brad Aagaard"

/-- cencalvmgen, applications/create/cencalvmgen.cc:99-135; `g` is the geometry created at 118. -/
def genMain (env : EtreeEnv) (nf : NumFmt K) (junk : Payload K) (g : Geom K) (files : String → Option (List Char))
    (stamp : String) (argv : List (List Char)) (disk : EtreeDisk K) : Outcome (Int × EtreeDisk K) :=
  match parseArgs genSpec ['i', 'o', 't'] argv with
  | none => .ok (1, disk)
  | some a => finish (GridIngester.run env nf junk (some g) files disk (a 'i') (a 't') (a 'o') genDescription stamp)

/-- What cencalvminfo prints on standard output before it returns. -/
structure Info where
  appmeta : Option String
  schema : Option String
  count : Option Nat
  deriving DecidableEq, Repr

/-- cencalvminfo, applications/query/cencalvminfo.cc:27-82, with `closeFail` whether `etree_close` fails.  The exit code of
`return -1` is 255. -/
def infoMain (closeFail : Bool) (argv : List (List Char)) (disk : EtreeDisk K) : Int × Info :=
  match argv with
  | [name] =>
    match disk (String.ofList name) with
    | none => (255, ⟨none, none, none⟩)
    | some f =>
      match f.appmeta with
      | none => (255, ⟨none, none, none⟩)
      | some m =>
        match f.schema with
        | none => (255, ⟨some m, none, none⟩)
        | some s => (if closeFail then 255 else 0, ⟨some m, some s, some f.db.entries.length⟩)
  | _ => (1, ⟨none, none, none⟩)

end FileApps
end CenCalVM
