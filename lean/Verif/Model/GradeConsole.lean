/-
extensions/applications/vsgrader/VsGrader.cc and gradecencalvm.cc: what the grader writes to the console.
-/
import Verif.Model.Console
import Verif.Model.GradeApp

namespace CenCalVM
namespace GradeConsole
open VsGrader
variable {K : Type} [Field K] [LinearOrder K] [FloorRing K]

/-- `VsGrader::_grade` after the database was opened, extensions/applications/vsgrader/VsGrader.cc:373-474, with the output before
each pass (383-384, 411-412, 440-441) and at the end (472-473).  Failures of `etree_close` are left out. -/
def grade (s : Grid K) (junk : Payload K) (quiet : Bool) (db : Db K) (con : Console) : Run (Db K × Console) Unit :=
  match s.numLen, s.numWidth, s.numHt with
  | .ok nLen, .ok nWidth, .ok nHt =>
    let con := con.cout quiet "Grading database in vertical direction.\n"
    match loop (fun iLen db => loop (fun iWidth db =>
        gradeLine s (fun iHt => s.loc iLen iWidth iHt) (s.rd.double (s.gradientMax * s.resVert)) junk nHt db) nWidth db) nLen db with
    | .ub => .ub
    | .exc m db => .exc m (db, con)
    | .ok db _ =>
      let con := con.cout quiet "Grading database in length direction.\n"
      match loop (fun iHt db => loop (fun iWidth db =>
          gradeLine s (fun iLen => s.loc iLen iWidth iHt) (s.rd.double (s.gradientMax * s.resHoriz)) junk nLen db) nWidth db) nHt db with
      | .ub => .ub
      | .exc m db => .exc m (db, con)
      | .ok db _ =>
        let con := con.cout quiet "Grading database in width direction.\n"
        match loop (fun iHt db => loop (fun iLen db =>
            gradeLine s (fun iWidth => s.loc iLen iWidth iHt) (s.rd.double (s.gradientMax * s.resHoriz)) junk nWidth db) nLen db) nHt db with
        | .ub => .ub
        | .exc m db => .exc m (db, con)
        | .ok db _ => .ok (db, con.cout quiet "Done grading database.\n") ()
  | _, _, _ => .ub

/-- `VsGrader::_extract`, extensions/applications/vsgrader/VsGrader.cc:269-342, with its output (273-275, 340-341) and that of
the object `dbNew`, which is not told to be quiet (287-290, 337; libsrc/cencalvm/create/VMCreator.cc:37, 60-62, 92-93, 101-102). -/
def extract (fmt : Fmt K) (env : EtreeEnv) (s : Grid K) (nm : Names K) (gq : Geom K) (fs : Files) (quiet : Bool)
    (disk : EtreeDisk K) (con : Console) : Run (EtreeDisk K × Console) Unit :=
  let con := con.cout quiet ("Extracting data from '" ++ nm.fileIn ++ "'...\n")
  match openQuery s.rd gq nm.queryType nm.queryRes nm.cacheSize nm.fileIn (fun n => (disk n).map (·.db)) with
  | .exc m => .exc m (disk, con)
  | .ub => .ub
  | .ok q => match Console.openDB env false (VMCreator.init disk) nm.fileTmp nm.description nm.stamp con with
    | .exc m (c, con) => .exc m ((VMCreator.closeDB c).disk, con)
    | .ub => .ub
    | .ok (c, con) _ => if nm.fileTmp = nm.fileIn then .ub else match extractLoops fmt env s ⟨q, fs, c⟩ with
      | .exc m w => .exc m ((VMCreator.closeDB w.c).disk, con)
      | .ub => .ub
      | .ok w _ => .ok ((VMCreator.closeDB w.c).disk,
          (con.cout false ("Closing database '" ++ w.c.filename ++ "'.\n")).cout quiet "Done extracting.\n") ()

/-- `_extract`, `_pack` (347-352), which passes on the flag, and `_grade`, extensions/applications/vsgrader/VsGrader.cc:88-90, with
the output at the start of `_grade` (361-362). -/
def run (fmt : Fmt K) (env : EtreeEnv) (s : Grid K) (nm : Names K) (gq : Geom K) (junk : Payload K) (fs : Files) (quiet : Bool)
    (disk : EtreeDisk K) (con : Console) : Run (EtreeDisk K × Console) Unit :=
  match extract fmt env s nm gq fs quiet disk con with
  | .ub => .ub
  | .exc m t => .exc m t
  | .ok (disk, con) _ => match Console.packDB env quiet disk nm.fileOut nm.fileTmp con with
    | .ub => .ub
    | .exc m t => .exc m t
    | .ok (disk, con) _ =>
      let con := con.cout quiet "Starting grading of database.\n"
      match disk nm.fileOut with
      | none => .exc "Could not open etree database." (disk, con)
      | some f => match grade s junk quiet f.db con with
        | .exc m (db, con) => .exc m (disk.set nm.fileOut { f with db := db }, con)
        | .ub => .ub
        | .ok (db, con) _ => .ok (disk.set nm.fileOut { f with db := db }, con) ()

/-- `VsGrader::run`, extensions/applications/vsgrader/VsGrader.cc:84-91, with the output of `_readParams` (109-111) and of
`_initialize` (258-259). -/
def runAll (fmt : Fmt K) (env : EtreeEnv) (nf : NumFmt K) (t : Tools K) (junk : Payload K) (fs : Files)
    (files : String → Option (List Char)) (old : Params K) (fileParams fileIn fileOut fileTmp : String) (quiet : Bool)
    (disk : EtreeDisk K) (con : Console) : Run (EtreeDisk K × Console) Unit :=
  let con := con.cout quiet ("Reading parameters from '" ++ fileParams ++ "'...\n")
  match files fileParams with
  | none => .exc ("Could not open file '" ++ fileParams ++ "' to read VsGrader parameters.") (disk, con)
  | some text => match readParams nf text old with
    | .exc m => .exc m (disk, con)
    | .ub => .ub
    | .ok p =>
      let con := con.cout quiet "Initializing grader...\n"
      match t.proj.project (p.real .swLon) (p.real .swLat) with
      | .exc m => .exc m (disk, con)
      | .ub => .ub
      | .ok xy => run fmt env (t.grid p xy) (t.names p fileIn fileOut fileTmp) t.queryGeom junk fs quiet disk con

/-- `usage()` of gradecencalvm, extensions/applications/vsgrader/gradecencalvm.cc:27-40. -/
def usage : String :=
  "usage: gradecencalvm [-h] -p paramFile -i inFile -o outFile -t tmpFile\n" ++
  "  -p paramFile  Parameter file with list of grid input files\n  -i inFile     Input Etree database file.\n" ++
  "  -o outFile    Output Etree database file.\n  -t tmpFile    Name of scratch file used in database construction.\n" ++
  "  -h            Display usage and exit.\n\nParameter file is list of grid input files, one per line.\n"

/-- gradecencalvm, extensions/applications/vsgrader/gradecencalvm.cc:107-138, with its console; a `VsGrader` is not quiet unless
told so (extensions/applications/vsgrader/VsGrader.cc:61).  The exception is written to standard error (131). -/
def gradeMain (fmt : Fmt K) (env : EtreeEnv) (nf : NumFmt K) (atoi : String → Int) (t : Tools K) (junk : Payload K) (fs : Files)
    (files : String → Option (List Char)) (argv : List (List Char)) (disk : EtreeDisk K) : Outcome (Int × EtreeDisk K × Console) :=
  match FileApps.parseArgs FileApps.gradeSpec ['i', 'o', 'p', 't'] argv with
  | none => .ok (1, disk, Console.start.cerr usage)
  | some a =>
    let old := if a 'c' = "" then newParams else newParams.setCacheSize (atoi (a 'c'))
    Console.finish (runAll fmt env nf t junk fs files old (a 'p') (a 'i') (a 'o') (a 't') false disk Console.start)

end GradeConsole
end CenCalVM
