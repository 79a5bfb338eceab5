/-
cencalvminfo with the text it writes and the handle it uses.
-/
import Verif.Model.Console
import Verif.Model.Handles
import Verif.Model.Print

namespace CenCalVM
namespace InfoApp
open Handles (Lib)
variable {K : Type} [Field K] [LinearOrder K]

/-- How the program ends: exit code (255 for `return -1`), text written, calls of libetree. -/
structure End where
  code : Int
  con : Console
  lib : Lib
  deriving DecidableEq

/-- `usage`, applications/query/cencalvminfo.cc:19-24. -/
def usage : String := "usage: cencalvminfo dbfile\n"

/-- The end of `main` with the handle `h`, applications/query/cencalvminfo.cc:73-81: the number of octants, and `etree_close`; if
that fails, `etree_errno` is given the handle (`strerror` is the message found with it). -/
def closing (closeFail : Bool) (strerror : String) (n : Nat) (h : Nat) (con : Console) (lib : Lib) : End :=
  let lib := lib.use h
  let con := con.cout false ("Number of octants: " ++ String.ofList (Print.digits n) ++ "\n")
  let lib := lib.close h
  if closeFail then ⟨255, con.cerr strerror, lib.use h⟩ else ⟨0, con, lib⟩

/-- The schema, applications/query/cencalvminfo.cc:64-71. -/
def schema (closeFail : Bool) (strerror : String) (f : EtreeFile K) (h : Nat) (con : Console) (lib : Lib) : End :=
  let lib := lib.use h
  match f.schema with
  | some s => closing closeFail strerror f.db.entries.length h (con.cout false ("Database schema:\n" ++ s ++ "\n\n")) lib
  | none => ⟨255, con.cerr "Could not retrieve database schema.", lib⟩

/-- The metadata, applications/query/cencalvminfo.cc:55-62. -/
def appmeta (closeFail : Bool) (strerror : String) (f : EtreeFile K) (h : Nat) (con : Console) (lib : Lib) : End :=
  let lib := lib.use h
  match f.appmeta with
  | some m => schema closeFail strerror f h (con.cout false ("Database metadata:\n" ++ m ++ "\n\n")) lib
  | none => ⟨255, con.cerr "Could not retrieve database metadata.", lib⟩

/-- `parseArgs` and `main`, applications/query/cencalvminfo.cc:27-82.  The memory of the texts is returned as soon as they are written and is
left out. -/
def main (closeFail : Bool) (strerror : String) (argv : List (List Char)) (disk : EtreeDisk K) : End :=
  match argv with
  | [name] =>
    let filename := String.ofList name
    match disk filename with
    | none => ⟨255, Console.start.cerr ("Could not open etree database '" ++ filename ++ "'."), Lib.init⟩
    | some f => appmeta closeFail strerror f Lib.init.next Console.start (Lib.init.open filename)
  | _ => ⟨1, Console.start.cerr usage, Lib.init⟩

end InfoApp
end CenCalVM
