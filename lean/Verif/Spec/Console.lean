/-
Vocabulary for the properties about console output.
-/
import Verif.Model.Console
import Verif.Spec.Create
import Verif.Spec.FileApps

namespace CenCalVM
namespace Console
open GridIngester (Point)
variable {K : Type} [Field K] [LinearOrder K]

/-- Texts one after the other. -/
def concat : List String → String
  | [] => ""
  | s :: l => s ++ concat l

/-- The line about a point without fault block or zone: longitude, latitude, elevation in m, and a reason. -/
def IgnoredLine (fmt : Fmt K) (rd : Rd K) (p : Point K) (line : String) : Prop :=
  ∃ elev, Converted rd.double p.elev elev ∧ ∃ reason, line = fmt.sci p.lon ++ ", " ++ fmt.sci p.lat ++ ", " ++ fmt.sci elev ++ reason ∧
    (reason = ", Ignoring\n" ∧ p.payload.faultBlock = 0 ∨ reason = ", No fault block\n" ∧ p.payload.faultBlock ≠ 0)

/-- What reading a grid file to its end says: number of points added, text on standard output and on standard error. -/
structure GridSays where
  added : Nat
  ignored : Nat
  out : String
  err : String

/-- `r` tells how many points of the grid file `w` have a fault block and a zone, and how many not; and there is one line for each
of the latter.  Without a readable header there are no points. -/
def GridReport (fmt : Fmt K) (nf : NumFmt K) (files : String → Option (List Char)) (w : String) (r : GridSays) : Prop :=
  r.out = s!"Beginning processing of '{w}'...\n" ++
    s!"Done procesing '{w}'.  # points added: {r.added},  # points ignored: {r.ignored}\n" ∧
  ∃ text, files w = some text ∧
    ((∃ hd t pts t' lines, HeaderText nf text hd t ∧ PointsText nf t pts t' ∧ pts.length = hd.numTotal.toNat ∧
      r.added = pts.countP (fun p => HasData p) ∧ r.ignored = pts.countP (fun p => ¬ HasData p) ∧
      List.Forall₂ (IgnoredLine fmt nf.rd) (pts.filter fun p => ¬ HasData p) lines ∧ r.err = concat lines) ∨
    ((∀ hd t, ¬ HeaderText nf text hd t) ∧ r.added = 0 ∧ r.ignored = 0 ∧ r.err = ""))

/-- The line ends with the words "No fault block". -/
def SaysNoBlock (line : String) : Prop := ∃ pre, line = pre ++ ", No fault block\n"

/-- Ingesting a grid file with contents `text` adds to standard error a line for each point left out; it ends with the words "No
fault block" just if `Q` holds of the point. -/
def ReasonGiven (nf : NumFmt K) (text : List Char) (con con' : Console) (Q : Point K → Prop) : Prop :=
  ∃ hd t pts t' lines, HeaderText nf text hd t ∧ PointsText nf t pts t' ∧ pts.length = hd.numTotal.toNat ∧
    List.Forall₂ (fun p line => SaysNoBlock line ↔ Q p) (pts.filter fun p => ¬ HasData p) lines ∧
    con'.err = con.err ++ concat lines

/-- Exit code and files of a program, without its console. -/
def files (r : Outcome (Int × EtreeDisk K × Console)) : Outcome (Int × EtreeDisk K) :=
  match r with
  | .ok (c, d, _) => .ok (c, d)
  | .exc m => .exc m
  | .ub => .ub

end Console
end CenCalVM
