/-
Vocabulary of the properties of the applications that create, pack, average and describe database files.
-/
import Verif.Spec.Average
import Verif.Spec.Create
import Verif.Spec.QueryApp
import Verif.Model.FileApps

namespace CenCalVM
namespace FileApps
variable {K : Type} [Field K] [LinearOrder K]

/-- The applications with options: the letters with an argument, and those among them that name files. -/
inductive App : OptSpec → List Char → Prop
  | avg : App avgSpec ['i', 'o']
  | pack : App packSpec ['i', 'o']
  | gen : App genSpec ['i', 'o', 't']
  | grade : App gradeSpec ['i', 'o', 'p', 't']

/-- The command line giving the named files by options `-i` and `-o`. -/
def argsIO (i o : String) : List (List Char) := [['-', 'i'], i.toList, ['-', 'o'], o.toList]
/-- The command line giving the named files by options `-i`, `-o` and `-t`. -/
def argsIOT (i o t : String) : List (List Char) := [['-', 'i'], i.toList, ['-', 'o'], o.toList, ['-', 't'], t.toList]

/-- `out` holds the octants of `db` and, marked as interior, their proper ancestors; no octant twice; and the value of
each ancestor is an average, in the given sense, of those of its children. -/
structure AverageBy (mean : List (Payload K) → Payload K → Prop) (db out : Db K) : Prop where
  good : out.Good
  keys : ∀ k, (∃ x ∈ out.entries, x.addr.toKey = k) ↔ (∃ e ∈ db.entries, e.addr.toKey = k) ∨ db.ProperAncestor k
  keeps : ∀ e ∈ db.entries, e ∈ out.entries
  others : ∀ x ∈ out.entries, x ∉ db.entries → x.addr.type = .interior ∧ db.ProperAncestor x.addr.toKey ∧
    mean ((out.childrenOf x.addr.toKey).map Entry.payload) x.payload

/-- `out` is the average of `db`: it holds the octants of `db` and, marked as interior, their proper ancestors; no octant
twice; and each ancestor has the average of its children. -/
def AverageOf (db out : Db K) : Prop := AverageBy SolidPrecedence db out

/-- `out` is the average of `db` where each average is only as precise as `δ` says. -/
def AverageUpTo (δ : K) (db out : Db K) : Prop := AverageBy (SolidPrecedenceUpTo δ) db out

/-- All points with data of a grid file lie inside the model, in cells smaller than the root. -/
def GridInside (nf : NumFmt K) (g : Geom K) (text : List Char) : Prop :=
  ∀ hd t pts t', HeaderText nf text hd t → PointsText nf t pts t' → pts.length = hd.numTotal.toNat →
    ∀ n : Nat, g.level (nf.rd.double (hd.resHoriz * 1000)) = .ok (n : Int) → 0 < n ∧
      ∀ p ∈ pts, HasData p → ∀ elev, Converted nf.rd.double p.elev elev → ∃ a, CellOf g n p.lon p.lat elev a ∧ a.toKey.Octant

/-- `c` is the number of points with data of the grid file, 0 if its header cannot be read. -/
def GridCount (nf : NumFmt K) (files : String → Option (List Char)) (filename : String) (c : Nat) : Prop :=
  ∃ text, files filename = some text ∧
    ((∃ hd t pts t', HeaderText nf text hd t ∧ PointsText nf t pts t' ∧ pts.length = hd.numTotal.toNat ∧
      c = pts.countP fun p => HasData p) ∨ ((∀ hd t, ¬ HeaderText nf text hd t) ∧ c = 0))

end FileApps
end CenCalVM
