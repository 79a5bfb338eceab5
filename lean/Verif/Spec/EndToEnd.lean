/-
Specification vocabulary for what is ingested in a cell.
-/
import Verif.Spec.FileApps

namespace CenCalVM
open GridIngester
variable {K : Type} [Field K] [LinearOrder K] [IsStrictOrderedRing K]

/-- `e` is the octant for a point with data of one of the grid files named in `ws`, and lies in the cell `k`. -/
def IngestedIn (nf : NumFmt K) (g : Geom K) (files : String → Option (List Char)) (ws : List String) (k : Key) (e : Entry K) : Prop :=
  ∃ w ∈ ws, ∃ text hd t pts t', files w = some text ∧ HeaderText nf text hd t ∧ PointsText nf t pts t' ∧
    pts.length = hd.numTotal.toNat ∧ ∃ n : Nat, g.level (nf.rd.double (hd.resHoriz * 1000)) = .ok (n : Int) ∧
      ∃ p ∈ pts, HasData p ∧ OctantFor nf.rd g n p e ∧ k.Contains e.addr.toKey

/-- The octants that decide the average over a cell: the solid ones if there is one, else the water ones. -/
def Decides (es : Entry K → Prop) (e : Entry K) : Prop :=
  es e ∧ (0 < e.payload.vs ∨ (0 < e.payload.vp ∧ ∀ d, es d → ¬ 0 < d.payload.vs))

end CenCalVM
