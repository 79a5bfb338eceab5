/-
Specification vocabulary for ingestion in `float` and `double`.
-/
import Verif.Spec.EndToEnd

namespace CenCalVM
open GridIngester
variable {K : Type} [Field K] [LinearOrder K]

/-- `b` is `a` converted from km to m up to a relative error `δ`: no-data stays no-data, the sign is kept, and what is not
negative does not become no-data. -/
def ConvertedUpTo (δ a b : K) : Prop :=
  (a = -999 ∧ b = -999) ∨ (a ≠ -999 ∧ |b - 1000 * a| ≤ δ * |1000 * a| ∧ (0 < b ↔ 0 < a) ∧ (b < 0 ↔ a < 0))

/-- `m` is the payload of the point `p` in m, m/s and kg/m^3, in exact arithmetic. -/
structure InMetres (p : Point K) (m : Payload K) : Prop where
  vp : Converted id p.payload.vp m.vp
  vs : Converted id p.payload.vs m.vs
  density : Converted id p.payload.density m.density
  depth : Converted id p.payload.depth m.depth
  qp : m.qp = p.payload.qp
  qs : m.qs = p.payload.qs
  faultBlock : m.faultBlock = p.payload.faultBlock
  zone : m.zone = p.payload.zone

/-- `m` is the payload of the point `p` in m, m/s and kg/m^3, up to a relative error `δ`. -/
structure InMetresUpTo (δ : K) (p : Point K) (m : Payload K) : Prop where
  vp : ConvertedUpTo δ p.payload.vp m.vp
  vs : ConvertedUpTo δ p.payload.vs m.vs
  density : ConvertedUpTo δ p.payload.density m.density
  depth : ConvertedUpTo δ p.payload.depth m.depth
  qp : m.qp = p.payload.qp
  qs : m.qs = p.payload.qs
  faultBlock : m.faultBlock = p.payload.faultBlock
  zone : m.zone = p.payload.zone

/-- `p` is a point with data of one of the grid files named in `ws`, whose resolution is that of level `n`, and the cell of its
location at that level lies in the cell `k`. -/
def PointIn (nf : NumFmt K) (g : Geom K) (files : String → Option (List Char)) (ws : List String) (k : Key) (n : Nat) (p : Point K) : Prop :=
  ∃ w ∈ ws, ∃ text hd t pts t', files w = some text ∧ HeaderText nf text hd t ∧ PointsText nf t pts t' ∧
    pts.length = hd.numTotal.toNat ∧ g.level (nf.rd.double (hd.resHoriz * 1000)) = .ok (n : Int) ∧ p ∈ pts ∧ HasData p ∧
      ∃ elev a, Converted nf.rd.double p.elev elev ∧ CellOf g n p.lon p.lat elev a ∧ k.Contains a.toKey

/-- The points that decide the average over a cell: the solid ones if there is one, else the water ones. -/
def DecidingPoint (ps : Point K → Prop) (p : Point K) : Prop :=
  ps p ∧ (0 < p.payload.vs ∨ (0 < p.payload.vp ∧ ∀ d, ps d → ¬ 0 < d.payload.vs))

end CenCalVM
