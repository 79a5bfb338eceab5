/-
Specification vocabulary for extracting and grading a grid of points.
-/
import Verif.Spec.Create
import Verif.Model.VsGrader
import Verif.Spec.Rounding

namespace CenCalVM
namespace VsGrader
variable {K : Type} [Field K] [LinearOrder K]

/-- Neighbours of a line of `n` values differ by at most `m`. -/
def Bounded (m : K) (n : Nat) (v : Nat → K) : Prop := ∀ i, i + 1 < n → |v (i + 1) - v i| ≤ m

/-- Neighbours of a grid of values differ by at most `mh` horizontally and `mv` vertically. -/
structure Bounded3 (mh mv : K) (nL nW nH : Nat) (v : Nat → Nat → Nat → K) : Prop where
  len : ∀ w < nW, ∀ h < nH, Bounded mh nL fun l => v l w h
  width : ∀ l < nL, ∀ h < nH, Bounded mh nW fun w => v l w h
  ht : ∀ l < nL, ∀ w < nW, Bounded mv nH fun h => v l w h

/-- The numbers of points along the length, width and height are the largest that fit into the domain (a point at the start and
one after every full step), as far as the arithmetic tells; they are within the range of `int`. -/
structure Dims (s : Grid K) (nL nW nH : Nat) : Prop where
  resVert : 0 < s.resVert
  vertExag : 0 < s.geom.vertExag
  len : (nL : K) ≤ s.rd.double (1 + s.rd.double (s.domainLen / (s.resVert * s.geom.vertExag))) ∧
    s.rd.double (1 + s.rd.double (s.domainLen / (s.resVert * s.geom.vertExag))) < nL + 1
  width : (nW : K) ≤ s.rd.double (1 + s.rd.double (s.domainWidth / (s.resVert * s.geom.vertExag))) ∧
    s.rd.double (1 + s.rd.double (s.domainWidth / (s.resVert * s.geom.vertExag))) < nW + 1
  ht : (nH : K) ≤ s.rd.double (1 + s.rd.double (s.domainHt / s.resVert)) ∧
    s.rd.double (1 + s.rd.double (s.domainHt / s.resVert)) < nH + 1
  lenLt : nL < 2 ^ 31
  widthLt : nW < 2 ^ 31
  htLt : nH < 2 ^ 31

/-- The distance of `i` steps in the plane, in the arithmetic of the grid. -/
def Steps (s : Grid K) (i : Nat) : K := s.rd.double (i * (s.resVert * s.geom.vertExag))

/-- Location of the point `(l, w, h)` of the grid: `l` steps along the length and `w` steps along the width from the corner
in the projected plane, `h` steps down, in the arithmetic of the grid. -/
def PointAt (s : Grid K) (l w h : Nat) (lon lat elev : K) : Prop :=
  s.proj.invProject (s.rd.double (s.rd.double (s.swX + s.rd.double (Steps s l * s.sinAz)) + s.rd.double (Steps s w * s.cosAz)))
      (s.rd.double (s.rd.double (s.swY + s.rd.double (Steps s l * s.cosAz)) - s.rd.double (Steps s w * s.sinAz))) = .ok (lon, lat) ∧
    elev = s.rd.double (s.swElev - s.rd.double (h * s.resVert))

/-- The cell of a point of the grid at level `n`; the point lies inside the model. -/
def PointCell (s : Grid K) (n l w h : Nat) (a : Addr) : Prop :=
  ∃ lon lat elev, PointAt s l w h lon lat elev ∧ CellOf s.geom n lon lat elev a

/-- The payload stored for a point of the grid. -/
def PointPayload (s : Grid K) (n : Nat) (db : Db K) (l w h : Nat) (p : Payload K) : Prop :=
  ∃ a, PointCell s n l w h a ∧ ∃ e ∈ db.entries, e.addr.toKey = a.toKey ∧ e.payload = p

/-- The octants are at the level of the grid, and every point of the grid has one to itself. -/
structure OnGrid (s : Grid K) (n nL nW nH : Nat) (db : Db K) : Prop where
  sorted : db.Sorted
  level : ∀ e ∈ db.entries, e.addr.level = n
  stored : ∀ l < nL, ∀ w < nW, ∀ h < nH, ∃ p, PointPayload s n db l w h p
  distinct : ∀ l < nL, ∀ w < nW, ∀ h < nH, ∀ l' < nL, ∀ w' < nW, ∀ h' < nH, ∀ a a', PointCell s n l w h a →
    PointCell s n l' w' h' a' → a.toKey = a'.toKey → l = l' ∧ w = w' ∧ h = h'

/-- `q` is `p` with the shear wave speed reduced (or equal), the other properties in proportion, and what is not a material
property untouched. -/
structure ReducedTo (p q : Payload K) : Prop where
  le : q.vs ≤ p.vs
  vp : q.vp * p.vs = p.vp * q.vs
  density : q.density * p.vs = p.density * q.vs
  qp : q.qp * p.vs = p.qp * q.vs
  qs : q.qs * p.vs = p.qs * q.vs
  depth : q.depth = p.depth
  faultBlock : q.faultBlock = p.faultBlock
  zone : q.zone = p.zone

/-- The payload extracted for an answer `p` of the query: marked if there is no shear wave speed, otherwise the answer with
the speed raised to the minimum, in single precision. -/
def ExtractedFrom (rd : Rd K) (minVs : K) (p r : Payload K) : Prop :=
  (rd.single p.vs < 0 ∧ r = ⟨10 ^ 10, 10 ^ 10, 10 ^ 10, 10 ^ 10, 10 ^ 10, 10 ^ 10, 999, 999⟩) ∨
    (0 ≤ rd.single p.vs ∧ ∃ v, ((minVs ≤ rd.single p.vs ∧ v = rd.single p.vs) ∨ (rd.single p.vs < minVs ∧ v = rd.single minVs)) ∧
      r = ⟨rd.single p.vp, v, rd.single p.density, rd.single p.qp, rd.single p.qs, rd.single p.depth, p.faultBlock, p.zone⟩)

/-- The query object of the extraction: newly created with geometry `g`, opened on `db` without an extended model, with the
type and resolution selected, computing with the arithmetic `rd`. -/
structure QueryFor (rd : Rd K) (g : Geom K) (db : Db K) (type : Int) (res : K) (q : VMQuery K) : Prop where
  geom : q.geom = some g
  db : q.db = some db
  dbExt : q.dbExt = none
  squash : q.squashTopo = false
  rd : q.rd = rd
  fn : (type = 0 ∧ q.queryFn = .MAXRES) ∨ (type = 1 ∧ q.queryFn = .FIXEDRES) ∨ (type = 2 ∧ q.queryFn = .WAVERES) ∨
    (type ≠ 0 ∧ type ≠ 1 ∧ type ≠ 2 ∧ q.queryFn = .MAXRES)
  res : (0 < res ∧ q.queryRes = res) ∨ (res ≤ 0 ∧ q.queryRes = 0)

/-- The points of the grid in the order of the loops. -/
def points (nL nW nH : Nat) : List (Nat × Nat × Nat) :=
  (List.range nL).flatMap fun l => (List.range nW).flatMap fun w => (List.range nH).map fun h => (l, w, h)

/-- `e` is the octant extracted for a point: at its cell, with what is extracted from the answer of the query there. -/
def ExtractedAt (fmt : Fmt K) (q : VMQuery K) (s : Grid K) (n : Nat) (pt : Nat × Nat × Nat) (e : Entry K) : Prop :=
  ∃ lon lat elev p code, PointAt s pt.1 pt.2.1 pt.2.2 lon lat elev ∧ PayloadOf fmt q lon lat elev p ∧
    s.geom.lonLatElevToAddr { x := 0, y := 0, z := 0, level := n, type := .leaf } lon lat elev = .ok (e.addr, code) ∧
    ExtractedFrom s.rd s.minVs p e.payload

end VsGrader
end CenCalVM
