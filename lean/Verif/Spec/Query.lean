/-
Specification vocabulary for queries.
-/
import Verif.Spec.Octree
import Verif.Model.Query
import Verif.Spec.Rounding

namespace CenCalVM

/-- All stored octants are octants of the tree. -/
def Db.Octants {K : Type} (db : Db K) : Prop := ∀ e ∈ db.entries, e.addr.toKey.Octant

/-- A database as libetree holds it: octants of the tree, in order, no key twice. -/
structure Db.Good {K : Type} (db : Db K) : Prop where
  octants : db.Octants
  sorted : db.Sorted

/-- `e` is the smallest stored octant whose cube contains the cell `a`. -/
def Db.Finest {K : Type} (db : Db K) (a : Key) (e : Entry K) : Prop :=
  e ∈ db.entries ∧ e.addr.toKey.Contains a ∧
    ∀ f ∈ db.entries, f.addr.toKey.Contains a → f.addr.level ≤ e.addr.level

/-- The parent octant of every stored octant below the root is stored. -/
def Db.AncestorClosed {K : Type} (db : Db K) : Prop :=
  ∀ e ∈ db.entries, 0 < e.addr.level → ∃ f ∈ db.entries, f.addr.level + 1 = e.addr.level ∧
    f.addr.toKey.Contains e.addr.toKey

/-- What the code relies on about a geometry: the coordinates passed in are only written, level and type are kept,
a converted address is on the grid of its level, and on failure the address is outside the root cube. -/
structure Geom.Lawful {K : Type} (g : Geom K) : Prop where
  overwrites : ∀ a b : Addr, a.level = b.level → a.type = b.type → ∀ lon lat elev,
    g.lonLatElevToAddr a lon lat elev = g.lonLatElevToAddr b lon lat elev
  keeps : ∀ a b lon lat elev code, g.lonLatElevToAddr a lon lat elev = .ok (b, code) →
    b.level = a.level ∧ b.type = a.type
  aligned : ∀ a b lon lat elev, g.lonLatElevToAddr a lon lat elev = .ok (b, 0) → b.toKey.Aligned
  outside : ∀ a b lon lat elev code, g.lonLatElevToAddr a lon lat elev = .ok (b, code) → code ≠ 0 →
    2 ^ 31 ≤ b.x.toNat

/-- Value number `n` of a payload in the order of the API: Vp, Vs, Density, Qp, Qs, DepthFreeSurf, FaultBlock,
Zone. -/
def pick {K : Type} [IntCast K] [Zero K] (p : Payload K) (n : Nat) : K :=
  [p.vp, p.vs, p.density, p.qp, p.qs, p.depth, (p.faultBlock : K), (p.zone : K)].getD n 0

section
variable {K : Type} [Field K] [LinearOrder K]

/-- The payload a query answers with: what it returns when exactly the eight payload values are requested. -/
def PayloadOf (fmt : Fmt K) (q : VMQuery K) (lon lat elev : K) (p : Payload K) : Prop :=
  ∃ q' fs', VMQuery.query fmt { q with queryVals := (List.range 8).map some } (fun _ => "") 8 lon lat elev =
    .ok (q', fs', (List.range 8).map (pick p))

/-- The location's cell at a level, in the sense of a geometry. -/
def CellOf (g : Geom K) (level : Nat) (lon lat elev : K) (a : Addr) : Prop :=
  g.lonLatElevToAddr { x := 0, y := 0, z := 0, level := level, type := .leaf } lon lat elev = .ok (a, 0)

/-- The location is reported outside the model. -/
def OutsideOf (g : Geom K) (level : Nat) (lon lat elev : K) : Prop :=
  ∃ a code, g.lonLatElevToAddr { x := 0, y := 0, z := 0, level := level, type := .leaf } lon lat elev =
    .ok (a, code) ∧ code ≠ 0

/-- Two models are combined: the answer is the detailed one if it has data (fault block not 0) or is the only
one, otherwise that of the extended model. -/
def Combined (S : Db K → Payload K → Prop) (db : Db K) (ext : Option (Db K)) (p : Payload K) : Prop :=
  (S db p ∧ (p.faultBlock ≠ 0 ∨ ext = none)) ∨
    ∃ p0 x, S db p0 ∧ p0.faultBlock = 0 ∧ ext = some x ∧ S x p

/-- The answer `p` of one database is taken from the smallest stored octant containing cell `a` if that octant is
acceptable, and is the no-data payload otherwise. -/
def FromFinest (accept : Entry K → Prop) (a : Key) (db : Db K) (p : Payload K) : Prop :=
  (∃ e, db.Finest a e ∧ accept e ∧ p = e.payload) ∨
    ((∀ e, db.Finest a e → ¬ accept e) ∧ p = noDataPayload)

/-- Squashing does not apply to the location. -/
def NotSquashed (q : VMQuery K) (elev : K) : Prop := q.squashTopo = false ∨ elev ≤ q.squashLimit

/-- The query object is open on database `db` with geometry `g`, and its databases are as libetree holds them. -/
structure VMQuery.Open (q : VMQuery K) (g : Geom K) (db : Db K) : Prop where
  geom_eq : q.geom = some g
  db_eq : q.db = some db
  lawful : g.Lawful
  good : db.Good
  goodExt : ∀ x, q.dbExt = some x → x.Good

/-- The level at which a query looks for the location: the finest one, or that of the requested resolution. -/
def LookupLevel (q : VMQuery K) (g : Geom K) (n : Nat) : Prop :=
  match q.queryFn with
  | .MAXRES => n = 31
  | .WAVERES => n = 31
  | .FIXEDRES => g.level (g.vertExag * q.queryRes) = .ok (n : Int)

/-- Whether an octant found for a location may be used by the selected type of query: leaves always; averages
never (MAXRES), only at the requested level (FIXEDRES), only if the time a shear wave takes along the edge is
not larger than the requested period (WAVERES; the time is computed with the rounding `q.rd` and a zero speed gives an infinite
time). -/
def Acceptable (q : VMQuery K) (g : Geom K) (n : Nat) (e : Entry K) : Prop :=
  e.addr.type = .leaf ∨
  match q.queryFn with
  | .MAXRES => False
  | .FIXEDRES => n ≤ e.addr.level
  | .WAVERES => e.payload.vs ≠ 0 ∧ q.rd.double (g.edgeLen e.addr.level / e.payload.vs) ≤ g.vertExag * q.queryRes

/-- The edge of the octant is shorter than the shear wavelength `Vs * T`, and the octant is solid and not the
root. -/
def ShorterThanWave (g : Geom K) (T : K) (e : Entry K) : Prop :=
  0 < e.payload.vs ∧ g.edgeLen e.addr.level < e.payload.vs * T ∧ 0 < e.addr.level

/-- `p` is the mean of the payloads `c` and `l`, with fault block and zone of `l`. -/
def MeanPayload (c l p : Payload K) : Prop :=
  p.vp = (c.vp + l.vp) / 2 ∧ p.vs = (c.vs + l.vs) / 2 ∧ p.density = (c.density + l.density) / 2 ∧
  p.qp = (c.qp + l.qp) / 2 ∧ p.qs = (c.qs + l.qs) / 2 ∧ p.depth = (c.depth + l.depth) / 2 ∧
  p.faultBlock = l.faultBlock ∧ p.zone = l.zone

/-- Result of walking up from the smallest octant containing cell `a` over octants with `short` to the first octant with `long`: its
payload if it is the smallest octant itself, else a `mean` of its payload and that of the octant one level below it on the walk. -/
def WalkUp (short long : Entry K → Prop) (mean : Payload K → Payload K → Payload K → Prop) (db : Db K) (a : Key) (p : Payload K) : Prop :=
  ∃ first last : Entry K, db.Finest a first ∧
    last ∈ db.entries ∧ last.addr.toKey.Contains a ∧ long last ∧
    (∀ e ∈ db.entries, e.addr.toKey.Contains a → last.addr.level < e.addr.level → short e) ∧
    ((last = first ∧ p = first.payload) ∨
      ∃ c ∈ db.entries, c.addr.toKey.Contains a ∧ c.addr.level = last.addr.level + 1 ∧ mean c.payload last.payload p)

/-- Result of walking up from the smallest octant containing cell `a` to the first octant that is not
`ShorterThanWave`. -/
def WaveWalk (g : Geom K) (T : K) (db : Db K) (a : Key) (p : Payload K) : Prop :=
  WalkUp (ShorterThanWave g T) (fun e => ¬ ShorterThanWave g T e) MeanPayload db a p

/-- No conversion of the geometry throws. -/
def Geom.NoThrow (g : Geom K) : Prop :=
  (∀ a lon lat elev m, g.lonLatElevToAddr a lon lat elev ≠ .exc m) ∧ ∀ a m, g.addrToLonLatElev a ≠ .exc m

/-- The elevation a query answers with when only the elevation is requested. -/
def ElevationOf (fmt : Fmt K) (q : VMQuery K) (lon lat elev z : K) : Prop :=
  ∃ q' fs', VMQuery.query fmt { q with queryVals := [some 8] } (fun _ => "") 1 lon lat elev = .ok (q', fs', [z])

/-- The leaf octant holding the location: in the detailed model, else in the extended one. -/
def GroundLeaf (db : Db K) (ext : Option (Db K)) (a : Key) (e : Entry K) : Prop :=
  e.addr.type = .leaf ∧
    (db.Finest a e ∨ ((∀ f, db.Finest a f → f.addr.type ≠ .leaf) ∧ ∃ x, ext = some x ∧ x.Finest a e))

/-- The octant (with its database) the ground elevation is taken from: the leaf of the detailed model holding the
cell, else the smallest octant of any type of the extended model holding it. -/
def GroundOctant (db : Db K) (ext : Option (Db K)) (a : Key) (e : Entry K) (d : Db K) : Prop :=
  (d = db ∧ db.Finest a e ∧ e.addr.type = .leaf) ∨
    ((∀ f, db.Finest a f → f.addr.type ≠ .leaf) ∧ ext = some d ∧ d.Finest a e)

/-- A leaf of `d` with a shear speed holds the cell. -/
def HasRock (d : Db K) (b : Key) : Prop := ∃ f, d.Finest b f ∧ f.addr.type = .leaf ∧ f.payload.vs ≠ -999

/-- The ground elevation at a location: -999 if there is no ground octant, otherwise the elevation of its centroid
plus its depth, rounded to double. -/
def GroundElev (rd : Rd K) (g : Geom K) (db : Db K) (ext : Option (Db K)) (lon lat elev z : K) : Prop :=
  ∃ a code, g.lonLatElevToAddr { x := 0, y := 0, z := 0, level := 31, type := .leaf } lon lat elev = .ok (a, code) ∧
    (((∀ e d, ¬ GroundOctant db ext a.toKey e d) ∧ z = -999) ∨
      ∃ e d c, GroundOctant db ext a.toKey e d ∧ g.addrToLonLatElev e.addr = .ok c ∧ z = rd.double (c.2.2 + e.payload.depth))

/-- The ground elevation used for squashing: that of `GroundElev` if the model has rock at that elevation,
otherwise that of the ground octant moved down by one cell. -/
def SquashGround (rd : Rd K) (g : Geom K) (db : Db K) (ext : Option (Db K)) (lon lat elev z : K) : Prop :=
  ∃ a code, g.lonLatElevToAddr { x := 0, y := 0, z := 0, level := 31, type := .leaf } lon lat elev = .ok (a, code) ∧
    (((∀ e d, ¬ GroundOctant db ext a.toKey e d) ∧ z = -999) ∨
      ∃ e d c b code', GroundOctant db ext a.toKey e d ∧ g.addrToLonLatElev e.addr = .ok c ∧
        g.lonLatElevToAddr { x := 0, y := 0, z := 0, level := 31, type := .leaf } lon lat
          (rd.double (c.2.2 + e.payload.depth)) =
          .ok (b, code') ∧
        ((HasRock d b.toKey ∧ z = rd.double (c.2.2 + e.payload.depth)) ∨
          (¬ HasRock d b.toKey ∧ ∃ c', g.addrToLonLatElev
              { e.addr with z := BitVec.ofInt 32 ((e.addr.z.toNat : Int) - e.addr.toKey.size) } = .ok c' ∧
            z = rd.double (c'.2.2 + e.payload.depth))))

/-- Conversions at levels up to 31 always succeed. -/
def Geom.Total (g : Geom K) : Prop :=
  (∀ (a : Addr) (lon lat elev : K), a.level ≤ 31 → ∃ r, g.lonLatElevToAddr a lon lat elev = .ok r) ∧
    ∀ a : Addr, a.level ≤ 31 → ∃ r, g.addrToLonLatElev a = .ok r

/-- Names of the values, in the order of their numbers. -/
def valueNames : List String :=
  ["Vp", "Vs", "Density", "Qp", "Qs", "DepthFreeSurf", "FaultBlock", "Zone", "elevation"]

/-- `name` is the name of value number `k`, in any letter case. -/
def NamesValue (name : String) (k : Nat) : Prop :=
  ∃ c, valueNames[k]? = some c ∧ c.toList.map Char.toLower = name.toList.map Char.toLower

end

end CenCalVM
