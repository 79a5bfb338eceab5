/-
Specification vocabulary for WAVERES queries in the precision of float and double.
-/
import Verif.Spec.Query
import Verif.Spec.Average

set_option linter.unusedSectionVars false

namespace CenCalVM
variable {K : Type} [Field K] [LinearOrder K] [IsStrictOrderedRing K]

/-- Each real value of `p` lies between those of `c` and `l` and is their mean up to the fraction `ε` of it; fault block and zone are
those of `l`. -/
def NearMeanPayload (ε : K) (c l p : Payload K) : Prop :=
  (∀ r ∈ Payload.reals (K := K), min (r c) (r l) ≤ r p ∧ r p ≤ max (r c) (r l) ∧ |r p - (r c + r l) / 2| ≤ ε * |(r c + r l) / 2|) ∧
    p.faultBlock = l.faultBlock ∧ p.zone = l.zone

/-- The edge of the octant is shorter than the shear wavelength even if lengthened by the fraction `ε`, and the octant is solid and not
the root. -/
def ClearlyShorter (ε : K) (g : Geom K) (T : K) (e : Entry K) : Prop :=
  0 < e.payload.vs ∧ g.edgeLen e.addr.level * (1 + ε) < e.payload.vs * T ∧ 0 < e.addr.level

/-- The octant is an average, and the time a shear wave takes along its edge is infinite or longer than `T`. -/
def TooCoarse (g : Geom K) (T : K) (e : Entry K) : Prop :=
  e.addr.type = .interior ∧ (e.payload.vs = 0 ∨ T < g.edgeLen e.addr.level / e.payload.vs)

/-- The octant is an average, and the time a shear wave takes along its edge is infinite or, even if shortened by the fraction `ε`, longer
than `T`. -/
def ClearlyTooCoarse (ε : K) (g : Geom K) (T : K) (e : Entry K) : Prop :=
  e.addr.type = .interior ∧ (e.payload.vs = 0 ∨ T < g.edgeLen e.addr.level / e.payload.vs - ε * |g.edgeLen e.addr.level / e.payload.vs|)

/-- What a WAVERES query answers from one database, up to rounding: no data if the smallest octant around the location is too coarse, or
none is stored; or the result of a walk up from an octant that is not clearly too coarse, over octants shorter than the wavelength to the
first one that is not clearly shorter. -/
def WaveAnswerUpTo (ε δ : K) (g : Geom K) (T : K) (a : Key) (db : Db K) (p : Payload K) : Prop :=
  ((∀ e, db.Finest a e → TooCoarse g T e) ∧ p = noDataPayload) ∨
    (∃ e, db.Finest a e ∧ ¬ ClearlyTooCoarse ε g T e) ∧
      WalkUp (ShorterThanWave g T) (fun e => ¬ ClearlyShorter ε g T e) (NearMeanPayload δ) db a p

/-- The real values of the payloads are numbers of type `float`. -/
def Db.Single [FloorRing K] (ri : IntRound K) (db : Db K) : Prop :=
  ∀ e ∈ db.entries, ∀ r ∈ Payload.reals (K := K), fl ri 24 (r e.payload) = r e.payload

end CenCalVM
