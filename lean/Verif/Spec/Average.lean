/-
Specification vocabulary for averaging.
-/
import Verif.Spec.Octree
import Verif.Model.AvgEngine

namespace CenCalVM

/-- No stored octant lies inside another one. -/
def Db.NonOverlapping {K : Type} (db : Db K) : Prop :=
  ∀ a ∈ db.entries, ∀ b ∈ db.entries, a.addr.toKey.Contains b.addr.toKey → a = b

/-- The stored octants are smaller than the root. -/
def Db.BelowRoot {K : Type} (db : Db K) : Prop := ∀ e ∈ db.entries, 0 < e.addr.level

/-- `k` is an octant that contains a stored one and is larger. -/
def Db.ProperAncestor {K : Type} (db : Db K) (k : Key) : Prop :=
  k.Octant ∧ ∃ e ∈ db.entries, k.Contains e.addr.toKey ∧ k ≠ e.addr.toKey

/-- `c` is one of the eight cells into which `k` is divided. -/
def Key.IsChild (k c : Key) : Prop := c.level = k.level + 1 ∧ k.Contains c

instance (k c : Key) : Decidable (k.IsChild c) := inferInstanceAs (Decidable (_ ∧ _))

/-- The stored children of an octant. -/
def Db.childrenOf {K : Type} (db : Db K) (k : Key) : List (Entry K) :=
  db.entries.filter fun c => k.IsChild c.addr.toKey

namespace AvgEngine

/-- The storage never fails. -/
def Env.Reliable {K : Type} (env : Env K) : Prop :=
  (∀ n, env.writeFault n = false) ∧ (∀ n, env.getFault n = false) ∧ ∀ n, env.advFault n = false

/-- Sums and quotients are not rounded. -/
def Env.Exact {K : Type} (env : Env K) : Prop := ∀ x, env.rd x = x

end AvgEngine

section
variable {K : Type} [Field K] [LinearOrder K]

/-- The six real values of a payload. -/
def Payload.reals : List (Payload K → K) :=
  [Payload.vp, Payload.vs, Payload.density, Payload.qp, Payload.qs, Payload.depth]

/-- Each real value of `p` is the arithmetic mean of those of `ps`. -/
def IsMean (ps : List (Payload K)) (p : Payload K) : Prop :=
  ∀ f ∈ Payload.reals (K := K), f p = (ps.map f).sum / (ps.length : K)

/-- The value of an octant with the given children: the mean of the solid ones if there is one, else the mean of the
water ones if there is one, else no data; marked as interior. -/
structure SolidPrecedence (ps : List (Payload K)) (p : Payload K) : Prop where
  solid : (∃ c ∈ ps, 0 < c.vs) → IsMean (ps.filter fun c => decide (0 < c.vs)) p
  water : (∀ c ∈ ps, ¬ 0 < c.vs) → (∃ c ∈ ps, 0 < c.vp) → IsMean (ps.filter fun c => decide (0 < c.vp)) p
  noData : (∀ c ∈ ps, ¬ 0 < c.vs) → (∀ c ∈ ps, ¬ 0 < c.vp) → ∀ f ∈ Payload.reals (K := K), f p = -999
  block : p.faultBlock = -999
  zone : p.zone = -999

/-- Rounding moves a number by at most the fraction `ε` of it. -/
structure RoundsWithin (rd : K → K) (ε : K) : Prop where
  nonneg : 0 ≤ ε
  lt_one : ε < 1
  near : ∀ x, |rd x - x| ≤ ε * |x|

/-- Each real value of `p` is the arithmetic mean of those of `ps` up to the fraction `δ` of the mean of their
absolute values. -/
def IsMeanUpTo (δ : K) (ps : List (Payload K)) (p : Payload K) : Prop :=
  ∀ f ∈ Payload.reals (K := K), |f p - (ps.map f).sum / (ps.length : K)| ≤
    δ * ((ps.map fun c => |f c|).sum / (ps.length : K))

/-- The value of an octant with the given children as `SolidPrecedence` gives it, except that means are as precise as
`IsMeanUpTo` says; the average of solid octants is solid and that of water is water. -/
structure SolidPrecedenceUpTo (δ : K) (ps : List (Payload K)) (p : Payload K) : Prop where
  solid : (∃ c ∈ ps, 0 < c.vs) → 0 < p.vs ∧ IsMeanUpTo δ (ps.filter fun c => decide (0 < c.vs)) p
  water : (∀ c ∈ ps, ¬ 0 < c.vs) → (∃ c ∈ ps, 0 < c.vp) → ¬ 0 < p.vs ∧ 0 < p.vp ∧
    IsMeanUpTo δ (ps.filter fun c => decide (0 < c.vp)) p
  noData : (∀ c ∈ ps, ¬ 0 < c.vs) → (∀ c ∈ ps, ¬ 0 < c.vp) → ∀ f ∈ Payload.reals (K := K), f p = -999
  block : p.faultBlock = -999
  zone : p.zone = -999

/-- The stored octants below `k` that determine its average: the solid ones if there is one, else the water ones. -/
def Db.Contributes (db : Db K) (k : Key) (e : Entry K) : Prop :=
  e ∈ db.entries ∧ k.Contains e.addr.toKey ∧
    (0 < e.payload.vs ∨
      (0 < e.payload.vp ∧ ∀ d ∈ db.entries, k.Contains d.addr.toKey → ¬ 0 < d.payload.vs))

/-- The stored children of `k` are exactly those at the positions `D` (position `x + 2 y + 4 z`, each of `x`, `y`, `z`
0 for the lower and 1 for the upper half). -/
def Db.ChildrenAt (db : Db K) (k : Key) (D : List Nat) : Prop :=
  ∀ d < 8, d ∈ D ↔ ∃ c ∈ db.entries, k.IsChild c.addr.toKey ∧ c.addr.toKey.digit (31 - c.addr.level) = d

instance (db : Db K) (k : Key) (D : List Nat) : Decidable (db.ChildrenAt k D) := by
  unfold Db.ChildrenAt; infer_instance

end

end CenCalVM
