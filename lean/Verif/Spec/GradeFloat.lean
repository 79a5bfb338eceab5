/-
Vocabulary of the properties of grading with floating-point numbers.
-/
import Verif.Spec.Grade
import Verif.Model.Float

namespace CenCalVM
namespace VsGrader
variable {K : Type} [Field K] [LinearOrder K] [FloorRing K]

/-- Two numbers agree up to a factor `r`. -/
def Within (r a b : K) : Prop := a ≤ r * b ∧ b ≤ r * a

/-- Neighbours of a line of `n` values differ by at most `m`, up to a factor `r`. -/
def BoundedUpTo (r m : K) (n : Nat) (v : Nat → K) : Prop :=
  ∀ i, i + 1 < n → v (i + 1) ≤ r * (v i + m) ∧ v i ≤ r * (v (i + 1) + m)

/-- Neighbours of a grid of values differ by at most `mh` horizontally and `mv` vertically, up to a factor `r`. -/
structure Bounded3UpTo (r mh mv : K) (nL nW nH : Nat) (v : Nat → Nat → Nat → K) : Prop where
  len : ∀ w < nW, ∀ h < nH, BoundedUpTo r mh nL fun l => v l w h
  width : ∀ l < nL, ∀ h < nH, BoundedUpTo r mh nW fun w => v l w h
  ht : ∀ l < nL, ∀ w < nW, BoundedUpTo r mv nH fun h => v l w h

/-- The quotients `a' / v'` and `a / v` agree up to a factor `r`. -/
def Proportional (r a v a' v' : K) : Prop := ∃ c, c ≤ r ∧ 1 ≤ r * c ∧ a' * v = c * (a * v')

/-- A payload with its speed reduced (raised by at most a factor `r`), the other properties in proportion up to a factor `t`. -/
structure ReducedUpTo (r t : K) (p q : Payload K) : Prop where
  le : q.vs ≤ r * p.vs
  vp : Proportional t p.vp p.vs q.vp q.vs
  density : Proportional t p.density p.vs q.density q.vs
  qp : Proportional t p.qp p.vs q.qp q.vs
  qs : Proportional t p.qs p.vs q.qs q.vs
  depth : q.depth = p.depth
  faultBlock : q.faultBlock = p.faultBlock
  zone : q.zone = p.zone

end VsGrader
end CenCalVM
