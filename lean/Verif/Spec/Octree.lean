/-
Specification vocabulary for octants: which keys are octants of the root cube, which octant contains
which, and the path from the root.
-/
import Verif.Model.Etree

namespace CenCalVM

namespace Key

/-- Edge length of an octant in ticks; the root cube has edge `2^31`. -/
def size (k : Key) : Nat := 2 ^ (31 - k.level)

/-- `k` is an octant of the root cube: level at most 31 and the lower corner inside the root cube on the
grid of its level. -/
structure Octant (k : Key) : Prop where
  level_le : k.level ≤ 31
  x_lt : k.x.toNat < 2 ^ 31
  y_lt : k.y.toNat < 2 ^ 31
  z_lt : k.z.toNat < 2 ^ 31
  x_dvd : k.size ∣ k.x.toNat
  y_dvd : k.size ∣ k.y.toNat
  z_dvd : k.size ∣ k.z.toNat

instance (k : Key) : Decidable k.Octant :=
  decidable_of_iff
    (k.level ≤ 31 ∧ k.x.toNat < 2 ^ 31 ∧ k.y.toNat < 2 ^ 31 ∧ k.z.toNat < 2 ^ 31 ∧
      k.size ∣ k.x.toNat ∧ k.size ∣ k.y.toNat ∧ k.size ∣ k.z.toNat)
    ⟨fun ⟨a, b, c, d, e, f, g⟩ => ⟨a, b, c, d, e, f, g⟩,
     fun ⟨a, b, c, d, e, f, g⟩ => ⟨a, b, c, d, e, f, g⟩⟩

/-- `k` lies on the grid of its level (its lower corner may lie outside the root cube). -/
structure Aligned (k : Key) : Prop where
  level_le : k.level ≤ 31
  x_dvd : k.size ∣ k.x.toNat
  y_dvd : k.size ∣ k.y.toNat
  z_dvd : k.size ∣ k.z.toNat

theorem Octant.aligned {k : Key} (h : k.Octant) : k.Aligned := ⟨h.level_le, h.x_dvd, h.y_dvd, h.z_dvd⟩

/-- Interval inclusion `[b, b+sb) ⊆ [a, a+sa)` on one axis, in ticks. -/
def axisIn (a sa b sb : Nat) : Prop := a ≤ b ∧ b + sb ≤ a + sa

instance (a sa b sb : Nat) : Decidable (axisIn a sa b sb) := inferInstanceAs (Decidable (_ ∧ _))

/-- The cube of `a` contains the cube of `b`. -/
def Contains (a b : Key) : Prop :=
  axisIn a.x.toNat a.size b.x.toNat b.size ∧ axisIn a.y.toNat a.size b.y.toNat b.size ∧
    axisIn a.z.toNat a.size b.z.toNat b.size

instance (a b : Key) : Decidable (a.Contains b) := inferInstanceAs (Decidable (_ ∧ _ ∧ _))

/-- Octant digits from the root down to `k` (one per level). -/
def path (k : Key) : List Nat := (List.range k.level).map fun i => k.digit (30 - i)

end Key

end CenCalVM
