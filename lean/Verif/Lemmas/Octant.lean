/-
findAncestor and childOctantBit in terms of truncation and paths.
-/
import Verif.Lemmas.Octree
import Verif.Model.Octant

namespace CenCalVM

theorem leftmostone_eq : LEFTMOSTONE = 0x80000000#32 := by decide

theorem mask_getLsbD (l i : Nat) (hl : l < 32) :
    (LEFTMOSTONE.sshiftRight l).getLsbD i = (decide (31 - l ≤ i) && decide (i < 32)) := by
  rw [leftmostone_eq, BitVec.getLsbD_sshiftRight]
  have hb : ∀ j, (0x80000000#32).getLsbD j = decide (j = 31) := by
    intro j
    have : (0x80000000#32) = BitVec.twoPow 32 31 := by decide
    rw [this, BitVec.getLsbD_twoPow]
    by_cases h : j = 31
    · simp [h]
    · have : ¬ (31 = j) := fun h' => h h'.symm
      simp [h, this]
  have hm : (0x80000000#32).msb = true := by decide
  simp only [hb, hm]
  by_cases h32 : i < 32
  · by_cases h1 : l + i < 32
    · by_cases h2 : l + i = 31
      · have : 31 - l ≤ i := by omega
        simp [h2, h32, this]
      · have : ¬ 31 - l ≤ i := by omega
        simp [h1, h2, this]
    · have : 31 - l ≤ i := by omega
      simp [h1, h32, this]
  · simp [h32]

theorem and_mask (v : BitVec 32) (l : Nat) (hl : l < 32) :
    v &&& LEFTMOSTONE.sshiftRight l = Key.truncTick v l := by
  apply BitVec.eq_of_getLsbD_eq
  intro i hi
  rw [BitVec.getLsbD_and, mask_getLsbD _ _ hl, Key.truncTick_getLsbD]
  simp [hi, Bool.and_comm]

/-- `findAncestor` clears the ticks below the ancestor's cell size. -/
theorem findAncestor_eq {a : Addr} {n : Nat} (h : n < a.level) (hl : a.level ≤ 32) :
    findAncestor a n = .ok { toKey := a.toKey.trunc n, type := .interior } := by
  have hn : n < 32 := by omega
  simp [findAncestor, h, and_mask _ _ hn, Key.trunc]

theorem findAncestor_eq' {a : Addr} {n : Int} {b : Addr} (hl : a.level ≤ 32)
    (h : findAncestor a n = .ok b) :
    0 ≤ n ∧ n < a.level ∧ b = { toKey := a.toKey.trunc n.toNat, type := .interior } := by
  by_cases hc : 0 ≤ n ∧ n < a.level
  · obtain ⟨m, rfl⟩ := Int.eq_ofNat_of_zero_le hc.1
    have hm : m < a.level := by exact_mod_cast hc.2
    have := findAncestor_eq hm hl
    rw [this] at h
    cases h
    exact ⟨hc.1, hc.2, rfl⟩
  · simp [findAncestor, hc] at h

theorem mask_bit (v : BitVec 32) (l : Nat) (hl : l < 32) :
    (LEFTMOSTONE >>> l) &&& v ≠ 0 ↔ v.getLsbD (31 - l) = true := by
  have hm : LEFTMOSTONE >>> l = BitVec.twoPow 32 (31 - l) := by
    rw [leftmostone_eq]
    apply BitVec.eq_of_toNat_eq
    rw [BitVec.toNat_ushiftRight, Nat.shiftRight_eq_div_pow, BitVec.toNat_twoPow_of_lt (by omega)]
    show 2 ^ 31 / 2 ^ l = _
    rw [Nat.pow_div (by omega) (by omega)]
  rw [hm, BitVec.twoPow_and]
  cases hb : v.getLsbD (31 - l)
  · simp
  · simp only [if_true]
    refine iff_of_true ?_ trivial
    intro h
    have := congrArg BitVec.toNat h
    rw [BitVec.toNat_twoPow_of_lt (by omega)] at this
    simp at this

theorem childOctantBit_eq (a : Addr) (hl : a.level < 32) :
    childOctantBit a = BitVec.ofNat 8 (2 ^ a.toKey.digit (31 - a.level)) := by
  have hx := mask_bit a.x a.level hl
  have hy := mask_bit a.y a.level hl
  have hz := mask_bit a.z a.level hl
  unfold childOctantBit Key.digit octDigit
  simp only [hx, hy, hz]
  cases a.x.getLsbD (31 - a.level) <;> cases a.y.getLsbD (31 - a.level) <;>
    cases a.z.getLsbD (31 - a.level) <;> decide

theorem sameAddr_iff (a b : Addr) : sameAddr a b = true ↔ a.toKey = b.toKey := by
  simp only [sameAddr, Bool.and_eq_true, beq_iff_eq]
  constructor
  · rintro ⟨⟨⟨hx, hy⟩, hz⟩, hl⟩; exact Key.ext' hx hy hz hl
  · intro h; rw [h]; simp

theorem path_last {k : Key} (hpos : 0 < k.level) (h : k.level ≤ 31) :
    k.path = (k.trunc (k.level - 1)).path ++ [k.digit (31 - k.level)] := by
  rw [Key.path_trunc (by omega) h]
  have hlen : k.path.length = (k.level - 1) + 1 := by simp; omega
  have hl : k.path.length ≠ 0 := by omega
  rw [← List.dropLast_append_getLast (l := k.path) (by intro h0; simp [h0] at hl)]
  congr 1
  · rw [List.dropLast_eq_take]; simp
  · rw [List.getLast_eq_getElem, Key.path_getElem]
    simp only [Key.path_length, List.cons.injEq, and_true]
    congr 1; omega

theorem pow_digit_inj {m n : Nat} (hm : m < 8) (hn : n < 8)
    (h : BitVec.ofNat 8 (2 ^ m) = BitVec.ofNat 8 (2 ^ n)) : m = n := by
  have := congrArg BitVec.toNat h
  simp only [BitVec.toNat_ofNat] at this
  rw [Nat.mod_eq_of_lt, Nat.mod_eq_of_lt] at this
  · exact Nat.pow_right_injective (Nat.le_refl 2) this
  · exact Nat.pow_lt_pow_right (by omega) hn
  · exact Nat.pow_lt_pow_right (by omega) hm

end CenCalVM
