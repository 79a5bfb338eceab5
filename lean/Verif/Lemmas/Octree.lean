/-
Octant addresses, paths and the Z-order.
-/
import Verif.Spec.Octree
import Mathlib.Data.List.Lex
import Mathlib.Tactic.Ring
import Mathlib.Tactic.Linarith

namespace CenCalVM

theorem octDigit_lt (a b c : Bool) : octDigit a b c < 8 := by
  cases a <;> cases b <;> cases c <;> decide

theorem octDigit_inj {a b c a' b' c' : Bool} (h : octDigit a b c = octDigit a' b' c') :
    a = a' ∧ b = b' ∧ c = c' := by
  revert h; cases a <;> cases b <;> cases c <;> cases a' <;> cases b' <;> cases c' <;> decide

@[simp] theorem octDigit_false : octDigit false false false = 0 := rfl

namespace Key

theorem truncTick_getLsbD (v : BitVec 32) (l i : Nat) :
    (truncTick v l).getLsbD i = (decide (31 - l ≤ i) && v.getLsbD i) := by
  unfold truncTick
  simp only [BitVec.getLsbD_shiftLeft, BitVec.getLsbD_ushiftRight]
  by_cases h : 31 - l ≤ i
  · rw [Nat.add_sub_cancel' h]
    by_cases hi : i < 32
    · simp [h, hi]
    · have : v.getLsbD i = false := BitVec.getLsbD_of_ge v i (by omega)
      simp [this]
  · simp [h]

theorem truncTick_toNat (v : BitVec 32) (l : Nat) :
    (truncTick v l).toNat = v.toNat / 2 ^ (31 - l) * 2 ^ (31 - l) := by
  unfold truncTick
  rw [BitVec.toNat_shiftLeft, BitVec.toNat_ushiftRight, Nat.shiftRight_eq_div_pow, Nat.shiftLeft_eq]
  apply Nat.mod_eq_of_lt
  exact Nat.lt_of_le_of_lt (Nat.div_mul_le_self _ _) v.isLt

theorem truncTick_le (v : BitVec 32) (l : Nat) : (truncTick v l).toNat ≤ v.toNat := by
  rw [truncTick_toNat]; exact Nat.div_mul_le_self _ _

theorem truncTick_of_dvd {v : BitVec 32} {l : Nat} (h : 2 ^ (31 - l) ∣ v.toNat) :
    truncTick v l = v := by
  apply BitVec.eq_of_toNat_eq
  rw [truncTick_toNat, Nat.div_mul_cancel h]

theorem truncTick_truncTick (v : BitVec 32) {l m : Nat} (h : m ≤ l) :
    truncTick (truncTick v l) m = truncTick v m := by
  apply BitVec.eq_of_getLsbD_eq
  intro i _
  simp only [truncTick_getLsbD]
  by_cases h1 : 31 - m ≤ i
  · have : 31 - l ≤ i := by omega
    simp [h1, this]
  · simp [h1]

theorem lt_pow31_iff (v : BitVec 32) : v.toNat < 2 ^ 31 ↔ v.getLsbD 31 = false := by
  have h := BitVec.msb_eq_decide v
  have h2 : v.msb = v.getLsbD 31 := by simp [BitVec.msb_eq_getLsbD_last]
  rw [h2] at h
  rw [h]; simp

theorem bit_false_of_dvd {v : BitVec 32} {n i : Nat} (h : 2 ^ n ∣ v.toNat) (hi : i < n) :
    v.getLsbD i = false := by
  rw [BitVec.getLsbD_eq_getElem?_getD] at *
  rw [← BitVec.getLsbD_eq_getElem?_getD, ← BitVec.testBit_toNat]
  obtain ⟨c, hc⟩ := h
  rw [hc, Nat.testBit_two_pow_mul]
  simp; omega

theorem bit_of_not_octant_range {v : BitVec 32} (h : v.toNat < 2 ^ 31) {i : Nat} (hi : 31 ≤ i) :
    v.getLsbD i = false := by
  rcases Nat.eq_or_lt_of_le hi with h1 | h1
  · subst h1; exact (lt_pow31_iff v).1 h
  · exact BitVec.getLsbD_of_ge v i (by omega)

@[ext] theorem ext' {a b : Key} (hx : a.x = b.x) (hy : a.y = b.y) (hz : a.z = b.z)
    (hl : a.level = b.level) : a = b := by cases a; cases b; simp_all

@[simp] theorem trunc_level (k : Key) (l : Nat) : (k.trunc l).level = l := rfl

theorem trunc_trunc (k : Key) {l m : Nat} (h : m ≤ l) : (k.trunc l).trunc m = k.trunc m := by
  simp [trunc, truncTick_truncTick _ h]

theorem Octant.trunc_self {k : Key} (h : k.Octant) : k.trunc k.level = k := by
  apply ext' <;> simp [trunc]
  · exact truncTick_of_dvd h.x_dvd
  · exact truncTick_of_dvd h.y_dvd
  · exact truncTick_of_dvd h.z_dvd

theorem octant_trunc_of_range {k : Key} (hx : k.x.toNat < 2 ^ 31) (hy : k.y.toNat < 2 ^ 31)
    (hz : k.z.toNat < 2 ^ 31) {l : Nat} (hl : l ≤ 31) : (k.trunc l).Octant where
  level_le := hl
  x_lt := Nat.lt_of_le_of_lt (truncTick_le _ _) hx
  y_lt := Nat.lt_of_le_of_lt (truncTick_le _ _) hy
  z_lt := Nat.lt_of_le_of_lt (truncTick_le _ _) hz
  x_dvd := by simp only [trunc, size, truncTick_toNat]; exact Nat.dvd_mul_left _ _
  y_dvd := by simp only [trunc, size, truncTick_toNat]; exact Nat.dvd_mul_left _ _
  z_dvd := by simp only [trunc, size, truncTick_toNat]; exact Nat.dvd_mul_left _ _

theorem Octant.trunc {k : Key} (h : k.Octant) {l : Nat} (hl : l ≤ 31) : (k.trunc l).Octant :=
  octant_trunc_of_range h.x_lt h.y_lt h.z_lt hl

@[simp] theorem path_length (k : Key) : k.path.length = k.level := by simp [path]

theorem path_getElem (k : Key) (i : Nat) (h : i < k.path.length) : k.path[i] = k.digit (30 - i) := by
  simp [path]

theorem path_lt_eight (k : Key) : ∀ d ∈ k.path, d < 8 := by
  intro d hd
  simp only [path, List.mem_map] at hd
  obtain ⟨i, _, rfl⟩ := hd
  exact octDigit_lt _ _ _

theorem digit_trunc (k : Key) {l i : Nat} (h : 31 - l ≤ i) : (k.trunc l).digit i = k.digit i := by
  simp [digit, trunc, truncTick_getLsbD, h]

theorem path_trunc {k : Key} {l : Nat} (h : l ≤ k.level) (hk : k.level ≤ 31) :
    (k.trunc l).path = k.path.take l := by
  apply List.ext_getElem
  · simp [h]
  · intro i h1 h2
    rw [List.getElem_take, path_getElem, path_getElem]
    apply digit_trunc
    simp at h1; omega

theorem digit_of_lt_size {k : Key} (h : k.Octant) {i : Nat} (hi : i < 31 - k.level) : k.digit i = 0 := by
  have hx := bit_false_of_dvd h.x_dvd hi
  have hy := bit_false_of_dvd h.y_dvd hi
  have hz := bit_false_of_dvd h.z_dvd hi
  simp [digit, hx, hy, hz]

theorem digit_31 {k : Key} (h : k.Octant) {i : Nat} (hi : 31 ≤ i) : k.digit i = 0 := by
  simp [digit, bit_of_not_octant_range h.x_lt hi, bit_of_not_octant_range h.y_lt hi,
    bit_of_not_octant_range h.z_lt hi]

theorem digits_inj {a b : Key} (h : ∀ i < 32, a.digit i = b.digit i) :
    a.x = b.x ∧ a.y = b.y ∧ a.z = b.z := by
  refine ⟨?_, ?_, ?_⟩ <;> apply BitVec.eq_of_getLsbD_eq <;> intro i hi <;>
    have := octDigit_inj (h i hi) <;> simp [this]

theorem path_inj {a b : Key} (ha : a.Octant) (hb : b.Octant) (h : a.path = b.path) : a = b := by
  have hl : a.level = b.level := by rw [← path_length a, ← path_length b, h]
  have hd : ∀ i < 32, a.digit i = b.digit i := by
    intro i _
    by_cases h31 : 31 ≤ i
    · rw [digit_31 ha h31, digit_31 hb h31]
    · by_cases hlow : i < 31 - a.level
      · rw [digit_of_lt_size ha hlow, digit_of_lt_size hb (by omega)]
      · have h1 := path_getElem a (30 - i) (by simp; omega)
        have h2 := path_getElem b (30 - i) (by simp; omega)
        have h3 : 30 - (30 - i) = i := by omega
        rw [h3] at h1 h2
        rw [← h1, ← h2]
        simp [h]
  obtain ⟨hx, hy, hz⟩ := digits_inj hd
  exact ext' hx hy hz hl

theorem zkey_inj {a b : Key} (h : a.zkey = b.zkey) : a = b := by
  unfold zkey at h
  have h1 := List.append_inj h (by simp)
  have hl : a.level = b.level := by simpa using h1.2
  have hd : ∀ i < 32, a.digit i = b.digit i := by
    intro i hi
    have := congrArg (fun l => l[31 - i]?) h1.1
    simp [show 31 - i < 32 by omega] at this
    have h3 : 31 - (31 - i) = i := by omega
    rwa [h3] at this
  obtain ⟨hx, hy, hz⟩ := digits_inj hd
  exact ext' hx hy hz hl

theorem zkey_octant {k : Key} (h : k.Octant) :
    k.zkey = 0 :: (k.path ++ List.replicate (31 - k.level) 0 ++ [k.level]) := by
  have hl := h.level_le
  have : ((List.range 32).map fun i => k.digit (31 - i)) =
      0 :: (k.path ++ List.replicate (31 - k.level) 0) := by
    apply List.ext_getElem
    · simp; omega
    · intro i h1 h2
      simp only [List.getElem_map, List.getElem_range]
      simp at h1
      rcases i with _ | i
      · simpa using digit_31 h (Nat.le_refl 31)
      · simp only [List.getElem_cons_succ]
        by_cases hi : i < k.level
        · rw [List.getElem_append_left (by simpa using hi), path_getElem]
          congr 1; omega
        · rw [List.getElem_append_right (by simpa using hi)]
          simp only [List.getElem_replicate]
          apply digit_of_lt_size h; omega
  rw [zkey, this]; simp

end Key

/-- Padding with zeros and appending the length turns the prefix-first order into plain
lexicographic order of equal-length lists. -/
theorem zpad_lt_aux (N c m : Nat) (q : List Nat) (hq : q.length ≤ N) (hcm : c < m) :
    (List.replicate N 0 ++ [c]) < (q ++ List.replicate (N - q.length) 0 ++ [m]) := by
  induction q generalizing N with
  | nil =>
    simp only [List.nil_append, List.length_nil, Nat.sub_zero]
    induction N with
    | zero => exact (List.cons_lt_cons_iff).2 (Or.inl hcm)
    | succ n ih =>
      simp only [List.replicate_succ, List.cons_append]
      rw [List.cons_lt_cons_iff]
      exact Or.inr ⟨rfl, ih (by simp)⟩
  | cons d q ih =>
    obtain ⟨n, rfl⟩ : ∃ n, N = n + 1 := ⟨N - 1, by simp at hq; omega⟩
    simp only [List.replicate_succ, List.cons_append, List.length_cons]
    rw [List.cons_lt_cons_iff]
    rcases Nat.eq_zero_or_pos d with hd | hd
    · refine Or.inr ⟨hd.symm, ?_⟩
      have := ih n (by simpa using hq)
      rwa [show n + 1 - (q.length + 1) = n - q.length by omega]
    · exact Or.inl hd

theorem zpad_lt (p q : List Nat) (N c : Nat) (hp : p.length ≤ N) (hq : q.length ≤ N) :
    (p ++ List.replicate (N - p.length) 0 ++ [p.length + c]) <
      (q ++ List.replicate (N - q.length) 0 ++ [q.length + c]) ↔ p < q := by
  induction p generalizing q N c with
  | nil =>
    cases q with
    | nil => simp
    | cons d q =>
      refine ⟨fun _ => List.nil_lt_cons _ _, fun _ => ?_⟩
      have := zpad_lt_aux N c ((d :: q).length + c) (d :: q) hq (by simp)
      simpa using this
  | cons d p ih =>
    cases q with
    | nil =>
      refine ⟨fun h => ?_, fun h => absurd h (List.not_lt_nil _)⟩
      have := zpad_lt_aux N c ((d :: p).length + c) (d :: p) hp (by simp)
      exact absurd (lt_trans h (by simpa using this)) (lt_irrefl _)
    | cons e q =>
      obtain ⟨n, rfl⟩ : ∃ n, N = n + 1 := ⟨N - 1, by simp at hq; omega⟩
      simp only [List.cons_append, List.length_cons, List.cons_lt_cons_iff]
      have := ih q n (c + 1) (by simpa using hp) (by simpa using hq)
      rw [show n + 1 - (p.length + 1) = n - p.length by omega,
        show n + 1 - (q.length + 1) = n - q.length by omega,
        show p.length + 1 + c = p.length + (c + 1) by omega,
        show q.length + 1 + c = q.length + (c + 1) by omega, this]

namespace Key

/-- On octants of the root cube the Z-order is the pre-order of the octree. -/
theorem zkey_lt_iff {a b : Key} (ha : a.Octant) (hb : b.Octant) : a.zkey < b.zkey ↔ a.path < b.path := by
  rw [zkey_octant ha, zkey_octant hb, List.cons_lt_cons_iff]
  have := zpad_lt a.path b.path 31 0 (by simpa using ha.level_le) (by simpa using hb.level_le)
  simp only [path_length, Nat.add_zero] at this
  rw [this]; simp

/-- Bits of an aligned coordinate containing another. -/
theorem axis_trunc_iff {v w : BitVec 32} {l m : Nat} (hlm : l ≤ m)
    (hv : 2 ^ (31 - l) ∣ v.toNat) (hw : 2 ^ (31 - m) ∣ w.toNat) :
    axisIn v.toNat (2 ^ (31 - l)) w.toNat (2 ^ (31 - m)) ↔ truncTick w l = v := by
  have hpos : 0 < 2 ^ (31 - l) := Nat.two_pow_pos _
  have hpm : 0 < 2 ^ (31 - m) := Nat.two_pow_pos _
  have hdv : 2 ^ (31 - m) ∣ 2 ^ (31 - l) := Nat.pow_dvd_pow 2 (by omega)
  rw [← BitVec.toNat_inj, truncTick_toNat]
  unfold axisIn
  obtain ⟨c, hc⟩ := hv
  constructor
  · rintro ⟨h1, h2⟩
    have hq : w.toNat / 2 ^ (31 - l) = c := by
      apply Nat.div_eq_of_lt_le
      · rw [Nat.mul_comm]; omega
      · rw [Nat.succ_mul, Nat.mul_comm]; omega
    rw [hq, hc, Nat.mul_comm]
  · intro h
    refine ⟨h ▸ Nat.div_mul_le_self _ _, ?_⟩
    obtain ⟨d, hd⟩ := hw
    obtain ⟨e, he⟩ := hdv
    have hlt : w.toNat < v.toNat + 2 ^ (31 - l) := by
      have := Nat.lt_div_mul_add (a := w.toNat) hpos
      omega
    have h3 : d < e * c + e := by
      by_contra hcon
      have : 2 ^ (31 - m) * (e * c + e) ≤ 2 ^ (31 - m) * d := Nat.mul_le_mul_left _ (by omega)
      have h4 : 2 ^ (31 - m) * (e * c + e) = 2 ^ (31 - l) * c + 2 ^ (31 - l) := by
        rw [he]; ring
      omega
    have h5 : 2 ^ (31 - m) * (d + 1) ≤ 2 ^ (31 - m) * (e * c + e) := Nat.mul_le_mul_left _ (by omega)
    have h4 : 2 ^ (31 - m) * (e * c + e) = 2 ^ (31 - l) * c + 2 ^ (31 - l) := by
      rw [he]; ring
    have h6 : 2 ^ (31 - m) * (d + 1) = 2 ^ (31 - m) * d + 2 ^ (31 - m) := by ring
    omega

/-- Containment of cubes is truncation of ticks. -/
theorem contains_iff_trunc' {a b : Key} (ha : a.Aligned) (hb : b.Aligned) :
    a.Contains b ↔ a.level ≤ b.level ∧ b.trunc a.level = a := by
  constructor
  · intro h
    have hl : a.level ≤ b.level := by
      by_contra hlt
      have h1 : a.size < b.size := by
        unfold size; exact Nat.pow_lt_pow_right (by omega) (by have := ha.level_le; omega)
      have := h.1; unfold axisIn at this; omega
    refine ⟨hl, ?_⟩
    obtain ⟨hx, hy, hz⟩ := h
    apply ext'
    · exact (axis_trunc_iff hl ha.x_dvd hb.x_dvd).1 hx
    · exact (axis_trunc_iff hl ha.y_dvd hb.y_dvd).1 hy
    · exact (axis_trunc_iff hl ha.z_dvd hb.z_dvd).1 hz
    · rfl
  · rintro ⟨hl, h⟩
    refine ⟨(axis_trunc_iff hl ha.x_dvd hb.x_dvd).2 (congrArg Key.x h),
      (axis_trunc_iff hl ha.y_dvd hb.y_dvd).2 (congrArg Key.y h),
      (axis_trunc_iff hl ha.z_dvd hb.z_dvd).2 (congrArg Key.z h)⟩

theorem contains_iff_trunc {a b : Key} (ha : a.Octant) (hb : b.Octant) :
    a.Contains b ↔ a.level ≤ b.level ∧ b.trunc a.level = a :=
  contains_iff_trunc' ha.aligned hb.aligned

/-- Containment of cubes is the prefix order on paths. -/
theorem contains_iff_prefix {a b : Key} (ha : a.Octant) (hb : b.Octant) :
    a.Contains b ↔ a.path <+: b.path := by
  rw [contains_iff_trunc ha hb, List.prefix_iff_eq_take]
  constructor
  · rintro ⟨hl, h⟩
    rw [path_length, ← path_trunc hl hb.level_le, h]
  · intro h
    have hl : a.level ≤ b.level := by
      have := congrArg List.length h; simp at this; omega
    refine ⟨hl, path_inj (hb.trunc ha.level_le) ha ?_⟩
    rw [path_trunc hl hb.level_le]; simpa using h.symm

end Key

end CenCalVM
