/-
Lemmas about rounding to a number of binary digits.
-/
import Verif.Model.Float
import Mathlib.Algebra.Order.Round
import Mathlib.Tactic.Linarith
import Mathlib.Tactic.Ring
import Mathlib.Tactic.FieldSimp
import Mathlib.Tactic.Positivity

set_option linter.unusedSectionVars false

namespace CenCalVM
variable {K : Type} [Field K] [LinearOrder K] [IsStrictOrderedRing K] [FloorRing K]

theorem IntRound.floor_le (ri : IntRound K) (x : K) : ⌊x⌋ ≤ ri.toInt x := by
  have h := ri.mono (⌊x⌋ : K) x (Int.floor_le x)
  rwa [ri.fix] at h

theorem IntRound.le_ceil (ri : IntRound K) (x : K) : ri.toInt x ≤ ⌈x⌉ := by
  have h := ri.mono x (⌈x⌉ : K) (Int.le_ceil x)
  rwa [ri.fix] at h

theorem IntRound.abs_sub_le (ri : IntRound K) (x : K) : |(ri.toInt x : K) - x| ≤ 1 := by
  have h1 : (⌊x⌋ : K) ≤ ri.toInt x := by exact_mod_cast ri.floor_le x
  have h2 : (ri.toInt x : K) ≤ ⌈x⌉ := by exact_mod_cast ri.le_ceil x
  have h3 := Int.lt_floor_add_one x
  have h4 := Int.ceil_lt_add_one x
  rw [abs_le]
  constructor <;> linarith

theorem IntRound.le_of_le (ri : IntRound K) {x : K} {n : ℤ} (h : (n : K) ≤ x) : n ≤ ri.toInt x := by
  have := ri.mono _ _ h
  rwa [ri.fix] at this

theorem IntRound.of_le (ri : IntRound K) {x : K} {n : ℤ} (h : x ≤ n) : ri.toInt x ≤ n := by
  have := ri.mono _ _ h
  rwa [ri.fix] at this

variable {ri : IntRound K} {prec : ℕ}

theorem two_zpow_pos (e : ℤ) : (0 : K) < 2 ^ e := zpow_pos (by norm_num) e

/-- The power of two below a number. -/
theorem log_bounds {x : K} (hx : x ≠ 0) : (2 : K) ^ Int.log 2 |x| ≤ |x| ∧ |x| < 2 ^ (Int.log 2 |x| + 1) := by
  have h0 : 0 < |x| := abs_pos.2 hx
  have h1 := Int.zpow_log_le_self (R := K) (b := 2) (by norm_num) h0
  have h2 := Int.lt_zpow_succ_log_self (R := K) (b := 2) (by norm_num) |x|
  exact ⟨by exact_mod_cast h1, by exact_mod_cast h2⟩

theorem log_eq {x : K} {k : ℤ} (h1 : (2 : K) ^ k ≤ |x|) (h2 : |x| < 2 ^ (k + 1)) : Int.log 2 |x| = k := by
  have h0 : 0 < |x| := lt_of_lt_of_le (two_zpow_pos k) h1
  have a := (Int.zpow_le_iff_le_log (R := K) (b := 2) (by norm_num) (x := k) h0).1 (by exact_mod_cast h1)
  have b := (Int.lt_zpow_iff_log_lt (R := K) (b := 2) (by norm_num) (x := k + 1) h0).1 (by exact_mod_cast h2)
  omega

@[simp] theorem fl_zero : fl ri prec (0 : K) = 0 := if_pos rfl

/-- Rounding commutes with powers of two. -/
theorem fl_scale (x : K) (k : ℤ) : fl ri prec (x * 2 ^ k) = fl ri prec x * 2 ^ k := by
  by_cases hx : x = 0
  · simp [hx]
  have hk : (2 : K) ^ k ≠ 0 := (two_zpow_pos k).ne'
  have hxk : x * 2 ^ k ≠ 0 := mul_ne_zero hx hk
  have hlog : Int.log 2 |x * 2 ^ k| = Int.log 2 |x| + k := by
    obtain ⟨h1, h2⟩ := log_bounds hx
    apply log_eq
    · rw [abs_mul, abs_of_pos (two_zpow_pos (K := K) k), zpow_add₀ (by norm_num)]
      exact mul_le_mul_of_nonneg_right h1 (two_zpow_pos k).le
    · rw [abs_mul, abs_of_pos (two_zpow_pos (K := K) k), show Int.log 2 |x| + k + 1 = Int.log 2 |x| + 1 + k by ring, zpow_add₀ (by norm_num)]
      exact mul_lt_mul_of_pos_right h2 (two_zpow_pos k)
  unfold fl
  rw [if_neg hx, if_neg hxk, hlog]
  have e : Int.log 2 |x| + k - ((prec - 1 : ℕ) : ℤ) = (Int.log 2 |x| - ((prec - 1 : ℕ) : ℤ)) + k := by ring
  rw [e, zpow_add₀ (by norm_num), mul_div_mul_right _ _ hk, mul_assoc]

/-- A number with few binary digits is not changed. -/
theorem fl_exact (hp : 0 < prec) {m e : ℤ} (hm : |m| < 2 ^ prec) : fl ri prec ((m : K) * 2 ^ e) = (m : K) * 2 ^ e := by
  by_cases h0 : m = 0
  · simp [h0]
  rw [fl_scale]
  congr 1
  have hmK : (m : K) ≠ 0 := by exact_mod_cast h0
  obtain ⟨h1, h2⟩ := log_bounds hmK
  set k := Int.log 2 |(m : K)| with hk
  have hk0 : k ≤ (prec - 1 : ℕ) := by
    by_contra hc
    have h3 : (prec : ℤ) ≤ k := by omega
    have h4 : (2 : K) ^ (prec : ℤ) ≤ 2 ^ k := zpow_le_zpow_right₀ (by norm_num) h3
    have h5 : ((|m| : ℤ) : K) < ((2 ^ prec : ℤ) : K) := by exact_mod_cast hm
    push_cast at h5
    rw [zpow_natCast] at h4
    linarith
  unfold fl
  rw [if_neg hmK, ← hk]
  obtain ⟨j, hj⟩ : ∃ j : ℕ, k - ((prec - 1 : ℕ) : ℤ) = -(j : ℤ) := ⟨((prec - 1 : ℕ) - k).toNat, by omega⟩
  rw [hj, zpow_neg, zpow_natCast, div_inv_eq_mul]
  have : (m : K) * 2 ^ j = ((m * 2 ^ j : ℤ) : K) := by push_cast; ring
  rw [this, ri.fix]
  push_cast
  field_simp

/-- Integers of few digits are not changed. -/
theorem fl_int (hp : 0 < prec) {m : ℤ} (hm : |m| < 2 ^ prec) : fl ri prec (m : K) = m := by
  have := fl_exact (ri := ri) (K := K) hp (m := m) (e := 0) hm
  simpa using this

theorem fl_bounds_pos (hp : 0 < prec) {x : K} (hx : 0 < x) :
    (2 : K) ^ Int.log 2 |x| ≤ fl ri prec x ∧ fl ri prec x ≤ 2 ^ (Int.log 2 |x| + 1) := by
  obtain ⟨h1, h2⟩ := log_bounds hx.ne'
  set k := Int.log 2 |x| with hk
  have e1 : (2 : K) ^ k = ((2 ^ (prec - 1) : ℤ) : K) * 2 ^ (k - ((prec - 1 : ℕ) : ℤ)) := by
    push_cast
    rw [← zpow_natCast (2 : K) (prec - 1), ← zpow_add₀ (by norm_num)]
    congr 1; ring
  have e2 : (2 : K) ^ (k + 1) = ((2 ^ prec : ℤ) : K) * 2 ^ (k - ((prec - 1 : ℕ) : ℤ)) := by
    push_cast
    rw [← zpow_natCast (2 : K) prec, ← zpow_add₀ (by norm_num)]
    congr 1; omega
  have hpos := two_zpow_pos (K := K) (k - ((prec - 1 : ℕ) : ℤ))
  unfold fl
  rw [if_neg hx.ne', ← hk]
  rw [abs_of_pos hx] at h1 h2
  rw [e1] at h1 ⊢
  rw [e2] at h2 ⊢
  constructor
  · refine mul_le_mul_of_nonneg_right ?_ hpos.le
    exact_mod_cast ri.le_of_le ((le_div_iff₀ hpos).2 h1)
  · refine mul_le_mul_of_nonneg_right ?_ hpos.le
    exact_mod_cast ri.of_le ((div_le_iff₀ hpos).2 h2.le)

theorem fl_bounds_neg (hp : 0 < prec) {x : K} (hx : x < 0) :
    -(2 : K) ^ (Int.log 2 |x| + 1) ≤ fl ri prec x ∧ fl ri prec x ≤ -2 ^ Int.log 2 |x| := by
  obtain ⟨h1, h2⟩ := log_bounds hx.ne
  set k := Int.log 2 |x| with hk
  have e1 : -(2 : K) ^ k = ((-2 ^ (prec - 1) : ℤ) : K) * 2 ^ (k - ((prec - 1 : ℕ) : ℤ)) := by
    push_cast
    rw [neg_mul, ← zpow_natCast (2 : K) (prec - 1), ← zpow_add₀ (by norm_num)]
    congr 2; ring
  have e2 : -(2 : K) ^ (k + 1) = ((-2 ^ prec : ℤ) : K) * 2 ^ (k - ((prec - 1 : ℕ) : ℤ)) := by
    push_cast
    rw [neg_mul, ← zpow_natCast (2 : K) prec, ← zpow_add₀ (by norm_num)]
    congr 2; omega
  have hpos := two_zpow_pos (K := K) (k - ((prec - 1 : ℕ) : ℤ))
  unfold fl
  rw [if_neg hx.ne, ← hk]
  rw [abs_of_neg hx] at h1 h2
  have h1' : x ≤ -(2 : K) ^ k := by linarith
  have h2' : -(2 : K) ^ (k + 1) ≤ x := by linarith
  rw [e1] at h1' ⊢
  rw [e2] at h2' ⊢
  constructor
  · refine mul_le_mul_of_nonneg_right ?_ hpos.le
    exact_mod_cast ri.le_of_le ((le_div_iff₀ hpos).2 h2')
  · refine mul_le_mul_of_nonneg_right ?_ hpos.le
    exact_mod_cast ri.of_le ((div_le_iff₀ hpos).2 h1')

theorem fl_pos (hp : 0 < prec) {x : K} (hx : 0 < x) : 0 < fl ri prec x :=
  lt_of_lt_of_le (two_zpow_pos _) (fl_bounds_pos hp hx).1

theorem fl_neg (hp : 0 < prec) {x : K} (hx : x < 0) : fl ri prec x < 0 :=
  lt_of_le_of_lt (fl_bounds_neg hp hx).2 (by have := two_zpow_pos (K := K) (Int.log 2 |x|); linarith)

/-- Rounding keeps the order. -/
theorem fl_mono (hp : 0 < prec) {x y : K} (h : x ≤ y) : fl ri prec x ≤ fl ri prec y := by
  rcases lt_trichotomy x 0 with hx | rfl | hx
  · rcases lt_trichotomy y 0 with hy | rfl | hy
    · have hab : |y| ≤ |x| := by rw [abs_of_neg hx, abs_of_neg hy]; linarith
      have hlog : Int.log 2 |y| ≤ Int.log 2 |x| := Int.log_mono_right (abs_pos.2 hy.ne) hab
      rcases hlog.lt_or_eq with hlt | heq
      · refine (fl_bounds_neg hp hx).2.trans (le_trans ?_ (fl_bounds_neg hp hy).1)
        have : (2 : K) ^ (Int.log 2 |y| + 1) ≤ 2 ^ Int.log 2 |x| := zpow_le_zpow_right₀ (by norm_num) (by omega)
        linarith
      · unfold fl
        rw [if_neg hx.ne, if_neg hy.ne, heq]
        have hpos := two_zpow_pos (K := K) (Int.log 2 |x| - ((prec - 1 : ℕ) : ℤ))
        refine mul_le_mul_of_nonneg_right ?_ hpos.le
        exact_mod_cast ri.mono _ _ (div_le_div_of_nonneg_right h hpos.le)
    · rw [fl_zero]; exact (fl_neg hp hx).le
    · exact (fl_neg hp hx).le.trans (fl_pos hp hy).le
  · rcases h.lt_or_eq with hy | rfl
    · rw [fl_zero]; exact (fl_pos hp hy).le
    · exact le_rfl
  · have hy : 0 < y := lt_of_lt_of_le hx h
    have hab : |x| ≤ |y| := by rw [abs_of_pos hx, abs_of_pos hy]; exact h
    have hlog : Int.log 2 |x| ≤ Int.log 2 |y| := Int.log_mono_right (abs_pos.2 hx.ne') hab
    rcases hlog.lt_or_eq with hlt | heq
    · refine (fl_bounds_pos hp hx).2.trans (le_trans ?_ (fl_bounds_pos hp hy).1)
      exact zpow_le_zpow_right₀ (by norm_num) (by omega)
    · unfold fl
      rw [if_neg hx.ne', if_neg hy.ne', heq]
      have hpos := two_zpow_pos (K := K) (Int.log 2 |y| - ((prec - 1 : ℕ) : ℤ))
      refine mul_le_mul_of_nonneg_right ?_ hpos.le
      exact_mod_cast ri.mono _ _ (div_le_div_of_nonneg_right h hpos.le)

/-- The relative error. -/
theorem fl_error (x : K) : |fl ri prec x - x| ≤ |x| / 2 ^ (prec - 1) := by
  by_cases hx : x = 0
  · simp [hx]
  obtain ⟨h1, -⟩ := log_bounds hx
  set k := Int.log 2 |x| with hk
  have hpos := two_zpow_pos (K := K) (k - ((prec - 1 : ℕ) : ℤ))
  have e : fl ri prec x - x = ((ri.toInt (x / 2 ^ (k - ((prec - 1 : ℕ) : ℤ))) : K) - x / 2 ^ (k - ((prec - 1 : ℕ) : ℤ))) *
      2 ^ (k - ((prec - 1 : ℕ) : ℤ)) := by
    unfold fl
    rw [if_neg hx, ← hk, sub_mul, div_mul_cancel₀ _ hpos.ne']
  rw [e, abs_mul, abs_of_pos hpos]
  calc _ ≤ 1 * (2 : K) ^ (k - ((prec - 1 : ℕ) : ℤ)) := mul_le_mul_of_nonneg_right (ri.abs_sub_le _) hpos.le
    _ = 2 ^ k / 2 ^ (prec - 1) := by rw [one_mul, zpow_sub₀ (by norm_num), zpow_natCast]
    _ ≤ _ := div_le_div_of_nonneg_right h1 (by positivity)

/-! ### Rounding directions -/

/-- Downward. -/
def IntRound.down : IntRound K := ⟨fun x => ⌊x⌋, fun _ _ h => Int.floor_le_floor h, fun n => Int.floor_intCast n⟩
/-- Upward. -/
def IntRound.up : IntRound K := ⟨fun x => ⌈x⌉, fun _ _ h => Int.ceil_le_ceil h, fun n => Int.ceil_intCast n⟩

/-- To the nearest integer, in the middle to the even one. -/
def nearestEven (x : K) : ℤ := if Int.fract x = 1 / 2 then (if Even ⌊x⌋ then ⌊x⌋ else ⌊x⌋ + 1) else ⌊x + 1 / 2⌋

theorem nearestEven_bounds (x : K) : ⌊x⌋ ≤ nearestEven x ∧ nearestEven x ≤ ⌊x⌋ + 1 ∧
    (Int.fract x < 1 / 2 → nearestEven x = ⌊x⌋) ∧ (1 / 2 < Int.fract x → nearestEven x = ⌊x⌋ + 1) ∧
    (Int.fract x = 1 / 2 → nearestEven x = if Even ⌊x⌋ then ⌊x⌋ else ⌊x⌋ + 1) := by
  have h0 := Int.fract_nonneg x
  have h1 := Int.fract_lt_one x
  have hx : x = ⌊x⌋ + Int.fract x := (Int.floor_add_fract x).symm
  have lo : Int.fract x < 1 / 2 → nearestEven x = ⌊x⌋ := by
    intro h
    unfold nearestEven
    rw [if_neg h.ne, Int.floor_eq_iff]
    constructor <;> linarith
  have hi : 1 / 2 < Int.fract x → nearestEven x = ⌊x⌋ + 1 := by
    intro h
    unfold nearestEven
    rw [if_neg h.ne', Int.floor_eq_iff]
    push_cast
    constructor <;> linarith
  have mid : Int.fract x = 1 / 2 → nearestEven x = if Even ⌊x⌋ then ⌊x⌋ else ⌊x⌋ + 1 := by
    intro h
    unfold nearestEven
    rw [if_pos h]
  refine ⟨?_, ?_, lo, hi, mid⟩
  · rcases lt_trichotomy (Int.fract x) (1 / 2) with h | h | h
    · rw [lo h]
    · rw [mid h]; split <;> omega
    · rw [hi h]; omega
  · rcases lt_trichotomy (Int.fract x) (1 / 2) with h | h | h
    · rw [lo h]; omega
    · rw [mid h]; split <;> omega
    · rw [hi h]

theorem nearestEven_mono {x y : K} (h : x ≤ y) : nearestEven x ≤ nearestEven y := by
  obtain ⟨a1, a2, a3, a4, a5⟩ := nearestEven_bounds x
  obtain ⟨b1, b2, b3, b4, b5⟩ := nearestEven_bounds y
  have hf : ⌊x⌋ ≤ ⌊y⌋ := Int.floor_le_floor h
  rcases hf.lt_or_eq with hlt | heq
  · omega
  · have hxy : Int.fract x ≤ Int.fract y := by
      have e1 : x = ⌊x⌋ + Int.fract x := (Int.floor_add_fract x).symm
      have e2 : y = ⌊y⌋ + Int.fract y := (Int.floor_add_fract y).symm
      have : (⌊x⌋ : K) = ⌊y⌋ := by exact_mod_cast heq
      linarith
    rcases lt_trichotomy (Int.fract x) (1 / 2) with hx | hx | hx
    · rw [a3 hx]; omega
    · rcases hxy.lt_or_eq with hlt | he
      · rw [b4 (by rw [← hx]; exact hlt)]; omega
      · rw [a5 hx, b5 (by rw [← he]; exact hx), heq]
    · rw [b4 (lt_of_lt_of_le hx hxy)]; omega

/-- The default rounding of IEEE 754: to the nearest, ties to even. -/
def IntRound.nearest : IntRound K :=
  ⟨nearestEven, fun _ _ => nearestEven_mono, fun n => by
    obtain ⟨-, -, h, -⟩ := nearestEven_bounds (n : K)
    rw [h (by rw [Int.fract_intCast]; norm_num), Int.floor_intCast]⟩

end CenCalVM
