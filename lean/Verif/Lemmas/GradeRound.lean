/-
Lemmas about the points and the extraction of the grader in `float` and `double`.
-/
import Verif.Spec.GradeRound
import Verif.Lemmas.GradeFloat
import Verif.Lemmas.GradeRun
import Verif.Lemmas.QueryFloat
import Verif.Lemmas.Float

set_option linter.unusedSectionVars false

namespace CenCalVM
namespace VsGrader
variable {K : Type} [Field K] [LinearOrder K] [IsStrictOrderedRing K] [FloorRing K]
variable {rs rdb : IntRound K}

/-- Rounding a number that is near another. -/
theorem fl_close {a b δ B : K} (h : |a - b| ≤ δ * B) (hb : |b| ≤ B) (hδ : δ ≤ 1) : |fl rdb 53 a - b| ≤ (δ + 1 / 2 ^ 51) * B := by
  have hB : 0 ≤ B := (abs_nonneg b).trans hb
  have h1 := fl_error (ri := rdb) (prec := 53) a
  have h2 : |a| ≤ 2 * B := by
    have e : a = (a - b) + b := by ring
    rw [e]
    have := mul_le_of_le_one_left hB hδ
    exact (abs_add_le _ _).trans (by linarith)
  have h3 : |a| / 2 ^ (53 - 1) ≤ 1 / 2 ^ 51 * B := by
    rw [div_le_iff₀ (by positivity)]
    refine h2.trans (le_of_eq ?_)
    norm_num
    ring
  have e : fl rdb 53 a - b = (fl rdb 53 a - a) + (a - b) := by ring
  rw [e]
  refine (abs_add_le _ _).trans ?_
  linarith

/-- One leg of the way from the corner. -/
theorem leg_close {r i t : K} (hi : 0 ≤ i * r) : |fl rdb 53 (fl rdb 53 (i * r) * t) - i * r * t| ≤ 1 / 2 ^ 50 * (i * r * |t|) := by
  have h1 : |fl rdb 53 (i * r) - i * r| ≤ (0 + 1 / 2 ^ 51) * (i * r) :=
    fl_close (by simp) (abs_of_nonneg hi).le zero_le_one
  have h2 : |fl rdb 53 (i * r) * t - i * r * t| ≤ (0 + 1 / 2 ^ 51) * (i * r * |t|) := by
    rw [← sub_mul, abs_mul, ← mul_assoc]
    exact mul_le_mul_of_nonneg_right h1 (abs_nonneg t)
  refine (fl_close h2 (by rw [abs_mul, abs_of_nonneg hi]) (by norm_num)).trans (le_of_eq ?_)
  norm_num

/-- The sum of a coordinate and two legs. -/
theorem legs_close {x0 P P0 Q Q0 S C : K} (a1 : |P - P0| ≤ 1 / 2 ^ 50 * S) (bS : |P0| ≤ S) (a2 : |Q - Q0| ≤ 1 / 2 ^ 50 * C) (bC : |Q0| ≤ C) :
    |fl rdb 53 (fl rdb 53 (x0 + P) + Q) - (x0 + P0 + Q0)| ≤ (|x0| + S + C) / 2 ^ 49 := by
  have hC0 : 0 ≤ C := (abs_nonneg _).trans bC
  have hx := abs_nonneg x0
  have a3 : |fl rdb 53 (x0 + P) - (x0 + P0)| ≤ (1 / 2 ^ 50 + 1 / 2 ^ 51) * (|x0| + S) := by
    refine fl_close ?_ ((abs_add_le _ _).trans (by linarith)) (by norm_num)
    have e : x0 + P - (x0 + P0) = P - P0 := by ring
    rw [e]
    exact a1.trans (mul_le_mul_of_nonneg_left (by linarith) (by positivity))
  have a4 : |fl rdb 53 (x0 + P) + Q - (x0 + P0 + Q0)| ≤ (1 / 2 ^ 50 + 1 / 2 ^ 51) * (|x0| + S + C) := by
    have e : fl rdb 53 (x0 + P) + Q - (x0 + P0 + Q0) = (fl rdb 53 (x0 + P) - (x0 + P0)) + (Q - Q0) := by ring
    rw [e]
    refine (abs_add_le _ _).trans ((add_le_add a3 a2).trans ?_)
    have : (1 / 2 ^ 50 : K) * C ≤ (1 / 2 ^ 50 + 1 / 2 ^ 51) * C := mul_le_mul_of_nonneg_right (by norm_num) hC0
    linarith
  have a5 : |x0 + P0 + Q0| ≤ |x0| + S + C := (abs_add_three _ _ _).trans (by linarith)
  refine (fl_close a4 a5 (by norm_num)).trans (le_of_eq ?_)
  norm_num
  ring

/-- A coordinate of a point of the plane, computed in `double`. -/
theorem plane_close (x0 l w r s c : K) (hl : 0 ≤ l * r) (hw : 0 ≤ w * r) :
    |fl rdb 53 (fl rdb 53 (x0 + fl rdb 53 (fl rdb 53 (l * r) * s)) + fl rdb 53 (fl rdb 53 (w * r) * c)) - (x0 + l * r * s + w * r * c)| ≤
      (|x0| + l * r * |s| + w * r * |c|) / 2 ^ 49 :=
  legs_close (leg_close hl) (by rw [abs_mul, abs_of_nonneg hl]) (leg_close hw) (by rw [abs_mul, abs_of_nonneg hw])

theorem plane_close_sub (x0 l w r s c : K) (hl : 0 ≤ l * r) (hw : 0 ≤ w * r) :
    |fl rdb 53 (fl rdb 53 (x0 + fl rdb 53 (fl rdb 53 (l * r) * s)) - fl rdb 53 (fl rdb 53 (w * r) * c)) - (x0 + l * r * s - w * r * c)| ≤
      (|x0| + l * r * |s| + w * r * |c|) / 2 ^ 49 := by
  rw [sub_eq_add_neg (fl rdb 53 (x0 + _)), sub_eq_add_neg (x0 + l * r * s)]
  refine legs_close (leg_close hl) (by rw [abs_mul, abs_of_nonneg hl]) ?_ (by rw [abs_neg, abs_mul, abs_of_nonneg hw])
  rw [neg_sub_neg, abs_sub_comm]
  exact leg_close hw

/-- The elevation of a point. -/
theorem elev_close (z h r : K) (hr : 0 ≤ h * r) : |fl rdb 53 (z - fl rdb 53 (h * r)) - (z - h * r)| ≤ (|z| + h * r) / 2 ^ 50 := by
  have h1 : |fl rdb 53 (h * r) - h * r| ≤ (0 + 1 / 2 ^ 51) * (h * r) := fl_close (by simp) (abs_of_nonneg hr).le zero_le_one
  have hz := abs_nonneg z
  have h2 : |z - fl rdb 53 (h * r) - (z - h * r)| ≤ (0 + 1 / 2 ^ 51) * (|z| + h * r) := by
    have e : z - fl rdb 53 (h * r) - (z - h * r) = -(fl rdb 53 (h * r) - h * r) := by ring
    rw [e, abs_neg]
    exact h1.trans (mul_le_mul_of_nonneg_left (by linarith) (by positivity))
  have h3 : |z - h * r| ≤ |z| + h * r := by
    rw [sub_eq_add_neg]
    exact (abs_add_le _ _).trans (by rw [abs_neg, abs_of_nonneg hr])
  refine (fl_close h2 h3 (by norm_num)).trans (le_of_eq ?_)
  norm_num
  ring

/-- Integers of moderate size bound what is rounded. -/
theorem fl_ge_int {x : K} {m : ℤ} (hm : |m| < 2 ^ 53) (h : (m : K) ≤ x) : (m : K) ≤ fl rdb 53 x := by
  have := fl_mono (ri := rdb) (prec := 53) (by norm_num) h
  rwa [fl_int (by norm_num) hm] at this

theorem fl_le_int {x : K} {m : ℤ} (hm : |m| < 2 ^ 53) (h : x ≤ (m : K)) : fl rdb 53 x ≤ m := by
  have := fl_mono (ri := rdb) (prec := 53) (by norm_num) h
  rwa [fl_int (by norm_num) hm] at this

/-- The number of points in `double`, between those of the exact quotient. -/
theorem count_bounds {q : K} (h0 : 0 ≤ q) (hq : q < 2 ^ 31) :
    ((⌊q⌋ : K) + 1 ≤ fl rdb 53 (1 + fl rdb 53 q)) ∧ fl rdb 53 (1 + fl rdb 53 q) ≤ (⌈q⌉ : K) + 1 := by
  have f0 : 0 ≤ ⌊q⌋ := Int.floor_nonneg.2 h0
  have c0 : 0 ≤ ⌈q⌉ := Int.ceil_nonneg h0
  have c1 : ⌈q⌉ ≤ 2 ^ 31 := Int.ceil_le.2 (by exact_mod_cast hq.le)
  have f1 : ⌊q⌋ ≤ ⌈q⌉ := Int.floor_le_ceil q
  have b1 : |⌊q⌋| < 2 ^ 53 := by rw [abs_of_nonneg f0]; omega
  have b2 : |⌈q⌉| < 2 ^ 53 := by rw [abs_of_nonneg c0]; omega
  have b3 : |⌊q⌋ + 1| < 2 ^ 53 := by rw [abs_of_nonneg (by omega)]; omega
  have b4 : |⌈q⌉ + 1| < 2 ^ 53 := by rw [abs_of_nonneg (by omega)]; omega
  have g1 := fl_ge_int (rdb := rdb) b1 (Int.floor_le q)
  have g2 := fl_le_int (rdb := rdb) b2 (Int.le_ceil q)
  constructor
  · have := fl_ge_int (rdb := rdb) (x := 1 + fl rdb 53 q) b3 (by push_cast; linarith)
    push_cast at this
    exact this
  · have := fl_le_int (rdb := rdb) (x := 1 + fl rdb 53 q) b4 (by push_cast; linarith)
    push_cast at this
    exact this

/-- A number of points that was computed fills the line. -/
theorem fills {n : Nat} {len res : K} (hr : 0 < res) (hl : 0 ≤ len) (hq : len / res < 2 ^ 31)
    (h1 : (n : K) ≤ fl rdb 53 (1 + fl rdb 53 (len / res))) (h2 : fl rdb 53 (1 + fl rdb 53 (len / res)) < n + 1) : Fills n len res := by
  have h0 : 0 ≤ len / res := div_nonneg hl hr.le
  obtain ⟨b1, b2⟩ := count_bounds (rdb := rdb) h0 hq
  have e : len / res * res = len := div_mul_cancel₀ _ hr.ne'
  refine ⟨?_, ?_⟩
  · have h3 : (⌊len / res⌋ : K) < n := by linarith
    have h4 : ⌊len / res⌋ < (n : ℤ) := by exact_mod_cast h3
    have h5 : ((⌊len / res⌋ + 1 : ℤ) : K) ≤ ((n : ℤ) : K) := by exact_mod_cast h4
    push_cast at h5
    have h6 := Int.lt_floor_add_one (len / res)
    calc len = len / res * res := e.symm
      _ < n * res := mul_lt_mul_of_pos_right (h6.trans_le h5) hr
  · have hc : |fl rdb 53 (1 + fl rdb 53 (len / res)) - (1 + len / res)| ≤ (1 / 2 ^ 51 + 1 / 2 ^ 51) * (1 + len / res) := by
      refine fl_close ?_ (abs_of_nonneg (by linarith)).le (by norm_num)
      have h3 : |fl rdb 53 (len / res) - len / res| ≤ (0 + 1 / 2 ^ 51) * (len / res) :=
        fl_close (by simp) (abs_of_nonneg h0).le zero_le_one
      have e2 : 1 + fl rdb 53 (len / res) - (1 + len / res) = fl rdb 53 (len / res) - len / res := by ring
      rw [e2]
      refine h3.trans ?_
      rw [zero_add]
      exact mul_le_mul_of_nonneg_left (by linarith) (by positivity)
    have h4 := (abs_le.1 hc).2
    have h5 : (n : K) - 1 ≤ len / res + (1 + len / res) / 2 ^ 50 := by
      have e3 : (1 / 2 ^ 51 + 1 / 2 ^ 51 : K) * (1 + len / res) = (1 + len / res) / 2 ^ 50 := by norm_num; ring
      rw [e3] at h4
      linarith
    calc ((n : K) - 1) * res ≤ (len / res + (1 + len / res) / 2 ^ 50) * res := mul_le_mul_of_nonneg_right h5 hr.le
      _ = len / res * res + (res + len / res * res) / 2 ^ 50 := by ring
      _ = _ := by rw [e, add_comm res len]

/-- There is a number of points. -/
theorem exists_count {len res : K} (hr : 0 < res) (hl : 0 ≤ len) (hq : len / res < 2 ^ 31 - 2) :
    ∃ n : Nat, (n : K) ≤ fl rdb 53 (1 + fl rdb 53 (len / res)) ∧ fl rdb 53 (1 + fl rdb 53 (len / res)) < n + 1 ∧ n < 2 ^ 31 ∧ 0 < n := by
  have h0 : 0 ≤ len / res := div_nonneg hl hr.le
  obtain ⟨b1, b2⟩ := count_bounds (rdb := rdb) h0 (by linarith)
  have f0 : (0 : K) ≤ (⌊len / res⌋ : K) := by exact_mod_cast Int.floor_nonneg.2 h0
  have c1 : ⌈len / res⌉ ≤ 2 ^ 31 - 2 := Int.ceil_le.2 (by push_cast; linarith)
  have c2 : ((⌈len / res⌉ : ℤ) : K) ≤ ((2 ^ 31 - 2 : ℤ) : K) := by exact_mod_cast c1
  generalize fl rdb 53 (1 + fl rdb 53 (len / res)) = v at b1 b2 ⊢
  have v1 : 1 ≤ v := by linarith
  refine ⟨⌊v⌋.toNat, ?_, ?_, ?_, ?_⟩
  · have : ((⌊v⌋.toNat : ℤ) : K) = (⌊v⌋ : K) := by rw [Int.toNat_of_nonneg (Int.floor_nonneg.2 (by linarith))]
    rw [Int.cast_natCast] at this
    rw [this]; exact Int.floor_le v
  · have : ((⌊v⌋.toNat : ℤ) : K) = (⌊v⌋ : K) := by rw [Int.toNat_of_nonneg (Int.floor_nonneg.2 (by linarith))]
    rw [Int.cast_natCast] at this
    rw [this]; exact Int.lt_floor_add_one v
  · have h3 : ⌊v⌋ ≤ 2 ^ 31 - 1 := by
      have : (⌊v⌋ : K) ≤ ((2 ^ 31 - 1 : ℤ) : K) := (Int.floor_le v).trans (b2.trans (by push_cast at c2 ⊢; linarith))
      exact_mod_cast this
    omega
  · have h3 : 1 ≤ ⌊v⌋ := Int.le_floor.2 (by exact_mod_cast v1)
    omega

/-- A line of whole steps. -/
theorem count_whole {k : Nat} {len res : K} (hr : 0 < res) (hk : k + 1 < 2 ^ 31) (h : len = k * res) :
    fl rdb 53 (1 + fl rdb 53 (len / res)) = (k + 1 : Nat) := by
  have e : len / res = ((k : ℤ) : K) := by rw [h, mul_div_assoc, div_self hr.ne', mul_one, Int.cast_natCast]
  rw [e, fl_int (by norm_num) (by rw [abs_of_nonneg (by omega)]; omega)]
  have e2 : (1 : K) + ((k : ℤ) : K) = ((k + 1 : ℤ) : K) := by push_cast; ring
  rw [e2, fl_int (by norm_num) (by rw [abs_of_nonneg (by omega)]; omega)]
  push_cast
  ring

/-- The marker is a number of type `float`. -/
theorem fl_marker : fl rs 24 (10 ^ 10 : K) = 10 ^ 10 := by
  have h := fl_exact (ri := rs) (K := K) (prec := 24) (by norm_num) (m := 9765625) (e := 10) (by norm_num)
  have e : ((9765625 : ℤ) : K) * 2 ^ (10 : ℤ) = 10 ^ 10 := by norm_num
  rwa [e] at h

theorem storedFrom {rd : Rd K} (hb : rd.Binary rs rdb) {minVs : K} {p r : Payload K} (h : ExtractedFrom rd minVs p r) :
    (p.vs < 0 ∧ Marked r) ∨ (0 ≤ p.vs ∧ StoredFrom minVs p r ∧ 0 ≤ r.vs ∧ fl rs 24 minVs ≤ r.vs ∧
      ((minVs ≤ fl rs 24 p.vs ∧ r.vs = fl rs 24 p.vs) ∨ (fl rs 24 p.vs < minVs ∧ r.vs = fl rs 24 minVs))) := by
  rw [show rd = ⟨rd.single, rd.double⟩ from rfl] at h
  have hs : rd.single = fl rs 24 := hb.1
  simp only [ExtractedFrom, hs] at h
  have herr : ∀ x : K, |fl rs 24 x - x| ≤ |x| / 2 ^ 23 := fun x => fl_error (ri := rs) (prec := 24) x
  rcases h with ⟨h0, hr⟩ | ⟨h0, v, hv, hr⟩
  · left
    refine ⟨?_, hr⟩
    by_contra hn
    have := fl_mono (ri := rs) (prec := 24) (by norm_num) (not_lt.1 hn)
    rw [fl_zero] at this
    exact absurd h0 (not_lt.2 this)
  · right
    have hp : 0 ≤ p.vs := by
      by_contra hn
      exact absurd h0 (not_le.2 (fl_neg (ri := rs) (prec := 24) (by norm_num) (not_le.1 hn)))
    subst hr
    have hfix : fl rs 24 (fl rs 24 p.vs) = fl rs 24 p.vs := fl_fl (by norm_num) le_rfl _
    refine ⟨hp, ⟨?_, herr _, herr _, herr _, herr _, herr _, rfl, rfl⟩, ?_, ?_, ?_⟩
    · have mono : ∀ {x y : K}, x ≤ y → fl rs 24 x ≤ fl rs 24 y := fun h => fl_mono (by norm_num) h
      have ep := abs_le.1 (herr p.vs)
      rw [abs_of_nonneg hp] at ep
      rcases hv with ⟨hle, rfl⟩ | ⟨hlt, rfl⟩
      · rcases le_total minVs p.vs with h1 | h1
        · rw [max_eq_left h1]; exact herr _
        · rw [max_eq_right h1]
          have h2 : |minVs| = minVs := abs_of_nonneg (hp.trans h1)
          rw [h2, abs_le]
          have h3 : p.vs / 2 ^ 23 ≤ minVs / 2 ^ 23 := div_le_div_of_nonneg_right h1 (by positivity)
          have h4 : 0 ≤ minVs / 2 ^ 23 := div_nonneg (hp.trans h1) (by positivity)
          exact ⟨by linarith, by linarith⟩
      · rcases le_total p.vs minVs with h1 | h1
        · rw [max_eq_right h1]; exact herr _
        · rw [max_eq_left h1]
          have h2 : fl rs 24 minVs = fl rs 24 p.vs := le_antisymm (mono h1) (by have := mono hlt.le; rwa [hfix] at this)
          rw [h2]; exact herr _
    · rcases hv with ⟨-, rfl⟩ | ⟨hlt, rfl⟩
      · exact h0
      · have := fl_mono (ri := rs) (prec := 24) (by norm_num) (h0.trans hlt.le)
        rwa [fl_zero] at this
    · rcases hv with ⟨hle, rfl⟩ | ⟨hlt, rfl⟩
      · have := fl_mono (ri := rs) (prec := 24) (by norm_num) hle
        rwa [hfix] at this
      · exact le_rfl
    · exact hv

end VsGrader
end CenCalVM
