/-
Lemmas about ingestion in `float` and `double`.
-/
import Verif.Spec.IngestFloat
import Verif.Lemmas.GradeFloat
import Verif.Lemmas.Float

set_option linter.unusedSectionVars false

namespace CenCalVM
open GridIngester
variable {K : Type} [Field K] [LinearOrder K] [IsStrictOrderedRing K] [FloorRing K]
variable {rs rdb : IntRound K}

theorem double_factor (x : K) : ∃ c, |c - 1| ≤ 1 / 2 ^ 52 ∧ fl rdb 53 x = c * x := VsGrader.fl_near (ri := rdb) (prec := 53) x

theorem both_factor (x : K) : ∃ c, |c - 1| ≤ 1 / 2 ^ 22 ∧ fl rs 24 (fl rdb 53 x) = c * x := by
  obtain ⟨c, h1, h2⟩ := VsGrader.fl_near (ri := rdb) (prec := 53) x
  obtain ⟨c', h3, h4⟩ := VsGrader.fl_near (ri := rs) (prec := 24) (fl rdb 53 x)
  refine ⟨c' * c, ?_, by rw [h4, h2]; ring⟩
  have e : c' * c - 1 = (c' - 1) * (c - 1) + (c' - 1) + (c - 1) := by ring
  rw [e]
  have h5 : |(c' - 1) * (c - 1)| ≤ 1 / 2 ^ 23 * (1 / 2 ^ 52) := by
    rw [abs_mul]; exact mul_le_mul h3 h1 (abs_nonneg _) (by positivity)
  refine (abs_add_three _ _ _).trans ((add_le_add (add_le_add h5 h3) h1).trans ?_)
  norm_num

theorem factor_pos {c δ : K} (h : |c - 1| ≤ δ) (hδ : δ < 1) : 0 < c := by have := (abs_le.1 h).1; linarith

/-- A conversion whose rounding changes numbers by a factor near one. -/
theorem convertedUpTo {rnd : K → K} {δ : K} (hδ : δ < 1) (h : ∀ x, ∃ c, |c - 1| ≤ δ ∧ rnd x = c * x) {a b : K}
    (hc : Converted rnd a b) : ConvertedUpTo δ a b := by
  rcases hc with hc | ⟨h1, rfl⟩
  · exact Or.inl hc
  right
  obtain ⟨c, h2, h3⟩ := h (1000 * a)
  have hp := factor_pos h2 hδ
  rw [h3]
  have h4 : 0 < c * 1000 := by positivity
  have e : c * (1000 * a) = (c * 1000) * a := by ring
  refine ⟨h1, ?_, ?_, ?_⟩
  · have : c * (1000 * a) - 1000 * a = (c - 1) * (1000 * a) := by ring
    rw [this, abs_mul]
    exact mul_le_mul_of_nonneg_right h2 (abs_nonneg _)
  · rw [e, mul_pos_iff_of_pos_left h4]
  · rw [e]
    constructor
    · intro h; by_contra hn; exact absurd h (not_lt.2 (mul_nonneg h4.le (not_lt.1 hn)))
    · intro h; exact mul_neg_of_pos_of_neg h4 h

theorem double_upTo {rd : Rd K} (hb : rd.Binary rs rdb) {a b : K} (h : Converted rd.double a b) : ConvertedUpTo (1 / 2 ^ 52) a b :=
  convertedUpTo (by norm_num) (fun x => by rw [hb.2]; exact double_factor x) h

theorem single_upTo' {rd : Rd K} (hb : rd.Binary rs rdb) {a b : K} (h : Converted32 rd a b) : ConvertedUpTo (1 / 2 ^ 22) a b :=
  convertedUpTo (by norm_num) (fun x => by rw [hb.1, hb.2]; exact both_factor x) h

theorem convertedUpTo_pos {δ a b : K} (h : ConvertedUpTo δ a b) : 0 < b ↔ 0 < a := by
  rcases h with ⟨rfl, rfl⟩ | ⟨-, -, h, -⟩
  · rfl
  · exact h

/-- The value up to rounding, between bounds for the exact one. -/
theorem convertedUpTo_bounds {δ a b m lo hi : K} (hδ : 0 ≤ δ) (h : ConvertedUpTo δ a b) (hm : Converted id a m) (h1 : lo ≤ m) (h2 : m ≤ hi) :
    lo - δ * max |lo| |hi| ≤ b ∧ b ≤ hi + δ * max |lo| |hi| := by
  have hM : |m| ≤ max |lo| |hi| := abs_le_max_abs_abs h1 h2
  have hM0 : 0 ≤ δ * max |lo| |hi| := mul_nonneg hδ ((abs_nonneg _).trans hM)
  rcases h with ⟨rfl, rfl⟩ | ⟨h3, h4, -, -⟩
  · rcases hm with ⟨-, rfl⟩ | ⟨h, -⟩
    · constructor <;> linarith
    · exact absurd rfl h
  · rcases hm with ⟨h, -⟩ | ⟨-, h⟩
    · exact absurd h h3
    · have h : m = 1000 * a := h
      rw [← h] at h4
      have := abs_le.1 (h4.trans (mul_le_mul_of_nonneg_left hM hδ))
      constructor <;> linarith [this.1, this.2]

theorem exists_metres (p : Point K) : ∃ m, InMetres p m :=
  have h : ∀ a : K, ∃ b, Converted id a b := fun a => by
    by_cases ha : a = -999
    · exact ⟨-999, Or.inl ⟨ha, rfl⟩⟩
    · exact ⟨1000 * a, Or.inr ⟨ha, rfl⟩⟩
  let ⟨a, ha⟩ := h p.payload.vp
  let ⟨b, hb⟩ := h p.payload.vs
  let ⟨c, hc⟩ := h p.payload.density
  let ⟨d, hd⟩ := h p.payload.depth
  ⟨⟨a, b, c, p.payload.qp, p.payload.qs, d, p.payload.faultBlock, p.payload.zone⟩, ha, hb, hc, hd, rfl, rfl, rfl, rfl⟩

/-- A real value of the octant of a point lies between bounds for the exact one, up to rounding. -/
theorem octantFor_bounds {rd : Rd K} (hb : rd.Binary rs rdb) {g : Geom K} {n : Nat} {p : Point K} {e : Entry K} (h : OctantFor rd g n p e)
    {m : Payload K} (hm : InMetres p m) {r : Payload K → K} (hr : r ∈ Payload.reals (K := K)) {lo hi : K} (h1 : lo ≤ r m) (h2 : r m ≤ hi) :
    lo - 1 / 2 ^ 22 * max |lo| |hi| ≤ r e.payload ∧ r e.payload ≤ hi + 1 / 2 ^ 22 * max |lo| |hi| := by
  obtain ⟨el, code, -, -, c1, c2, c3, c4, c5, c6, -, -⟩ := h
  have h0 : (0 : K) ≤ 1 / 2 ^ 22 := by positivity
  have hM : |r m| ≤ max |lo| |hi| := abs_le_max_abs_abs h1 h2
  have hM0 : 0 ≤ 1 / 2 ^ 22 * max |lo| |hi| := mul_nonneg h0 ((abs_nonneg _).trans hM)
  simp only [Payload.reals, List.mem_cons, List.not_mem_nil, or_false] at hr
  rcases hr with rfl | rfl | rfl | rfl | rfl | rfl
  · exact convertedUpTo_bounds h0 (single_upTo' hb c1) hm.vp h1 h2
  · exact convertedUpTo_bounds h0 (single_upTo' hb c2) hm.vs h1 h2
  · exact convertedUpTo_bounds h0 (single_upTo' hb c3) hm.density h1 h2
  · have e1 := hm.qp; rw [c5]; rw [e1] at h1 h2; constructor <;> linarith
  · have e1 := hm.qs; rw [c6]; rw [e1] at h1 h2; constructor <;> linarith
  · exact convertedUpTo_bounds h0 (single_upTo' hb c4) hm.depth h1 h2

/-! ### The checks of the header -/

/-- Four roundings and the product of the resolutions by 1000 change their ratio by a factor near one. -/
theorem ratio_factor (h v e : K) :
    ∃ c, |c - 1| ≤ 1 / 2 ^ 49 ∧ fl rdb 53 (fl rdb 53 (fl rdb 53 (h * 1000) / fl rdb 53 (v * 1000)) / e) = c * (h / v / e) := by
  obtain ⟨a, ha, ea⟩ := double_factor (rdb := rdb) (h * 1000)
  obtain ⟨b, hb, eb⟩ := double_factor (rdb := rdb) (v * 1000)
  obtain ⟨c, hc, ec⟩ := double_factor (rdb := rdb) (fl rdb 53 (h * 1000) / fl rdb 53 (v * 1000))
  obtain ⟨d, hd, ed⟩ := double_factor (rdb := rdb) (fl rdb 53 (fl rdb 53 (h * 1000) / fl rdb 53 (v * 1000)) / e)
  have hbp := factor_pos hb (by norm_num)
  refine ⟨d * c * a / b, ?_, ?_⟩
  · have a' := abs_le.1 ha; have b' := abs_le.1 hb; have c' := abs_le.1 hc; have d' := abs_le.1 hd
    norm_num at a' b' c' d'
    have u1 : d * c * a ≤ (4503599627370497 / 4503599627370496) * (4503599627370497 / 4503599627370496) * (4503599627370497 / 4503599627370496) :=
      mul_le_mul (mul_le_mul (by linarith) (by linarith) (by linarith) (by norm_num)) (by linarith) (by linarith) (by norm_num)
    have u2 : (4503599627370495 / 4503599627370496) * (4503599627370495 / 4503599627370496) * (4503599627370495 / 4503599627370496) ≤ d * c * a :=
      mul_le_mul (mul_le_mul (by linarith) (by linarith) (by norm_num) (by linarith)) (by linarith) (by norm_num)
        (mul_nonneg (by linarith) (by linarith))
    rw [abs_le]
    constructor
    · have : 1 - 1 / 2 ^ 49 ≤ d * c * a / b := by
        rw [le_div_iff₀ hbp]
        refine le_trans ?_ u2
        have : (1 - 1 / 2 ^ 49) * b ≤ (1 - 1 / 2 ^ 49) * (4503599627370497 / 4503599627370496) :=
          mul_le_mul_of_nonneg_left (by linarith) (by norm_num)
        refine this.trans ?_
        norm_num
      linarith
    · have : d * c * a / b ≤ 1 + 1 / 2 ^ 49 := by
        rw [div_le_iff₀ hbp]
        refine u1.trans ?_
        have : (1 + 1 / 2 ^ 49) * (4503599627370495 / 4503599627370496) ≤ (1 + 1 / 2 ^ 49) * b :=
          mul_le_mul_of_nonneg_left (by linarith) (by norm_num)
        refine le_trans ?_ this
        norm_num
      linarith
  · rw [ed, ec, ea, eb]
    by_cases hv : v = 0
    · simp [hv]
    · by_cases he : e = 0
      · simp [he]
      · field_simp

/-- Two roundings change a quotient by a factor near one. -/
theorem quot_factor (h e : K) : ∃ c, |c - 1| ≤ 1 / 2 ^ 49 ∧ fl rdb 53 (fl rdb 53 (h * 1000) / e) = c * (h * 1000 / e) := by
  obtain ⟨a, ha, ea⟩ := double_factor (rdb := rdb) (h * 1000)
  obtain ⟨d, hd, ed⟩ := double_factor (rdb := rdb) (fl rdb 53 (h * 1000) / e)
  refine ⟨d * a, ?_, by rw [ed, ea]; ring⟩
  have e1 : d * a - 1 = (d - 1) * (a - 1) + (d - 1) + (a - 1) := by ring
  rw [e1]
  have h5 : |(d - 1) * (a - 1)| ≤ 1 / 2 ^ 52 * (1 / 2 ^ 52) := by
    rw [abs_mul]; exact mul_le_mul hd ha (abs_nonneg _) (by positivity)
  refine (abs_add_three _ _ _).trans ((add_le_add (add_le_add h5 hd) ha).trans ?_)
  norm_num

/-- The comparison with the tolerance, given the quotient up to a factor near one. -/
theorem off_iff {r R c : K} (hc : |c - 1| ≤ 1 / 2 ^ 49) (hr : r = c * R) :
    (|1 - R| > 1 / 10 ^ 6 + 1 / 10 ^ 13 → |fl rdb 53 (1 - r)| > fl rdb 53 (1 / 1000000)) ∧
    (|1 - R| ≤ 1 / 10 ^ 6 - 1 / 10 ^ 13 → ¬ |fl rdb 53 (1 - r)| > fl rdb 53 (1 / 1000000)) := by
  obtain ⟨a, ha, ea⟩ := double_factor (rdb := rdb) (1 - r)
  obtain ⟨t, ht, et⟩ := double_factor (rdb := rdb) (1 / 1000000 : K)
  have hap := factor_pos ha (by norm_num)
  have a' := abs_le.1 ha; have t' := abs_le.1 ht
  norm_num at a' t'
  have hrR : |(1 - r) - (1 - R)| ≤ 1 / 2 ^ 49 * (1 + |1 - R|) := by
    have e1 : (1 - r) - (1 - R) = (c - 1) * -R := by rw [hr]; ring
    rw [e1, abs_mul, abs_neg]
    refine mul_le_mul hc ?_ (abs_nonneg _) (by positivity)
    have : R = 1 - (1 - R) := by ring
    calc |R| = |1 - (1 - R)| := by rw [← this]
      _ ≤ |(1 : K)| + |1 - R| := abs_sub _ _
      _ = _ := by rw [abs_one]
  rw [ea, et, abs_mul, abs_of_pos hap]
  have h1 : |1 - R| - |1 - r| ≤ 1 / 2 ^ 49 * (1 + |1 - R|) := by
    have := abs_sub_abs_le_abs_sub (1 - R) (1 - r)
    rw [abs_sub_comm (1 - R) (1 - r)] at this
    exact this.trans hrR
  have h2 : |1 - r| - |1 - R| ≤ 1 / 2 ^ 49 * (1 + |1 - R|) := (abs_sub_abs_le_abs_sub _ _).trans hrR
  have h0 := abs_nonneg (1 - r)
  constructor
  · intro h
    have e1 : t * (1 / 1000000) ≤ 4503599627370497 / 4503599627370496 * (1 / 1000000) := mul_le_mul_of_nonneg_right (by linarith) (by norm_num)
    have e2 : 4503599627370495 / 4503599627370496 * |1 - r| ≤ a * |1 - r| := mul_le_mul_of_nonneg_right (by linarith) h0
    norm_num at h h1 e1 ⊢
    linarith
  · intro h
    rw [not_lt]
    have e1 : 4503599627370495 / 4503599627370496 * (1 / 1000000) ≤ t * (1 / 1000000) := mul_le_mul_of_nonneg_right (by linarith) (by norm_num)
    have e2 : a * |1 - r| ≤ 4503599627370497 / 4503599627370496 * |1 - r| := mul_le_mul_of_nonneg_right (by linarith) h0
    norm_num at h h2 e1 ⊢
    linarith

end CenCalVM
