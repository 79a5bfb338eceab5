/-
Lemmas on the program cencalvmisosurface in double precision.
-/
import Verif.Lemmas.IsoRun
import Verif.Lemmas.QueryFloat
import Verif.Lemmas.GeomFloat
import Verif.Spec.IsoFloat

set_option linter.unusedSectionVars false

namespace CenCalVM
namespace IsoApp
variable {K : Type} [Field K] [LinearOrder K] [IsStrictOrderedRing K] [FloorRing K]

theorem middle_double {ri : IntRound K} {ar : Arith K} (h : ar.rd = fl ri 53) (u l : K) : ar.middle u l = fl ri 53 ((u + l) / 2) := by
  have e : ∀ x : K, (0.5 : K) * x = x * 2 ^ (-1 : ℤ) := fun x => by norm_num; ring
  unfold Arith.middle
  rw [h, e, fl_scale, fl_fl (by norm_num) le_rfl, ← fl_scale, ← e]
  congr 1; norm_num; ring

theorem middleOk_double {ri : IntRound K} {ar : Arith K} (h : ar.rd = fl ri 53) {l0 u0 : K} (hl : |l0| ≤ 3000000) (hu : |u0| ≤ 3000000) :
    MiddleOk ar (fun x => fl ri 53 x = x) l0 u0 (1 / 2 ^ 20) := by
  intro l u dl du h1 h2 h3
  rw [middle_double h]
  rw [abs_le] at hl hu
  have hb : |(u + l) / 2| ≤ 3000000 := by rw [abs_le]; constructor <;> linarith
  refine ⟨fl_fl (by norm_num) le_rfl _, ?_, ?_, ?_⟩
  · rw [← dl]
    refine fl_mono (by norm_num) ?_
    rw [dl]; linarith
  · conv_rhs => rw [← du]
    refine fl_mono (by norm_num) ?_
    linarith
  · refine (fl_error (ri := ri) _).trans ?_
    norm_num
    linarith

theorem niters_double {ri : IntRound K} {ar : Arith K} (h : ar.Double ri) {u l : K} (hw : 12.6 < u - l) (hb : u - l ≤ 6000000) :
    ∃ (m : Int) (n : Nat), niters ar u l = .ok m ∧ m.toNat = n + 1 ∧ (u - l) / 2 ^ (n + 1) ≤ 12.501 := by
  obtain ⟨hrd, hlog⟩ := h
  set w := u - l with hwd
  have hw0 : 0 < w := lt_trans (by norm_num) hw
  have e1 := fl_error (ri := ri) (prec := 53) w
  rw [abs_of_pos hw0] at e1
  set y := fl ri 53 w with hy
  have hy0 : 0 < y := fl_pos (by norm_num) hw0
  have e2 := fl_error (ri := ri) (prec := 53) (y / 25)
  have hy25 : 0 < y / 25 := by positivity
  rw [abs_of_pos hy25] at e2
  set x := fl ri 53 (y / 25) with hx
  have hx0 : 0 < x := fl_pos (by norm_num) hy25
  rw [abs_le] at e1 e2
  have hxl : w / 25 * (1 - 1 / 2 ^ 20) ≤ x := by norm_num at e1 e2 ⊢; linarith [e1.1, e2.1]
  have hxu : x ≤ 1000000 := by norm_num at e1 e2 ⊢; linarith [e1.2, e2.2]
  have hxh : (0.503 : K) < x := by norm_num at hxl hw ⊢; linarith
  have hc := hlog x (lt_trans (by norm_num) hxh) hxu
  have hc0 : 0 ≤ ar.clog x := by
    by_contra hneg
    have hle : (2 : K) ^ ar.clog x ≤ 2 ^ (-1 : ℤ) := zpow_le_zpow_right₀ (by norm_num) (by omega)
    norm_num at hle hc hxh
    linarith
  obtain ⟨n, hn⟩ := Int.eq_ofNat_of_zero_le hc0
  refine ⟨1 + ar.clog x, n, ?_, by omega, ?_⟩
  · unfold niters
    rw [hrd, if_pos hx0]
  · rw [hn] at hc
    have hc' : x * (1 - 1 / 2 ^ 20) ≤ (2 : K) ^ n := by simpa using hc
    rw [pow_succ, div_le_iff₀ (by positivity)]
    norm_num at hxl hc' ⊢
    linarith

theorem searches_double {ri : IntRound K} {ar : Arith K} (h : ar.Double ri) {u l : K} (du : fl ri 53 u = u) (dl : fl ri 53 l = l)
    (hu : |u| ≤ 3000000) (hl : |l| ≤ 3000000) (hw : 12.6 < u - l) : Searches ar 12.51 u l := by
  have hu' := abs_le.1 hu
  have hl' := abs_le.1 hl
  obtain ⟨m, n, h1, h2, h3⟩ := niters_double h hw (by linarith)
  have hlu : l ≤ u := by norm_num at hw; linarith
  refine ⟨_, 1 / 2 ^ 20, m, n, middleOk_double h.1 hl hu, dl, du, hlu, ?_, h1, h2, ?_⟩
  · rw [middle_double h.1, h.1]
  · have hp : (0 : K) < 1 / 2 ^ (n + 1) := by positivity
    have : 2 * (1 / 2 ^ 20 : K) * (1 - 1 / 2 ^ (n + 1)) ≤ 2 * (1 / 2 ^ 20) * 1 :=
      mul_le_mul_of_nonneg_left (by linarith) (by positivity)
    exact (add_le_add h3 this).trans (by norm_num)

theorem double_step {ri : IntRound K} {ar : Arith K} (h : ar.rd = fl ri 53) (k : Nat) (hk : k < 10) :
    ar.rd ((k : K) * (-12.5)) = k * (-12.5) := by
  have e : (k : K) * (-12.5) = ((-(25 * k : ℤ) : ℤ) : K) * 2 ^ (-1 : ℤ) := by push_cast; norm_num; ring
  rw [h, e]
  refine fl_exact (by norm_num) ?_
  rw [abs_neg, abs_of_nonneg (by positivity)]
  omega

/-- The ground is a double, at most as high as the elevation stored and not far below. -/
theorem ground_double {ri : IntRound K} {fmt : Fmt K} {q : VMQuery K} {lon lat g e0 : K} (h : Ground (fl ri 53) fmt q lon lat g)
    (h0 : ValueAt fmt q 8 lon lat (-5000) e0) (he : IsElev ri e0) : fl ri 53 g = g ∧ g ≤ e0 ∧ e0 - 112.501 ≤ g := by
  obtain ⟨e1, h1, h2⟩ := h
  obtain rfl := valueAt_unique h0 h1
  rcases h2 with ⟨k, a1, a2, -, -⟩ | ⟨rfl, -⟩
  · have hk : (k : K) ≤ 9 := by exact_mod_cast Nat.lt_succ_iff.1 a1
    have hk0 : (0 : K) ≤ k := Nat.cast_nonneg k
    subst a2
    refine ⟨fl_fl (by norm_num) le_rfl _, ?_, ?_⟩
    · conv_rhs => rw [← he.1]
      exact fl_mono (by norm_num) (by norm_num)
    · have h3 := fl_error (ri := ri) (prec := 53) (e0 - 12.5 * k)
      have h4 : |e0 - 12.5 * k| ≤ 2000000 := by
        have := abs_le.1 he.2
        rw [abs_le]; norm_num; constructor <;> linarith
      have h5 := abs_le.1 (h3.trans (div_le_div_of_nonneg_right h4 (by positivity)))
      norm_num at h5 ⊢
      linarith [h5.1]
  · exact ⟨he.1, le_rfl, by norm_num⟩

/-- The limits of the search. -/
theorem located_double {ri : IntRound K} {ar : Arith K} (h : ar.Double ri) {fmt : Fmt K} {o : Options K} {q : VMQuery K} {l : K × K} (hm : IsElev ri o.elevMin)
    (he : ∀ v, ValueAt fmt q 8 l.1 l.2 (-5000) v → IsElev ri v) (ha : Answered ar.rd 12.7 fmt o q l) : Located ar 12.51 fmt o q l := by
  obtain ⟨⟨e0, h1⟩, h2, h3, h4⟩ := ha
  refine ⟨⟨e0, h1⟩, h2, h3, fun g hg => ?_⟩
  have hgap := h4 g hg
  rw [h.1] at hg
  have he0 := he e0 h1
  obtain ⟨dg, g1, g2⟩ := ground_double hg h1 he0
  have hb0 := abs_le.1 he0.2
  have hbm := abs_le.1 hm.2
  have hgb : |g| ≤ 1000200 := by rw [abs_le]; norm_num at g2; constructor <;> linarith
  have hgb' := abs_le.1 hgb
  norm_num at hgap
  have hlim : limits ar o g = (ar.rd (g - (if o.squashLimit = 1000000 then 0 else g)), ar.rd (o.elevMin - (if o.squashLimit = 1000000 then 0 else g))) := by
    unfold limits
    rw [h.1]
    by_cases h : o.squashLimit = 1000000
    · rw [if_neg (by simp [h]), if_pos h, sub_zero, sub_zero, dg, hm.1]
    · rw [if_pos h, if_neg h, sub_self, neg_add_eq_sub, show fl ri 53 (0 : K) = 0 by simp [fl]]
  refine ⟨hlim, ?_⟩
  rw [hlim, h.1]
  dsimp only
  by_cases hs : o.squashLimit = 1000000
  · rw [if_pos hs, sub_zero, sub_zero, dg, hm.1]
    exact searches_double h dg hm.1 (hgb.trans (by norm_num)) (hm.2.trans (by norm_num)) (by norm_num; linarith)
  · rw [if_neg hs, sub_self, show fl ri 53 (0 : K) = 0 by simp [fl]]
    have h5 := fl_error (ri := ri) (prec := 53) (o.elevMin - g)
    have h6 : |o.elevMin - g| ≤ 2100000 := by rw [abs_le]; constructor <;> linarith
    have h7 := abs_le.1 (h5.trans (div_le_div_of_nonneg_right h6 (by positivity)))
    norm_num at h7
    exact searches_double h (by simp [fl]) (fl_fl (by norm_num) le_rfl _) (by norm_num) (by rw [abs_le]; constructor <;> linarith [h7.1, h7.2])
      (by norm_num; linarith [h7.2])

end IsoApp
end CenCalVM
