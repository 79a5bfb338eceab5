/-
Properties C106 to C108: the application cencalvmisosurface computing elevations in double precision, in any rounding direction.
-/
import Verif.Lemmas.IsoFloat
import Verif.Props.IsoApp

set_option linter.unusedSectionVars false

namespace CenCalVM
namespace IsoApp
open QueryApp (exEnv Env)
variable {K : Type} [Field K] [LinearOrder K] [IsStrictOrderedRing K] [FloorRing K]

/-! ### C106 -/

/-- C106: for limits that are doubles of at most 3 000 000 in size and more than 12.6 apart, what the search reports is the upper
limit, where the target is reached; or an elevation between the limits where it is reached, at most 12.51 below a place between
the limits where it is not; or 1e6, and then neither limit reaches the target and the lower one is outside the model. -/
theorem C106 {ri : IntRound K} {ar : Arith K} (har : ar.Double ri) {fmt : Fmt K} {q q' : VMQuery K} {fs fs' : Files}
    {target lon lat upper lower e : K} (hu : fl ri 53 upper = upper) (hl : fl ri 53 lower = lower) (hub : |upper| ≤ 3000000)
    (hlb : |lower| ≤ 3000000) (hw : 12.6 < upper - lower)
    (h : searchVs ar fmt q fs target lon lat upper lower = .ok (some e, q', fs')) :
    (e = upper ∧ ∃ v, ValueAt fmt q 1 lon lat upper v ∧ target ≤ v) ∨
    (lower ≤ e ∧ e < upper ∧ (∃ v, ValueAt fmt q 1 lon lat e v ∧ target ≤ v) ∧
      ∃ e' v', e < e' ∧ e' ≤ upper ∧ e' - e ≤ 12.51 ∧ ValueAt fmt q 1 lon lat e' v' ∧ v' < target) ∨
    (e = 1000000 ∧ (∃ v, ValueAt fmt q 1 lon lat lower v ∧ v < 0 ∧ v < target) ∧ ∃ v, ValueAt fmt q 1 lon lat upper v ∧ v < target) := by
  have h' : searchVs ar fmt (asking q 1 q.err) fs target lon lat upper lower = .ok (some e, q', fs') := h
  obtain ⟨-, vU, vL, vM, a1, a2, a3, hd⟩ := searchVs_back h' (searches_double har hu hl hub hlb hw)
  rcases hd with ⟨h1, -⟩ | ⟨e', h1, h2⟩
  · cases h1
  · cases h1; exact h2

/-- C106: the search gives up (`exit(1)`) only if the target is reached neither at the limits nor at the middle, rounded, and the
lower limit is in the model. -/
theorem C106_gives_up {ri : IntRound K} {ar : Arith K} (har : ar.Double ri) {fmt : Fmt K} {q q' : VMQuery K} {fs fs' : Files}
    {target lon lat upper lower : K} (hu : fl ri 53 upper = upper) (hl : fl ri 53 lower = lower) (hub : |upper| ≤ 3000000)
    (hlb : |lower| ≤ 3000000) (hw : 12.6 < upper - lower)
    (h : searchVs ar fmt q fs target lon lat upper lower = .ok (none, q', fs')) :
    (∃ v, ValueAt fmt q 1 lon lat upper v ∧ v < target) ∧
      (∃ v, ValueAt fmt q 1 lon lat (fl ri 53 ((upper + lower) / 2)) v ∧ v < target) ∧
      ∃ v, ValueAt fmt q 1 lon lat lower v ∧ v < target ∧ 0 ≤ v := by
  have h' : searchVs ar fmt (asking q 1 q.err) fs target lon lat upper lower = .ok (none, q', fs') := h
  obtain ⟨-, vU, vL, vM, a1, a2, a3, hd⟩ := searchVs_back h' (searches_double har hu hl hub hlb hw)
  rw [har.1] at a3
  rcases hd with ⟨-, h1, h2, h3, h4⟩ | ⟨e', h1, -⟩
  · exact ⟨⟨vU, a1, h1⟩, ⟨vM, a3, h2⟩, vL, a2, h3, h4⟩
  · cases h1

/-- C106: the search ends, if the speeds between the limits are defined. -/
theorem C106_ends {ri : IntRound K} {ar : Arith K} (har : ar.Double ri) {fmt : Fmt K} {q : VMQuery K} {target lon lat upper lower : K}
    (hu : fl ri 53 upper = upper) (hl : fl ri 53 lower = lower) (hub : |upper| ≤ 3000000) (hlb : |lower| ≤ 3000000)
    (hw : 12.6 < upper - lower) (hv : ∀ e, lower ≤ e → e ≤ upper → ∃ v, ValueAt fmt q 1 lon lat e v) (fs : Files) :
    ∃ r, searchVs ar fmt q fs target lon lat upper lower = .ok r :=
  searchVs_total (q := q) (searches_double har hu hl hub hlb hw) hv q.err fs

/-- C106: the number of iterations as computed by the code, in double precision with a logarithm that has a relative error of at
most `2^-40`, is as `Arith.Double` wants it. -/
theorem C106_log (ri : IntRound ℝ) {lg : ℝ → ℝ} (hlg : ∀ v, 0 < v → |lg v - Real.log v| ≤ |Real.log v| / 2 ^ 40) :
    (⟨fl ri 53, fun x => ⌈fl ri 53 (lg x / lg 2)⌉⟩ : Arith ℝ).Double ri := by
  refine ⟨rfl, fun x hx1 hx2 => ?_⟩
  have hx : 0 < x := by linarith
  dsimp only
  have hL : 0 < Real.log 2 := Real.log_pos (by norm_num)
  set L := Real.log 2 with hLd
  set q : ℝ := Real.logb 2 x with hq
  have hqL : Real.log x = q * L := by rw [hq, Real.logb, div_mul_cancel₀ _ hL.ne']
  have hq1 : |q| ≤ 20 := by
    rw [abs_le]
    constructor
    · have : Real.logb 2 (2 ^ (-20 : ℝ)) ≤ q := Real.logb_le_logb_of_le (by norm_num) (by positivity) (by
        have : (2 : ℝ) ^ (-20 : ℝ) ≤ 1 / 2 := by
          rw [show (-20 : ℝ) = ((-20 : ℤ) : ℝ) by norm_num, Real.rpow_intCast]; norm_num
        exact this.trans hx1.le)
      rwa [Real.logb_rpow (by norm_num) (by norm_num)] at this
    · have : q ≤ Real.logb 2 (2 ^ (20 : ℝ)) := Real.logb_le_logb_of_le (by norm_num) hx (by
        have : (1000000 : ℝ) ≤ 2 ^ (20 : ℝ) := by
          rw [show (20 : ℝ) = ((20 : ℕ) : ℝ) by norm_num, Real.rpow_natCast]; norm_num
        exact hx2.trans this)
      rwa [Real.logb_rpow (by norm_num) (by norm_num)] at this
  have hl2 := hlg 2 (by norm_num)
  rw [← hLd, abs_of_pos hL, abs_le] at hl2
  have hlx := hlg x hx
  rw [hqL, abs_mul, abs_of_pos hL] at hlx
  have hnum : |lg x - q * L| ≤ 20 * L / 2 ^ 40 :=
    hlx.trans (div_le_div_of_nonneg_right (mul_le_mul_of_nonneg_right hq1 hL.le) (by positivity))
  have hden : 0 < lg 2 := by norm_num at hl2; linarith [hl2.1]
  have hquo : |lg x / lg 2 - q| ≤ 1 / 2 ^ 34 := by
    rw [abs_le] at hnum
    have h2 : |q * (lg 2 - L)| ≤ 20 * (L / 2 ^ 40) := by
      rw [abs_mul]
      exact mul_le_mul hq1 (abs_le.2 hl2) (abs_nonneg _) (by norm_num)
    rw [abs_le] at h2
    have e : lg x / lg 2 - q = (lg x - q * lg 2) / lg 2 := by field_simp
    rw [e, abs_div, abs_of_pos hden, div_le_iff₀ hden, abs_le]
    norm_num at hnum h2 hl2 ⊢
    constructor <;> linarith [h2.1, h2.2, hnum.1, hnum.2, hl2.1]
  set t := lg x / lg 2 with ht
  rw [abs_le] at hquo
  rw [abs_le] at hq1
  have htb : |t| ≤ 21 := by
    norm_num at hquo
    rw [abs_le]; constructor <;> linarith [hquo.1, hquo.2]
  have e1 := (fl_error (ri := ri) (prec := 53) t).trans (div_le_div_of_nonneg_right htb (by positivity))
  rw [abs_le] at e1
  set c := ⌈fl ri 53 t⌉ with hc
  have hcq : q - 1 / 2 ^ 30 ≤ (c : ℝ) := by
    have h1 : fl ri 53 t ≤ (c : ℝ) := Int.le_ceil _
    norm_num at e1 hquo ⊢
    linarith [e1.1, hquo.1]
  rw [← Real.rpow_intCast]
  refine le_trans ?_ (Real.rpow_le_rpow_of_exponent_le (by norm_num) hcq)
  rw [show q - 1 / 2 ^ 30 = q + -(1 / 2 ^ 30) from sub_eq_add_neg _ _, Real.rpow_add (by norm_num), hq,
    Real.rpow_logb (by norm_num) (by norm_num) hx]
  refine mul_le_mul_of_nonneg_left ?_ hx.le
  rw [Real.rpow_def_of_pos (by norm_num), ← hLd]
  have h3 := Real.add_one_le_exp (L * -(1 / 2 ^ 30))
  refine le_trans ?_ h3
  have hL1 : L ≤ 1 := by have := Real.log_le_sub_one_of_pos (x := 2) (by norm_num); linarith
  norm_num
  linarith

/-- Arithmetic of the examples: double precision, rounding to nearest. -/
def exAr : Arith ℚ := ⟨fl IntRound.nearest 53, Int.clog 2⟩
theorem exAr_double : exAr.Double IntRound.nearest := by
  refine ⟨rfl, fun x h1 _ => ?_⟩
  have h : x ≤ ((2 : ℕ) : ℚ) ^ Int.clog 2 x := Int.self_le_zpow_clog (R := ℚ) (by norm_num) x
  refine le_trans ?_ (show x ≤ (2 : ℚ) ^ Int.clog 2 x by exact_mod_cast h)
  norm_num
  linarith

/-- A search in double precision that rounds: the lower limit is -100000.1, rounded. -/
example : foundOf (searchVs exAr exFmt exIso (fun _ => "") 2500 220 40 0 (fl IntRound.nearest 53 (-100000.1))) =
      some (some (-3079041645438567 / 34359738368)) := by decide +kernel
example : fl IntRound.nearest 53 (0 : ℚ) = 0 ∧ fl IntRound.nearest 53 (-100000.1 : ℚ) ≠ -100000.1 := ⟨by decide +kernel, by decide +kernel⟩
example : foundOf (searchVs exAr exFmt exIso (fun _ => "") 3500 220 40 0 (-100000)) = some none := by decide +kernel

/-! ### C107 -/

/-- C107: if the databases open, the input can be read, the output can be written to the end, elevations stored and the lowest
elevation asked for are doubles of at most a million in size, and every location followed by something has answers without error,
with ground more than 12.7 above the lowest elevation, then either there is one line for each, in order, with the difference, in
double precision, between the elevation of the ground and what a search may report, and the exit code is 0 unless closing fails;
or the program exits with 1 at the first location where the target is out of range, after passing the lines before to the output
stream. -/
theorem C107 {ri : IntRound K} {ar : Arith K} (har : ar.Double ri) {env : Env K} {o : Options K} {q : VMQuery K}
    (hnf : env.nf.real [] = none) (hw : ∀ n, env.outGood n = true) (hq : Configured env o q) (hm : IsElev ri o.elevMin)
    {text : List Char} (hi : env.input o.filenameIn = some text) (ho : env.canWrite o.filenameOut = true)
    {ls : List (K × K)} (hl : LocsText env.nf text ls) (he : ∀ l ∈ ls, ∀ v, ValueAt env.fmt q 8 l.1 l.2 (-5000) v → IsElev ri v)
    (ha : ∀ l ∈ ls, Answered (fl ri 53) 12.7 env.fmt o q l) :
    (∃ c lines, run ar env o = .ok ⟨.ret c, lines⟩ ∧ List.Forall₂ (LineFor (fl ri 53) 12.51 env.fmt o q) ls lines ∧ (c = 0 ∨ c = 1) ∧
      (c = 0 ↔ ¬ CloseFails env o)) ∨
    ∃ k l lines, run ar env o = .ok ⟨.exit, lines⟩ ∧ ls[k]? = some l ∧ OutOfRange (fl ri 53) env.fmt o q l ∧
      List.Forall₂ (LineFor (fl ri 53) 12.51 env.fmt o q) (ls.take k) lines := by
  have h := run_spec (double_step har.1) hnf hw hq hi ho hl fun l h => located_double har hm (he l h) (by rw [har.1]; exact ha l h)
  rwa [har.1] at h

/-- C107: without squashing, the number written is -999 or, up to `10^-9`, the depth below the ground of a place not below the lowest
elevation where the speed reaches the target, and which is the ground or at most 12.51 below a place, not above the ground, where it
does not. -/
theorem C107_depth {ri : IntRound K} {fmt : Fmt K} {o : Options K} {q : VMQuery K} {l : K × K} {line : Line K} (hs : o.squashLimit = 1000000)
    (hm : IsElev ri o.elevMin) (he : ∀ v, ValueAt fmt q 8 l.1 l.2 (-5000) v → IsElev ri v) (h : LineFor (fl ri 53) 12.51 fmt o q l line) :
    ∃ g, Ground (fl ri 53) fmt q l.1 l.2 g ∧
      (line.dist = -999 ∨
        ∃ e, |line.dist - (g - e)| ≤ 1 / 10 ^ 9 ∧ (∃ v, ValueAt fmt q 1 l.1 l.2 e v ∧ o.vs ≤ v) ∧
          (e = g ∨ (o.elevMin ≤ e ∧ e < g ∧
            ∃ e' v', e < e' ∧ e' ≤ g ∧ e' - e ≤ 12.51 ∧ ValueAt fmt q 1 l.1 l.2 e' v' ∧ v' < o.vs))) := by
  obtain ⟨-, g, e, base, hg, hb, hr, hd⟩ := h
  obtain ⟨e0, h0, -⟩ := id hg
  obtain ⟨dg, g1, g2⟩ := ground_double hg h0 (he e0 h0)
  have hb0 := abs_le.1 (he e0 h0).2
  have hbm := abs_le.1 hm.2
  norm_num at g2
  rw [if_pos hs] at hb
  subst hb
  rw [sub_zero, sub_zero, dg, hm.1] at hr
  refine ⟨g, hg, ?_⟩
  by_cases he : e = 1000000
  · rw [if_pos he] at hd; exact Or.inl hd
  · rw [if_neg he] at hd
    right
    refine ⟨e, ?_, ?_⟩
    · have h3 : |g - e| ≤ 3000000 := by
        rw [abs_le]
        rcases hr with ⟨rfl, hv⟩ | ⟨h1, h2, h3, h4⟩ | ⟨h1, -⟩
        · constructor <;> linarith
        · constructor <;> linarith
        · exact absurd h1 he
      rw [hd]
      refine ((fl_error (ri := ri) (prec := 53) (g - e)).trans (div_le_div_of_nonneg_right h3 (by positivity))).trans ?_
      norm_num
    · rcases hr with ⟨rfl, hv⟩ | ⟨h1, h2, h3, h4⟩ | ⟨h1, -⟩
      · exact ⟨hv, Or.inl rfl⟩
      · exact ⟨h3, Or.inr ⟨h1, h2, h4⟩⟩
      · exact absurd h1 he

example : shown (run exAr (exEnv "220 40\n221 40\n") exOpts) = some (.ret 0, [⟨220, 40, 104925075 / 2048⟩, ⟨221, 40, 104925075 / 2048⟩]) := by
  decide +kernel
example : IsElev IntRound.nearest exOpts.elevMin := ⟨by decide +kernel, by decide +kernel⟩

/-! ### C108 -/

/-- C108: the elevation of the ground used for a location is the first of ten doubles below the stored elevation, 12.5 apart but for
rounding, with positive speed, or else the one stored (`Ground`); there is only one such. -/
theorem C108 {ri : IntRound K} {ar : Arith K} (har : ar.rd = fl ri 53) {fmt : Fmt K} {q q' : VMQuery K} {fs fs' : Files} {lon lat g : K}
    (h : queryElev ar fmt q fs lon lat = .ok (g, q', fs')) :
    Ground (fl ri 53) fmt q lon lat g ∧ (∀ g', Ground (fl ri 53) fmt q lon lat g' → g' = g) ∧
      ∃ e, q' = { q with queryVals := [some 1], err := e } := by
  have h' : queryElev ar fmt { q with queryVals := q.queryVals } fs lon lat = .ok (g, q', fs') := h
  obtain ⟨h1, w, -, -, h2⟩ := queryElev_back (double_step har) h'
  rw [har] at h1
  exact ⟨h1, fun g' hg => C63_unique hg h1, _, h2⟩

/-- C108: for a stored elevation that is a double of at most a million in size, the ground is a double, at most 112.501 below. -/
theorem C108_near {ri : IntRound K} {fmt : Fmt K} {q : VMQuery K} {lon lat g e0 : K} (h : Ground (fl ri 53) fmt q lon lat g)
    (h0 : ValueAt fmt q 8 lon lat (-5000) e0) (he : IsElev ri e0) : fl ri 53 g = g ∧ g ≤ e0 ∧ e0 - 112.501 ≤ g :=
  ground_double h h0 he

/-- C108: if the elevation stored is a multiple of 2^-10 of at most a million in size, nothing is rounded: the ground is that of exact
arithmetic (`C63`). -/
theorem C108_exact {ri : IntRound K} {fmt : Fmt K} {q : VMQuery K} {lon lat g e0 : K} (h0 : ValueAt fmt q 8 lon lat (-5000) e0) {m : ℤ}
    (he : e0 = m / 2 ^ 10) (hm : |e0| ≤ 1000000) : Ground (fl ri 53) fmt q lon lat g ↔ Ground id fmt q lon lat g := by
  have key : ∀ k : Nat, k < 10 → fl ri 53 (e0 - 12.5 * k) = e0 - 12.5 * k := by
    intro k hk
    have e : e0 - 12.5 * k = ((m - 12800 * k : ℤ) : K) * 2 ^ (-10 : ℤ) := by
      rw [he]; push_cast; norm_num; ring
    rw [e]
    refine fl_exact (by norm_num) ?_
    have hm' : |m| ≤ 1024000000 := by
      rw [he, abs_div, div_le_iff₀ (by positivity)] at hm
      norm_num at hm
      exact_mod_cast hm
    rw [abs_le] at hm'
    rw [abs_lt]; constructor <;> norm_num <;> omega
  have aux : ∀ r r' : K → K, (∀ k : Nat, k < 10 → r (e0 - 12.5 * k) = r' (e0 - 12.5 * k)) →
      Ground r fmt q lon lat g → Ground r' fmt q lon lat g := by
    rintro r r' hr ⟨e1, h1, h2⟩
    obtain rfl := valueAt_unique h0 h1
    refine ⟨e0, h1, ?_⟩
    rcases h2 with ⟨k, a1, a2, a3, a4⟩ | ⟨a1, a2⟩
    · exact Or.inl ⟨k, a1, by rw [a2, hr k a1], a3, fun j hj => by rw [← hr j (by omega)]; exact a4 j hj⟩
    · exact Or.inr ⟨a1, fun j hj => by rw [← hr j hj]; exact a2 j hj⟩
  exact ⟨aux _ _ fun k hk => by rw [key k hk]; rfl, aux _ _ fun k hk => by rw [key k hk]; rfl⟩

example : groundOf (queryElev exAr exFmt exIso (fun _ => "") 220 40) = some (-38370) := by decide +kernel
example : Ground (fl IntRound.nearest 53) exFmt exIso 220 40 (-38370) :=
  (C108_exact (m := -39290880) (e0 := -38370) (valueAt_of (by decide +kernel)) (by norm_num) (by norm_num)).2 exIso_ground
/-- The example location is answered, as `C107` requires. -/
example : Answered (fl IntRound.nearest 53) 12.7 exFmt exOpts exIso (220, 40) := by
  refine ⟨exIso_answered.1, exIso_answered.2.1, exIso_answered.2.2.1, fun g hg => ?_⟩
  rw [C63_unique ((C108_exact (m := -39290880) (e0 := -38370) (valueAt_of (by decide +kernel)) (by norm_num) (by norm_num)).1 hg) exIso_ground]
  unfold exOpts
  norm_num
example : IsElev (K := ℚ) IntRound.nearest (-38370) := ⟨by decide +kernel, by decide +kernel⟩

end IsoApp
end CenCalVM
