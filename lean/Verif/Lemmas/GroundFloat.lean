/-
Lemmas on the sums of elevations in double precision.
-/
import Verif.Spec.GroundFloat
import Verif.Lemmas.GeomFloat
import Verif.Lemmas.QueryEffects

set_option linter.unusedSectionVars false

namespace CenCalVM
open GeomCenCA
variable {K : Type} [Field K] [LinearOrder K] [IsStrictOrderedRing K] [FloorRing K]

/-- Ordinary depths are multiples of 2^-32. -/
theorem OrdinaryDepth.fine {ri : IntRound K} {x : K} (h : OrdinaryDepth ri x) : Fine x := by
  obtain ⟨h1, h2, h3⟩ := h
  by_cases hx : x = 0
  · exact ⟨0, by simp [hx], by norm_num⟩
  have h2' : 1 / 512 ≤ |x| := h2.resolve_left hx
  obtain ⟨-, b2⟩ := log_bounds hx
  have hk : -9 ≤ Int.log 2 |x| := by
    by_contra hc
    have : (2 : K) ^ (Int.log 2 |x| + 1) ≤ 2 ^ (-9 : ℤ) := zpow_le_zpow_right₀ (by norm_num) (by omega)
    have e : (2 : K) ^ (-9 : ℤ) = 1 / 512 := by norm_num
    rw [e] at this
    exact absurd (b2.trans_le this) (not_lt.2 h2')
  unfold fl at h1
  rw [if_neg hx] at h1
  generalize hN : ri.toInt (x / 2 ^ (Int.log 2 |x| - ((24 - 1 : ℕ) : ℤ))) = N at h1
  obtain ⟨j, hj⟩ : ∃ j : ℕ, Int.log 2 |x| - ((24 - 1 : ℕ) : ℤ) = (j : ℤ) - 32 := ⟨(Int.log 2 |x| + 9).toNat, by omega⟩
  rw [hj, zpow_sub₀ (by norm_num), zpow_natCast] at h1
  have e32 : (2 : K) ^ (32 : ℤ) = 2 ^ 32 := by norm_cast
  rw [e32] at h1
  have hx' : x = ((N * 2 ^ j : ℤ) : K) / 2 ^ 32 := by rw [← h1]; push_cast; ring
  refine ⟨N * 2 ^ j, hx', ?_⟩
  generalize N * 2 ^ j = k at hx'
  rw [hx', abs_div, abs_of_pos (by positivity : (0 : K) < 2 ^ 32), div_le_iff₀ (by positivity), ← pow_add] at h3
  have e51 : ((2 ^ 51 : ℤ) : K) = 2 ^ (19 + 32) := by norm_num
  rw [← e51, ← Int.cast_abs] at h3
  exact_mod_cast h3

/-- The elevation of the centroid of an octant in double precision. -/
theorem centroidElev_double {ri : IntRound K} {f : Frame K} {proj : Projector K} {lv : K → Outcome Int} {a : Addr} (hl : a.level ≤ 31)
    {c : K × K × K} (hc : (geomFl (fl ri 53) f proj lv).addrToLonLatElev a = .ok c) :
    4 * (12800 - c.2.2) = 1638400 - axisMiddle a.z.toNat a.toKey.size ∧ ∃ j : ℤ, c.2.2 = j / 2 ^ 32 ∧ |j| < 2 ^ 52 := by
  change addrToLonLatElevFl (fl ri 53) f proj a = _ at hc
  unfold addrToLonLatElevFl at hc
  rw [if_pos (by omega)] at hc
  dsimp only at hc
  rw [centroidCoordFl_eq a.z hl, elevOfRootFl_eq _ hl] at hc
  have hel : c.2.2 = elevOfRoot (centroidCoord a.z a.level) := by
    split at hc
    · cases hc; rfl
    · cases hc
    · cases hc
  constructor
  · rw [hel, centroidCoord_middle _ hl]
    have : a.toKey.size = 2 ^ (31 - a.level) := rfl
    rw [this]
    unfold elevOfRoot ROOTLEN VERTEXAG MAXELEV; ring
  · obtain ⟨m, h0, h1, -, h3⟩ := centroid_dyadic (K := K) a.z hl
    refine ⟨25 * m * 2 ^ 14 - 1638400 * 2 ^ 30 + 12800 * 2 ^ 32, ?_, ?_⟩
    · rw [hel, h3]
      unfold elevOfRoot ROOTLEN VERTEXAG MAXELEV
      push_cast
      norm_num
      ring
    · rw [abs_lt]; norm_num at *; constructor <;> omega

theorem fine_sum {ri : IntRound K} {m x : K} (hm : ∃ j : ℤ, m = j / 2 ^ 32 ∧ |j| < 2 ^ 52) (hx : Fine x) :
    fl ri 53 (m + x) = m + x ∧ ∃ j : ℤ, m + x = j / 2 ^ 32 ∧ |j| < 3 * 2 ^ 51 := by
  obtain ⟨j, rfl, hj⟩ := hm
  obtain ⟨k, rfl, hk⟩ := hx
  have hjk : |j + k| < 3 * 2 ^ 51 := (abs_add_le _ _).trans_lt (by norm_num at *; omega)
  have e : (j / 2 ^ 32 + k / 2 ^ 32 : K) = (j + k : ℤ) / 2 ^ 32 := by push_cast; ring
  refine ⟨?_, j + k, e, hjk⟩
  rw [e]
  refine dbl_exact (j + k) (-32) ?_ (hjk.trans (by norm_num))
  rw [zpow_neg, div_eq_mul_inv]
  norm_cast

theorem fine_sum' {ri : IntRound K} {z x : K} (hz : ∃ j : ℤ, z = j / 2 ^ 32 ∧ |j| < 3 * 2 ^ 51) (hx : Fine x) :
    fl ri 53 (x + z) = x + z := by
  obtain ⟨j, rfl, hj⟩ := hz
  obtain ⟨k, rfl, hk⟩ := hx
  have hjk : |k + j| < 2 ^ 53 := (abs_add_le _ _).trans_lt (by norm_num at *; omega)
  have e : (k / 2 ^ 32 + j / 2 ^ 32 : K) = (k + j : ℤ) / 2 ^ 32 := by push_cast; ring
  rw [e]
  refine dbl_exact (k + j) (-32) ?_ hjk
  rw [zpow_neg, div_eq_mul_inv]
  norm_cast

/-- The ground elevation used for squashing is the same with and without rounding, and a multiple of 2^-32. -/
theorem squashGround_exact {ri rs rdb rt : IntRound K} {rd : Rd K} (hb : rd.Binary rs rdb) {f : Frame K} {proj : Projector K}
    {lv : K → Outcome Int} {db : Db K} (hdb : db.Good) {ext : Option (Db K)} (hext : ∀ x, ext = some x → x.Good)
    (ho : db.OrdinaryDepths rt) (hox : ∀ x, ext = some x → x.OrdinaryDepths rt) {lon lat elev z : K} :
    (SquashGround rd (geomFl (fl ri 53) f proj lv) db ext lon lat elev z ↔
      SquashGround Rd.exact (geomFl (fl ri 53) f proj lv) db ext lon lat elev z) ∧
    (SquashGround rd (geomFl (fl ri 53) f proj lv) db ext lon lat elev z → ∃ j : ℤ, z = j / 2 ^ 32 ∧ |j| < 3 * 2 ^ 51) := by
  have key : ∀ {a : Key} {e : Entry K} {d : Db K}, GroundOctant db ext a e d → ∀ {b : Addr} {c : K × K × K},
      (geomFl (fl ri 53) f proj lv).addrToLonLatElev b = .ok c → b.level = e.addr.level →
      rd.double (c.2.2 + e.payload.depth) = c.2.2 + e.payload.depth ∧ ∃ j : ℤ, c.2.2 + e.payload.depth = j / 2 ^ 32 ∧ |j| < 3 * 2 ^ 51 := by
    intro a e d hgo b c hc hbl
    obtain ⟨hd, hmem⟩ := VMQuery.groundOctant_good hdb hext hgo
    have hlev := (hd.octants e hmem).level_le
    have hdep : Fine e.payload.depth := by
      rcases hgo with ⟨rfl, -, -⟩ | ⟨-, hx, -⟩
      · exact (ho e hmem).fine
      · exact (hox d hx e hmem).fine
    rw [hb.2]
    exact fine_sum (centroidElev_double (by rw [hbl]; exact hlev) hc).2 hdep
  constructor
  · unfold SquashGround
    refine exists_congr fun a => exists_congr fun code => and_congr_right fun _ => or_congr_right ?_
    refine exists_congr fun e => exists_congr fun d => exists_congr fun c => exists_congr fun b => exists_congr fun code' => ?_
    refine and_congr_right fun hgo => and_congr_right fun hc => ?_
    rw [(key hgo hc rfl).1, Rd.exact_double]
    refine and_congr_right fun _ => or_congr_right (and_congr_right fun _ => exists_congr fun c' => and_congr_right fun hc' => ?_)
    rw [(key hgo hc' rfl).1, Rd.exact_double]
  · rintro ⟨a, code, -, ⟨-, rfl⟩ | ⟨e, d, c, b, code', hgo, hc, -, ⟨-, rfl⟩ | ⟨-, c', hc', rfl⟩⟩⟩
    · exact ⟨-999 * 2 ^ 32, by push_cast; norm_num, by norm_num⟩
    · rw [(key hgo hc rfl).1]; exact (key hgo hc rfl).2
    · rw [(key hgo hc' rfl).1]; exact (key hgo hc' rfl).2

end CenCalVM
