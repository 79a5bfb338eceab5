/-
Lemmas about GeomCenCA: ticks, centroids, axes.
-/
import Verif.Spec.Geometry
import Verif.Lemmas.Octant
import Mathlib.Tactic.FieldSimp
import Mathlib.Tactic.LinearCombination
import Mathlib.Tactic.NormNum
import Mathlib.Tactic.Positivity

set_option linter.unusedSectionVars false

namespace CenCalVM
namespace GeomCenCA

variable {K : Type} [Field K]

theorem tickLen_toNat {l : Nat} (h : l ≤ 31) : (tickLen l).toNat = 2 ^ (31 - l) := by
  unfold tickLen
  rw [BitVec.toNat_ushiftRight, Nat.shiftRight_eq_div_pow]
  show 2 ^ 31 / 2 ^ l = _
  rw [Nat.pow_div h (by omega)]

theorem rootP_projXY {f : Frame K} (hf : f.Rigid) (p q : K) :
    rootP f (f.xNWRoot + (p * f.cosAz + q * f.sinAz)) (f.yNWRoot + (q * f.cosAz - p * f.sinAz)) = p := by
  unfold rootP; unfold Frame.Rigid at hf; linear_combination p * hf

theorem rootQ_projXY {f : Frame K} (hf : f.Rigid) (p q : K) :
    rootQ f (f.xNWRoot + (p * f.cosAz + q * f.sinAz)) (f.yNWRoot + (q * f.cosAz - p * f.sinAz)) = q := by
  unfold rootQ; unfold Frame.Rigid at hf; linear_combination q * hf

theorem projX_root {f : Frame K} (hf : f.Rigid) (x y : K) :
    f.xNWRoot + (rootP f x y * f.cosAz + rootQ f x y * f.sinAz) = x := by
  unfold rootP rootQ; unfold Frame.Rigid at hf; linear_combination (x - f.xNWRoot) * hf

theorem projY_root {f : Frame K} (hf : f.Rigid) (x y : K) :
    f.yNWRoot + (rootQ f x y * f.cosAz - rootP f x y * f.sinAz) = y := by
  unfold rootP rootQ; unfold Frame.Rigid at hf; linear_combination (y - f.yNWRoot) * hf

theorem rootR_of {elev r : K} (h : 4 * (12800 - elev) = 1638400 - r) : rootR elev = r := by
  unfold rootR MAXELEV VERTEXAG ROOTLEN; linear_combination - h

/-- Root coordinates of a location are unique and are what the code computes. -/
theorem atRootCoords_iff {f : Frame K} (hf : f.Rigid) {proj : Projector K} {lon lat elev p q r : K} :
    AtRootCoords f proj lon lat elev p q r ↔
      ∃ x y, proj.project lon lat = .ok (x, y) ∧ rootP f x y = p ∧ rootQ f x y = q ∧ rootR elev = r := by
  constructor
  · rintro ⟨h1, h2⟩
    exact ⟨_, _, h1, rootP_projXY hf p q, rootQ_projXY hf p q, rootR_of h2⟩
  · rintro ⟨x, y, h1, rfl, rfl, rfl⟩
    refine ⟨?_, ?_⟩
    · rw [projX_root hf, projY_root hf, h1]
    · unfold rootR MAXELEV VERTEXAG ROOTLEN; ring

variable [LinearOrder K] [IsStrictOrderedRing K]

theorem edgeLen_pos (l : Nat) : (0 : K) < edgeLen l := by
  unfold edgeLen ROOTLEN; positivity

theorem rootLen_pos : (0 : K) < ROOTLEN := by unfold ROOTLEN; norm_num

theorem edgeLen_tick {l : Nat} (h : l ≤ 31) :
    (edgeLen l : K) = (2 ^ (31 - l) : Nat) * (1638400 / 2 ^ 31) := by
  unfold edgeLen ROOTLEN
  have h2 : (2 : K) ^ 31 = 2 ^ (31 - l) * 2 ^ l := by rw [← pow_add]; congr 1; omega
  have h3 : (2 : K) ^ l ≠ 0 := by positivity
  have h4 : (2 : K) ^ (31 - l) ≠ 0 := by positivity
  push_cast
  rw [h2]; field_simp

variable [FloorRing K]

theorem floor_le {p : K} {l : Nat} (hp : p ≤ 1638400) : ⌊p / edgeLen l⌋₊ ≤ 2 ^ l := by
  apply Nat.floor_le_of_le
  rw [div_le_iff₀ (edgeLen_pos l)]
  unfold edgeLen ROOTLEN
  have h3 : (2 : K) ^ l ≠ 0 := by positivity
  push_cast
  rw [mul_div_cancel₀ _ h3]; exact hp

theorem floor_lt {p : K} {l : Nat} (h0 : 0 ≤ p) (hp : p < 1638400) : ⌊p / edgeLen l⌋₊ < 2 ^ l := by
  rw [Nat.floor_lt (div_nonneg h0 (edgeLen_pos l).le), div_lt_iff₀ (edgeLen_pos l)]
  unfold edgeLen ROOTLEN
  have h3 : (2 : K) ^ l ≠ 0 := by positivity
  push_cast
  rw [mul_div_cancel₀ _ h3]; exact hp

/-- No overflow in the 32-bit tick computation on the closed cube. -/
theorem tick_toNat {p : K} {l : Nat} (hp : p ≤ 1638400) (hl : l ≤ 31) :
    (tick p l).toNat = 2 ^ (31 - l) * ⌊p / edgeLen l⌋₊ := by
  have h1 : ⌊p / edgeLen l⌋₊ ≤ 2 ^ l := floor_le hp
  have h2 : 2 ^ l ≤ 2 ^ 31 := Nat.pow_le_pow_right (by omega) hl
  have h3 : 2 ^ (31 - l) * ⌊p / edgeLen l⌋₊ ≤ 2 ^ (31 - l) * 2 ^ l := Nat.mul_le_mul_left _ h1
  have h4 : 2 ^ (31 - l) * 2 ^ l = 2 ^ 31 := by rw [← Nat.pow_add]; congr 1; omega
  unfold tick
  rw [BitVec.toNat_mul, tickLen_toNat hl, BitVec.toNat_ofNat,
    Nat.mod_eq_of_lt (a := ⌊p / edgeLen l⌋₊) (by omega), Nat.mod_eq_of_lt (by omega)]

theorem tick_lt {p : K} {l : Nat} (h0 : 0 ≤ p) (hp : p < 1638400) (hl : l ≤ 31) :
    (tick p l).toNat < 2 ^ 31 := by
  rw [tick_toNat hp.le hl]
  have h4 : 2 ^ (31 - l) * 2 ^ l = 2 ^ 31 := by rw [← Nat.pow_add]; congr 1; omega
  rw [← h4]
  exact Nat.mul_lt_mul_of_pos_left (floor_lt h0 hp) (Nat.two_pow_pos _)

theorem tick_dvd {p : K} {l : Nat} (hp : p ≤ 1638400) (hl : l ≤ 31) :
    2 ^ (31 - l) ∣ (tick p l).toNat := by
  rw [tick_toNat hp hl]; exact Nat.dvd_mul_right _ _

theorem axisHas_tick {p : K} {l : Nat} (h0 : 0 ≤ p) (hp : p ≤ 1638400) (hl : l ≤ 31) :
    axisHas (tick p l).toNat (2 ^ (31 - l)) p := by
  rw [tick_toNat hp hl]
  have he := edgeLen_tick (K := K) hl
  have hpos := edgeLen_pos (K := K) l
  have h1 := Nat.floor_le (div_nonneg h0 hpos.le)
  have h2 := Nat.lt_floor_add_one (p / edgeLen l)
  rw [le_div_iff₀ hpos] at h1
  rw [div_lt_iff₀ hpos] at h2
  constructor
  · rw [he] at h1
    refine le_trans (le_of_eq ?_) h1
    push_cast; rw [he]; push_cast; ring
  · push_cast at *
    refine lt_of_lt_of_le h2 (le_of_eq ?_)
    rw [he]; ring

/-- A point determines the cell of a level: floor is the only candidate. -/
theorem tick_unique {p : K} {l : Nat} {t : BitVec 32} (h0 : 0 ≤ p) (hp : p ≤ 1638400) (hl : l ≤ 31)
    (hd : 2 ^ (31 - l) ∣ t.toNat) (ht : axisHas t.toNat (2 ^ (31 - l)) p) : tick p l = t := by
  apply BitVec.eq_of_toNat_eq
  rw [tick_toNat hp hl]
  obtain ⟨c, hc⟩ := hd
  have he := edgeLen_tick (K := K) hl
  have hpos := edgeLen_pos (K := K) l
  obtain ⟨h1, h2⟩ := ht
  rw [hc] at h1 h2 ⊢
  congr 1
  rw [Nat.floor_eq_iff (div_nonneg h0 hpos.le), le_div_iff₀ hpos, div_lt_iff₀ hpos, he]
  push_cast at *
  constructor
  · refine le_trans (le_of_eq ?_) h1; ring
  · refine lt_of_lt_of_le h2 (le_of_eq ?_); ring

theorem tick_trunc {p : K} {m l : Nat} (h0 : 0 ≤ p) (hp : p ≤ 1638400) (hml : m ≤ l) (hl : l ≤ 31) :
    Key.truncTick (tick p l) m = tick p m := by
  symm
  have hm : m ≤ 31 := by omega
  apply tick_unique h0 hp hm
  · rw [Key.truncTick_toNat]; exact Nat.dvd_mul_left _ _
  · obtain ⟨h1, h2⟩ := axisHas_tick h0 hp hl
    have hin : Key.axisIn (Key.truncTick (tick p l) m).toNat (2 ^ (31 - m)) (tick p l).toNat
        (2 ^ (31 - l)) := by
      rw [Key.axis_trunc_iff hml ?_ (tick_dvd hp hl)]
      rw [Key.truncTick_toNat]; exact Nat.dvd_mul_left _ _
    obtain ⟨g1, g2⟩ := hin
    have hh : (0 : K) < 1638400 / 2 ^ 31 := by positivity
    constructor
    · refine le_trans (mul_le_mul_of_nonneg_right ?_ hh.le) h1
      exact_mod_cast g1
    · refine lt_of_lt_of_le h2 (mul_le_mul_of_nonneg_right ?_ hh.le)
      exact_mod_cast g2

theorem axisHas_centroid {t : BitVec 32} {l : Nat} (hl : l ≤ 31) :
    axisHas (K := K) t.toNat (2 ^ (31 - l)) (centroidCoord t l) := by
  have he := edgeLen_tick (K := K) hl
  have h2 : (0 : K) < ((2 ^ (31 - l) : Nat) : K) := by positivity
  have hh : (0 : K) < 1638400 / 2 ^ 31 := by positivity
  unfold centroidCoord
  rw [tickLen_toNat hl, he]
  have hc : ((t.toNat : K) / ((2 ^ (31 - l) : Nat) : K) + 1 / 2) *
      (((2 ^ (31 - l) : Nat) : K) * (1638400 / 2 ^ 31)) =
      ((t.toNat : K) + ((2 ^ (31 - l) : Nat) : K) / 2) * (1638400 / 2 ^ 31) := by
    field_simp
  rw [hc]
  constructor
  · apply mul_le_mul_of_nonneg_right _ hh.le; linarith
  · apply mul_lt_mul_of_pos_right _ hh; linarith

theorem centroid_range {t : BitVec 32} {l : Nat} (hl : l ≤ 31) (ht : t.toNat < 2 ^ 31)
    (hd : 2 ^ (31 - l) ∣ t.toNat) :
    0 ≤ (centroidCoord t l : K) ∧ (centroidCoord t l : K) < 1638400 := by
  obtain ⟨h1, h2⟩ := axisHas_centroid (K := K) (t := t) hl
  have hh : (0 : K) < 1638400 / 2 ^ 31 := by positivity
  have hle : t.toNat + 2 ^ (31 - l) ≤ 2 ^ 31 := by
    obtain ⟨c, hc⟩ := hd
    have h4 : 2 ^ (31 - l) * 2 ^ l = 2 ^ 31 := by rw [← Nat.pow_add]; congr 1; omega
    have : c < 2 ^ l := by
      by_contra hcon
      have : 2 ^ (31 - l) * 2 ^ l ≤ 2 ^ (31 - l) * c := Nat.mul_le_mul_left _ (by omega)
      omega
    have : 2 ^ (31 - l) * (c + 1) ≤ 2 ^ (31 - l) * 2 ^ l := Nat.mul_le_mul_left _ this
    rw [Nat.mul_add] at this
    omega
  constructor
  · refine le_trans ?_ h1; positivity
  · refine lt_of_lt_of_le h2 ?_
    have h5 : ((t.toNat : K) + ((2 ^ (31 - l) : Nat) : K)) ≤ 2 ^ 31 := by exact_mod_cast hle
    calc _ ≤ (2 : K) ^ 31 * (1638400 / 2 ^ 31) := mul_le_mul_of_nonneg_right h5 hh.le
      _ = 1638400 := by norm_num

/-- What `lonLatElevToAddr` returns inside the closed cube. -/
theorem toAddr_inside {f : Frame K} (hf : f.Rigid) {proj : Projector K} {lon lat elev p q r : K}
    (h : AtRootCoords f proj lon lat elev p q r) (hp : inClosed p) (hq : inClosed q) (hr : inClosed r)
    (a : Addr) (ha : a.level ≤ 31) :
    lonLatElevToAddr f proj a lon lat elev =
      .ok ({ a with x := tick p a.level, y := tick q a.level, z := tick r a.level }, 0) := by
  obtain ⟨x, y, h1, rfl, rfl, rfl⟩ := (atRootCoords_iff hf).1 h
  have hlt : a.level < 32 := by omega
  have hneg : ¬ (rootP f x y < 0 ∨ rootP f x y > ROOTLEN ∨ rootQ f x y < 0 ∨ rootQ f x y > ROOTLEN ∨
      rootR elev < 0 ∨ rootR elev > ROOTLEN) := by
    obtain ⟨hp1, hp2⟩ := hp; obtain ⟨hq1, hq2⟩ := hq; obtain ⟨hr1, hr2⟩ := hr
    unfold ROOTLEN
    simp only [not_or, not_lt, gt_iff_lt]
    exact ⟨hp1, hp2, hq1, hq2, hr1, hr2⟩
  unfold lonLatElevToAddr
  rw [if_pos hlt, h1]
  dsimp only
  rw [if_neg hneg]

theorem toAddr_outside {f : Frame K} (hf : f.Rigid) {proj : Projector K} {lon lat elev p q r : K}
    (h : AtRootCoords f proj lon lat elev p q r) (hout : ¬ (inClosed p ∧ inClosed q ∧ inClosed r))
    (a : Addr) (ha : a.level ≤ 31) :
    lonLatElevToAddr f proj a lon lat elev = .ok ({ a with x := -1, y := -1, z := -1 }, 1) := by
  obtain ⟨x, y, h1, rfl, rfl, rfl⟩ := (atRootCoords_iff hf).1 h
  have hlt : a.level < 32 := by omega
  have hpos : (rootP f x y < 0 ∨ rootP f x y > ROOTLEN ∨ rootQ f x y < 0 ∨ rootQ f x y > ROOTLEN ∨
      rootR elev < 0 ∨ rootR elev > ROOTLEN) := by
    by_contra hcon
    unfold ROOTLEN at hcon
    simp only [not_or, not_lt, gt_iff_lt] at hcon
    obtain ⟨a1, a2, a3, a4, a5, a6⟩ := hcon
    exact hout ⟨⟨a1, a2⟩, ⟨a3, a4⟩, ⟨a5, a6⟩⟩
  unfold lonLatElevToAddr
  rw [if_pos hlt, h1]
  dsimp only
  rw [if_pos hpos]

theorem atRootCoords_of_project {f : Frame K} (hf : f.Rigid) {proj : Projector K} {lon lat elev x y : K}
    (h : proj.project lon lat = .ok (x, y)) :
    AtRootCoords f proj lon lat elev (rootP f x y) (rootQ f x y) (rootR elev) :=
  (atRootCoords_iff hf).2 ⟨x, y, h, rfl, rfl, rfl⟩

theorem atRootCoords_unique {f : Frame K} (hf : f.Rigid) {proj : Projector K}
    {lon lat elev p q r p' q' r' : K} (h : AtRootCoords f proj lon lat elev p q r)
    (h' : AtRootCoords f proj lon lat elev p' q' r') : p = p' ∧ q = q' ∧ r = r' := by
  obtain ⟨x, y, h1, rfl, rfl, rfl⟩ := (atRootCoords_iff hf).1 h
  obtain ⟨x', y', h1', rfl, rfl, rfl⟩ := (atRootCoords_iff hf).1 h'
  rw [h1] at h1'; cases h1'; exact ⟨rfl, rfl, rfl⟩

theorem frame_rigid : frame.Rigid := Real.cos_sq_add_sin_sq _

end GeomCenCA
end CenCalVM
