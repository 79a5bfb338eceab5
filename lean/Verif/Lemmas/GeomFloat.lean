/-
Lemmas about the geometry computed with rounding.
-/
import Verif.Lemmas.Float
import Verif.Lemmas.Query

set_option linter.unusedSectionVars false

namespace CenCalVM
namespace GeomCenCA
variable {K : Type} [Field K] [LinearOrder K] [IsStrictOrderedRing K] [FloorRing K]
variable {ri : IntRound K}

/-- A number with at most 53 binary digits. -/
theorem dbl_exact {x : K} (m e : ℤ) (hx : x = m * 2 ^ e) (hm : |m| < 2 ^ 53) : fl ri 53 x = x := by
  rw [hx]; exact fl_exact (by norm_num) hm

theorem edgeLenFl_eq (l : Nat) : edgeLenFl (fl ri 53) l = (edgeLen l : K) := by
  refine dbl_exact 25 (16 - l) ?_ (by norm_num)
  unfold ROOTLEN
  rw [zpow_sub₀ (by norm_num), zpow_natCast]
  norm_num
  ring

/-- The coordinate the tick computation effectively uses. -/
def snap (rd : K → K) (p : K) : K := rd (p / ROOTLEN) * ROOTLEN

theorem div_edgeLen (p : K) (l : Nat) : p / edgeLen l = p / ROOTLEN * 2 ^ (l : ℤ) := by
  have h : (ROOTLEN : K) ≠ 0 := rootLen_pos.ne'
  unfold edgeLen
  rw [zpow_natCast]
  field_simp

theorem tickFl_eq (p : K) (l : Nat) : tickFl (fl ri 53) p l = tick (snap (fl ri 53) p) l := by
  have h : (ROOTLEN : K) ≠ 0 := rootLen_pos.ne'
  unfold tickFl tick
  rw [edgeLenFl_eq, div_edgeLen, div_edgeLen, fl_scale]
  unfold snap
  rw [mul_div_cancel_right₀ _ h]

theorem snap_nonneg_iff (p : K) : 0 ≤ snap (fl ri 53) p ↔ 0 ≤ p := by
  have hR : (0 : K) < ROOTLEN := rootLen_pos
  unfold snap
  constructor
  · intro h
    by_contra hc
    have := fl_neg (ri := ri) (prec := 53) (by norm_num) (div_neg_of_neg_of_pos (not_le.1 hc) hR)
    nlinarith
  · intro h
    rcases h.lt_or_eq with h1 | h1
    · exact (mul_pos (fl_pos (by norm_num) (div_pos h1 hR)) hR).le
    · rw [← h1]; simp

theorem fl_one : fl ri 53 (1 : K) = 1 := dbl_exact 1 0 (by norm_num) (by norm_num)

theorem snap_le (p : K) (hp : p ≤ 1638400) : snap (fl ri 53) p ≤ 1638400 := by
  have hR : (0 : K) < ROOTLEN := rootLen_pos
  unfold snap
  have h1 : p / ROOTLEN ≤ 1 := (div_le_one hR).2 (by unfold ROOTLEN; exact hp)
  have h2 := fl_mono (ri := ri) (prec := 53) (by norm_num) h1
  rw [fl_one] at h2
  calc _ ≤ 1 * ROOTLEN := mul_le_mul_of_nonneg_right h2 hR.le
    _ = 1638400 := by unfold ROOTLEN; norm_num

theorem error_le {x B : K} (h : |x| ≤ B) : |fl ri 53 x - x| ≤ B / 2 ^ 52 :=
  (fl_error x).trans (div_le_div_of_nonneg_right h (by positivity))

/-- One more rounding. -/
theorem step_error {x y B d : K} (hd : |x - y| ≤ d) (hB : |y| ≤ B) :
    |fl ri 53 x - y| ≤ d + (B + d) / 2 ^ 52 ∧ |fl ri 53 x| ≤ (B + d) + (B + d) / 2 ^ 52 := by
  have h1 : |x| ≤ B + d := by
    have := abs_add_le (x - y) y
    rw [sub_add_cancel] at this
    linarith
  have h2 := error_le (ri := ri) h1
  constructor
  · have := abs_add_le (fl ri 53 x - x) (x - y)
    rw [show fl ri 53 x - x + (x - y) = fl ri 53 x - y by ring] at this
    linarith
  · have := abs_add_le (fl ri 53 x - x) x
    rw [sub_add_cancel] at this
    linarith

theorem abs_mul_le_of_le_one {a c B : K} (ha : |a| ≤ B) (hc : |c| ≤ 1) : |a * c| ≤ B := by
  rw [abs_mul]
  calc |a| * |c| ≤ |a| * 1 := mul_le_mul_of_nonneg_left hc (abs_nonneg a)
    _ ≤ B := by linarith

theorem snap_error {p B : K} (h : |p| ≤ B) : |snap (fl ri 53) p - p| ≤ B / 2 ^ 52 := by
  have hR : (0 : K) < ROOTLEN := rootLen_pos
  have e : snap (fl ri 53) p - p = (fl ri 53 (p / ROOTLEN) - p / ROOTLEN) * ROOTLEN := by
    unfold snap; rw [sub_mul, div_mul_cancel₀ _ hR.ne']
  have h1 := fl_error (ri := ri) (prec := 53) (p / ROOTLEN)
  rw [e, abs_mul, abs_of_pos hR]
  rw [abs_div, abs_of_pos hR] at h1
  calc _ ≤ |p| / ROOTLEN / 2 ^ (53 - 1) * ROOTLEN := mul_le_mul_of_nonneg_right h1 hR.le
    _ = |p| / 2 ^ 52 := by field_simp
    _ ≤ _ := div_le_div_of_nonneg_right h (by positivity)

/-- Product of a difference with the sine or cosine, rounded twice. -/
theorem prod_error {d c M : K} (hd : |d| ≤ M) (hc : |c| ≤ 1) :
    |fl ri 53 (fl ri 53 d * c) - d * c| ≤ (2 + 1 / 2 ^ 50) * M / 2 ^ 52 := by
  have hM : 0 ≤ M := (abs_nonneg d).trans hd
  have h1 := error_le (ri := ri) hd
  have h2 : |fl ri 53 d * c - d * c| ≤ M / 2 ^ 52 := by
    rw [← sub_mul]; exact abs_mul_le_of_le_one h1 hc
  have h3 := (step_error (ri := ri) h2 (abs_mul_le_of_le_one hd hc)).1
  refine h3.trans ?_
  norm_num
  linarith

/-- Sum of two products and the division by the edge. -/
theorem comb_error {u v a b M : K} (ha : |a| ≤ M) (hb : |b| ≤ M)
    (hu : |u - a| ≤ (2 + 1 / 2 ^ 50) * M / 2 ^ 52) (hv : |v - b| ≤ (2 + 1 / 2 ^ 50) * M / 2 ^ 52) :
    |snap (fl ri 53) (fl ri 53 (u + v)) - (a + b)| ≤ 9 * M / 2 ^ 52 ∧ |fl ri 53 (u + v) - (a + b)| ≤ 9 * M / 2 ^ 52 := by
  have hM : 0 ≤ M := (abs_nonneg a).trans ha
  have h1 : |u + v - (a + b)| ≤ 2 * ((2 + 1 / 2 ^ 50) * M / 2 ^ 52) := by
    have := abs_add_le (u - a) (v - b)
    rw [show u - a + (v - b) = u + v - (a + b) by ring] at this
    linarith
  have h2 : |a + b| ≤ 2 * M := (abs_add_le a b).trans (by linarith)
  obtain ⟨h3, h4⟩ := step_error (ri := ri) h1 h2
  have h5 := snap_error (ri := ri) h4
  have h6 := abs_add_le (snap (fl ri 53) (fl ri 53 (u + v)) - fl ri 53 (u + v)) (fl ri 53 (u + v) - (a + b))
  rw [sub_add_sub_cancel] at h6
  constructor
  · refine h6.trans ((add_le_add h5 h3).trans ?_)
    norm_num
    linarith
  · refine h3.trans ?_
    norm_num
    linarith

theorem rootPFl_error {f : Frame K} {x y M : K} (hc : |f.cosAz| ≤ 1) (hs : |f.sinAz| ≤ 1) (hx : |x - f.xNWRoot| ≤ M)
    (hy : |y - f.yNWRoot| ≤ M) :
    |snap (fl ri 53) (rootPFl (fl ri 53) f x y) - rootP f x y| ≤ 9 * M / 2 ^ 52 ∧
      |rootPFl (fl ri 53) f x y - rootP f x y| ≤ 9 * M / 2 ^ 52 := by
  have h2 := prod_error (ri := ri) hy hs
  have h := comb_error (ri := ri) (b := -((y - f.yNWRoot) * f.sinAz)) (v := -fl ri 53 (fl ri 53 (y - f.yNWRoot) * f.sinAz))
    (abs_mul_le_of_le_one hx hc) (by rw [abs_neg]; exact abs_mul_le_of_le_one hy hs) (prod_error (ri := ri) hx hc)
    (by rw [← neg_sub_neg, abs_sub_comm] at h2; simpa using h2)
  simpa [rootPFl, rootP, sub_eq_add_neg] using h

theorem rootQFl_error {f : Frame K} {x y M : K} (hc : |f.cosAz| ≤ 1) (hs : |f.sinAz| ≤ 1) (hx : |x - f.xNWRoot| ≤ M)
    (hy : |y - f.yNWRoot| ≤ M) :
    |snap (fl ri 53) (rootQFl (fl ri 53) f x y) - rootQ f x y| ≤ 9 * M / 2 ^ 52 ∧
      |rootQFl (fl ri 53) f x y - rootQ f x y| ≤ 9 * M / 2 ^ 52 :=
  comb_error (abs_mul_le_of_le_one hx hs) (abs_mul_le_of_le_one hy hc) (prod_error hx hs) (prod_error hy hc)

theorem rootRFl_error {elev M : K} (hM : 1638400 ≤ M) (he : 4 * |elev - 12800| ≤ M) :
    |snap (fl ri 53) (rootRFl (fl ri 53) elev) - rootR elev| ≤ 9 * M / 2 ^ 52 ∧
      |rootRFl (fl ri 53) elev - rootR elev| ≤ 9 * M / 2 ^ 52 := by
  have hM0 : (0 : K) ≤ M := le_trans (by norm_num) hM
  have h0 : |elev - MAXELEV| ≤ M / 4 := by unfold MAXELEV; linarith
  have h1 := error_le (ri := ri) h0
  have h2 : |fl ri 53 (elev - MAXELEV) * VERTEXAG - (elev - MAXELEV) * VERTEXAG| ≤ M / 2 ^ 52 := by
    rw [← sub_mul, abs_mul]
    unfold VERTEXAG at *
    rw [abs_of_pos (by norm_num : (0 : K) < 4)]
    linarith
  have h3 : |(elev - MAXELEV) * VERTEXAG| ≤ M := by
    rw [abs_mul]; unfold VERTEXAG; rw [abs_of_pos (by norm_num : (0 : K) < 4)]; linarith
  have h4 := (step_error (ri := ri) h2 h3).1
  have h5 := comb_error (ri := ri) (u := fl ri 53 (fl ri 53 (elev - MAXELEV) * VERTEXAG)) (v := ROOTLEN) (b := ROOTLEN) h3
    (by unfold ROOTLEN; rw [abs_of_pos (by norm_num)]; exact hM) (h4.trans (by norm_num; linarith))
    (by rw [sub_self, abs_zero]; positivity)
  exact h5

/-! ### The conversion as an exact conversion of slightly moved coordinates -/

/-- Axes along the coordinate axes. -/
def unitFrame : Frame K := { cosAz := 1, sinAz := 0, xNWRoot := 0, yNWRoot := 0 }

theorem unitFrame_rigid : (unitFrame : Frame K).Rigid := by unfold Frame.Rigid unitFrame; norm_num

/-- The horizontal coordinates the computation effectively uses. -/
def seenProj (rd : K → K) (f : Frame K) (proj : Projector K) : Projector K where
  project := fun lon lat => match proj.project lon lat with
    | .ok (x, y) => .ok (snap rd (rootPFl rd f x y), snap rd (rootQFl rd f x y))
    | .exc m => .exc m
    | .ub => .ub
  invProject := proj.invProject

/-- The elevation the computation effectively uses. -/
def seenElev (rd : K → K) (elev : K) : K := (snap rd (rootRFl rd elev) - ROOTLEN) / VERTEXAG + MAXELEV

theorem rootR_seenElev (rd : K → K) (elev : K) : rootR (seenElev rd elev) = snap rd (rootRFl rd elev) := by
  unfold rootR seenElev VERTEXAG; ring

theorem snap_gt_iff (p : K) : (0 ≤ p ∧ p ≤ 1638400) → 0 ≤ snap (fl ri 53) p ∧ snap (fl ri 53) p ≤ 1638400 :=
  fun h => ⟨(snap_nonneg_iff p).2 h.1, snap_le p h.2⟩

theorem atRoot_seen {f : Frame K} {proj : Projector K} {lon lat elev x y : K} (h : proj.project lon lat = .ok (x, y)) :
    AtRootCoords unitFrame (seenProj (fl ri 53) f proj) lon lat (seenElev (fl ri 53) elev)
      (snap (fl ri 53) (rootPFl (fl ri 53) f x y)) (snap (fl ri 53) (rootQFl (fl ri 53) f x y))
      (snap (fl ri 53) (rootRFl (fl ri 53) elev)) := by
  refine ⟨?_, ?_⟩
  · simp [seenProj, h, unitFrame]
  · unfold seenElev ROOTLEN VERTEXAG MAXELEV; ring

theorem toAddrFl_in {f : Frame K} {proj : Projector K} {lon lat elev x y : K} (h : proj.project lon lat = .ok (x, y))
    (hp : inClosed (rootPFl (fl ri 53) f x y)) (hq : inClosed (rootQFl (fl ri 53) f x y)) (hr : inClosed (rootRFl (fl ri 53) elev))
    (a : Addr) (ha : a.level ≤ 31) :
    lonLatElevToAddrFl (fl ri 53) f proj a lon lat elev =
      lonLatElevToAddr unitFrame (seenProj (fl ri 53) f proj) a lon lat (seenElev (fl ri 53) elev) := by
  rw [toAddr_inside unitFrame_rigid (atRoot_seen h) (snap_gt_iff _ hp) (snap_gt_iff _ hq) (snap_gt_iff _ hr) a ha]
  unfold lonLatElevToAddrFl
  rw [if_pos (by omega), h]
  dsimp only
  rw [if_neg, tickFl_eq, tickFl_eq, tickFl_eq]
  obtain ⟨hp1, hp2⟩ := hp; obtain ⟨hq1, hq2⟩ := hq; obtain ⟨hr1, hr2⟩ := hr
  unfold ROOTLEN
  simp only [not_or, not_lt, gt_iff_lt]
  exact ⟨hp1, hp2, hq1, hq2, hr1, hr2⟩

theorem toAddrFl_out {f : Frame K} {proj : Projector K} {lon lat elev x y : K} (h : proj.project lon lat = .ok (x, y))
    (hout : ¬ (inClosed (rootPFl (fl ri 53) f x y) ∧ inClosed (rootQFl (fl ri 53) f x y) ∧ inClosed (rootRFl (fl ri 53) elev)))
    (a : Addr) (ha : a.level ≤ 31) :
    lonLatElevToAddrFl (fl ri 53) f proj a lon lat elev = .ok ({ a with x := -1, y := -1, z := -1 }, 1) := by
  unfold lonLatElevToAddrFl
  rw [if_pos (by omega), h]
  dsimp only
  rw [if_pos]
  by_contra hcon
  unfold ROOTLEN at hcon
  simp only [not_or, not_lt, gt_iff_lt] at hcon
  obtain ⟨a1, a2, a3, a4, a5, a6⟩ := hcon
  exact hout ⟨⟨a1, a2⟩, ⟨a3, a4⟩, ⟨a5, a6⟩⟩

theorem geomFl_lawful (f : Frame K) (proj : Projector K) (lv : K → Outcome Int) :
    (geomFl (fl ri 53) f proj lv).Lawful where
  overwrites := by
    intro a b hl ht lon lat elev
    obtain ⟨⟨ax, ay, az, al⟩, at'⟩ := a
    obtain ⟨⟨bx, bY, bz, bl⟩, bt⟩ := b
    simp only at hl ht
    subst hl ht
    rfl
  keeps := by
    intro a b lon lat elev code h
    simp only [geomFl, lonLatElevToAddrFl] at h
    split at h
    · split at h
      · cases h
      · cases h
      · split at h <;> (cases h; exact ⟨rfl, rfl⟩)
    · cases h
  aligned := by
    intro a b lon lat elev h
    simp only [geomFl, lonLatElevToAddrFl] at h
    split at h
    · rename_i hl
      split at h
      · cases h
      · cases h
      · split at h
        · cases h
        · rename_i hin
          cases h
          simp only [not_or, not_lt, gt_iff_lt] at hin
          obtain ⟨-, h1, -, h2, -, h3⟩ := hin
          unfold ROOTLEN at h1 h2 h3
          have hl' : a.level ≤ 31 := by omega
          refine ⟨hl', ?_, ?_, ?_⟩
          · simp only [tickFl_eq]; exact tick_dvd (snap_le _ h1) hl'
          · simp only [tickFl_eq]; exact tick_dvd (snap_le _ h2) hl'
          · simp only [tickFl_eq]; exact tick_dvd (snap_le _ h3) hl'
    · cases h
  outside := by
    intro a b lon lat elev code h hc
    simp only [geomFl, lonLatElevToAddrFl] at h
    split at h
    · split at h
      · cases h
      · cases h
      · split at h
        · cases h; show 2 ^ 31 ≤ (-1 : BitVec 32).toNat; decide
        · cases h; exact absurd rfl hc
    · cases h

/-! ### Centroids -/

theorem centroid_dyadic (t : BitVec 32) {l : Nat} (hl : l ≤ 31) :
    ∃ m : ℤ, 0 ≤ m ∧ m ≤ 2 ^ 33 + 2 ^ 31 ∧ (t.toNat : K) / ((tickLen l).toNat : K) + 1 / 2 = m * 2 ^ ((l : ℤ) - 32) ∧
      (centroidCoord t l : K) = ((25 * m : ℤ) : K) * 2 ^ (-16 : ℤ) := by
  have ht := t.isLt
  have hp : (2 : ℤ) ^ (31 - l) ≤ 2 ^ 31 := by exact_mod_cast Nat.pow_le_pow_right (by norm_num) (by omega)
  have hp0 : (0 : ℤ) < 2 ^ (31 - l) := by positivity
  have h1 : (t.toNat : K) / ((tickLen l).toNat : K) + 1 / 2 = ((2 * t.toNat + 2 ^ (31 - l) : ℤ) : K) * 2 ^ ((l : ℤ) - 32) := by
    rw [tickLen_toNat hl, show (l : ℤ) - 32 = -((31 - l : ℕ) + 1 : ℕ) by omega, zpow_neg, zpow_natCast, pow_succ]
    have : (2 : K) ^ (31 - l) ≠ 0 := by positivity
    push_cast
    field_simp
  refine ⟨2 * t.toNat + 2 ^ (31 - l), by positivity, by omega, h1, ?_⟩
  unfold centroidCoord
  rw [h1]
  unfold edgeLen ROOTLEN
  have e : (2 : K) ^ ((l : ℤ) - 32) = 2 ^ l / 2 ^ 32 := by rw [zpow_sub₀ (by norm_num), zpow_natCast]; norm_cast
  rw [e]
  have : (2 : K) ^ l ≠ 0 := by positivity
  push_cast
  norm_num
  field_simp
  norm_num

theorem centroidCoordFl_eq (t : BitVec 32) {l : Nat} (hl : l ≤ 31) :
    centroidCoordFl (fl ri 53) t l = (centroidCoord t l : K) := by
  obtain ⟨m, h0, h1, h2, h3⟩ := centroid_dyadic (K := K) t hl
  have ht := t.isLt
  have e1 : fl ri 53 ((t.toNat : K) / ((tickLen l).toNat : K)) = (t.toNat : K) / ((tickLen l).toNat : K) := by
    refine dbl_exact t.toNat (-((31 - l : ℕ) : ℤ)) ?_ ?_
    · rw [tickLen_toNat hl, zpow_neg, zpow_natCast]; push_cast; rw [div_eq_mul_inv]
    · rw [abs_of_nonneg (by positivity)]; have : (t.toNat : ℤ) < 2 ^ 32 := by exact_mod_cast ht
      norm_num at *; omega
  unfold centroidCoordFl
  rw [e1, edgeLenFl_eq, dbl_exact m _ h2 (by rw [abs_of_nonneg h0]; norm_num at *; omega)]
  exact dbl_exact (25 * m) _ h3 (by rw [abs_of_nonneg (by omega)]; norm_num at *; omega)

/-- Rounding in the rotation of a centroid. -/
theorem proj_error {X a a' b N : K} (hN : 1638400 ≤ N) (hX : |X| ≤ N) (ha : |a| ≤ 1638400) (hb : |b| ≤ 1638400)
    (h1 : |a' - a| ≤ N / 2 ^ 52) :
    |fl ri 53 (fl ri 53 (X + a') + fl ri 53 b) - (X + (a + b))| ≤ 8 * N / 2 ^ 52 := by
  have h2 := error_le (ri := ri) (hb.trans hN)
  have h3 : |X + a' - (X + a)| ≤ N / 2 ^ 52 := by rw [add_sub_add_left_eq_sub]; exact h1
  have h4 : |X + a| ≤ N + N := (abs_add_le X a).trans (by linarith)
  have h5 := (step_error (ri := ri) h3 h4).1
  have h6 : |fl ri 53 (X + a') + fl ri 53 b - (X + (a + b))| ≤ N / 2 ^ 52 + (N + N + N / 2 ^ 52) / 2 ^ 52 + N / 2 ^ 52 := by
    have := abs_add_le (fl ri 53 (X + a') - (X + a)) (fl ri 53 b - b)
    rw [show fl ri 53 (X + a') - (X + a) + (fl ri 53 b - b) = fl ri 53 (X + a') + fl ri 53 b - (X + (a + b)) by ring]
      at this
    linarith
  have h7 : |X + (a + b)| ≤ N + N + N := (abs_add_le X _).trans (by have := abs_add_le a b; linarith)
  have h8 := (step_error (ri := ri) h6 h7).1
  refine h8.trans ?_
  norm_num
  linarith

theorem centroidCoord_middle (t : BitVec 32) {l : Nat} (hl : l ≤ 31) :
    centroidCoord t l = (axisMiddle t.toNat (2 ^ (31 - l)) : K) := by
  have h2 : (2 : K) ^ 31 = 2 ^ (31 - l) * 2 ^ l := by rw [← pow_add]; congr 1; omega
  have h3 : (2 : K) ^ (31 - l) ≠ 0 := by positivity
  have h4 : (2 : K) ^ l ≠ 0 := by positivity
  unfold centroidCoord axisMiddle edgeLen ROOTLEN
  rw [tickLen_toNat hl, h2]
  push_cast
  field_simp

theorem half_edge {l : Nat} (hl : l ≤ 31) : (1638400 / 2 ^ (l + 1) : K) = ((2 ^ (31 - l) : Nat) : K) / 2 * (1638400 / 2 ^ 31) := by
  have h := edgeLen_tick (K := K) hl
  unfold edgeLen ROOTLEN at h
  rw [pow_succ, ← div_div, h]
  ring

/-- A point less than half an edge away from the middle is in the interval. -/
theorem axisHas_near {t : BitVec 32} {l : Nat} (hl : l ≤ 31) {v : K}
    (h : |v - axisMiddle t.toNat (2 ^ (31 - l))| < 1638400 / 2 ^ (l + 1)) : axisHas t.toNat (2 ^ (31 - l)) v := by
  rw [half_edge hl, abs_lt] at h
  unfold axisMiddle at h
  unfold axisHas
  have hh : (0 : K) < 1638400 / 2 ^ 31 := by positivity
  generalize (1638400 / 2 ^ 31 : K) = w at *
  generalize ((2 ^ (31 - l) : Nat) : K) = s at *
  obtain ⟨h1, h2⟩ := h
  constructor <;> nlinarith

theorem inHalfOpen_of_axisHas {t : BitVec 32} {l : Nat} (hl : l ≤ 31) (ht : t.toNat < 2 ^ 31) (hd : 2 ^ (31 - l) ∣ t.toNat) {v : K}
    (h : axisHas t.toNat (2 ^ (31 - l)) v) : inHalfOpen v := by
  have hh : (0 : K) < 1638400 / 2 ^ 31 := by positivity
  have hle : t.toNat + 2 ^ (31 - l) ≤ 2 ^ 31 := by
    obtain ⟨c, hc⟩ := hd
    have h4 : 2 ^ (31 - l) * 2 ^ l = 2 ^ 31 := by rw [← Nat.pow_add]; congr 1; omega
    have : c < 2 ^ l := by
      by_contra hcon
      have : 2 ^ (31 - l) * 2 ^ l ≤ 2 ^ (31 - l) * c := Nat.mul_le_mul_left _ (by omega)
      omega
    have : 2 ^ (31 - l) * (c + 1) ≤ 2 ^ (31 - l) * 2 ^ l := Nat.mul_le_mul_left _ this
    rw [Nat.mul_add] at this
    omega
  constructor
  · refine le_trans ?_ h.1; positivity
  · refine lt_of_lt_of_le h.2 ?_
    have h5 : ((t.toNat : K) + ((2 ^ (31 - l) : Nat) : K)) ≤ 2 ^ 31 := by exact_mod_cast hle
    calc _ ≤ (2 : K) ^ 31 * (1638400 / 2 ^ 31) := mul_le_mul_of_nonneg_right h5 hh.le
      _ = 1638400 := by norm_num

/-- One octant per level contains a point. -/
theorem octant_unique {k k' : Key} (hk : k.Octant) (hk' : k'.Octant) (hl : k.level = k'.level) {p q r : K} (h : k.HasPoint p q r)
    (h' : k'.HasPoint p q r) (hp : inHalfOpen p) (hq : inHalfOpen q) (hr : inHalfOpen r) : k = k' := by
  have a1 := tick_unique hp.1 hp.2.le hk.level_le hk.x_dvd h.1
  have a2 := tick_unique hq.1 hq.2.le hk.level_le hk.y_dvd h.2.1
  have a3 := tick_unique hr.1 hr.2.le hk.level_le hk.z_dvd h.2.2
  have b1 := tick_unique hp.1 hp.2.le hk'.level_le hk'.x_dvd h'.1
  have b2 := tick_unique hq.1 hq.2.le hk'.level_le hk'.y_dvd h'.2.1
  have b3 := tick_unique hr.1 hr.2.le hk'.level_le hk'.z_dvd h'.2.2
  obtain ⟨x, y, z, l⟩ := k
  obtain ⟨x', y', z', l'⟩ := k'
  simp only at *
  subst hl
  rw [a1] at b1; rw [a2] at b2; rw [a3] at b3
  rw [b1, b2, b3]

theorem elevOfRootFl_eq (t : BitVec 32) {l : Nat} (hl : l ≤ 31) :
    elevOfRootFl (fl ri 53) (centroidCoord t l : K) = elevOfRoot (centroidCoord t l) := by
  obtain ⟨m, h0, h1, -, h3⟩ := centroid_dyadic (K := K) t hl
  have e1 : fl ri 53 ((centroidCoord t l : K) - ROOTLEN) = centroidCoord t l - ROOTLEN := by
    refine dbl_exact (25 * m - 1638400 * 2 ^ 16) (-16) ?_ ?_
    · rw [h3]; unfold ROOTLEN; push_cast; norm_num; ring
    · rw [abs_lt]; norm_num at *; constructor <;> omega
  have e2 : fl ri 53 (((centroidCoord t l : K) - ROOTLEN) / VERTEXAG) = (centroidCoord t l - ROOTLEN) / VERTEXAG := by
    refine dbl_exact (25 * m - 1638400 * 2 ^ 16) (-18) ?_ ?_
    · rw [h3]; unfold ROOTLEN VERTEXAG; push_cast; norm_num; ring
    · rw [abs_lt]; norm_num at *; constructor <;> omega
  unfold elevOfRootFl elevOfRoot
  rw [e1, e2]
  refine dbl_exact (25 * m - 1638400 * 2 ^ 16 + 12800 * 2 ^ 18) (-18) ?_ ?_
  · rw [h3]; unfold ROOTLEN VERTEXAG MAXELEV; push_cast; norm_num; ring
  · rw [abs_lt]; norm_num at *; constructor <;> omega

end GeomCenCA
end CenCalVM
