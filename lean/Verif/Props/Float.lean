/-
Properties C80 to C85: the geometry computed in double precision, in any rounding direction.
-/
import Verif.Lemmas.GeomFloat
import Verif.Props.Geometry
import Verif.Props.Create
import Verif.Lemmas.AvgVolume

set_option linter.unusedSectionVars false

namespace CenCalVM
open GeomCenCA VMCreator

section
variable {K : Type} [Field K] [LinearOrder K] [IsStrictOrderedRing K] [FloorRing K]

/-! ### C80 -/

/-- C80: computing in double precision moves a location by at most `9 M / 2^52` metres along each axis of the root cube, `M` being
the largest distance from the root corner, and by the same amount at all levels: there are coordinates `p q r` that close to the exact
ones such that at every level the conversion succeeds exactly if they are in the closed root cube and returns the octant containing
them if they are not on an upper face.  The location is otherwise reported as outside. -/
theorem C80 (ri : IntRound K) {f : Frame K} (hc : |f.cosAz| ≤ 1) (hs : |f.sinAz| ≤ 1) {proj : Projector K} {lon lat elev x y M : K}
    (hproj : proj.project lon lat = .ok (x, y)) (hM : 1638400 ≤ M) (hx : |x - f.xNWRoot| ≤ M) (hy : |y - f.yNWRoot| ≤ M)
    (he : 4 * |elev - 12800| ≤ M) :
    ∃ p q r : K,
      |p - ((x - f.xNWRoot) * f.cosAz - (y - f.yNWRoot) * f.sinAz)| ≤ 9 * M / 2 ^ 52 ∧
      |q - ((x - f.xNWRoot) * f.sinAz + (y - f.yNWRoot) * f.cosAz)| ≤ 9 * M / 2 ^ 52 ∧
      |r - (1638400 - 4 * (12800 - elev))| ≤ 9 * M / 2 ^ 52 ∧
      ∀ a : Addr, a.level ≤ 31 →
        (¬ (inClosed p ∧ inClosed q ∧ inClosed r) →
          lonLatElevToAddrFl (fl ri 53) f proj a lon lat elev = .ok ({ a with x := -1, y := -1, z := -1 }, 1)) ∧
        (inClosed p → inClosed q → inClosed r → ∃ b, lonLatElevToAddrFl (fl ri 53) f proj a lon lat elev = .ok (b, 0)) ∧
        (inHalfOpen p → inHalfOpen q → inHalfOpen r → ∃ b, lonLatElevToAddrFl (fl ri 53) f proj a lon lat elev = .ok (b, 0) ∧
          b.toKey.Octant ∧ b.level = a.level ∧ b.type = a.type ∧ b.toKey.HasPoint p q r) := by
  have hr0 : rootR elev = 1638400 - 4 * (12800 - elev) := by unfold rootR MAXELEV VERTEXAG ROOTLEN; ring
  have hpe := rootPFl_error (ri := ri) hc hs hx hy
  have hqe := rootQFl_error (ri := ri) hc hs hx hy
  have hre := rootRFl_error (ri := ri) hM he
  rw [hr0] at hre
  by_cases hin : inClosed (rootPFl (fl ri 53) f x y) ∧ inClosed (rootQFl (fl ri 53) f x y) ∧ inClosed (rootRFl (fl ri 53) elev)
  · obtain ⟨h1, h2, h3⟩ := hin
    have s1 := snap_gt_iff (ri := ri) _ h1
    have s2 := snap_gt_iff (ri := ri) _ h2
    have s3 := snap_gt_iff (ri := ri) _ h3
    refine ⟨_, _, _, hpe.1, hqe.1, hre.1, fun a ha => ⟨fun h => absurd ⟨s1, s2, s3⟩ h, fun _ _ _ => ?_, fun g1 g2 g3 => ?_⟩⟩
    · rw [toAddrFl_in hproj h1 h2 h3 a ha]
      exact ⟨_, toAddr_inside unitFrame_rigid (atRoot_seen hproj) s1 s2 s3 a ha⟩
    · rw [toAddrFl_in hproj h1 h2 h3 a ha]
      exact C01_partial unitFrame_rigid (atRoot_seen hproj) g1 g2 g3 a ha
  · have half : ∀ v : K, inHalfOpen v → inClosed v := fun v h => ⟨h.1, h.2.le⟩
    refine ⟨_, _, _, hpe.2, hqe.2, hre.2, fun a ha => ⟨fun _ => toAddrFl_out hproj hin a ha, fun g1 g2 g3 => absurd ⟨g1, g2, g3⟩ hin,
      fun g1 g2 g3 => absurd ⟨half _ g1, half _ g2, half _ g3⟩ hin⟩⟩

/-- The 3-4-5 rotation and a location below the surface. -/
example : |exFrame.cosAz| ≤ 1 ∧ |exFrame.sinAz| ≤ 1 ∧ exProj.project 220 40 = .ok (220, 40) ∧ (1638400 : ℚ) ≤ 2 ^ 21 ∧
    |220 - exFrame.xNWRoot| ≤ 2 ^ 21 ∧ |40 - exFrame.yNWRoot| ≤ 2 ^ 21 ∧ 4 * |(-100 : ℚ) - 12800| ≤ 2 ^ 21 := by
  decide +kernel

end

/-- In double precision the exact claim C01 fails away from the upper faces too: a location a little below sea level is put into the
octant above it. -/
theorem C80_false : ¬ ∀ (lon lat elev p q r : ℚ) (a : Addr), AtRootCoords exFrame exProj lon lat elev p q r →
    inHalfOpen p → inHalfOpen q → inHalfOpen r → a.level ≤ 31 →
    ∃ b : Addr, lonLatElevToAddrFl (fl IntRound.nearest 53) exFrame exProj a lon lat elev = .ok (b, 0) ∧ b.toKey.HasPoint p q r := by
  intro h
  obtain ⟨b, h1, h2⟩ := h 220 40 (-1 / 2 ^ 60) 100 200 (1587200 - 4 / 2 ^ 60) ⟨⟨0, 0, 0, 5⟩, .leaf⟩
    (by unfold AtRootCoords exFrame exProj; norm_num) (by norm_num [inHalfOpen]) (by norm_num [inHalfOpen])
    (by norm_num [inHalfOpen]) (by decide)
  have h3 : lonLatElevToAddrFl (fl IntRound.nearest 53) exFrame exProj ⟨⟨0, 0, 0, 5⟩, .leaf⟩ 220 40 (-1 / 2 ^ 60) =
      .ok (⟨⟨0, 0, 0x7C000000, 5⟩, .leaf⟩, 0) := by decide +kernel
  rw [h3] at h1
  cases h1
  have h4 := h2.2.2.1
  have e : (0x7C000000 : BitVec 32).toNat = 2080374784 := rfl
  simp only [e] at h4
  norm_num at h4

section
variable {K : Type} [Field K] [LinearOrder K] [IsStrictOrderedRing K] [FloorRing K]

/-! ### C81 -/

/-- C81: in double precision too the octants of one location at two levels are nested, and the coarse one is what `findAncestor`
computes from the fine one.  Nothing is assumed about the rotation or the size of the numbers. -/
theorem C81 (ri : IntRound K) (f : Frame K) (proj : Projector K) {lon lat elev : K}
    (fine coarse b c : Addr) (hlt : coarse.level < fine.level) (hl : fine.level ≤ 31)
    (h1 : lonLatElevToAddrFl (fl ri 53) f proj fine lon lat elev = .ok (b, 0))
    (h2 : lonLatElevToAddrFl (fl ri 53) f proj coarse lon lat elev = .ok (c, 0)) :
    findAncestor b c.level = .ok { toKey := c.toKey, type := .interior } ∧
      (b.toKey.Octant → c.toKey.Octant → c.toKey.Contains b.toKey) := by
  have key : findAncestor b c.level = .ok { toKey := c.toKey, type := .interior } ∧ b.level = fine.level ∧ c.level = coarse.level := by
    cases hproj : proj.project lon lat with
    | exc m => simp [lonLatElevToAddrFl, hproj, show fine.level < 32 by omega] at h1
    | ub => simp [lonLatElevToAddrFl, hproj, show fine.level < 32 by omega] at h1
    | ok xy =>
      obtain ⟨x, y⟩ := xy
      by_cases hin : inClosed (rootPFl (fl ri 53) f x y) ∧ inClosed (rootQFl (fl ri 53) f x y) ∧ inClosed (rootRFl (fl ri 53) elev)
      · have k1 := (geomFl_lawful (ri := ri) f proj (fun _ => .ub)).keeps _ _ _ _ _ _ h1
        have k2 := (geomFl_lawful (ri := ri) f proj (fun _ => .ub)).keeps _ _ _ _ _ _ h2
        rw [toAddrFl_in hproj hin.1 hin.2.1 hin.2.2 _ hl] at h1
        rw [toAddrFl_in hproj hin.1 hin.2.1 hin.2.2 _ (by omega)] at h2
        exact ⟨C04 unitFrame_rigid fine coarse b c hlt hl h1 h2, k1.1, k2.1⟩
      · rw [toAddrFl_out hproj hin _ hl] at h1
        cases h1
  refine ⟨key.1, fun hb hc => ?_⟩
  obtain ⟨-, -, e⟩ := findAncestor_eq' (by omega) key.1
  rw [Key.contains_iff_trunc hc hb]
  refine ⟨by omega, ?_⟩
  have := congrArg Addr.toKey e
  simpa using this.symm

example : lonLatElevToAddrFl (fl IntRound.nearest 53) exFrame exProj ⟨⟨0, 0, 0, 16⟩, .leaf⟩ 220 40 (-100 : ℚ) =
      .ok (⟨⟨0x00020000#32, 0x00040000#32, 0x7bf80000#32, 16⟩, .leaf⟩, 0) ∧
    lonLatElevToAddrFl (fl IntRound.nearest 53) exFrame exProj ⟨⟨0, 0, 0, 9⟩, .leaf⟩ 220 40 (-100 : ℚ) =
      .ok (⟨⟨0#32, 0#32, 0x7bc00000#32, 9⟩, .leaf⟩, 0) := by
  decide +kernel

/-! ### C82 -/

/-- C82: the elevations of centroids are computed in double precision without error, in every rounding direction; horizontally the
centroid is the middle of the octant up to the rounding of the rotation, at most `8 N / 2^52` metres if the root corner's coordinates
are at most `N`. -/
theorem C82 (ri : IntRound K) {f : Frame K} {proj : Projector K} {a : Addr} (ha : a.toKey.Octant) {lon lat elev : K}
    (hc : addrToLonLatElevFl (fl ri 53) f proj a = .ok (lon, lat, elev)) :
    4 * (12800 - elev) = 1638400 - axisMiddle a.z.toNat a.toKey.size ∧
    ∃ x y p q : K, proj.invProject x y = .ok (lon, lat) ∧ p = axisMiddle a.x.toNat a.toKey.size ∧
      q = axisMiddle a.y.toNat a.toKey.size ∧
      ∀ N : K, |f.cosAz| ≤ 1 → |f.sinAz| ≤ 1 → 1638400 ≤ N → |f.xNWRoot| ≤ N → |f.yNWRoot| ≤ N →
        |x - (f.xNWRoot + (p * f.cosAz + q * f.sinAz))| ≤ 8 * N / 2 ^ 52 ∧
        |y - (f.yNWRoot + (q * f.cosAz - p * f.sinAz))| ≤ 8 * N / 2 ^ 52 := by
  have hl := ha.level_le
  unfold addrToLonLatElevFl at hc
  rw [if_pos (by omega)] at hc
  dsimp only at hc
  rw [centroidCoordFl_eq _ hl, centroidCoordFl_eq _ hl, centroidCoordFl_eq _ hl, elevOfRootFl_eq _ hl] at hc
  have rng : ∀ t : BitVec 32, t.toNat < 2 ^ 31 → 2 ^ (31 - a.level) ∣ t.toNat → |(centroidCoord t a.level : K)| ≤ 1638400 := by
    intro t h1 h2
    obtain ⟨g1, g2⟩ := centroid_range (K := K) hl h1 h2
    rw [abs_of_nonneg g1]; exact g2.le
  have hpr := rng _ ha.x_lt ha.x_dvd
  have hqr := rng _ ha.y_lt ha.y_dvd
  rw [centroidCoord_middle _ hl] at hc hpr
  rw [centroidCoord_middle _ hl] at hc hqr
  rw [centroidCoord_middle _ hl] at hc
  have hsz : 2 ^ (31 - a.level) = a.toKey.size := rfl
  rw [hsz] at hc hpr hqr
  generalize (axisMiddle a.x.toNat a.toKey.size : K) = p at *
  generalize (axisMiddle a.y.toNat a.toKey.size : K) = q at *
  generalize (axisMiddle a.z.toNat a.toKey.size : K) = r at *
  cases hi : proj.invProject (projXFl (fl ri 53) f p q) (projYFl (fl ri 53) f p q) with
  | exc m => simp [hi] at hc
  | ub => simp [hi] at hc
  | ok ll =>
    obtain ⟨lo, la⟩ := ll
    rw [hi] at hc
    simp only [Outcome.ok.injEq, Prod.mk.injEq] at hc
    obtain ⟨rfl, rfl, rfl⟩ := hc
    refine ⟨by unfold elevOfRoot ROOTLEN VERTEXAG MAXELEV; ring, _, _, p, q, hi, rfl, rfl, ?_⟩
    intro N hc hs hN hX hY
    constructor
    · have ha := abs_mul_le_of_le_one hpr hc
      exact proj_error hN hX ha (abs_mul_le_of_le_one hqr hs) (error_le (ha.trans hN))
    · have ha := abs_mul_le_of_le_one hpr hs
      have h := proj_error (ri := ri) (X := f.yNWRoot) (a := -(p * f.sinAz)) (a' := -fl ri 53 (p * f.sinAz)) hN hY
        (by rw [abs_neg]; exact ha) (abs_mul_le_of_le_one hqr hc)
        (by rw [neg_sub_neg, abs_sub_comm]; exact error_le (ha.trans hN))
      rw [← sub_eq_add_neg] at h
      rw [show q * f.cosAz - p * f.sinAz = -(p * f.sinAz) + q * f.cosAz by ring]
      exact h

example : Key.Octant ⟨0x10000000, 0, 0x7C000000, 5⟩ ∧
    addrToLonLatElevFl (fl IntRound.nearest 53) exFrame exProj ⟨⟨0x10000000, 0, 0x7C000000, 5⟩, .leaf⟩ =
      .ok (158720, -168960, 6400) := by
  refine ⟨by decide, by decide +kernel⟩

/-- C82: the octant sizes are exact. -/
theorem C82_edge (ri : IntRound K) (l : Nat) : edgeLenFl (fl ri 53) l = (1638400 / 2 ^ l : K) := edgeLenFl_eq l

/-! ### C83 -/

/-- C83: in double precision the centroid of an octant converts back to the octant if the projection undoes its inverse up to `δ`
metres and the sum of all errors stays below half an edge of the octant: twice `δ`, the error `η` of the squared length of the rotated
axes times the size of the cube, and `52 N / 2^52` for the rounding, where `N` bounds the coordinates of the root corner. -/
theorem C83 (ri : IntRound K) {f : Frame K} (hc : |f.cosAz| ≤ 1) (hs : |f.sinAz| ≤ 1) {η N δ : K}
    (hη : |f.cosAz ^ 2 + f.sinAz ^ 2 - 1| ≤ η) (hN : 1638400 ≤ N) (hX : |f.xNWRoot| ≤ N) (hY : |f.yNWRoot| ≤ N)
    {proj : Projector K} {a : Addr} (ha : a.toKey.Octant) {lon lat elev : K}
    (hcen : addrToLonLatElevFl (fl ri 53) f proj a = .ok (lon, lat, elev))
    (hproj : ∀ x y, proj.invProject x y = .ok (lon, lat) →
      ∃ x' y', proj.project lon lat = .ok (x', y') ∧ |x' - x| ≤ δ ∧ |y' - y| ≤ δ)
    (hsmall : 2 * δ + 1638400 * η + 52 * N / 2 ^ 52 < 1638400 / 2 ^ (a.level + 1))
    (b : Addr) (hb : b.level = a.level) :
    lonLatElevToAddrFl (fl ri 53) f proj b lon lat elev = .ok ({ toKey := a.toKey, type := b.type }, 0) := by
  have hl := ha.level_le
  have hsz : a.toKey.size = 2 ^ (31 - a.level) := rfl
  obtain ⟨he, x, y, p, q, hi, hp, hq, hxy⟩ := C82 ri ha hcen
  obtain ⟨hx, hy⟩ := hxy N hc hs hN hX hY
  obtain ⟨x', y', hpr, hx', hy'⟩ := hproj _ _ hi
  rw [hsz] at hp hq he
  have rng : ∀ t : BitVec 32, t.toNat < 2 ^ 31 → 2 ^ (31 - a.level) ∣ t.toNat →
      0 ≤ (axisMiddle t.toNat (2 ^ (31 - a.level)) : K) ∧ (axisMiddle t.toNat (2 ^ (31 - a.level)) : K) < 1638400 := by
    intro t h1 h2
    rw [← centroidCoord_middle _ hl]
    exact centroid_range (K := K) hl h1 h2
  have hpr0 := rng _ ha.x_lt ha.x_dvd
  have hqr0 := rng _ ha.y_lt ha.y_dvd
  have hrr0 := rng _ ha.z_lt ha.z_dvd
  rw [← hp] at hpr0; rw [← hq] at hqr0
  have hη0 : 0 ≤ η := (abs_nonneg _).trans hη
  have hδ0 : 0 ≤ δ := (abs_nonneg _).trans hx'
  have hN0 : 0 ≤ N := le_trans (by norm_num) hN
  have hhalf : (1638400 / 2 ^ (a.level + 1) : K) ≤ 1638400 / 2 := by
    refine div_le_div_of_nonneg_left (by norm_num) (by norm_num) ?_
    calc (2 : K) = 2 ^ 1 := (pow_one 2).symm
      _ ≤ 2 ^ (a.level + 1) := pow_le_pow_right₀ (by norm_num) (by omega)
  have habs : ∀ v : K, 0 ≤ v ∧ v < 1638400 → |v| ≤ 1638400 := fun v h => by rw [abs_of_nonneg h.1]; exact h.2.le
  -- the error of the projected coordinates
  have tri : ∀ u v w d1 d2 : K, |u - v| ≤ d1 → |v - w| ≤ d2 → |u - w| ≤ d1 + d2 := by
    intro u v w d1 d2 h1 h2
    have := abs_add_le (u - v) (v - w)
    rw [sub_add_sub_cancel] at this
    linarith
  have ex := tri _ _ _ _ _ hx' hx
  have ey := tri _ _ _ _ _ hy' hy
  set dx := x' - (f.xNWRoot + (p * f.cosAz + q * f.sinAz)) with hdx
  set dy := y' - (f.yNWRoot + (q * f.cosAz - p * f.sinAz)) with hdy
  have bpc := abs_mul_le_of_le_one (habs p hpr0) hc
  have bps := abs_mul_le_of_le_one (habs p hpr0) hs
  have bqc := abs_mul_le_of_le_one (habs q hqr0) hc
  have bqs := abs_mul_le_of_le_one (habs q hqr0) hs
  have hu : (8 : K) * N / 2 ^ 52 ≤ N := by norm_num; linarith
  have hMx : |x' - f.xNWRoot| ≤ 4 * N := by
    have h1 : x' - f.xNWRoot = dx + (p * f.cosAz + q * f.sinAz) := by rw [hdx]; ring
    rw [h1]
    refine (abs_add_le _ _).trans ?_
    have h2 := abs_add_le (p * f.cosAz) (q * f.sinAz)
    have h3 : (0 : K) ≤ 52 * N / 2 ^ 52 := by positivity
    linarith
  have hMy : |y' - f.yNWRoot| ≤ 4 * N := by
    have h1 : y' - f.yNWRoot = dy + (q * f.cosAz - p * f.sinAz) := by rw [hdy]; ring
    rw [h1]
    refine (abs_add_le _ _).trans ?_
    have h2 := abs_sub (q * f.cosAz) (p * f.sinAz)
    have h3 : (0 : K) ≤ 52 * N / 2 ^ 52 := by positivity
    linarith
  have hel : 4 * |elev - 12800| ≤ 4 * N := by
    have h1 : elev - 12800 = -((1638400 - axisMiddle a.z.toNat (2 ^ (31 - a.level))) / 4) := by linarith
    rw [h1, abs_neg, abs_of_nonneg (by linarith)]
    linarith
  obtain ⟨p', q', r', e1, e2, e3, hall⟩ := C80 ri hc hs hpr (by linarith : (1638400 : K) ≤ 4 * N) hMx hMy hel
  have near : ∀ u v w g : K, |u - v| ≤ 9 * (4 * N) / 2 ^ 52 → |w| ≤ 1638400 → v - w = w * (f.cosAz ^ 2 + f.sinAz ^ 2 - 1) + g →
      |g| ≤ 2 * (δ + 8 * N / 2 ^ 52) → |u - w| < 1638400 / 2 ^ (a.level + 1) := by
    intro u v w g h1 h2 h3 h4
    have h5 : |v - w| ≤ 1638400 * η + 2 * (δ + 8 * N / 2 ^ 52) := by
      rw [h3]
      refine (abs_add_le _ _).trans (add_le_add ?_ h4)
      rw [abs_mul]
      exact mul_le_mul h2 hη (abs_nonneg _) (by norm_num)
    have h6 := tri _ _ _ _ _ h1 h5
    refine lt_of_le_of_lt h6 (lt_of_le_of_lt (le_of_eq ?_) hsmall)
    ring
  have g1 : |dx * f.cosAz - dy * f.sinAz| ≤ 2 * (δ + 8 * N / 2 ^ 52) := by
    refine (abs_sub _ _).trans ?_
    have h1 := abs_mul_le_of_le_one ex hc
    have h2 := abs_mul_le_of_le_one ey hs
    linarith
  have g2 : |dx * f.sinAz + dy * f.cosAz| ≤ 2 * (δ + 8 * N / 2 ^ 52) := by
    refine (abs_add_le _ _).trans ?_
    have h1 := abs_mul_le_of_le_one ex hs
    have h2 := abs_mul_le_of_le_one ey hc
    linarith
  have n1 := near p' _ p _ e1 (habs p hpr0) (by rw [hdx, hdy]; ring) g1
  have n2 := near q' _ q _ e2 (habs q hqr0) (by rw [hdx, hdy]; ring) g2
  have n3 : |r' - axisMiddle a.z.toNat (2 ^ (31 - a.level))| < 1638400 / 2 ^ (a.level + 1) := by
    rw [show (1638400 : K) - 4 * (12800 - elev) = axisMiddle a.z.toNat (2 ^ (31 - a.level)) by linarith] at e3
    refine lt_of_le_of_lt e3 (lt_of_le_of_lt ?_ hsmall)
    have : (0 : K) ≤ 16 * N / 2 ^ 52 := by positivity
    have h9 : 9 * (4 * N) / 2 ^ 52 + 16 * N / 2 ^ 52 = 52 * N / 2 ^ 52 := by ring
    linarith
  rw [hp] at n1; rw [hq] at n2
  have a1 := axisHas_near hl n1
  have a2 := axisHas_near hl n2
  have a3 := axisHas_near hl n3
  have o1 := inHalfOpen_of_axisHas hl ha.x_lt ha.x_dvd a1
  have o2 := inHalfOpen_of_axisHas hl ha.y_lt ha.y_dvd a2
  have o3 := inHalfOpen_of_axisHas hl ha.z_lt ha.z_dvd a3
  obtain ⟨c, hc1, hc2, hc3, hc4, hc5⟩ := (hall b (by omega)).2.2 o1 o2 o3
  rw [hc1]
  have hk : c.toKey = a.toKey := octant_unique hc2 ha (by rw [← hb]; exact hc3) hc5 ⟨a1, a2, a3⟩ o1 o2 o3
  obtain ⟨ck, ct⟩ := c
  simp only at hk hc4
  rw [hk, hc4]

/-- C83 with numbers: corner coordinates up to 8000 km, a projection accurate to a tenth of a millimetre and a rotation by `double`
sine and cosine are good enough for all levels of the tree. -/
theorem C83_all_levels (ri : IntRound K) {f : Frame K} (hc : |f.cosAz| ≤ 1) (hs : |f.sinAz| ≤ 1)
    (hη : |f.cosAz ^ 2 + f.sinAz ^ 2 - 1| ≤ 1 / 2 ^ 50) (hX : |f.xNWRoot| ≤ 8000000) (hY : |f.yNWRoot| ≤ 8000000)
    {proj : Projector K} {a : Addr} (ha : a.toKey.Octant) {lon lat elev : K}
    (hcen : addrToLonLatElevFl (fl ri 53) f proj a = .ok (lon, lat, elev))
    (hproj : ∀ x y, proj.invProject x y = .ok (lon, lat) →
      ∃ x' y', proj.project lon lat = .ok (x', y') ∧ |x' - x| ≤ 1 / 10000 ∧ |y' - y| ≤ 1 / 10000)
    (b : Addr) (hb : b.level = a.level) :
    lonLatElevToAddrFl (fl ri 53) f proj b lon lat elev = .ok ({ toKey := a.toKey, type := b.type }, 0) := by
  refine C83 ri hc hs hη (by norm_num : (1638400 : K) ≤ 8000000) hX hY ha hcen hproj ?_ b hb
  have h : (1638400 / 2 ^ 32 : K) ≤ 1638400 / 2 ^ (a.level + 1) := by
    refine div_le_div_of_nonneg_left (by norm_num) (by positivity) ?_
    exact pow_le_pow_right₀ (by norm_num) (by have := ha.level_le; omega)
  refine lt_of_lt_of_le ?_ h
  norm_num

end

/-- The frame of the model with the numbers of type `double` that a program gets for the cosine and sine of 53.638 degrees and for the
corner (libsrc/cencalvm/storage/GeomCenCA.cc:32-49,86). -/
def dblFrame : Frame ℚ where
  cosAz := 5340232702778215 / 2 ^ 53
  sinAz := 1813345545786585 / 2 ^ 51
  xNWRoot := -8292831107331551 / 2 ^ 34
  yNWRoot := 2528056076738085 / 2 ^ 32

/-- A projection that moves locations by 1/20000 m when converting forth and back. -/
def exProjNoisy : Projector ℚ := { project := fun a b => .ok (a + 1 / 20000, b - 1 / 20000), invProject := fun a b => .ok (a, b) }

example : |dblFrame.cosAz| ≤ 1 ∧ |dblFrame.sinAz| ≤ 1 ∧ |dblFrame.cosAz ^ 2 + dblFrame.sinAz ^ 2 - 1| ≤ 1 / 2 ^ 50 ∧
    |dblFrame.xNWRoot| ≤ 8000000 ∧ |dblFrame.yNWRoot| ≤ 8000000 ∧ Key.Octant ⟨0x12345678, 0x23456789, 0x7BFFFFFF, 31⟩ ∧
    (∃ c, addrToLonLatElevFl (fl IntRound.nearest 53) dblFrame exProjNoisy ⟨⟨0x12345678, 0x23456789, 0x7BFFFFFF, 31⟩, .leaf⟩ = .ok c) ∧
    ∀ lon lat x y : ℚ, exProjNoisy.invProject x y = .ok (lon, lat) →
      ∃ x' y', exProjNoisy.project lon lat = .ok (x', y') ∧ |x' - x| ≤ 1 / 10000 ∧ |y' - y| ≤ 1 / 10000 := by
  refine ⟨by decide +kernel, by decide +kernel, by decide +kernel, by decide +kernel, by decide +kernel, by decide, ⟨_, rfl⟩, ?_⟩
  intro lon lat x y h
  simp only [exProjNoisy, Outcome.ok.injEq, Prod.mk.injEq] at h
  obtain ⟨rfl, rfl⟩ := h
  refine ⟨_, _, rfl, ?_, ?_⟩
  · rw [add_sub_cancel_left]; norm_num
  · rw [sub_sub_cancel_left]; norm_num

/-! ### C84 -/

section
variable {K : Type} [Field K] [LinearOrder K] [IsStrictOrderedRing K] [FloorRing K]

/-- C84: data inserted at a location of the model are what the MAXRES query returns at the same location, both computing in double
precision.  The level function and the projection are arbitrary; the location must get an octant of the tree. -/
theorem C84 (ri : IntRound K) {env : EtreeEnv} (he : env.Reliable) {fr : Frame K} {proj : Projector K} {lv : K → Outcome Int} {n : Nat}
    (hn : n ≤ 31) {res : K} (hlv : lv res = .ok (n : Int)) {d : Datum K} {b : Addr}
    (hb : lonLatElevToAddrFl (fl ri 53) fr proj ⟨⟨0, 0, 0, n⟩, .leaf⟩ d.lon d.lat d.elev = .ok (b, 0)) (hbo : b.toKey.Octant)
    {c : Creator K} {name : String} {f : EtreeFile K} (hc : c.pDB = some (name, f)) (hg : f.db.Good)
    (hfl : ∀ x ∈ f.db.entries, x.addr.level ≤ n) (hnew : ∀ x ∈ f.db.entries, x.addr.toKey ≠ b.toKey) :
    ∃ c' f', insertAll env (geomFl (fl ri 53) fr proj lv) res [d] c = .ok c' () ∧ c'.pDB = some (name, f') ∧
      ∀ {fmt : Fmt K} {q : VMQuery K}, q.Open (geomFl (fl ri 53) fr proj lv) f'.db → q.queryFn = .MAXRES →
      NotSquashed q d.elev → (d.payload.faultBlock ≠ 0 ∨ q.dbExt = none) → PayloadOf fmt q d.lon d.lat d.elev d.payload := by
  have hlaw := geomFl_lawful (ri := ri) fr proj lv
  obtain ⟨c', f', h1, h2, h3, h4, h5⟩ := C36 he hlaw (n := n) hlv (data := [d])
    (es := [⟨b, d.payload⟩]) (.cons ⟨hb, hbo, rfl⟩ .nil) hc hg hfl (by simp) (by
      intro e hx x hxx hk
      simp at hx; subst hx
      exact hnew x hxx hk)
  refine ⟨c', f', h1, h2, fun {fmt q} hq hfn hsq hfb => ?_⟩
  -- the cell of the finest level
  have hex : ∃ a : Addr, lonLatElevToAddrFl (fl ri 53) fr proj ⟨⟨0, 0, 0, 31⟩, .leaf⟩ d.lon d.lat d.elev = .ok (a, 0) ∧
      a.toKey.Octant := by
    cases hproj : proj.project d.lon d.lat with
    | exc m => simp [lonLatElevToAddrFl, hproj, show n < 32 by omega] at hb
    | ub => simp [lonLatElevToAddrFl, hproj, show n < 32 by omega] at hb
    | ok xy =>
      obtain ⟨x, y⟩ := xy
      by_cases hin : inClosed (rootPFl (fl ri 53) fr x y) ∧ inClosed (rootQFl (fl ri 53) fr x y) ∧
          inClosed (rootRFl (fl ri 53) d.elev)
      · obtain ⟨i1, i2, i3⟩ := hin
        have s1 := snap_gt_iff (ri := ri) _ i1
        have s2 := snap_gt_iff (ri := ri) _ i2
        have s3 := snap_gt_iff (ri := ri) _ i3
        rw [toAddrFl_in hproj i1 i2 i3 _ hn] at hb
        rw [toAddrFl_in hproj i1 i2 i3 _ (le_refl 31)]
        have hat := atRoot_seen (ri := ri) (f := fr) (elev := d.elev) hproj
        have hnf : ∀ {p q r : K}, p = snap (fl ri 53) (rootPFl (fl ri 53) fr x y) → q = snap (fl ri 53) (rootQFl (fl ri 53) fr x y) →
            r = snap (fl ri 53) (rootRFl (fl ri 53) d.elev) → ¬ (p = 1638400 ∨ q = 1638400 ∨ r = 1638400) := by
          rintro p q r rfl rfl rfl hface
          obtain ⟨b', hb1, hb2⟩ := C01_upper_face unitFrame_rigid hat s1 s2 s3 hface ⟨⟨0, 0, 0, n⟩, .leaf⟩ hn
          rw [hb1] at hb
          cases hb
          exact hb2 hbo
        have hnf' := hnf rfl rfl rfl
        simp only [not_or] at hnf'
        obtain ⟨a, ha1, ha2, -⟩ := C01_partial unitFrame_rigid hat ⟨s1.1, lt_of_le_of_ne s1.2 hnf'.1⟩
          ⟨s2.1, lt_of_le_of_ne s2.2 hnf'.2.1⟩ ⟨s3.1, lt_of_le_of_ne s3.2 hnf'.2.2⟩ ⟨⟨0, 0, 0, 31⟩, .leaf⟩ (le_refl 31)
        exact ⟨a, ha1, ha2⟩
      · rw [toAddrFl_out hproj hin _ hn] at hb
        cases hb
  obtain ⟨a, ha, hao⟩ := hex
  have hcont : b.toKey.Contains a.toKey := by
    rcases Nat.lt_or_ge n 31 with hlt | hge
    · exact (C81 ri fr proj ⟨⟨0, 0, 0, 31⟩, .leaf⟩ ⟨⟨0, 0, 0, n⟩, .leaf⟩ a b hlt (le_refl 31) ha hb).2 hao hbo
    · have : n = 31 := by omega
      subst this
      rw [ha] at hb
      cases hb
      exact Key.contains_refl
  exact h5 hq hfn hsq (a := a) ha ⟨b, d.payload⟩ (by simp) hcont hfb

end

/-- Data for a location half a kilometre below sea level, into an empty database, with the frame in double precision. -/
example : lonLatElevToAddrFl (fl IntRound.nearest 53) dblFrame exProj ⟨⟨0, 0, 0, 13⟩, .leaf⟩ 20000 30000 (-500 : ℚ) =
      .ok (⟨⟨0x3a6c0000#32, 0x05c00000#32, 0x7bd80000#32, 13⟩, .leaf⟩, 0) ∧
    Key.Octant ⟨0x3a6c0000#32, 0x05c00000#32, 0x7bd80000#32, 13⟩ ∧ exEtree.Reliable ∧
    exCreator.pDB = some ("t", ⟨Db.empty, some SCHEMA, some "m"⟩) ∧ ((Db.empty : Db ℚ)).Good :=
  ⟨by decide +kernel, by decide +kernel, exEtree_reliable, rfl, ⟨by simp [Db.empty, Db.Octants], by simp [Db.empty, Db.Sorted]⟩⟩

/-! ### C85 -/

/-- C85: computed in double precision with a logarithm that has a relative error of at most `2^-20`, the level of a resolution `res` is
`n` whenever the exact base-2 logarithm of the root edge divided by `res` is within 0.49 of `n`. -/
theorem C85 (ri : IntRound ℝ) {lg : ℝ → ℝ} (hlg : ∀ v, 0 < v → |lg v - Real.log v| ≤ |Real.log v| / 2 ^ 20) {res : ℝ} (hres : 0 < res)
    {n : Nat} (hn : n ≤ 31) (hnear : |Real.logb 2 (1638400 / res) - n| ≤ 0.49) : levelFl (fl ri 53) lg res = .ok n := by
  have hL : 0 < Real.log 2 := Real.log_pos (by norm_num)
  have hx : (0 : ℝ) < 1638400 / res := by positivity
  set x : ℝ := 1638400 / res with hxd
  set L := Real.log 2 with hLd
  -- exact quotient
  set q : ℝ := Real.logb 2 x with hq
  have hqL : Real.log x = q * L := by rw [hq, Real.logb, div_mul_cancel₀ _ hL.ne']
  have hn31 : (n : ℝ) ≤ 31 := by exact_mod_cast hn
  have hn0 : (0 : ℝ) ≤ n := by positivity
  rw [abs_le] at hnear
  have hL2 : (1 / 2 : ℝ) ≤ L := by have := Real.one_sub_inv_le_log_of_pos (x := 2) (by norm_num); norm_num at this; linarith
  -- the rounded argument
  have hv : 0 < fl ri 53 x := fl_pos (by norm_num) hx
  set v := fl ri 53 x with hvd
  have hve := error_le (ri := ri) (le_refl |x|)
  rw [← hvd, abs_of_pos hx, abs_le] at hve
  have hlog : |Real.log v - Real.log x| ≤ 1 / 2 ^ 51 := by
    rw [← Real.log_div hv.ne' hx.ne', abs_le]
    constructor
    · have h1 := Real.one_sub_inv_le_log_of_pos (div_pos hv hx)
      refine le_trans ?_ h1
      rw [inv_div, neg_le_sub_iff_le_add, div_le_iff₀ hv]
      norm_num at hve ⊢
      linarith [hve.1]
    · have h1 := Real.log_le_sub_one_of_pos (div_pos hv hx)
      refine h1.trans ?_
      rw [sub_le_iff_le_add, div_le_iff₀ hx]
      norm_num at hve ⊢
      linarith [hve.2]
  have hlv := hlg v hv
  have hl2 := hlg 2 (by norm_num)
  rw [← hLd, abs_of_pos hL] at hl2
  rw [hqL] at hlog
  rw [abs_le] at hlog hl2
  have hlvb : |Real.log v| ≤ 33 * L := by
    rw [abs_le]
    norm_num at hlog hnear
    constructor <;> nlinarith
  have hnum : |lg v - q * L| ≤ L / 2 ^ 14 := by
    have h1 := hlv.trans (div_le_div_of_nonneg_right hlvb (by positivity))
    rw [abs_le] at h1 ⊢
    norm_num at h1 hlog ⊢
    constructor <;> linarith [h1.1, h1.2, hlog.1, hlog.2]
  have hden : 0 < lg 2 := by norm_num at hl2; linarith [hl2.1]
  have hquo : |lg v / lg 2 - q| ≤ 1 / 2 ^ 12 := by
    rw [abs_le] at hnum
    have hq1 : |q| ≤ 32 := by rw [abs_le]; constructor <;> linarith
    have h2 : |q * (lg 2 - L)| ≤ 32 * (L / 2 ^ 20) := by
      rw [abs_mul]
      exact mul_le_mul hq1 (abs_le.2 hl2) (abs_nonneg _) (by norm_num)
    rw [abs_le] at h2
    have e : lg v / lg 2 - q = (lg v - q * lg 2) / lg 2 := by field_simp
    rw [e, abs_div, abs_of_pos hden, div_le_iff₀ hden, abs_le]
    norm_num at hnum h2 hl2 ⊢
    constructor <;> linarith [h2.1, h2.2, hnum.1, hnum.2, hl2.1]
  set t := lg v / lg 2 with ht
  rw [abs_le] at hquo
  have htb : |t| ≤ 33 := by
    norm_num at hquo
    rw [abs_le]; constructor <;> linarith [hquo.1, hquo.2]
  have e1 := error_le (ri := ri) htb
  rw [abs_le] at e1
  have hsb : |0.5 + fl ri 53 t| ≤ 34 := by
    rw [abs_le] at htb ⊢
    norm_num at e1 ⊢
    constructor <;> linarith [e1.1, e1.2]
  have e2 := error_le (ri := ri) hsb
  rw [abs_le] at e2
  norm_num at e1 e2 hquo hnear
  unfold levelFl
  rw [if_neg (not_le.2 hres)]
  have hR : (ROOTLEN / res : ℝ) = x := rfl
  rw [hR, ← hvd, ← ht]
  norm_num
  have hfl : ⌊fl ri 53 (1 / 2 + fl ri 53 t)⌋ = (n : ℤ) := by
    rw [Int.floor_eq_iff]
    push_cast
    constructor <;> linarith
  unfold intOf
  have hpos : (0 : ℝ) ≤ fl ri 53 (1 / 2 + fl ri 53 t) := by linarith
  dsimp only
  rw [if_pos hpos, hfl, if_pos]
  constructor <;> omega

/-- C85: the edge length of a level gives that level. -/
theorem C85_edge (ri : IntRound ℝ) {lg : ℝ → ℝ} (hlg : ∀ v, 0 < v → |lg v - Real.log v| ≤ |Real.log v| / 2 ^ 20) {n : Nat} (hn : n ≤ 31) :
    levelFl (fl ri 53) lg (edgeLenFl (fl ri 53) n) = .ok n := by
  rw [C82_edge]
  have h2n : (0 : ℝ) < 2 ^ n := by positivity
  refine C85 ri hlg (by positivity) hn ?_
  rw [show (1638400 : ℝ) / (1638400 / 2 ^ n) = 2 ^ n by field_simp, Real.logb_pow, Real.logb_self_eq_one (by norm_num)]
  norm_num

/-- The exact logarithm. -/
example : ∀ v, 0 < v → |Real.log v - Real.log v| ≤ |Real.log v| / 2 ^ 20 := by
  intro v _
  rw [sub_self, abs_zero]
  positivity

end CenCalVM
