/-
Properties C01-C07: the geometry of the model.
-/
import Verif.Lemmas.Geometry
import Mathlib.Analysis.SpecialFunctions.Log.Base

set_option linter.unusedSectionVars false

namespace CenCalVM
open GeomCenCA

/-! ### Concrete data for the examples: a 3-4-5 rotation, the identity projection -/

/-- A rational rotation. -/
def exFrame : Frame ℚ := { cosAz := 3 / 5, sinAz := 4 / 5, xNWRoot := 0, yNWRoot := 0 }
/-- The identity projection. -/
def exProj : Projector ℚ := { project := fun a b => .ok (a, b), invProject := fun a b => .ok (a, b) }
/-- A projection that fails for latitudes above 90. -/
def exProjPartial : Projector ℚ :=
  { project := fun a b => if b > 90 then .exc "proj" else .ok (a, b), invProject := fun a b => .ok (a, b) }

theorem exFrame_rigid : exFrame.Rigid := by norm_num [Frame.Rigid, exFrame]

theorem ex_at : AtRootCoords exFrame exProj 220 40 (-100) 100 200 1586800 := by
  unfold AtRootCoords exFrame exProj; norm_num

section
variable {K : Type} [Field K] [LinearOrder K] [IsStrictOrderedRing K] [FloorRing K]

/-! ### C01 -/

/-- C01, for locations not on an upper face of the root cube: the conversion succeeds and the octant returned
is an octant of the tree at the requested level that contains the location; level and type are kept.
Missing part: locations on the three upper faces, for which the claim is false (`C01_false`). -/
theorem C01_partial {f : Frame K} (hf : f.Rigid) {proj : Projector K} {lon lat elev p q r : K}
    (hloc : AtRootCoords f proj lon lat elev p q r)
    (hp : inHalfOpen p) (hq : inHalfOpen q) (hr : inHalfOpen r)
    (a : Addr) (ha : a.level ≤ 31) :
    ∃ b : Addr, (GeomCenCA.lonLatElevToAddr f proj a lon lat elev) = .ok (b, 0) ∧
      b.toKey.Octant ∧ b.level = a.level ∧ b.type = a.type ∧ b.toKey.HasPoint p q r := by
  refine ⟨_, toAddr_inside hf hloc ⟨hp.1, hp.2.le⟩ ⟨hq.1, hq.2.le⟩ ⟨hr.1, hr.2.le⟩ a ha, ?_, rfl, rfl, ?_⟩
  · exact ⟨ha, tick_lt hp.1 hp.2 ha, tick_lt hq.1 hq.2 ha, tick_lt hr.1 hr.2 ha,
      tick_dvd hp.2.le ha, tick_dvd hq.2.le ha, tick_dvd hr.2.le ha⟩
  · exact ⟨axisHas_tick hp.1 hp.2.le ha, axisHas_tick hq.1 hq.2.le ha, axisHas_tick hr.1 hr.2.le ha⟩

example : AtRootCoords exFrame exProj 220 40 (-100) 100 200 1586800 ∧ inHalfOpen (100 : ℚ) ∧
    inHalfOpen (200 : ℚ) ∧ inHalfOpen (1586800 : ℚ) :=
  ⟨ex_at, by norm_num [inHalfOpen], by norm_num [inHalfOpen], by norm_num [inHalfOpen]⟩

/-- The octant of a level containing a point is unique, so `C01_partial` determines the result. -/
theorem C01_unique_partial {f : Frame K} (hf : f.Rigid) {proj : Projector K} {lon lat elev p q r : K}
    (hloc : AtRootCoords f proj lon lat elev p q r)
    (hp : inHalfOpen p) (hq : inHalfOpen q) (hr : inHalfOpen r)
    (k : Key) (hk : k.Octant) (hhas : k.HasPoint p q r) (ty : OctType) (x y z : BitVec 32) :
    GeomCenCA.lonLatElevToAddr f proj { x := x, y := y, z := z, level := k.level, type := ty } lon lat elev =
      .ok ({ toKey := k, type := ty }, 0) := by
  rw [toAddr_inside hf hloc ⟨hp.1, hp.2.le⟩ ⟨hq.1, hq.2.le⟩ ⟨hr.1, hr.2.le⟩ _ hk.level_le]
  obtain ⟨hx, hy, hz⟩ := hhas
  simp only [Outcome.ok.injEq, Prod.mk.injEq, and_true]
  rw [tick_unique hp.1 hp.2.le hk.level_le hk.x_dvd hx, tick_unique hq.1 hq.2.le hk.level_le hk.y_dvd hy,
    tick_unique hr.1 hr.2.le hk.level_le hk.z_dvd hz]

example : Key.Octant ⟨0, 0, 0x7C000000, 5⟩ ∧ Key.HasPoint ⟨0, 0, 0x7C000000, 5⟩ (100 : ℚ) 200 1607200 := by
  refine ⟨by decide, ?_⟩
  have h : (0x7C000000 : BitVec 32).toNat = 2080374784 := rfl
  simp only [Key.HasPoint, axisHas, Key.size, h]
  norm_num

/-- On an upper face the tick equals the edge of the root cube, so the address is not an octant of the tree,
for every location there and every level, although success is reported. -/
theorem C01_upper_face {f : Frame K} (hf : f.Rigid) {proj : Projector K} {lon lat elev p q r : K}
    (hloc : AtRootCoords f proj lon lat elev p q r) (hp : inClosed p) (hq : inClosed q) (hr : inClosed r)
    (hface : p = 1638400 ∨ q = 1638400 ∨ r = 1638400) (a : Addr) (ha : a.level ≤ 31) :
    ∃ b : Addr, GeomCenCA.lonLatElevToAddr f proj a lon lat elev = .ok (b, 0) ∧ ¬ b.toKey.Octant := by
  refine ⟨_, toAddr_inside hf hloc hp hq hr a ha, ?_⟩
  have key : (tick (1638400 : K) a.level).toNat = 2 ^ 31 := by
    rw [tick_toNat le_rfl ha]
    have h3 : (2 : K) ^ a.level ≠ 0 := by positivity
    have h1 : (1638400 : K) / edgeLen a.level = ((2 ^ a.level : Nat) : K) := by
      unfold edgeLen ROOTLEN; push_cast; field_simp
    rw [h1, Nat.floor_natCast, ← Nat.pow_add]; congr 1; omega
  intro ho
  rcases hface with h | h | h
  · have := ho.x_lt; simp only [h, key] at this; omega
  · have := ho.y_lt; simp only [h, key] at this; omega
  · have := ho.z_lt; simp only [h, key] at this; omega

example : AtRootCoords exFrame exProj 220 40 12800 100 200 1638400 ∧ inClosed (1638400 : ℚ) :=
  ⟨by unfold AtRootCoords exFrame exProj; norm_num, by norm_num [inClosed]⟩

/-- C01 as stated is false: at the top elevation of the model the returned address is outside the tree. -/
theorem C01_false : ¬ ∀ (lon lat elev p q r : ℚ) (a : Addr), AtRootCoords exFrame exProj lon lat elev p q r →
    inClosed p → inClosed q → inClosed r → a.level ≤ 31 →
    ∃ b : Addr, GeomCenCA.lonLatElevToAddr exFrame exProj a lon lat elev = .ok (b, 0) ∧
      b.toKey.Octant ∧ b.toKey.HasPoint p q r := by
  intro h
  have hloc : AtRootCoords exFrame exProj 220 40 12800 100 200 1638400 := by
    unfold AtRootCoords exFrame exProj; norm_num
  have hc : inClosed (100 : ℚ) ∧ inClosed (200 : ℚ) ∧ inClosed (1638400 : ℚ) := by norm_num [inClosed]
  obtain ⟨b, h1, h2, _⟩ := h 220 40 12800 100 200 1638400 ⟨⟨0, 0, 0, 5⟩, .leaf⟩ hloc hc.1 hc.2.1 hc.2.2
    (by decide)
  obtain ⟨b', h1', h2'⟩ := C01_upper_face exFrame_rigid hloc hc.1 hc.2.1 hc.2.2 (Or.inr (Or.inr rfl))
    ⟨⟨0, 0, 0, 5⟩, .leaf⟩ (by decide)
  rw [h1'] at h1; cases h1; exact h2' h2

/-! ### C02 -/

/-- C02: when the projection succeeds, the conversion returns normally; it reports failure (return code 1)
exactly when the location is outside the closed root cube; then the address is the all-ones sentinel, which is
no octant of the tree, with level and type unchanged; otherwise the code is 0. -/
theorem C02 {f : Frame K} (hf : f.Rigid) {proj : Projector K} (lon lat elev : K) (xy : K × K)
    (hproj : proj.project lon lat = .ok xy) (a : Addr) (ha : a.level ≤ 31) :
    ∃ (b : Addr) (code : Int), GeomCenCA.lonLatElevToAddr f proj a lon lat elev = .ok (b, code) ∧
      (code = 0 ∨ code = 1) ∧
      (code = 1 ↔ ¬ ∃ p q r, AtRootCoords f proj lon lat elev p q r ∧ inClosed p ∧ inClosed q ∧ inClosed r) ∧
      (code = 1 → b.x = 0xFFFFFFFF#32 ∧ b.y = 0xFFFFFFFF#32 ∧ b.z = 0xFFFFFFFF#32 ∧ ¬ b.toKey.Octant) ∧
      b.level = a.level ∧ b.type = a.type := by
  obtain ⟨x, y⟩ := xy
  have hat := atRootCoords_of_project hf (elev := elev) hproj
  by_cases hin : inClosed (rootP f x y) ∧ inClosed (rootQ f x y) ∧ inClosed (rootR elev)
  · refine ⟨_, 0, toAddr_inside hf hat hin.1 hin.2.1 hin.2.2 a ha, Or.inl rfl, ?_, by simp, rfl, rfl⟩
    simp only [zero_ne_one, false_iff, not_not]
    exact ⟨_, _, _, hat, hin.1, hin.2.1, hin.2.2⟩
  · refine ⟨_, 1, toAddr_outside hf hat hin a ha, Or.inr rfl, ?_, ?_, rfl, rfl⟩
    · simp only [true_iff]
      rintro ⟨p, q, r, h1, h2, h3, h4⟩
      obtain ⟨rfl, rfl, rfl⟩ := atRootCoords_unique hf hat h1
      exact hin ⟨h2, h3, h4⟩
    · intro _
      refine ⟨rfl, rfl, rfl, fun ho => ?_⟩
      have := ho.x_lt
      simp at this

example : exProj.project 5000000 0 = .ok (5000000, 0) ∧ exProj.project 220 40 = .ok (220, 40) := by decide

/-- A failing projection is passed on as its exception, without an address. -/
theorem C02_projection_failure (f : Frame K) (proj : Projector K) (lon lat elev : K) (m : String)
    (hproj : proj.project lon lat = .exc m) (a : Addr) (ha : a.level ≤ 31) :
    GeomCenCA.lonLatElevToAddr f proj a lon lat elev = .exc m := by
  simp [lonLatElevToAddr, hproj, show a.level < 32 by omega]

example : exProjPartial.project 0 91 = .exc "proj" := by decide

/-! ### C03 -/

/-- C03: the centroid of an octant converts back to the octant, whenever the projection undoes its inverse at
that point. -/
theorem C03 {f : Frame K} (hf : f.Rigid) {proj : Projector K} (a : Addr) (ha : a.toKey.Octant)
    (lon lat elev : K) (hc : GeomCenCA.addrToLonLatElev f proj a = .ok (lon, lat, elev))
    (hproj : ∀ x y, proj.invProject x y = .ok (lon, lat) → proj.project lon lat = .ok (x, y))
    (b : Addr) (hb : b.level = a.level) :
    GeomCenCA.lonLatElevToAddr f proj b lon lat elev = .ok ({ toKey := a.toKey, type := b.type }, 0) := by
  have hl : a.level < 32 := by have := ha.level_le; omega
  unfold GeomCenCA.addrToLonLatElev at hc
  rw [if_pos hl] at hc
  dsimp only at hc
  set p : K := centroidCoord a.x a.level with hp
  set q : K := centroidCoord a.y a.level with hq
  set r : K := centroidCoord a.z a.level with hr
  cases hi : proj.invProject (projX f p q) (projY f p q) with
  | exc m => simp [hi] at hc
  | ub => simp [hi] at hc
  | ok ll =>
    obtain ⟨lo, la⟩ := ll
    rw [hi] at hc
    simp only [Outcome.ok.injEq, Prod.mk.injEq] at hc
    obtain ⟨rfl, rfl, rfl⟩ := hc
    have hpr := hproj _ _ hi
    have hloc : AtRootCoords f proj lo la (elevOfRoot r) p q r := by
      refine ⟨?_, ?_⟩
      · rw [hpr]; simp only [Outcome.ok.injEq, Prod.mk.injEq]
        constructor
        · unfold projX; ring
        · unfold projY; ring
      · unfold elevOfRoot ROOTLEN VERTEXAG MAXELEV; ring
    have hpc := centroid_range (K := K) ha.level_le ha.x_lt ha.x_dvd
    have hqc := centroid_range (K := K) ha.level_le ha.y_lt ha.y_dvd
    have hrc := centroid_range (K := K) ha.level_le ha.z_lt ha.z_dvd
    have := C01_unique_partial hf hloc hpc hqc hrc a.toKey ha
      ⟨axisHas_centroid ha.level_le, axisHas_centroid ha.level_le, axisHas_centroid ha.level_le⟩
      b.type b.x b.y b.z
    rw [← this]
    have hb' : b = { x := b.x, y := b.y, z := b.z, level := a.level, type := b.type } := by
      obtain ⟨⟨x, y, z, l⟩, t⟩ := b
      simp only at hb; subst hb; rfl
    exact congrArg (fun c => GeomCenCA.lonLatElevToAddr f proj c lo la (elevOfRoot r)) hb'

example : Key.Octant ⟨0x10000000, 0, 0x7C000000, 5⟩ ∧
    GeomCenCA.addrToLonLatElev exFrame exProj ⟨⟨0x10000000, 0, 0x7C000000, 5⟩, .leaf⟩ =
      .ok (158720, -168960, 6400) ∧
    ∀ x y : ℚ, exProj.invProject x y = .ok (158720, -168960) →
      exProj.project 158720 (-168960) = .ok (x, y) := by
  refine ⟨by decide, ?_, fun x y h => by simpa [exProj] using h.symm⟩
  simp [GeomCenCA.addrToLonLatElev, exProj, centroidCoord, projX, projY, elevOfRoot, edgeLen, ROOTLEN,
    VERTEXAG, MAXELEV, exFrame, tickLen]
  norm_num

/-- C03: the centroid lies in the middle of the octant along all three axes of the root cube. -/
theorem C03_centroid {f : Frame K} {proj : Projector K} {a : Addr} (ha : a.level ≤ 31) {lon lat elev : K}
    (hc : GeomCenCA.addrToLonLatElev f proj a = .ok (lon, lat, elev)) :
    ∃ p q : K, p = axisMiddle a.x.toNat a.toKey.size ∧ q = axisMiddle a.y.toNat a.toKey.size ∧
      proj.invProject (f.xNWRoot + (p * f.cosAz + q * f.sinAz)) (f.yNWRoot + (q * f.cosAz - p * f.sinAz)) = .ok (lon, lat) ∧
      4 * (12800 - elev) = 1638400 - axisMiddle a.z.toNat a.toKey.size := by
  have hl : a.level < 32 := by omega
  have hm : ∀ t : BitVec 32, centroidCoord t a.level = (axisMiddle t.toNat a.toKey.size : K) := by
    intro t
    have h2 : (2 : K) ^ 31 = 2 ^ (31 - a.level) * 2 ^ a.level := by rw [← pow_add]; congr 1; omega
    have h3 : (2 : K) ^ (31 - a.level) ≠ 0 := by positivity
    have h4 : (2 : K) ^ a.level ≠ 0 := by positivity
    unfold centroidCoord axisMiddle edgeLen ROOTLEN Key.size
    rw [tickLen_toNat ha, h2]
    push_cast
    field_simp
  unfold GeomCenCA.addrToLonLatElev at hc
  rw [if_pos hl] at hc
  dsimp only at hc
  rw [hm, hm, hm] at hc
  refine ⟨_, _, rfl, rfl, ?_⟩
  set p : K := axisMiddle a.x.toNat a.toKey.size
  set q : K := axisMiddle a.y.toNat a.toKey.size
  cases hi : proj.invProject (projX f p q) (projY f p q) with
  | exc m => simp [hi] at hc
  | ub => simp [hi] at hc
  | ok ll =>
    obtain ⟨lo, la⟩ := ll
    rw [hi] at hc
    simp only [Outcome.ok.injEq, Prod.mk.injEq] at hc
    obtain ⟨rfl, rfl, rfl⟩ := hc
    refine ⟨?_, ?_⟩
    · rw [← hi]; congr 1
      · unfold projX; ring
      · unfold projY; ring
    · unfold elevOfRoot ROOTLEN VERTEXAG MAXELEV; ring

example : (⟨⟨0x10000000, 0, 0x7C000000, 5⟩, .leaf⟩ : Addr).level ≤ 31 ∧ (axisMiddle 0x10000000 (2 ^ 26) : ℚ) = 230400 := by
  refine ⟨by decide, ?_⟩
  unfold axisMiddle; norm_num

/-! ### C04 -/

/-- C04: the octants of one location at two levels are nested; the coarse one is what `findAncestor` computes
from the fine one.  Holds on the closed root cube. -/
theorem C04 {f : Frame K} (hf : f.Rigid) {proj : Projector K} {lon lat elev : K}
    (fine coarse b c : Addr) (hlt : coarse.level < fine.level) (hl : fine.level ≤ 31)
    (h1 : GeomCenCA.lonLatElevToAddr f proj fine lon lat elev = .ok (b, 0))
    (h2 : GeomCenCA.lonLatElevToAddr f proj coarse lon lat elev = .ok (c, 0)) :
    findAncestor b c.level = .ok { toKey := c.toKey, type := .interior } := by
  cases hproj : proj.project lon lat with
  | exc m => simp [lonLatElevToAddr, hproj, show fine.level < 32 by omega] at h1
  | ub => simp [lonLatElevToAddr, hproj, show fine.level < 32 by omega] at h1
  | ok xy =>
    obtain ⟨x, y⟩ := xy
    have hat := atRootCoords_of_project hf (elev := elev) hproj
    by_cases hin : inClosed (rootP f x y) ∧ inClosed (rootQ f x y) ∧ inClosed (rootR elev)
    · rw [toAddr_inside hf hat hin.1 hin.2.1 hin.2.2 _ hl] at h1
      rw [toAddr_inside hf hat hin.1 hin.2.1 hin.2.2 _ (by omega)] at h2
      cases h1; cases h2
      rw [findAncestor_eq (by simpa using hlt) (by simp; omega)]
      simp only [Key.trunc, Outcome.ok.injEq]
      rw [tick_trunc hin.1.1 hin.1.2 hlt.le hl, tick_trunc hin.2.1.1 hin.2.1.2 hlt.le hl,
        tick_trunc hin.2.2.1 hin.2.2.2 hlt.le hl]
    · rw [toAddr_outside hf hat hin _ hl] at h1
      cases h1

example : ∃ b c, GeomCenCA.lonLatElevToAddr exFrame exProj ⟨⟨0, 0, 0, 16⟩, .leaf⟩ 220 40 (-100) = .ok (b, 0) ∧
    GeomCenCA.lonLatElevToAddr exFrame exProj ⟨⟨0, 0, 0, 9⟩, .leaf⟩ 220 40 (-100) = .ok (c, 0) := by
  have h : inClosed (100 : ℚ) ∧ inClosed (200 : ℚ) ∧ inClosed (1586800 : ℚ) := by norm_num [inClosed]
  exact ⟨_, _, toAddr_inside exFrame_rigid ex_at h.1 h.2.1 h.2.2 _ (by decide),
    toAddr_inside exFrame_rigid ex_at h.1 h.2.1 h.2.2 _ (by decide)⟩

/-- C04, containment form: inside the half-open root cube the coarse octant's cube contains the fine one's. -/
theorem C04_contains {f : Frame K} (hf : f.Rigid) {proj : Projector K} {lon lat elev p q r : K}
    (hloc : AtRootCoords f proj lon lat elev p q r)
    (hp : inHalfOpen p) (hq : inHalfOpen q) (hr : inHalfOpen r)
    (fine coarse b c : Addr) (hlt : coarse.level ≤ fine.level) (hl : fine.level ≤ 31)
    (h1 : GeomCenCA.lonLatElevToAddr f proj fine lon lat elev = .ok (b, 0))
    (h2 : GeomCenCA.lonLatElevToAddr f proj coarse lon lat elev = .ok (c, 0)) :
    c.toKey.Contains b.toKey := by
  obtain ⟨b', hb1, hb2, hb3, -, -⟩ := C01_partial hf hloc hp hq hr fine hl
  obtain ⟨c', hc1, hc2, hc3, -, -⟩ := C01_partial hf hloc hp hq hr coarse (by omega)
  rw [hb1] at h1; rw [hc1] at h2; cases h1; cases h2
  rw [Key.contains_iff_trunc hc2 hb2]
  refine ⟨by omega, ?_⟩
  rw [toAddr_inside hf hloc ⟨hp.1, hp.2.le⟩ ⟨hq.1, hq.2.le⟩ ⟨hr.1, hr.2.le⟩ _ hl] at hb1
  rw [toAddr_inside hf hloc ⟨hp.1, hp.2.le⟩ ⟨hq.1, hq.2.le⟩ ⟨hr.1, hr.2.le⟩ _ (by omega)] at hc1
  cases hb1; cases hc1
  simp only [Key.trunc]
  rw [tick_trunc hp.1 hp.2.le hlt hl, tick_trunc hq.1 hq.2.le hlt hl, tick_trunc hr.1 hr.2.le hlt hl]

example : inHalfOpen (100 : ℚ) ∧ inHalfOpen (200 : ℚ) ∧ inHalfOpen (1586800 : ℚ) := by
  norm_num [inHalfOpen]

end

/-! ### C05 -/

/-- C05: the computed ancestor is an octant of the tree at the requested level, marked interior, containing
the original; and it is the only octant of that level that does. -/
theorem C05_ancestor (a : Addr) (ha : a.toKey.Octant) (n : Nat) (hn : n < a.level) :
    ∃ b, findAncestor a n = .ok b ∧ b.toKey.Octant ∧ b.level = n ∧ b.type = .interior ∧
      b.toKey.Contains a.toKey ∧ ∀ k : Key, k.Octant → k.level = n → k.Contains a.toKey → k = b.toKey := by
  have hl := ha.level_le
  refine ⟨_, findAncestor_eq hn (by omega), ha.trunc (by omega), rfl, rfl, ?_, ?_⟩
  · rw [Key.contains_iff_trunc (ha.trunc (by omega)) ha]; exact ⟨hn.le, rfl⟩
  · intro k hk hkl hc
    rw [Key.contains_iff_trunc hk ha] at hc
    rw [← hc.2, hkl]

/-- Outside its documented domain the call is undefined (failed assertion). -/
theorem C05_precondition (a : Addr) (n : Int) : (¬ (0 ≤ n ∧ n < a.level)) → findAncestor a n = .ub := by
  intro h; simp [findAncestor, h]

/-- C05: ancestors compose. -/
theorem C05_trans (a b : Addr) (ha : a.level ≤ 31) (m n : Nat) (hmn : m < n)
    (h : findAncestor a n = .ok b) : findAncestor b m = findAncestor a m := by
  obtain ⟨-, hn, rfl⟩ := findAncestor_eq' (by omega) h
  have hn' : n < a.level := by exact_mod_cast hn
  rw [findAncestor_eq (by simpa using hmn) (by simp; omega), findAncestor_eq (by omega) (by omega)]
  simp [Key.trunc_trunc _ hmn.le]

/-- C05: parent and child position together determine an octant. -/
theorem C05_child (a b : Addr) (ha : a.toKey.Octant) (hb : b.toKey.Octant) (hl : a.level = b.level)
    (hpos : 0 < a.level) (p q : Addr)
    (hp : findAncestor a (a.level - 1 : Nat) = .ok p) (hq : findAncestor b (b.level - 1 : Nat) = .ok q)
    (hpq : sameAddr p q = true) (hbit : childOctantBit a = childOctantBit b) : sameAddr a b = true := by
  rw [sameAddr_iff] at hpq ⊢
  have h1 := ha.level_le
  have h2 := hb.level_le
  obtain ⟨-, -, rfl⟩ := findAncestor_eq' (by omega) hp
  obtain ⟨-, -, rfl⟩ := findAncestor_eq' (by omega) hq
  rw [childOctantBit_eq a (by omega), childOctantBit_eq b (by omega)] at hbit
  have hd := pow_digit_inj (octDigit_lt _ _ _) (octDigit_lt _ _ _) hbit
  apply Key.path_inj ha hb
  rw [path_last hpos h1, path_last (by omega) h2]
  simp only [Int.toNat_natCast] at hpq
  rw [hpq, show a.digit (31 - a.level) = b.digit (31 - b.level) from hd]

/-- The child position is a single bit, so eight distinct positions exist. -/
theorem C05_child_bit (a : Addr) (ha : a.level ≤ 31) :
    ∃ d < 8, childOctantBit a = BitVec.ofNat 8 (2 ^ d) :=
  ⟨_, octDigit_lt _ _ _, childOctantBit_eq a (by omega)⟩

example : Key.Octant ⟨0x60000000, 0x40000000, 0x20000000, 2⟩ ∧
    findAncestor ⟨⟨0x60000000, 0x40000000, 0x20000000, 2⟩, .leaf⟩ 1 =
      .ok ⟨⟨0x40000000, 0x40000000, 0, 1⟩, .interior⟩ ∧
    childOctantBit ⟨⟨0x60000000, 0x40000000, 0x20000000, 2⟩, .leaf⟩ = 0x20 := by decide

/-! ### C06 -/

/-- Exact real value truncated by the code for a resolution. -/
theorem level_eq {res : ℝ} (h0 : 0 < res) (h1 : (1638400 / 2 ^ 31) ^ 2 < 2 * res ^ 2) (h2 : res ^ 2 ≤ 2 * 1638400 ^ 2) :
    ∃ n : Nat, n ≤ 31 ∧ GeomCenCA.level res = .ok n ∧
      n = ⌊(0.5 : ℝ) + Real.logb 2 (1638400 / res)⌋ := by
  have hlog : Real.log (ROOTLEN / res) / Real.log 2 = Real.logb 2 (1638400 / res) := by
    unfold ROOTLEN Real.logb; rfl
  have hpos : 0 < 1638400 / res := by positivity
  have hlow : -(1 / 2 : ℝ) ≤ Real.logb 2 (1638400 / res) := by
    have h3 : (1 / 2 : ℝ) ≤ (1638400 / res) ^ 2 := by
      rw [div_pow, le_div_iff₀ (by positivity)]; linarith
    have h4 := Real.logb_le_logb_of_le (b := 2) (by norm_num) (by norm_num) h3
    rw [Real.logb_pow] at h4
    have h5 : Real.logb 2 (1 / 2 : ℝ) = -1 := by
      rw [one_div, Real.logb_inv, Real.logb_self_eq_one (by norm_num)]
    rw [h5] at h4; push_cast at h4; linarith
  have hhigh : Real.logb 2 (1638400 / res) < 31 + 1 / 2 := by
    have h3 : (1638400 / res) ^ 2 < 2 ^ 63 := by
      rw [div_pow, div_lt_iff₀ (by positivity)]
      rw [div_pow, div_lt_iff₀ (by positivity)] at h1
      linarith
    have h4 := Real.logb_lt_logb (b := 2) (by norm_num) (by positivity) h3
    rw [Real.logb_pow, Real.logb_pow, Real.logb_self_eq_one (by norm_num)] at h4
    push_cast at h4; linarith
  have hv : (0 : ℝ) ≤ 0.5 + Real.logb 2 (1638400 / res) := by norm_num; linarith
  have hfl : (0 : ℤ) ≤ ⌊(0.5 : ℝ) + Real.logb 2 (1638400 / res)⌋ := Int.floor_nonneg.2 hv
  have hfu : ⌊(0.5 : ℝ) + Real.logb 2 (1638400 / res)⌋ < 32 := by
    rw [Int.floor_lt]; push_cast; norm_num; linarith
  refine ⟨⌊(0.5 : ℝ) + Real.logb 2 (1638400 / res)⌋.toNat, by omega, ?_, by omega⟩
  unfold GeomCenCA.level intOf
  rw [if_neg (not_le.2 h0), hlog]
  dsimp only
  rw [if_pos hv, if_pos (by omega), Int.toNat_of_nonneg hfl]

/-- C06: the level chosen for the edge length of a level is that level. -/
theorem C06_inverse (n : Nat) (hn : n ≤ 31) : GeomCenCA.level (GeomCenCA.edgeLen n) = .ok n := by
  have hpos : (0 : ℝ) < edgeLen n := edgeLen_pos n
  have h2n : (0 : ℝ) < 2 ^ n := by positivity
  have h1 : (1638400 : ℝ) / 2 ^ 31 ≤ edgeLen n := by
    unfold edgeLen ROOTLEN
    exact div_le_div_of_nonneg_left (by norm_num) h2n (pow_le_pow_right₀ (by norm_num) hn)
  have hle : (edgeLen n : ℝ) ≤ 1638400 := by
    unfold edgeLen ROOTLEN
    exact div_le_self (by norm_num) (one_le_pow₀ (by norm_num))
  have h2 : (edgeLen n : ℝ) ^ 2 ≤ 2 * 1638400 ^ 2 := by nlinarith
  obtain ⟨m, -, hm, hf⟩ := level_eq hpos (by have := pow_le_pow_left₀ (by positivity) h1 2; nlinarith) h2
  rw [hm]
  have : (1638400 : ℝ) / edgeLen n = 2 ^ n := by
    unfold edgeLen ROOTLEN; field_simp
  rw [this, Real.logb_pow, Real.logb_self_eq_one (by norm_num), mul_one] at hf
  have hfloor : ⌊(0.5 : ℝ) + n⌋ = n := by
    rw [Int.floor_eq_iff]; push_cast; constructor <;> (norm_num; try linarith)
  rw [hfloor] at hf
  rw [hf]

theorem intOf_mono {u v : ℝ} {n m : Int} (huv : u ≤ v) (hu : intOf u = .ok n) (hv : intOf v = .ok m) :
    n ≤ m := by
  have aux : ∀ {w : ℝ} {k : Int}, intOf w = .ok k → k = if 0 ≤ w then ⌊w⌋ else ⌈w⌉ := by
    intro w k h
    unfold intOf at h
    dsimp only at h
    by_cases hr : -2 ^ 31 ≤ (if 0 ≤ w then ⌊w⌋ else ⌈w⌉) ∧ (if 0 ≤ w then ⌊w⌋ else ⌈w⌉) < 2 ^ 31
    · rw [if_pos hr] at h; exact (Outcome.ok.inj h).symm
    · rw [if_neg hr] at h; cases h
  rw [aux hu, aux hv]
  by_cases h0 : 0 ≤ u
  · rw [if_pos h0, if_pos (le_trans h0 huv)]; exact Int.floor_le_floor huv
  · rw [if_neg h0]
    by_cases h1 : 0 ≤ v
    · rw [if_pos h1]
      have : ⌈u⌉ ≤ 0 := Int.ceil_le.2 (by push_cast; linarith)
      have : 0 ≤ ⌊v⌋ := Int.floor_nonneg.2 h1
      omega
    · rw [if_neg h1]; exact Int.ceil_le_ceil huv

/-- C06: for a coarser resolution the level is not deeper (whenever both are defined). -/
theorem C06_monotone (res res' : ℝ) (m n : Int) (h0 : 0 < res) (hle : res ≤ res')
    (h1 : GeomCenCA.level res = .ok m) (h2 : GeomCenCA.level res' = .ok n) : n ≤ m := by
  unfold GeomCenCA.level at h1 h2
  rw [if_neg (not_le.2 h0)] at h1
  rw [if_neg (not_le.2 (lt_of_lt_of_le h0 hle))] at h2
  have hlog : Real.log (ROOTLEN / res') / Real.log 2 ≤ Real.log (ROOTLEN / res) / Real.log 2 := by
    apply div_le_div_of_nonneg_right _ (Real.log_pos (by norm_num)).le
    apply Real.log_le_log
    · exact div_pos rootLen_pos (lt_of_lt_of_le h0 hle)
    · exact div_le_div_of_nonneg_left rootLen_pos.le h0 hle
  exact intOf_mono (by linarith) h2 h1

example : GeomCenCA.level (GeomCenCA.edgeLen 16) = .ok 16 ∧ GeomCenCA.level (GeomCenCA.edgeLen 9) = .ok 9 ∧
    (0 : ℝ) < GeomCenCA.edgeLen 16 :=
  ⟨C06_inverse 16 (by decide), C06_inverse 9 (by decide), edgeLen_pos 16⟩

/-- C06: for every resolution from the finest cell over sqrt 2 up to sqrt 2 times the root edge, the level is one of
0..31 and its edge length is within a factor sqrt 2 of the resolution. -/
theorem C06_nearest (res : ℝ) (h0 : 0 < res) (h1 : 1638400 / 2 ^ 31 < Real.sqrt 2 * res) (h2 : res ≤ Real.sqrt 2 * 1638400) :
    ∃ n : Nat, n ≤ 31 ∧ GeomCenCA.level res = .ok n ∧
      (GeomCenCA.edgeLen n : ℝ) ≤ Real.sqrt 2 * res ∧ res ≤ Real.sqrt 2 * GeomCenCA.edgeLen n := by
  have hs : Real.sqrt 2 ^ 2 = 2 := Real.sq_sqrt (by norm_num)
  have h1' : (1638400 / 2 ^ 31) ^ 2 < 2 * res ^ 2 := by
    have := pow_lt_pow_left₀ h1 (by positivity) (n := 2) (by norm_num)
    rw [mul_pow, hs] at this; exact this
  have h2' : res ^ 2 ≤ 2 * 1638400 ^ 2 := by
    have := pow_le_pow_left₀ h0.le h2 2
    rw [mul_pow, hs] at this; exact this
  obtain ⟨n, hn, hl, hf⟩ := level_eq h0 h1' h2'
  refine ⟨n, hn, hl, ?_⟩
  have hpos : 0 < 1638400 / res := by positivity
  have hf1 : ((n : ℤ) : ℝ) ≤ 0.5 + Real.logb 2 (1638400 / res) := by rw [hf]; exact Int.floor_le _
  have hf2 : 0.5 + Real.logb 2 (1638400 / res) < ((n : ℤ) : ℝ) + 1 := by
    rw [hf]; exact Int.lt_floor_add_one _
  push_cast at hf1 hf2
  -- square both sides: 2^(2n-1) ≤ (R/res)^2 < 2^(2n+1)
  have key1 : (2 : ℝ) ^ (2 * n) ≤ 2 * (1638400 / res) ^ 2 := by
    rw [← Real.logb_le_logb (b := 2) (by norm_num) (by positivity) (by positivity), Real.logb_pow,
      Real.logb_mul (by norm_num) (by positivity), Real.logb_pow, Real.logb_self_eq_one (by norm_num)]
    push_cast; norm_num at hf1 ⊢; linarith
  have key2 : (1638400 / res) ^ 2 ≤ 2 * (2 : ℝ) ^ (2 * n) := by
    rw [← Real.logb_le_logb (b := 2) (by norm_num) (by positivity) (by positivity), Real.logb_pow,
      Real.logb_mul (by norm_num) (by positivity), Real.logb_pow, Real.logb_self_eq_one (by norm_num)]
    push_cast; norm_num at hf2 ⊢; linarith
  have h2n : (0 : ℝ) < 2 ^ n := by positivity
  rw [pow_mul', ] at key1 key2
  unfold edgeLen ROOTLEN
  constructor
  · apply le_of_sq_le_sq _ (by positivity)
    rw [mul_pow, hs, div_pow]
    rw [div_pow, div_le_iff₀ (by positivity)] at key2
    rw [div_le_iff₀ (by positivity)]; nlinarith
  · apply le_of_sq_le_sq _ (by positivity)
    rw [mul_pow, hs, div_pow]
    rw [div_pow, ← mul_div_assoc, le_div_iff₀ (by positivity)] at key1
    rw [← mul_div_assoc, le_div_iff₀ (by positivity)]; nlinarith

example : (0 : ℝ) < 100 ∧ (1638400 : ℝ) / 2 ^ 31 < Real.sqrt 2 * 100 ∧ (100 : ℝ) ≤ Real.sqrt 2 * 1638400 := by
  have : (1 : ℝ) ≤ Real.sqrt 2 := Real.one_le_sqrt.2 (by norm_num)
  refine ⟨by norm_num, ?_, by nlinarith⟩
  norm_num; linarith

/-- C06: finer resolutions get a level that no octant has. -/
theorem C06_too_fine (res : ℝ) (h0 : 0 < res) (h1 : Real.sqrt 2 * res ≤ 1638400 / 2 ^ 31) (n : Int) (h : GeomCenCA.level res = .ok n) :
    32 ≤ n := by
  have hs : Real.sqrt 2 ^ 2 = 2 := Real.sq_sqrt (by norm_num)
  have h2 : 2 * res ^ 2 ≤ (1638400 / 2 ^ 31) ^ 2 := by
    have := pow_le_pow_left₀ (by positivity) h1 2
    rw [mul_pow, hs] at this; exact this
  have hlow : (31 : ℝ) + 1 / 2 ≤ Real.logb 2 (1638400 / res) := by
    have h3 : (2 : ℝ) ^ 63 ≤ (1638400 / res) ^ 2 := by
      rw [div_pow, le_div_iff₀ (by positivity)]
      rw [div_pow, le_div_iff₀ (by positivity)] at h2
      linarith
    have h4 := Real.logb_le_logb_of_le (b := 2) (by norm_num) (by positivity) h3
    rw [Real.logb_pow, Real.logb_pow, Real.logb_self_eq_one (by norm_num)] at h4
    push_cast at h4; linarith
  have hlog : Real.log (ROOTLEN / res) / Real.log 2 = Real.logb 2 (1638400 / res) := by
    unfold ROOTLEN Real.logb; rfl
  unfold GeomCenCA.level intOf at h
  rw [if_neg (not_le.2 h0), hlog] at h
  have hv : (0 : ℝ) ≤ 0.5 + Real.logb 2 (1638400 / res) := by norm_num; linarith
  have hfl : (32 : ℤ) ≤ ⌊(0.5 : ℝ) + Real.logb 2 (1638400 / res)⌋ := Int.le_floor.2 (by push_cast; norm_num at hlow ⊢; linarith)
  dsimp only at h
  rw [if_pos hv] at h
  split at h
  · cases h; exact hfl
  · cases h

example : (0 : ℝ) < 1 / 10000 ∧ Real.sqrt 2 * (1 / 10000) ≤ 1638400 / 2 ^ 31 := by
  have : Real.sqrt 2 ≤ 2 := Real.sqrt_le_iff.2 (by norm_num)
  exact ⟨by norm_num, by linarith⟩

/-! ### C07 -/

section
variable {K : Type} [Field K] [LinearOrder K] [IsStrictOrderedRing K] [FloorRing K]

/-- C07: squared distance in the projected plane equals squared distance along the root axes. -/
theorem C07_rigid {f : Frame K} (hf : f.Rigid) (x y x' y' : K) :
    (rootP f x y - rootP f x' y') ^ 2 + (rootQ f x y - rootQ f x' y') ^ 2 = (x - x') ^ 2 + (y - y') ^ 2 := by
  unfold Frame.Rigid at hf; unfold rootP rootQ
  linear_combination ((x - x') ^ 2 + (y - y') ^ 2) * hf

/-- C07: converting root coordinates to projected coordinates and back is the identity, in both orders, and
the same for elevation. -/
theorem C07_round_trip {f : Frame K} (hf : f.Rigid) (p q r x y elev : K) :
    rootP f (projX f p q) (projY f p q) = p ∧ rootQ f (projX f p q) (projY f p q) = q ∧
    projX f (rootP f x y) (rootQ f x y) = x ∧ projY f (rootP f x y) (rootQ f x y) = y ∧
    rootR (elevOfRoot r) = r ∧ elevOfRoot (rootR elev) = elev := by
  unfold Frame.Rigid at hf
  refine ⟨?_, ?_, ?_, ?_, ?_, ?_⟩
  · unfold rootP projX projY; linear_combination p * hf
  · unfold rootQ projX projY; linear_combination q * hf
  · unfold rootP rootQ projX; linear_combination (x - f.xNWRoot) * hf
  · unfold rootP rootQ projY; linear_combination (y - f.yNWRoot) * hf
  · unfold rootR elevOfRoot VERTEXAG; ring
  · unfold rootR elevOfRoot VERTEXAG; ring

/-- C07 applies to the frame the code constructs. -/
theorem C07_frame_rigid : GeomCenCA.frame.Rigid := frame_rigid

example : exFrame.Rigid := exFrame_rigid

/-- C07: at one horizontal position a higher elevation never gives a lower vertical tick. -/
theorem C07_elevation_monotone {f : Frame K} (hf : f.Rigid) {proj : Projector K} (lon lat elev elev' : K)
    (hle : elev ≤ elev') (a b b' : Addr) (ha : a.level ≤ 31)
    (h : GeomCenCA.lonLatElevToAddr f proj a lon lat elev = .ok (b, 0))
    (h' : GeomCenCA.lonLatElevToAddr f proj a lon lat elev' = .ok (b', 0)) :
    b.x = b'.x ∧ b.y = b'.y ∧ b.z ≤ b'.z := by
  cases hproj : proj.project lon lat with
  | exc m => simp [lonLatElevToAddr, hproj, show a.level < 32 by omega] at h
  | ub => simp [lonLatElevToAddr, hproj, show a.level < 32 by omega] at h
  | ok xy =>
    obtain ⟨x, y⟩ := xy
    have hat := atRootCoords_of_project hf (elev := elev) hproj
    have hat' := atRootCoords_of_project hf (elev := elev') hproj
    by_cases hin : inClosed (rootP f x y) ∧ inClosed (rootQ f x y) ∧ inClosed (rootR elev)
    · by_cases hin' : inClosed (rootP f x y) ∧ inClosed (rootQ f x y) ∧ inClosed (rootR elev')
      · rw [toAddr_inside hf hat hin.1 hin.2.1 hin.2.2 _ ha] at h
        rw [toAddr_inside hf hat' hin'.1 hin'.2.1 hin'.2.2 _ ha] at h'
        cases h; cases h'
        refine ⟨rfl, rfl, ?_⟩
        rw [BitVec.le_def, tick_toNat hin.2.2.2 ha, tick_toNat hin'.2.2.2 ha]
        apply Nat.mul_le_mul_left
        apply Nat.floor_le_floor
        apply div_le_div_of_nonneg_right _ (edgeLen_pos _).le
        unfold rootR VERTEXAG; linarith
      · rw [toAddr_outside hf hat' hin' _ ha] at h'; cases h'
    · rw [toAddr_outside hf hat hin _ ha] at h; cases h

/-- C07: vertical cells are the horizontal cell size divided by the exaggeration 4: going up by a quarter of
the edge length moves exactly one cell up. -/
theorem C07_vertical_cell {f : Frame K} (hf : f.Rigid) {proj : Projector K} (lon lat elev : K)
    (a b b' : Addr) (ha : a.level ≤ 31)
    (h : GeomCenCA.lonLatElevToAddr f proj a lon lat elev = .ok (b, 0))
    (h' : GeomCenCA.lonLatElevToAddr f proj a lon lat (elev + 1638400 / 2 ^ a.level / 4) = .ok (b', 0)) :
    b'.x = b.x ∧ b'.y = b.y ∧ b'.z.toNat = b.z.toNat + 2 ^ (31 - a.level) := by
  cases hproj : proj.project lon lat with
  | exc m => simp [lonLatElevToAddr, hproj, show a.level < 32 by omega] at h
  | ub => simp [lonLatElevToAddr, hproj, show a.level < 32 by omega] at h
  | ok xy =>
    obtain ⟨x, y⟩ := xy
    have hat := atRootCoords_of_project hf (elev := elev) hproj
    have hat' := atRootCoords_of_project hf (elev := elev + 1638400 / 2 ^ a.level / 4) hproj
    by_cases hin : inClosed (rootP f x y) ∧ inClosed (rootQ f x y) ∧ inClosed (rootR elev)
    · by_cases hin' : inClosed (rootP f x y) ∧ inClosed (rootQ f x y) ∧
          inClosed (rootR (elev + 1638400 / 2 ^ a.level / 4))
      · rw [toAddr_inside hf hat hin.1 hin.2.1 hin.2.2 _ ha] at h
        rw [toAddr_inside hf hat' hin'.1 hin'.2.1 hin'.2.2 _ ha] at h'
        cases h; cases h'
        refine ⟨rfl, rfl, ?_⟩
        dsimp only
        rw [tick_toNat hin.2.2.2 ha, tick_toNat hin'.2.2.2 ha]
        have h1 : rootR (elev + 1638400 / 2 ^ a.level / 4) / edgeLen a.level =
            rootR elev / edgeLen a.level + 1 := by
          have hpos := edgeLen_pos (K := K) a.level
          have h2 : rootR (elev + 1638400 / 2 ^ a.level / 4) = rootR elev + edgeLen a.level := by
            unfold rootR VERTEXAG edgeLen ROOTLEN; ring
          rw [h2, add_div, div_self hpos.ne']
        rw [h1, Nat.floor_add_one (div_nonneg hin.2.2.1 (edgeLen_pos _).le)]; ring
      · rw [toAddr_outside hf hat' hin' _ ha] at h'; cases h'
    · rw [toAddr_outside hf hat hin _ ha] at h; cases h

example : ∃ b c, GeomCenCA.lonLatElevToAddr exFrame exProj ⟨⟨0, 0, 0, 16⟩, .leaf⟩ 220 40 (-100) = .ok (b, 0) ∧
    GeomCenCA.lonLatElevToAddr exFrame exProj ⟨⟨0, 0, 0, 16⟩, .leaf⟩ 220 40 (-100 + 1638400 / 2 ^ 16 / 4) =
      .ok (c, 0) := by
  have h : inClosed (100 : ℚ) ∧ inClosed (200 : ℚ) ∧ inClosed (1586800 : ℚ) ∧ inClosed (1586825 : ℚ) := by
    norm_num [inClosed]
  have h2 : AtRootCoords exFrame exProj 220 40 (-100 + 1638400 / 2 ^ 16 / 4) 100 200 1586825 := by
    unfold AtRootCoords exFrame exProj; norm_num
  exact ⟨_, _, toAddr_inside exFrame_rigid ex_at h.1 h.2.1 h.2.2.1 _ (by decide),
    toAddr_inside exFrame_rigid h2 h.1 h.2.1 h.2.2.2 _ (by decide)⟩

end

/-! ### C70 -/

/-- C70: a location given by its offsets `d` and `w` from the northwest corner of the detailed model and its depth `h` below
12800 m is converted successfully exactly if it is at most 409600 m northwest and 1228800 m southeast, 204800 m southwest and
1433600 m northeast of the corner, and at most 409600 m deep; unless it is on one of the far faces, the octant returned holds
the point 409600 m + d, 204800 m + w, 1638400 m - 4 h of the root cube. -/
theorem C70 {proj : Projector ℝ} {lon lat d w : ℝ} (hp : FromCorner proj lon lat d w) (h : ℝ) (a : Addr) (ha : a.level ≤ 31) :
    ∃ b code, (GeomCenCA.cenCA proj).lonLatElevToAddr a lon lat (12800 - h) = .ok (b, code) ∧
      (code = 0 ↔ (-409600 ≤ d ∧ d ≤ 1228800) ∧ (-204800 ≤ w ∧ w ≤ 1433600) ∧ (0 ≤ h ∧ h ≤ 409600)) ∧
      (code = 0 → d ≠ 1228800 → w ≠ 1433600 → h ≠ 0 → b.toKey.Octant ∧ b.level = a.level ∧
        b.toKey.HasPoint (409600 + d) (204800 + w) (1638400 - 4 * h)) := by
  have hs : Real.sin (143.638 * (Real.pi / 180)) = Real.cos azR := by
    rw [show (143.638 : ℝ) * (Real.pi / 180) = azR + Real.pi / 2 by unfold azR; ring, Real.sin_add_pi_div_two]
  have hc : Real.cos (143.638 * (Real.pi / 180)) = - Real.sin azR := by
    rw [show (143.638 : ℝ) * (Real.pi / 180) = azR + Real.pi / 2 by unfold azR; ring, Real.cos_add_pi_div_two]
  have haz : (53.638 : ℝ) * (Real.pi / 180) = azR := by unfold azR; ring
  have hat : AtRootCoords frame proj lon lat (12800 - h) (409600 + d) (204800 + w) (1638400 - 4 * h) := by
    unfold FromCorner at hp
    rw [hs, hc, haz] at hp
    refine ⟨?_, by ring⟩
    rw [hp]
    simp only [frame, Outcome.ok.injEq, Prod.mk.injEq]
    constructor <;> ring
  by_cases hin : inClosed (409600 + d) ∧ inClosed (204800 + w) ∧ inClosed (1638400 - 4 * h)
  · have h0 := toAddr_inside frame_rigid hat hin.1 hin.2.1 hin.2.2 a ha
    refine ⟨_, 0, h0, ?_, ?_⟩
    · obtain ⟨⟨h1, h2⟩, ⟨h3, h4⟩, h5, h6⟩ := hin
      simp only [true_iff]
      refine ⟨⟨?_, ?_⟩, ⟨?_, ?_⟩, ?_, ?_⟩ <;> linarith
    · intro _ n1 n2 n3
      obtain ⟨⟨h1, h2⟩, ⟨h3, h4⟩, h5, h6⟩ := hin
      obtain ⟨b, e1, e2, e3, -, e5⟩ := C01_partial frame_rigid hat
        ⟨h1, lt_of_le_of_ne h2 fun e => n1 (by linarith)⟩ ⟨h3, lt_of_le_of_ne h4 fun e => n2 (by linarith)⟩
        ⟨h5, lt_of_le_of_ne h6 fun e => n3 (by linarith)⟩ a ha
      rw [h0] at e1
      cases e1
      exact ⟨e2, e3, e5⟩
  · refine ⟨_, 1, toAddr_outside frame_rigid hat hin a ha, ?_, fun h => by cases h⟩
    simp only [one_ne_zero, false_iff]
    rintro ⟨⟨h1, h2⟩, ⟨h3, h4⟩, h5, h6⟩
    exact hin ⟨⟨by linarith, by linarith⟩, ⟨by linarith, by linarith⟩, by linarith, by linarith⟩

/-- The corner itself. -/
example : FromCorner ⟨fun _ _ => .ok (-74937.817, 380186.124), fun _ _ => .ub⟩ (-122) 40 0 0 := by
  unfold FromCorner; simp

end CenCalVM
