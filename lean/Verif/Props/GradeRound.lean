/-
C109 to C111: the points and the extraction of the grader with numbers of type `float` and `double`.
-/
import Verif.Lemmas.GradeRound
import Verif.Props.GradeFloat

set_option linter.unusedSectionVars false

namespace CenCalVM
open VsGrader

section
variable {K : Type} [Field K] [LinearOrder K] [IsStrictOrderedRing K] [FloorRing K]

/-! ### C109 -/

theorem quotient_lt {rdb : IntRound K} {len res : K} {n : Nat} (hn : n < 2 ^ 31)
    (h : fl rdb 53 (1 + fl rdb 53 (len / res)) < n + 1) : len / res < 2 ^ 31 := by
  by_contra hc
  have e31 : ((2 ^ 31 : ℤ) : K) = 2 ^ 31 := by norm_num
  have hc' : ((2 ^ 31 : ℤ) : K) ≤ len / res := e31.le.trans (not_lt.1 hc)
  have h1 := fl_ge_int (rdb := rdb) (by norm_num) hc'
  have h2 := fl_ge_int (rdb := rdb) (m := 2 ^ 31) (x := 1 + fl rdb 53 (len / res)) (by norm_num) (by linarith)
  have h3 : ((n + 1 : ℤ) : K) ≤ ((2 ^ 31 : ℤ) : K) := by exact_mod_cast hn
  push_cast at h2 h3
  exact absurd h (not_lt.2 (h3.trans h2))

/-- C109: if the sides of the domain are whole numbers of steps, the numbers of points are exact whatever the rounding: one per step and one
at the start. -/
theorem C109 {rs rdb : IntRound K} {s : Grid K} (hb : s.rd.Binary rs rdb) (hr : 0 < s.resVert) (hv : 0 < s.geom.vertExag) {kL kW kH : Nat}
    (hL : s.domainLen = kL * (s.resVert * s.geom.vertExag)) (hW : s.domainWidth = kW * (s.resVert * s.geom.vertExag))
    (hH : s.domainHt = kH * s.resVert) (bL : kL + 1 < 2 ^ 31) (bW : kW + 1 < 2 ^ 31) (bH : kH + 1 < 2 ^ 31) :
    Dims s (kL + 1) (kW + 1) (kH + 1) ∧ s.numLen = .ok (kL + 1) ∧ s.numWidth = .ok (kW + 1) ∧ s.numHt = .ok (kH + 1) := by
  have hrv := mul_pos hr hv
  have e1 := count_whole (rdb := rdb) hrv bL hL
  have e2 := count_whole (rdb := rdb) hrv bW hW
  have e3 := count_whole (rdb := rdb) hr bH hH
  rw [← hb.2] at e1 e2 e3
  have hd : Dims s (kL + 1) (kW + 1) (kH + 1) :=
    ⟨hr, hv, by rw [e1]; exact ⟨le_rfl, lt_add_one _⟩, by rw [e2]; exact ⟨le_rfl, lt_add_one _⟩, by rw [e3]; exact ⟨le_rfl, lt_add_one _⟩,
      bL, bW, bH⟩
  exact ⟨hd, hd.counts⟩

/-- C109: whatever the sides of the domain, the numbers of points computed in `double` cover it, and no point lies beyond its end by more
than a fraction of 2^-50 of the side and one step. -/
theorem C109_fills {rs rdb : IntRound K} {s : Grid K} {nL nW nH : Nat} (hb : s.rd.Binary rs rdb) (hr : 0 < s.resVert)
    (hv : 0 < s.geom.vertExag) (hL : 0 ≤ s.domainLen) (hW : 0 ≤ s.domainWidth) (hH : 0 ≤ s.domainHt)
    (hd : Dims s nL nW nH) :
    Fills nL s.domainLen (s.resVert * s.geom.vertExag) ∧ Fills nW s.domainWidth (s.resVert * s.geom.vertExag) ∧
      Fills nH s.domainHt s.resVert := by
  have hrv := mul_pos hr hv
  obtain ⟨-, -, h1, h2, h3, b1, b2, b3⟩ := hd
  rw [hb.2] at h1 h2 h3
  exact ⟨fills hrv hL (quotient_lt b1 h1.2) h1.1 h1.2, fills hrv hW (quotient_lt b2 h2.2) h2.1 h2.2, fills hr hH (quotient_lt b3 h3.2) h3.1 h3.2⟩

/-- C109: the numbers of points are defined, and there are points, if the sides are not negative and shorter than 2^31 - 2 steps. -/
theorem C109_defined {rs rdb : IntRound K} {s : Grid K} (hb : s.rd.Binary rs rdb) (hr : 0 < s.resVert)
    (hv : 0 < s.geom.vertExag) (hL : 0 ≤ s.domainLen ∧ s.domainLen < (2 ^ 31 - 2) * (s.resVert * s.geom.vertExag))
    (hW : 0 ≤ s.domainWidth ∧ s.domainWidth < (2 ^ 31 - 2) * (s.resVert * s.geom.vertExag))
    (hH : 0 ≤ s.domainHt ∧ s.domainHt < (2 ^ 31 - 2) * s.resVert) :
    ∃ nL nW nH : Nat, Dims s nL nW nH ∧ (0 < nL ∧ 0 < nW ∧ 0 < nH) ∧ s.numLen = .ok nL ∧ s.numWidth = .ok nW ∧ s.numHt = .ok nH := by
  have hrv := mul_pos hr hv
  obtain ⟨nL, a1, a2, a3, a4⟩ := exists_count (rdb := rdb) hrv hL.1 ((div_lt_iff₀ hrv).2 hL.2)
  obtain ⟨nW, c1, c2, c3, c4⟩ := exists_count (rdb := rdb) hrv hW.1 ((div_lt_iff₀ hrv).2 hW.2)
  obtain ⟨nH, d1, d2, d3, d4⟩ := exists_count (rdb := rdb) hr hH.1 ((div_lt_iff₀ hr).2 hH.2)
  rw [← hb.2] at a1 a2 c1 c2 d1 d2
  have hd : Dims s nL nW nH := ⟨hr, hv, ⟨a1, a2⟩, ⟨c1, c2⟩, ⟨d1, d2⟩, a3, c3, d3⟩
  exact ⟨nL, nW, nH, hd, ⟨a4, c4, d4⟩, hd.counts⟩

/-! ### C110 -/

/-- C110: the point `(l, w, h)` of the grid, computed in `double`, is the image under the projection of a point of the plane that differs from
the exact one, `l` steps along the length and `w` along the width from the corner, by no more than a fraction of 2^-49 of the numbers added;
its elevation differs from the exact one by no more than a fraction of 2^-50. -/
theorem C110 {rs rdb : IntRound K} {s : Grid K} (hb : s.rd.Binary rs rdb) (hr : 0 < s.resVert)
    (hv : 0 < s.geom.vertExag) {l w h : Nat} {lon lat elev : K} (hp : s.loc l w h = .ok (lon, lat, elev)) :
    ∃ x y, s.proj.invProject x y = .ok (lon, lat) ∧
      |x - (s.swX + l * (s.resVert * s.geom.vertExag) * s.sinAz + w * (s.resVert * s.geom.vertExag) * s.cosAz)| ≤
        (|s.swX| + l * (s.resVert * s.geom.vertExag) * |s.sinAz| + w * (s.resVert * s.geom.vertExag) * |s.cosAz|) / 2 ^ 49 ∧
      |y - (s.swY + l * (s.resVert * s.geom.vertExag) * s.cosAz - w * (s.resVert * s.geom.vertExag) * s.sinAz)| ≤
        (|s.swY| + l * (s.resVert * s.geom.vertExag) * |s.cosAz| + w * (s.resVert * s.geom.vertExag) * |s.sinAz|) / 2 ^ 49 ∧
      |elev - (s.swElev - h * s.resVert)| ≤ (|s.swElev| + h * s.resVert) / 2 ^ 50 := by
  have hrv := (mul_pos hr hv).le
  obtain ⟨h1, h2⟩ := loc_pointAt hp
  have hd : s.rd.double = fl rdb 53 := hb.2
  simp only at h2
  simp only [Steps, hd] at h1 h2
  have hl : (0 : K) ≤ l * (s.resVert * s.geom.vertExag) := mul_nonneg (Nat.cast_nonneg l) hrv
  have hw : (0 : K) ≤ w * (s.resVert * s.geom.vertExag) := mul_nonneg (Nat.cast_nonneg w) hrv
  refine ⟨_, _, h1, plane_close _ _ _ _ _ _ hl hw, ?_, ?_⟩
  · exact plane_close_sub _ _ _ _ _ _ hl hw
  · rw [h2]; exact elev_close _ _ _ (mul_nonneg (Nat.cast_nonneg h) hr.le)

/-- C110: if elevation of the corner and spacing are multiples of a power of two, such as whole metres, the elevations are exact. -/
theorem C110_exact {rs rdb : IntRound K} {s : Grid K} (hb : s.rd.Binary rs rdb) {a b e : ℤ} (ha : s.swElev = a * 2 ^ e)
    (hr : s.resVert = b * 2 ^ e) {h : Nat} (hlt : |a| + h * |b| < 2 ^ 53) : s.elev h = s.swElev - h * s.resVert := by
  have hd : s.rd.double = fl rdb 53 := hb.2
  unfold Grid.elev
  have h0 : |(h : ℤ) * b| = h * |b| := by rw [abs_mul, Nat.abs_cast]
  have e1 : (h : K) * s.resVert = ((h * b : ℤ) : K) * 2 ^ e := by rw [hr]; push_cast; ring
  have e2 : s.swElev - ((h * b : ℤ) : K) * 2 ^ e = ((a - h * b : ℤ) : K) * 2 ^ e := by rw [ha]; push_cast; ring
  have ha0 := abs_nonneg a
  rw [hd, e1, fl_exact (by norm_num) (by rw [h0]; linarith), e2]
  refine fl_exact (by norm_num) (lt_of_le_of_lt ?_ hlt)
  rw [sub_eq_add_neg, ← h0, ← abs_neg ((h : ℤ) * b)]
  exact abs_add_le _ _

/-! ### C111 -/

/-- C111: an extraction that ends normally leaves, in single precision, in the octants of the points what the query object answered at them: marked where there is no
speed, otherwise every value within a fraction of 2^-23 of the answer, the speed raised to the minimum. -/
theorem C111 {rs rdb : IntRound K} {fmt : Fmt K} {env : EtreeEnv} {s : Grid K} {nm : Names K} {gq : Geom K} {fs : Files}
    {disk disk' : EtreeDisk K} {n nL nW nH : Nat} (hb : s.rd.Binary rs rdb) (hgq : gq.Lawful)
    (hlv : s.geom.level (s.resVert * s.geom.vertExag) = .ok (n : Int)) (hd : Dims s nL nW nH)
    (hpos : 0 < nL ∧ 0 < nW ∧ 0 < nH) (h : extract fmt env s nm gq fs disk = .ok disk' ()) :
    ∃ fi q f es, disk nm.fileIn = some fi ∧ QueryFor s.rd gq fi.db nm.queryType nm.queryRes q ∧ disk' nm.fileTmp = some f ∧
      f.db.entries.Perm es ∧ List.Forall₂ (fun pt e => ∃ lon lat elev p code, s.loc pt.1 pt.2.1 pt.2.2 = .ok (lon, lat, elev) ∧
        s.geom.lonLatElevToAddr { x := 0, y := 0, z := 0, level := n, type := .leaf } lon lat elev = .ok (e.addr, code) ∧
        PayloadOf fmt q lon lat elev p ∧ ((p.vs < 0 ∧ Marked e.payload) ∨ (0 ≤ p.vs ∧ StoredFrom s.minVs p e.payload)))
        (points nL nW nH) es := by
  obtain ⟨fi, q, f, es, a1, a2, a3, -, a5, a6, -⟩ := C54 hgq hlv hd hpos h
  refine ⟨fi, q, f, es, a1, a2, a3, a5, a6.imp fun pt e he => ?_⟩
  obtain ⟨lon, lat, elev, p, code, c1, c2, c3, c4⟩ := he
  refine ⟨lon, lat, elev, p, code, loc_of_pointAt c1, c3, c2, ?_⟩
  rcases storedFrom hb c4 with c5 | ⟨c5, c6, -⟩
  · exact Or.inl c5
  · exact Or.inr ⟨c5, c6⟩

/-- C111: no speed in the temporary file is below the minimum rounded to single precision, which is the minimum if that is a `float`. -/
theorem C111_floor {rs rdb : IntRound K} {fmt : Fmt K} {env : EtreeEnv} {s : Grid K} {nm : Names K} {gq : Geom K} {fs : Files}
    {disk disk' : EtreeDisk K} {n nL nW nH : Nat} (hb : s.rd.Binary rs rdb) (hgq : gq.Lawful)
    (hlv : s.geom.level (s.resVert * s.geom.vertExag) = .ok (n : Int)) (hd : Dims s nL nW nH)
    (hpos : 0 < nL ∧ 0 < nW ∧ 0 < nH) (h : extract fmt env s nm gq fs disk = .ok disk' ()) :
    ∃ f, disk' nm.fileTmp = some f ∧ ∀ e ∈ f.db.entries, Marked e.payload ∨
      (0 ≤ e.payload.vs ∧ fl rs 24 s.minVs ≤ e.payload.vs ∧ (fl rs 24 s.minVs = s.minVs → s.minVs ≤ e.payload.vs) ∧
        s.minVs - |s.minVs| / 2 ^ 23 ≤ e.payload.vs) := by
  obtain ⟨fi, q, f, es, -, -, a3, -, a5, a6, -⟩ := C54 hgq hlv hd hpos h
  refine ⟨f, a3, fun e he => ?_⟩
  obtain ⟨i, hi, rfl⟩ := List.getElem_of_mem (a5.subset he)
  have := (List.forall₂_iff_get.1 a6).2 i (by rw [a6.length_eq]; exact hi) hi
  simp only [List.get_eq_getElem] at this
  obtain ⟨lon, lat, elev, p, code, -, -, -, c4⟩ := this
  rcases storedFrom hb c4 with ⟨-, c5⟩ | ⟨-, -, c5, c6, -⟩
  · exact Or.inl c5
  · refine Or.inr ⟨c5, c6, fun hm => by rwa [hm] at c6, ?_⟩
    have := (abs_le.1 (fl_error (ri := rs) (prec := 24) s.minVs)).1
    norm_num at this c6 ⊢
    linarith

/-- C111, whole run: the output file holds every point of the grid and nothing else; no speed is below the minimum rounded to single
precision; neighbours differ by at most the maximum gradient times the spacing, up to a factor of (1 + 2^-22)^k, with `k` eight times the sum
of the numbers of points along the axes plus two. -/
theorem C111_run {rs rdb : IntRound K} {fmt : Fmt K} {env : EtreeEnv} {s : Grid K} {nm : Names K} {gq : Geom K} {junk : Payload K}
    {fs : Files} {disk disk' : EtreeDisk K} {n nL nW nH : Nat} (hg : s.geom.Lawful) (hb : s.rd.Binary rs rdb) (hgq : gq.Lawful)
    (hm : 0 ≤ s.gradientMax) (hlv : s.geom.level (s.resVert * s.geom.vertExag) = .ok (n : Int)) (hd : Dims s nL nW nH)
    (hpos : 0 < nL ∧ 0 < nW ∧ 0 < nH) (hin : ∀ l < nL, ∀ w < nW, ∀ h < nH, ∃ a, PointCell s n l w h a) (hmin : s.minVs ≤ 10 ^ 10)
    (h : run fmt env s nm gq junk fs disk = .ok disk' ()) :
    ∃ f, disk' nm.fileOut = some f ∧ OnGrid s n nL nW nH f.db ∧ f.db.entries.length = nL * nW * nH ∧
      ∃ v : Nat → Nat → Nat → K, (∀ l < nL, ∀ w < nW, ∀ h < nH, ∀ p, PointPayload s n f.db l w h p → p.vs = v l w h) ∧
        (∀ l < nL, ∀ w < nW, ∀ h < nH, 0 ≤ v l w h ∧ fl rs 24 s.minVs ≤ v l w h) ∧
        Bounded3UpTo ((1 + 1 / 2 ^ 22) ^ (8 * (nL + nW + nH) + 2)) (s.gradientMax * (s.resVert * s.geom.vertExag))
          (s.gradientMax * s.resVert) nL nW nH v := by
  obtain ⟨h1, h2, h3⟩ := hd.counts
  have hne : points nL nW nH ≠ [] := List.ne_nil_of_mem (mem_points.2 hpos)
  obtain ⟨fi, q, f, V, a1, a2, a3, a4, a5, a6, a7⟩ := run_ok hg hlv hgq h1 h2 h3 hne hin h
  obtain ⟨m1, m2⟩ := hd.res hm
  have hn := hb.near
  have hV : ∀ l < nL, ∀ w < nW, ∀ i < nH, 0 ≤ (V l w i).vs ∧ fl rs 24 s.minVs ≤ (V l w i).vs := by
    intro l hl w hw i hi
    obtain ⟨lon, lat, elev, p, -, -, he⟩ := a6 l hl w hw i hi
    rcases storedFrom hb he with ⟨-, c5⟩ | ⟨-, -, c5, c6, -⟩
    · rw [c5]
      refine ⟨by norm_num, ?_⟩
      have := fl_mono (ri := rs) (prec := 24) (by norm_num) hmin
      rwa [fl_marker] at this
    · exact ⟨c5, c6⟩
  have hfix : fl rs 24 (fl rs 24 s.minVs) = fl rs 24 s.minVs := fl_fl (by norm_num) le_rfl _
  have hnear := fun l hl w hw i hi => passes_near hn m1 m2 (hn.double.nonneg hn.one m1) (hn.double.nonneg hn.one m2) hn.one
    (hn.double.within m1) (hn.double.within m2) (fun l hl w hw i hi => (hV l hl w hw i hi).1) (fun l hl w hw i hi => (hV l hl w hw i hi).1)
    (fun l hl w hw i hi => Within.refl hn.one (hV l hl w hw i hi).1) (nL := nL) (nW := nW) (nH := nH) l hl w hw i hi
  refine ⟨f, a3, a4, ?_, _, fun l hl w hw i hi p hp => by rw [(a7 l hl w hw i hi p).1 hp], fun l hl w hw i hi => ⟨(hnear l hl w hw i hi).1, ?_⟩,
    (passes_bounded m1 m2 nL nW nH V).upTo m1 m2 hn.one fun l hl w hw i hi => ?_⟩
  · rw [a5]
    simp [points, List.length_flatMap, Nat.mul_assoc]
  · exact passes_floor (hb.keeps hfix) (hn.double.nonneg hn.one m1) (hn.double.nonneg hn.one m2)
      (fun l hl w hw i hi => (hV l hl w hw i hi).2) l hl w hw i hi
  · rw [pow_succ']
    exact hnear l hl w hw i hi

end

/-! ### Examples -/

/-- Sides of 3, 2 and 5 steps. -/
example : exGridF.rd.Binary IntRound.nearest IntRound.nearest ∧ 0 < exGridF.resVert ∧ 0 < exGridF.geom.vertExag ∧
    ({ exGridF with domainLen := 1200, domainWidth := 800, domainHt := 500 } : Grid ℚ).numLen = .ok 4 ∧
    (1200 : ℚ) = (3 : Nat) * (exGridF.resVert * exGridF.geom.vertExag) ∧ (500 : ℚ) = (5 : Nat) * exGridF.resVert :=
  ⟨exRd_binary, by decide +kernel, by decide +kernel, by decide +kernel, by decide +kernel, by decide +kernel⟩

/-- The sides of the example grid are not whole numbers of steps. -/
example : Dims exGridF 2 2 2 ∧ 0 ≤ exGridF.domainLen ∧ exGridF.domainLen / (exGridF.resVert * exGridF.geom.vertExag) = 5 / 4 ∧
    exGridF.domainLen < (2 ^ 31 - 2) * (exGridF.resVert * exGridF.geom.vertExag) :=
  ⟨exGridF_dims, by decide +kernel, by decide +kernel, by decide +kernel⟩

/-- A grid of spacing 64 m whose height is the largest number of type `double` below 64. -/
def exGridThin : Grid ℚ := { exGridF with resVert := 64, domainHt := 64 - 1 / 2 ^ 47 }

/-- C109 with "no point lies beyond the end" is false: sides and spacing are numbers of type `double`, and the second point is at 64 m
below a domain of a height less than 64 m. -/
theorem C109_over : exGridThin.rd.Binary IntRound.nearest IntRound.nearest ∧ fl IntRound.nearest 53 exGridThin.domainHt = exGridThin.domainHt ∧
    exGridThin.numHt = .ok 2 ∧ exGridThin.domainHt < exGridThin.resVert ∧ exGridThin.elev 1 = exGridThin.swElev - 64 :=
  ⟨⟨rfl, rfl⟩, by decide +kernel, by decide +kernel, by decide +kernel, by decide +kernel⟩

/-- A point of a grid whose directions are numbers of type `double`: its place in the plane is rounded. -/
def exGridTilt : Grid ℚ :=
  { exGridF with swElev := fl IntRound.nearest 53 (-501 / 10), sinAz := fl IntRound.nearest 53 (4 / 5), cosAz := fl IntRound.nearest 53 (3 / 5) }

/-- The elevation is rounded. -/
example : exGridTilt.rd.Binary IntRound.nearest IntRound.nearest ∧ 0 < exGridTilt.resVert ∧ 0 < exGridTilt.geom.vertExag ∧
    (match exGridTilt.loc 1 1 1 with | .ok r => decide (r.2.2 ≠ exGridTilt.swElev - 100) | _ => false) = true :=
  ⟨⟨rfl, rfl⟩, by decide +kernel, by decide +kernel, by decide +kernel⟩

/-- Whole metres. -/
example : exGridF.swElev = ((-50 : ℤ) : ℚ) * 2 ^ (0 : ℤ) ∧ exGridF.resVert = ((100 : ℤ) : ℚ) * 2 ^ (0 : ℤ) ∧
    |(-50 : ℤ)| + (7 : Nat) * |100| < 2 ^ 53 ∧ exGridF.elev 7 = -750 := by
  refine ⟨by norm_num [exGridF, exGrid], by norm_num [exGridF, exGrid], by norm_num, by decide +kernel⟩

/-- The example grid with a minimum speed of 400.3 m/s. -/
def exGridMin : Grid ℚ := { exGridF with minVs := fl IntRound.nearest 53 (4003 / 10) }

/-- C111 with "no speed is below the minimum" is false: the minimum, rounded to single precision, is stored, and it is less. -/
theorem C111_below : exGridMin.rd.Binary IntRound.nearest IntRound.nearest ∧ ∃ v < exGridMin.minVs,
    exRunSpeeds "tmp" (extract exFmt exEtree exGridMin exNames exGeom (fun _ => "") exGradeDisk) =
      some [some v, some 3000, some 3000, some 3000, some 3000, some 3000, some 3000, some 3000] :=
  ⟨⟨rfl, rfl⟩, fl IntRound.nearest 24 (fl IntRound.nearest 53 (4003 / 10)), by decide +kernel, by decide +kernel⟩

/-- The extraction and the whole run end normally. -/
example : exGridF.geom.Lawful ∧ exGeom.Lawful ∧ (∀ l < 2, ∀ w < 2, ∀ h < 2, ∃ a, PointCell exGridF 12 l w h a) ∧ exGridF.minVs ≤ 10 ^ 10 ∧
    exRunSpeeds "tmp" (extract exFmt exEtree exGridF exNames exGeom (fun _ => "") exGradeDisk) =
      some [some 400, some 3000, some 3000, some 3000, some 3000, some 3000, some 3000, some 3000] ∧
    (exRunSpeeds "out" (run exFmt exEtree exGridF exNames exGeom (exPay 0 0) (fun _ => "") exGradeDisk)).isSome = true :=
  ⟨exGradeGeom_lawful, exGeom_lawful, fun l hl w hw h hh => ⟨_, exGridF_cell l hl w hw h hh⟩, by decide +kernel, by decide +kernel,
    by decide +kernel⟩

end CenCalVM
