/-
Properties C47 to C51, C54 and C55: extracting a grid of points and limiting the gradient of the shear wave speed.
-/
import Verif.Lemmas.GradeRun
import Verif.Lemmas.GradeTotal
import Verif.Props.Create

set_option linter.unusedSectionVars false

namespace CenCalVM
open VsGrader

section
variable {K : Type} [Field K] [LinearOrder K] [IsStrictOrderedRing K]

/-! ### C47 -/

/-- C47: after limiting, neighbours differ by at most the maximum. -/
theorem C47 {m : K} (hm : 0 ≤ m) (n : Nat) (d : Nat → Payload K) :
    ∀ i, i + 1 < n → |((limitDiff .exact m n d).data (i + 1)).vs - ((limitDiff .exact m n d).data i).vs| ≤ m := by
  intro i hi
  obtain ⟨h1, h2⟩ := limitDiff_step (d := d) hm hi
  exact abs_le.2 ⟨by linarith, by linarith⟩

/-- Shear wave speeds of a line. -/
def exLine (l : List ℚ) (i : Nat) : Payload ℚ := exPay (l.getD i 0) 1

/-- Both sweeps are needed. -/
example : ((List.range 5).map fun i => ((limitDiff .exact 100 5 (exLine [900, 300, 1000, 1000, 150])).data i).vs) =
    [400, 300, 350, 250, 150] := by decide +kernel

/-! ### C48 -/

/-- C48: limiting never raises a speed, and the result is the greatest line that respects the maximum difference and nowhere
exceeds the original. -/
theorem C48 (m : K) (n : Nat) (d : Nat → Payload K) :
    (∀ i, ((limitDiff .exact m n d).data i).vs ≤ (d i).vs) ∧
      ∀ f : Nat → K, (∀ i, i + 1 < n → |f (i + 1) - f i| ≤ m) → (∀ i < n, f i ≤ (d i).vs) →
        ∀ i < n, f i ≤ ((limitDiff .exact m n d).data i).vs :=
  ⟨limitDiff_le, fun _ h1 h2 _ hi => limitDiff_minorant h1 h2 hi⟩

/-- A competing line. -/
example : (∀ i, i + 1 < 3 → |((fun _ => 200 : Nat → ℚ) (i + 1)) - 200| ≤ 100) ∧
    ∀ i < 3, (200 : ℚ) ≤ (exLine [900, 300, 1000] i).vs := ⟨by simp, by decide +kernel⟩

/-- C48: limiting twice equals limiting once: the second time no payload changes and no point is flagged. -/
theorem C48_idempotent {m : K} (hm : 0 ≤ m) (n : Nat) (d : Nat → Payload K) :
    (limitDiff .exact m n (limitDiff .exact m n d).data).data = (limitDiff .exact m n d).data ∧
      ∀ i, (limitDiff .exact m n (limitDiff .exact m n d).data).changed i = false := by
  rw [limitDiff_id (C47 hm n d)]
  exact ⟨rfl, fun _ => rfl⟩

example : (0 : ℚ) ≤ 100 := by norm_num

/-! ### C49 -/

/-- C49: the other properties keep their ratios to the speed, which stays positive; depth, fault block and zone are
untouched; a point is flagged exactly if its speed changed, and a point that is not flagged has its old payload. -/
theorem C49 {m : K} (hm : 0 ≤ m) {n : Nat} {d : Nat → Payload K} (hd : ∀ i < n, 0 < (d i).vs) {i : Nat} (hi : i < n) :
    0 < ((limitDiff .exact m n d).data i).vs ∧
      ((limitDiff .exact m n d).data i).vp / ((limitDiff .exact m n d).data i).vs = (d i).vp / (d i).vs ∧
      ((limitDiff .exact m n d).data i).density / ((limitDiff .exact m n d).data i).vs = (d i).density / (d i).vs ∧
      ((limitDiff .exact m n d).data i).qp / ((limitDiff .exact m n d).data i).vs = (d i).qp / (d i).vs ∧
      ((limitDiff .exact m n d).data i).qs / ((limitDiff .exact m n d).data i).vs = (d i).qs / (d i).vs ∧
      ((limitDiff .exact m n d).data i).depth = (d i).depth ∧ ((limitDiff .exact m n d).data i).faultBlock = (d i).faultBlock ∧
      ((limitDiff .exact m n d).data i).zone = (d i).zone ∧
      ((limitDiff .exact m n d).changed i = true ↔ ((limitDiff .exact m n d).data i).vs ≠ (d i).vs) ∧
      ((limitDiff .exact m n d).changed i = false → (limitDiff .exact m n d).data i = d i) := by
  have hlow : ∀ k, (∀ i < k, 0 < (d i).vs) → ∃ c : K, 0 < c ∧ ∀ i < k, c ≤ (d i).vs := by
    intro k
    induction k with
    | zero => exact fun _ => ⟨1, one_pos, fun i hi => absurd hi (Nat.not_lt_zero i)⟩
    | succ k ih =>
      intro h
      obtain ⟨c, hc, hle⟩ := ih fun i hi => h i (by omega)
      refine ⟨min c (d k).vs, lt_min hc (h k (by omega)), fun i hi => ?_⟩
      rcases Nat.lt_or_eq_of_le (Nat.lt_succ_iff.1 hi) with hlt | rfl
      · exact (min_le_left _ _).trans (hle i hlt)
      · exact min_le_right _ _
  obtain ⟨c, hc, hle⟩ := hlow n hd
  have hpos : 0 < ((limitDiff .exact m n d).data i).vs :=
    hc.trans_le (limitDiff_minorant (f := fun _ => c) (fun _ _ => by simpa using hm) hle hi)
  obtain ⟨-, hs, hch⟩ := limitDiff_scaled hm (fun i hi => (hd i hi).le) hi
  have hdi := hd i hi
  refine ⟨hpos, ?_, ?_, ?_, ?_, hs.depth, hs.faultBlock, hs.zone, ?_, limitDiff_unchanged⟩
  · rw [div_eq_div_iff hpos.ne' hdi.ne', hs.vp]
  · rw [div_eq_div_iff hpos.ne' hdi.ne', hs.density]
  · rw [div_eq_div_iff hpos.ne' hdi.ne', hs.qp]
  · rw [div_eq_div_iff hpos.ne' hdi.ne', hs.qs]
  · rw [hch]
    exact ⟨fun h => h.ne, fun h => lt_of_le_of_ne hs.le h⟩

/-- Two of three points are flagged. -/
example : (∀ i < 3, 0 < (exLine [900, 300, 1000] i).vs) ∧
    ((List.range 3).map fun i => (limitDiff .exact 100 3 (exLine [900, 300, 1000])).changed i) = [true, false, true] ∧
    (limitDiff .exact 100 3 (exLine [900, 300, 1000])).data 0 = ⟨800, 400, 2500 * (400 / 900), 100 * (400 / 900), 50 * (400 / 900), 30, 1, 7⟩ := by
  decide +kernel

end

/-! ### Example data -/

/-- Geometry with cells of 400 m. -/
def exGradeGeom : Geom ℚ := GeomCenCA.geom exFrame exProj (fun _ => .ok 12)
/-- A grid of two points along every axis. -/
def exGrid : Grid ℚ where
  gradientMax := 1
  minVs := 400
  swElev := -50
  swX := 280
  swY := -40
  domainLen := 500
  domainWidth := 400
  domainHt := 150
  resVert := 100
  sinAz := 4 / 5
  cosAz := 3 / 5
  proj := exProj
  geom := exGradeGeom
/-- The location of a point. -/
def exLoc (l w h : Nat) : ℚ × ℚ × ℚ := (280 + l * 320 + w * 240, -40 + l * 240 - w * 320, -50 - h * 100)
/-- The address of a point. -/
def exPointAddr (l w h : Nat) : Addr :=
  ⟨⟨if w = 0 then 0 else 0x80000, if l = 0 then 0 else 0x80000, if h = 0 then 0x7bf80000 else 0x7bf00000, 12⟩, .leaf⟩
/-- A database holding the grid, with given speeds. -/
def exGridDb (v : Nat → Nat → Nat → ℚ) : Db ℚ :=
  ⟨[(0, 0, 1), (0, 1, 1), (1, 0, 1), (1, 1, 1), (0, 0, 0), (0, 1, 0), (1, 0, 0), (1, 1, 0)].map fun x =>
    (⟨exPointAddr x.1 x.2.1 x.2.2, exPay (v x.1 x.2.1 x.2.2) 1⟩ : Entry ℚ)⟩
/-- 500 at the first point, 3000 elsewhere. -/
def exSpeeds (l w h : Nat) : ℚ := if (l, w, h) = (0, 0, 0) then 500 else 3000

theorem exGradeGeom_lawful : exGradeGeom.Lawful := GeomCenCA.geom_lawful _ _ _
theorem exGrid_exact : exGrid.rd.Exact := fun _ => ⟨rfl, rfl⟩
theorem exGrid_dims : Dims exGrid 2 2 2 := by
  constructor <;> norm_num [exGrid, exGradeGeom, GeomCenCA.geom, GeomCenCA.VERTEXAG, Rd.exact]
theorem exGrid_level : exGrid.geom.level (exGrid.resVert * exGrid.geom.vertExag) = .ok ((12 : Nat) : Int) := rfl
theorem exGrid_cell : ∀ l < 2, ∀ w < 2, ∀ h < 2, PointCell exGrid 12 l w h (exPointAddr l w h) := by
  have key : ∀ x ∈ points 2 2 2, PointAt exGrid x.1 x.2.1 x.2.2 (exLoc x.1 x.2.1 x.2.2).1 (exLoc x.1 x.2.1 x.2.2).2.1
      (exLoc x.1 x.2.1 x.2.2).2.2 ∧ CellOf exGrid.geom 12 (exLoc x.1 x.2.1 x.2.2).1 (exLoc x.1 x.2.1 x.2.2).2.1
      (exLoc x.1 x.2.1 x.2.2).2.2 (exPointAddr x.1 x.2.1 x.2.2) := by
    unfold PointAt Steps CellOf
    decide +kernel
  exact fun l hl w hw h hh => ⟨_, _, _, key (l, w, h) (mem_points.2 ⟨hl, hw, hh⟩)⟩
theorem onGrid_of_cells {s : Grid ℚ} (hcell : ∀ l < 2, ∀ w < 2, ∀ h < 2, PointCell s 12 l w h (exPointAddr l w h))
    (v : Nat → Nat → Nat → ℚ) : OnGrid s 12 2 2 2 (exGridDb v) := by
  have haddr : ∀ x ∈ points 2 2 2, ∀ y ∈ points 2 2 2,
      (exPointAddr x.1 x.2.1 x.2.2).toKey = (exPointAddr y.1 y.2.1 y.2.2).toKey → x = y := by decide +kernel
  have hall : ∀ x ∈ points 2 2 2, x ∈ [(0, 0, 1), (0, 1, 1), (1, 0, 1), (1, 1, 1), (0, 0, 0), (0, 1, 0), (1, 0, 0), (1, 1, 0)] := by
    decide +kernel
  refine ⟨?_, ?_, ?_, ?_⟩
  · unfold Db.Sorted exGridDb
    rw [List.pairwise_map]
    show List.Pairwise (fun a b : Nat × Nat × Nat => (exPointAddr a.1 a.2.1 a.2.2).zkey < (exPointAddr b.1 b.2.1 b.2.2).zkey) _
    decide +kernel
  · intro e he
    simp only [exGridDb, List.mem_map] at he
    obtain ⟨x, -, rfl⟩ := he
    rfl
  · intro l hl w hw h hh
    refine ⟨exPay (v l w h) 1, _, hcell l hl w hw h hh, _, List.mem_map.2 ⟨(l, w, h), hall _ (mem_points.2 ⟨hl, hw, hh⟩), rfl⟩, rfl, rfl⟩
  · intro l hl w hw h hh l' hl' w' hw' h' hh' a a' ha ha' hk
    rw [pointCell_unique ha (hcell l hl w hw h hh), pointCell_unique ha' (hcell l' hl' w' hw' h' hh')] at hk
    simpa using haddr (l, w, h) (mem_points.2 ⟨hl, hw, hh⟩) (l', w', h') (mem_points.2 ⟨hl', hw', hh'⟩) hk
theorem exGridDb_onGrid (v : Nat → Nat → Nat → ℚ) : OnGrid exGrid 12 2 2 2 (exGridDb v) := onGrid_of_cells exGrid_cell v

/-- The speeds a method leaves for the points of the example grid. -/
def exGradeSpeeds (r : Run (Db ℚ) Unit) : Option (List (Option ℚ)) :=
  match r with
  | .ok db _ => some ((points 2 2 2).map fun x => (db.lookup (exPointAddr x.1 x.2.1 x.2.2).toKey).map fun e => e.payload.vs)
  | _ => none

/-- A model without overlapping octants is not needed: the root, and a finer leaf at the first point. -/
def exGradeIn : Db ℚ := ⟨[⟨⟨⟨0, 0, 0, 0⟩, .leaf⟩, exPay 3000 2⟩, ⟨⟨⟨0, 0, 0x7bf80000, 12⟩, .leaf⟩, exPay 300 1⟩]⟩
/-- Names of a run. -/
def exNames : Names ℚ := ⟨"in", "tmp", "out", 0, 0, 64, "d", "t"⟩
/-- The files before the run. -/
def exGradeDisk : EtreeDisk ℚ := fun n => if n = "in" then some ⟨exGradeIn, some SCHEMA, some "m"⟩ else none
/-- The speeds a run leaves in a file. -/
def exRunSpeeds (name : String) (r : Run (EtreeDisk ℚ) Unit) : Option (List (Option ℚ)) :=
  match r with
  | .ok disk _ => (disk name).map fun f => (points 2 2 2).map fun x =>
      (f.db.lookup (exPointAddr x.1 x.2.1 x.2.2).toKey).map fun e => e.payload.vs
  | _ => none

section
variable {K : Type} [Field K] [LinearOrder K] [IsStrictOrderedRing K] [FloorRing K]

/-! ### C50 -/

/-- C50: grading a database that holds the grid ends normally, keeps the octants, and leaves speeds whose neighbours differ,
along each of the three axes, by at most the maximum gradient times the spacing along the axis. -/
theorem C50 {s : Grid K} {n nL nW nH : Nat} (hg : s.geom.Lawful) (hx : s.rd.Exact) (hm : 0 ≤ s.gradientMax)
    (hlv : s.geom.level (s.resVert * s.geom.vertExag) = .ok (n : Int)) (hd : Dims s nL nW nH) {db : Db K}
    (ho : OnGrid s n nL nW nH db) (junk : Payload K) :
    ∃ db', grade s junk db = .ok db' () ∧ OnGrid s n nL nW nH db' ∧ db'.entries.map (·.addr) = db.entries.map (·.addr) ∧
      ∃ v : Nat → Nat → Nat → K, (∀ l < nL, ∀ w < nW, ∀ h < nH, ∀ p, PointPayload s n db' l w h p → p.vs = v l w h) ∧
        Bounded3 (s.gradientMax * (s.resVert * s.geom.vertExag)) (s.gradientMax * s.resVert) nL nW nH v := by
  obtain ⟨db', h1, h2, h3, V, -, h5⟩ := grade_dims hg hlv hd ho junk
  obtain ⟨m1, m2⟩ := hd.res hm
  exact ⟨db', h1, h2, h3, _, fun l hl w hw h hh p hp => by rw [(h5 l hl w hw h hh p).1 hp, hx.passes_eq], passes_bounded m1 m2 nL nW nH V⟩

/-- The slow point reduces all others; the bounds are 400 m/s horizontally and 100 m/s vertically. -/
example : exGrid.geom.Lawful ∧ exGrid.rd.Exact ∧ (0 : ℚ) ≤ exGrid.gradientMax ∧
    exGrid.geom.level (exGrid.resVert * exGrid.geom.vertExag) = .ok ((12 : Nat) : Int) ∧ Dims exGrid 2 2 2 ∧
    OnGrid exGrid 12 2 2 2 (exGridDb exSpeeds) ∧
    exGradeSpeeds (grade exGrid (exPay 0 0) (exGridDb exSpeeds)) =
      some [some 500, some 600, some 900, some 1000, some 900, some 1000, some 1300, some 1400] :=
  ⟨exGradeGeom_lawful, Rd.exact_exact, by decide +kernel, exGrid_level, exGrid_dims, exGridDb_onGrid _, by decide +kernel⟩

/-- C50 for the whole run (extraction, packing, grading), whatever fails in between: if it ends normally, the output file
exists, holds one octant per point of the grid and nothing else, and respects the bounds. -/
theorem C50_run {fmt : Fmt K} {env : EtreeEnv} {s : Grid K} {nm : Names K} {gq : Geom K} {junk : Payload K} {fs : Files}
    {disk disk' : EtreeDisk K} {n nL nW nH : Nat} (hg : s.geom.Lawful) (hx : s.rd.Exact) (hgq : gq.Lawful) (hm : 0 ≤ s.gradientMax)
    (hlv : s.geom.level (s.resVert * s.geom.vertExag) = .ok (n : Int)) (hd : Dims s nL nW nH) (hpos : 0 < nL ∧ 0 < nW ∧ 0 < nH)
    (hin : ∀ l < nL, ∀ w < nW, ∀ h < nH, ∃ a, PointCell s n l w h a)
    (h : run fmt env s nm gq junk fs disk = .ok disk' ()) :
    ∃ f, disk' nm.fileOut = some f ∧ OnGrid s n nL nW nH f.db ∧ f.db.entries.length = nL * nW * nH ∧
      ∃ v : Nat → Nat → Nat → K, (∀ l < nL, ∀ w < nW, ∀ h < nH, ∀ p, PointPayload s n f.db l w h p → p.vs = v l w h) ∧
        Bounded3 (s.gradientMax * (s.resVert * s.geom.vertExag)) (s.gradientMax * s.resVert) nL nW nH v := by
  obtain ⟨h1, h2, h3⟩ := hd.counts
  have hne : points nL nW nH ≠ [] := List.ne_nil_of_mem (mem_points.2 hpos)
  obtain ⟨fi, q, f, V, a1, a2, a3, a4, a5, a6, a7⟩ := run_ok hg hlv hgq h1 h2 h3 hne hin h
  obtain ⟨m1, m2⟩ := hd.res hm
  refine ⟨f, a3, a4, ?_, _, fun l hl w hw h hh p hp => by rw [(a7 l hl w hw h hh p).1 hp, hx.passes_eq], passes_bounded m1 m2 nL nW nH V⟩
  rw [a5]
  simp [points, List.length_flatMap, Nat.mul_assoc]

/-- The slow leaf is raised to the minimum and then limits its neighbours. -/
example : exGrid.geom.Lawful ∧ exGeom.Lawful ∧ (∀ l < 2, ∀ w < 2, ∀ h < 2, ∃ a, PointCell exGrid 12 l w h a) ∧
    exRunSpeeds "out" (run exFmt exEtree exGrid exNames exGeom (exPay 0 0) (fun _ => "") exGradeDisk) =
      some [some 400, some 500, some 800, some 900, some 800, some 900, some 1200, some 1300] :=
  ⟨exGradeGeom_lawful, exGeom_lawful, fun l hl w hw h hh => ⟨_, exGrid_cell l hl w hw h hh⟩, by decide +kernel⟩

/-! ### C51 -/

/-- C51, extraction, whatever fails: every octant in the temporary file is marked as without data or has a speed at or above
the minimum. -/
theorem C51 {fmt : Fmt K} {env : EtreeEnv} {s : Grid K} {nm : Names K} {gq : Geom K} {fs : Files} {disk disk' : EtreeDisk K}
    {n nL nW nH : Nat} (hx : s.rd.Exact) (hgq : gq.Lawful) (hlv : s.geom.level (s.resVert * s.geom.vertExag) = .ok (n : Int))
    (hd : Dims s nL nW nH) (hpos : 0 < nL ∧ 0 < nW ∧ 0 < nH) (h : extract fmt env s nm gq fs disk = .ok disk' ()) :
    ∃ f, disk' nm.fileTmp = some f ∧ ∀ e ∈ f.db.entries,
      e.payload = ⟨10 ^ 10, 10 ^ 10, 10 ^ 10, 10 ^ 10, 10 ^ 10, 10 ^ 10, 999, 999⟩ ∨ (s.minVs ≤ e.payload.vs ∧ 0 ≤ e.payload.vs) := by
  obtain ⟨h1, h2, h3⟩ := hd.counts
  have hne : points nL nW nH ≠ [] := List.ne_nil_of_mem (mem_points.2 hpos)
  obtain ⟨fi, q, f, es, -, -, a3, -, a5, a6, -, -, -⟩ := VsGrader.extract_ok hlv hgq h1 h2 h3 hne h
  refine ⟨f, a3, fun e he => ?_⟩
  obtain ⟨i, hi, rfl⟩ := List.getElem_of_mem (a5.subset he)
  have := (List.forall₂_iff_get.1 a6).2 i (by rw [a6.length_eq]; exact hi) hi
  simp only [List.get_eq_getElem] at this
  obtain ⟨lon, lat, elev, p, code, -, -, -, c4⟩ := this
  rcases c4.exact hx with ⟨-, hr⟩ | ⟨h0, hr⟩
  · exact Or.inl hr
  · rw [hr]
    exact Or.inr ⟨le_max_right _ _, h0.trans (le_max_left _ _)⟩

/-- The first point is raised to the minimum. -/
example : exRunSpeeds "tmp" (extract exFmt exEtree exGrid exNames exGeom (fun _ => "") exGradeDisk) =
      some [some 400, some 3000, some 3000, some 3000, some 3000, some 3000, some 3000, some 3000] := by decide +kernel

/-- C51, grading: no speed falls below a value that all speeds on the grid reached before. -/
theorem C51_grade {s : Grid K} {n nL nW nH : Nat} (hg : s.geom.Lawful) (hx : s.rd.Exact) (hm : 0 ≤ s.gradientMax)
    (hlv : s.geom.level (s.resVert * s.geom.vertExag) = .ok (n : Int)) (hd : Dims s nL nW nH) {db db' : Db K}
    (ho : OnGrid s n nL nW nH db) {junk : Payload K} (h : grade s junk db = .ok db' ()) {c : K}
    (hc : ∀ l < nL, ∀ w < nW, ∀ h < nH, ∀ p, PointPayload s n db l w h p → c ≤ p.vs) :
    ∀ l < nL, ∀ w < nW, ∀ h < nH, ∀ p, PointPayload s n db' l w h p → c ≤ p.vs := by
  obtain ⟨d, h1, -, -, V, h4, h5⟩ := grade_dims hg hlv hd ho junk
  cases h1.symm.trans h
  obtain ⟨m1, m2⟩ := hd.res hm
  intro l hl w hw i hi p hp
  rw [(h5 l hl w hw i hi p).1 hp, hx.passes_eq]
  refine passes_minorant (f := fun _ _ _ => c) ⟨?_, ?_, ?_⟩ (fun l hl w hw i hi => hc l hl w hw i hi _ ((h4 l hl w hw i hi _).2 rfl))
    l hl w hw i hi
  · exact fun _ _ _ _ _ _ => by simpa using m1
  · exact fun _ _ _ _ _ _ => by simpa using m1
  · exact fun _ _ _ _ _ _ => by simpa using m2

example : OnGrid exGrid 12 2 2 2 (exGridDb exSpeeds) ∧ (exGradeSpeeds (grade exGrid (exPay 0 0) (exGridDb exSpeeds))).isSome ∧
    ∀ e ∈ (exGridDb exSpeeds).entries, 500 ≤ e.payload.vs :=
  ⟨exGridDb_onGrid _, by decide +kernel, by decide +kernel⟩

/-- C51, whole run: every speed in the output is at or above the minimum, if the minimum does not exceed the marker for
points without data. -/
theorem C51_run {fmt : Fmt K} {env : EtreeEnv} {s : Grid K} {nm : Names K} {gq : Geom K} {junk : Payload K} {fs : Files}
    {disk disk' : EtreeDisk K} {n nL nW nH : Nat} (hg : s.geom.Lawful) (hx : s.rd.Exact) (hgq : gq.Lawful) (hm : 0 ≤ s.gradientMax)
    (hlv : s.geom.level (s.resVert * s.geom.vertExag) = .ok (n : Int)) (hd : Dims s nL nW nH) (hpos : 0 < nL ∧ 0 < nW ∧ 0 < nH)
    (hin : ∀ l < nL, ∀ w < nW, ∀ h < nH, ∃ a, PointCell s n l w h a) (hmin : s.minVs ≤ 10 ^ 10)
    (h : run fmt env s nm gq junk fs disk = .ok disk' ()) :
    ∃ f, disk' nm.fileOut = some f ∧ ∀ l < nL, ∀ w < nW, ∀ h < nH, ∀ p, PointPayload s n f.db l w h p → s.minVs ≤ p.vs := by
  obtain ⟨h1, h2, h3⟩ := hd.counts
  have hne : points nL nW nH ≠ [] := List.ne_nil_of_mem (mem_points.2 hpos)
  obtain ⟨fi, q, f, V, a1, a2, a3, a4, a5, a6, a7⟩ := run_ok hg hlv hgq h1 h2 h3 hne hin h
  obtain ⟨m1, m2⟩ := hd.res hm
  refine ⟨f, a3, fun l hl w hw i hi p hp => ?_⟩
  rw [(a7 l hl w hw i hi p).1 hp, hx.passes_eq]
  refine passes_minorant (f := fun _ _ _ => s.minVs) ⟨?_, ?_, ?_⟩ (fun l hl w hw i hi => ?_) l hl w hw i hi
  · exact fun _ _ _ _ _ _ => by simpa using m1
  · exact fun _ _ _ _ _ _ => by simpa using m1
  · exact fun _ _ _ _ _ _ => by simpa using m2
  · obtain ⟨lon, lat, elev, p, -, -, he⟩ := a6 l hl w hw i hi
    rcases he.exact hx with ⟨-, hr⟩ | ⟨-, hr⟩
    · rw [hr]; exact hmin
    · rw [hr]; exact le_max_right _ _

example : exGrid.minVs ≤ 10 ^ 10 := by norm_num [exGrid]

/-- The marker for points without data is an ordinary speed to the grading: next to points with data it is reduced, and is
no marker any more. -/
theorem C51_marker_lost : ∃ db' : Db ℚ,
    grade exGrid (exPay 0 0) (exGridDb fun l w h => if (l, w, h) = (0, 0, 0) then 500 else 10 ^ 10) = .ok db' () ∧
      PointPayload exGrid 12 (exGridDb fun l w h => if (l, w, h) = (0, 0, 0) then 500 else 10 ^ 10) 0 0 1 (exPay (10 ^ 10) 1) ∧
      ∀ p, PointPayload exGrid 12 db' 0 0 1 p → p.vs = 600 := by
  have ho := exGridDb_onGrid fun l w h => if (l, w, h) = (0, 0, 0) then 500 else 10 ^ 10
  obtain ⟨db', h1, h2, -⟩ := grade_dims exGradeGeom_lawful exGrid_level exGrid_dims ho (exPay 0 0)
  have hc := exGrid_cell 0 (by decide) 0 (by decide) 1 (by decide)
  refine ⟨db', h1, ⟨_, hc, _, List.mem_map.2 ⟨(0, 0, 1), by decide, rfl⟩, rfl, by simp⟩, fun p hp => ?_⟩
  have hs : exGradeSpeeds (grade exGrid (exPay 0 0) (exGridDb fun l w h => if (l, w, h) = (0, 0, 0) then 500 else 10 ^ 10)) =
      some [some 500, some 600, some 900, some 1000, some 900, some 1000, some 1300, some 1400] := by decide +kernel
  rw [h1] at hs
  have hl : (db'.lookup (exPointAddr 0 0 1).toKey).map (fun e => e.payload.vs) = some 600 := by
    have := congrArg (fun o : Option (List (Option ℚ)) => o.bind fun l => l[1]?) hs
    simpa [exGradeSpeeds, points, List.range_succ] using this
  have hp' := (pointPayload_iff h2.sorted hc).1 hp
  rw [pointKey_eq hc] at hp'
  unfold Db.payloadAt at hp'
  cases he : db'.lookup (exPointAddr 0 0 1).toKey with
  | none => rw [he] at hl; cases hl
  | some e =>
    rw [he] at hl hp'
    simp only [Option.map_some, Option.some.injEq] at hl hp'
    rw [← hp', hl]

/-! ### C54 -/

/-- C54: an extraction that ends normally, whatever failed, leaves exactly one octant per point of the grid, in different
cells, sorted, with what the query object answers there, and touches no other file. -/
theorem C54 {fmt : Fmt K} {env : EtreeEnv} {s : Grid K} {nm : Names K} {gq : Geom K} {fs : Files} {disk disk' : EtreeDisk K}
    {n nL nW nH : Nat} (hgq : gq.Lawful) (hlv : s.geom.level (s.resVert * s.geom.vertExag) = .ok (n : Int)) (hd : Dims s nL nW nH)
    (hpos : 0 < nL ∧ 0 < nW ∧ 0 < nH) (h : extract fmt env s nm gq fs disk = .ok disk' ()) :
    ∃ fi q f es, disk nm.fileIn = some fi ∧ QueryFor s.rd gq fi.db nm.queryType nm.queryRes q ∧ disk' nm.fileTmp = some f ∧
      f.db.Sorted ∧ f.db.entries.Perm es ∧ List.Forall₂ (ExtractedAt fmt q s n) (points nL nW nH) es ∧
      (es.map fun e => e.addr.toKey).Nodup ∧ f.schema = some SCHEMA ∧
      (∀ name, name ≠ nm.fileTmp → disk' name = disk name) := by
  obtain ⟨h1, h2, h3⟩ := hd.counts
  have hne : points nL nW nH ≠ [] := List.ne_nil_of_mem (mem_points.2 hpos)
  obtain ⟨fi, q, f, es, a1, a2, a3, a4, a5, a6, a7, a8, a9⟩ := VsGrader.extract_ok hlv hgq h1 h2 h3 hne h
  refine ⟨fi, q, f, es, a1, a2, a3, a4, a5, a6, ?_, a8, a9⟩
  rw [List.nodup_iff_pairwise_ne, List.pairwise_map]
  exact a7

example : (exRunSpeeds "tmp" (extract exFmt exEtree exGrid exNames exGeom (fun _ => "") exGradeDisk)).isSome = true := by decide +kernel

/-- The points of C54 are all the points of the grid, each once. -/
theorem C54_points (nL nW nH : Nat) : (points nL nW nH).Nodup ∧
    ∀ l w h, (l, w, h) ∈ points nL nW nH ↔ l < nL ∧ w < nW ∧ h < nH :=
  ⟨points_nodup nL nW nH, fun _ _ _ => mem_points⟩

/-- C54, a missing input file: the failure to open it is only recorded in the error handler, which is not consulted, and the
first query then uses a null database. -/
theorem C54_missing {fmt : Fmt K} {env : EtreeEnv} (he : env.Reliable) {s : Grid K} {nm : Names K} {gq : Geom K} {fs : Files}
    {disk : EtreeDisk K} {nL nW nH : Nat} (hd : Dims s nL nW nH) (hpos : 0 < nL ∧ 0 < nW ∧ 0 < nH)
    (hmiss : disk nm.fileIn = none) {lon lat elev : K} (hpt : PointAt s 0 0 0 lon lat elev) :
    extract fmt env s nm gq fs disk = .ub := by
  obtain ⟨h1, h2, h3⟩ := hd.counts
  obtain ⟨q, hq⟩ := openQuery_total s.rd gq nm.queryType nm.queryRes nm.cacheSize nm.fileIn (fun n => (disk n).map (·.db))
  obtain ⟨o1, o2, o3, o4, -⟩ := openQuery_ok hq
  have o4 : q.db = none := by rw [o4, hmiss]; rfl
  obtain ⟨rest, hp⟩ := points_head hpos
  unfold extract
  rw [hq]
  simp only [VMCreator.openDB, he.create, he.schema, he.setMeta, Bool.false_eq_true, if_false]
  split
  · rfl
  unfold extractLoops
  simp only [h1, h2, h3]
  rw [loops_eq_each (fun pt w => extractPoint fmt env s pt.1 pt.2.1 pt.2.2 w), hp]
  unfold each extractPoint
  rw [loc_of_pointAt hpt]
  have hub : VMQuery.query fmt q fs 8 lon lat elev = .ub := by
    unfold VMQuery.query
    rw [if_neg (by simp [o1]), o3, o4]
  simp only [hub, Run.bind_ub]

example : exEtree.Reliable ∧ Dims exGrid 2 2 2 ∧ PointAt exGrid 0 0 0 280 (-40) (-50) ∧
    (fun _ => none : EtreeDisk ℚ) exNames.fileIn = none :=
  ⟨exEtree_reliable, exGrid_dims, by unfold PointAt Steps; decide +kernel, rfl⟩

/-- C54, the temporary file being the input: the input is truncated while it is open. -/
theorem C54_same {fmt : Fmt K} {env : EtreeEnv} (he : env.Reliable) {s : Grid K} {nm : Names K} {gq : Geom K} {fs : Files}
    {disk : EtreeDisk K} (hsame : nm.fileTmp = nm.fileIn) : extract fmt env s nm gq fs disk = .ub := by
  obtain ⟨q, hq⟩ := openQuery_total s.rd gq nm.queryType nm.queryRes nm.cacheSize nm.fileIn (fun n => (disk n).map (·.db))
  unfold extract
  rw [hq]
  simp only [VMCreator.openDB, he.create, he.schema, he.setMeta, Bool.false_eq_true, if_false, if_pos hsame]

example : ({ exNames with fileTmp := "in" } : Names ℚ).fileTmp = exNames.fileIn := rfl

/-- The points of the grid lie in different cells inside the model, and the query object has an answer that fits the octants at every one. -/
structure Answered (fmt : Fmt K) (q : VMQuery K) (s : Grid K) (n nL nW nH : Nat) : Prop where
  inside : ∀ l < nL, ∀ w < nW, ∀ h < nH, ∃ a, PointCell s n l w h a
  distinct : ∀ l < nL, ∀ w < nW, ∀ h < nH, ∀ l' < nL, ∀ w' < nW, ∀ h' < nH, ∀ a a', PointCell s n l w h a →
    PointCell s n l' w' h' a' → a.toKey = a'.toKey → l = l' ∧ w = w' ∧ h = h'
  answer : ∀ l < nL, ∀ w < nW, ∀ h < nH, ∃ lon lat elev p, PointAt s l w h lon lat elev ∧ PayloadOf fmt q lon lat elev p ∧
    (-32768 ≤ p.faultBlock ∧ p.faultBlock < 32768) ∧ (-32768 ≤ p.zone ∧ p.zone < 32768)

theorem Answered.at {fmt : Fmt K} {q : VMQuery K} {s : Grid K} {n nL nW nH : Nat} (h : Answered fmt q s n nL nW nH) :
    ∀ pt ∈ points nL nW nH, AnsweredAt fmt q s n pt := by
  rintro ⟨l, w, k⟩ hpt
  obtain ⟨h1, h2, h3⟩ := mem_points.1 hpt
  refine ⟨h.inside l h1 w h2 k h3, fun lon lat elev hat => ?_⟩
  obtain ⟨lon', lat', elev', p, a1, a2⟩ := h.answer l h1 w h2 k h3
  have e := (loc_of_pointAt a1).symm.trans (loc_of_pointAt hat)
  cases e
  exact ⟨p, a2⟩

/-- C54: the extraction does end normally if libetree reports no failure, the input exists and is not the temporary file, and the model has
an answer at every point. -/
theorem C54_runs {fmt : Fmt K} {env : EtreeEnv} (he : env.Reliable) {s : Grid K} {nm : Names K} {gq : Geom K} (fs : Files) {disk : EtreeDisk K}
    {n nL nW nH : Nat} (hgq : gq.Lawful) (hlv : s.geom.level (s.resVert * s.geom.vertExag) = .ok (n : Int)) (hd : Dims s nL nW nH)
    (hne : nm.fileTmp ≠ nm.fileIn) {fi : EtreeFile K} (hf : disk nm.fileIn = some fi) {q : VMQuery K}
    (hq : QueryFor s.rd gq fi.db nm.queryType nm.queryRes q) (ha : Answered fmt q s n nL nW nH) :
    ∃ disk', extract fmt env s nm gq fs disk = .ok disk' () := by
  obtain ⟨h1, h2, h3⟩ := hd.counts
  exact extract_run he hlv hgq h1 h2 h3 hne hf hq ha.at (separate_pairwise ⟨ha.inside, ha.distinct⟩)

/-- C50: so does the whole run if the output is not the temporary file. -/
theorem C50_runs {fmt : Fmt K} {env : EtreeEnv} (he : env.Reliable) {s : Grid K} {nm : Names K} {gq : Geom K} (junk : Payload K) (fs : Files)
    {disk : EtreeDisk K} {n nL nW nH : Nat} (hg : s.geom.Lawful) (hgq : gq.Lawful)
    (hlv : s.geom.level (s.resVert * s.geom.vertExag) = .ok (n : Int)) (hd : Dims s nL nW nH) (hpos : 0 < nL ∧ 0 < nW ∧ 0 < nH)
    (hne : nm.fileTmp ≠ nm.fileIn) (hout : nm.fileOut ≠ nm.fileTmp) {fi : EtreeFile K} (hf : disk nm.fileIn = some fi) {q : VMQuery K}
    (hq : QueryFor s.rd gq fi.db nm.queryType nm.queryRes q) (ha : Answered fmt q s n nL nW nH) :
    ∃ disk', run fmt env s nm gq junk fs disk = .ok disk' () := by
  obtain ⟨h1, h2, h3⟩ := hd.counts
  exact run_run he hg hlv hgq h1 h2 h3 (List.ne_nil_of_mem (mem_points.2 hpos)) hne hout hf hq ha.at ⟨ha.inside, ha.distinct⟩

/-- The extracted octants have data and small numbers. -/
def exSmall (r : Run (EtreeDisk ℚ) Unit) : Bool :=
  match r with
  | .ok disk _ => match disk "tmp" with
    | some f => f.db.entries.all fun e => decide (e.payload.faultBlock < 9 ∧ 0 < e.payload.faultBlock ∧ e.payload.zone < 9 ∧ 0 ≤ e.payload.zone)
    | none => false
  | _ => false

/-- The example grid has answers. -/
theorem exGrid_answered : ∃ q, QueryFor Rd.exact exGeom exGradeIn 0 0 q ∧ Answered exFmt q exGrid 12 2 2 2 := by
  have hext : ∃ disk', extract exFmt exEtree exGrid exNames exGeom (fun _ => "") exGradeDisk = .ok disk' () ∧
      ∀ f, disk' "tmp" = some f → ∀ e ∈ f.db.entries, e.payload.faultBlock < 9 ∧ 0 < e.payload.faultBlock ∧ e.payload.zone < 9 ∧
        0 ≤ e.payload.zone := by
    have h : exSmall (extract exFmt exEtree exGrid exNames exGeom (fun _ => "") exGradeDisk) = true := by decide +kernel
    revert h
    cases extract exFmt exEtree exGrid exNames exGeom (fun _ => "") exGradeDisk with
    | ok d u =>
      intro h
      refine ⟨d, rfl, fun f hf e he => ?_⟩
      simp only [exSmall, hf, List.all_eq_true] at h
      simpa [and_assoc] using h e he
    | exc m d => intro h; cases h
    | ub => intro h; cases h
  obtain ⟨disk', h, hsmall⟩ := hext
  obtain ⟨fi, q, f, es, a1, a2, a3, a4, a5, a6, -⟩ := C54 exGeom_lawful exGrid_level exGrid_dims ⟨by decide, by decide, by decide⟩ h
  cases a1
  refine ⟨q, a2, fun l hl w hw h hh => ⟨_, exGrid_cell l hl w hw h hh⟩, (exGridDb_onGrid exSpeeds).distinct, fun l hl w hw k hk => ?_⟩
  obtain ⟨i, hi, ei⟩ := List.getElem_of_mem (mem_points.2 ⟨hl, hw, hk⟩)
  have := (List.forall₂_iff_get.1 a6).2 i hi (by rw [← a6.length_eq]; exact hi)
  simp only [List.get_eq_getElem] at this
  obtain ⟨lon, lat, elev, p, code, c1, c2, -, c4⟩ := this
  rw [ei] at c1
  have hs := hsmall f a3 _ (a5.symm.subset (List.getElem_mem (show i < es.length by rw [← a6.length_eq]; exact hi)))
  refine ⟨lon, lat, elev, p, c1, c2, ?_⟩
  rcases c4.exact exGrid_exact with ⟨-, c5⟩ | ⟨-, c5⟩ <;> rw [c5] at hs <;> simp only at hs <;> omega

example : exEtree.Reliable ∧ exNames.fileTmp ≠ exNames.fileIn ∧ exNames.fileOut ≠ exNames.fileTmp ∧
    (exGradeDisk exNames.fileIn).map (fun f => f.db.entries.length) = some 2 := by
  exact ⟨exEtree_reliable, by decide, by decide, rfl⟩

/-! ### C55 -/

/-- C55: the graded volume is the greatest that respects the three bounds and nowhere exceeds the original, the other
properties are reduced in proportion, and points whose speed is not reduced keep their payload. -/
theorem C55 {s : Grid K} {n nL nW nH : Nat} (hg : s.geom.Lawful) (hx : s.rd.Exact)
    (hlv : s.geom.level (s.resVert * s.geom.vertExag) = .ok (n : Int)) (hd : Dims s nL nW nH) {db db' : Db K}
    (ho : OnGrid s n nL nW nH db) {junk : Payload K} (h : grade s junk db = .ok db' ())
    {f : Nat → Nat → Nat → K}
    (hf : Bounded3 (s.gradientMax * (s.resVert * s.geom.vertExag)) (s.gradientMax * s.resVert) nL nW nH f)
    (hle : ∀ l < nL, ∀ w < nW, ∀ h < nH, ∀ p, PointPayload s n db l w h p → f l w h ≤ p.vs) :
    ∀ l < nL, ∀ w < nW, ∀ h < nH, ∀ p, PointPayload s n db' l w h p → f l w h ≤ p.vs := by
  obtain ⟨d, h1, -, -, V, h4, h5⟩ := grade_dims hg hlv hd ho junk
  cases h1.symm.trans h
  intro l hl w hw i hi p hp
  rw [(h5 l hl w hw i hi p).1 hp, hx.passes_eq]
  exact passes_minorant hf (fun l hl w hw i hi => hle l hl w hw i hi _ ((h4 l hl w hw i hi _).2 rfl)) l hl w hw i hi

/-- C55: payloads are reduced, the other properties in proportion; a payload whose speed did not change did not change. -/
theorem C55_reduced {s : Grid K} {n nL nW nH : Nat} (hg : s.geom.Lawful) (hx : s.rd.Exact) (hm : 0 ≤ s.gradientMax)
    (hlv : s.geom.level (s.resVert * s.geom.vertExag) = .ok (n : Int)) (hd : Dims s nL nW nH) {db db' : Db K}
    (ho : OnGrid s n nL nW nH db) {junk : Payload K} (h : grade s junk db = .ok db' ())
    (h0 : ∀ l < nL, ∀ w < nW, ∀ h < nH, ∀ p, PointPayload s n db l w h p → 0 ≤ p.vs) :
    ∀ l < nL, ∀ w < nW, ∀ h < nH, ∀ p q, PointPayload s n db l w h p → PointPayload s n db' l w h q →
      ReducedTo p q ∧ (q.vs = p.vs → q = p) := by
  obtain ⟨d, h1, -, -, V, h4, h5⟩ := grade_dims hg hlv hd ho junk
  cases h1.symm.trans h
  obtain ⟨m1, m2⟩ := hd.res hm
  intro l hl w hw i hi p q hp hq
  rw [(h5 l hl w hw i hi q).1 hq, hx.passes_eq, (h4 l hl w hw i hi p).1 hp]
  have hs := (passes_scaled m1 m2 (fun l hl w hw i hi => h0 l hl w hw i hi _ ((h4 l hl w hw i hi _).2 rfl)) l hl w hw i hi).2
  exact ⟨⟨hs.le, hs.vp, hs.density, hs.qp, hs.qs, hs.depth, hs.faultBlock, hs.zone⟩, hs.same⟩

example : ∀ e ∈ (exGridDb exSpeeds).entries, 0 ≤ e.payload.vs := by decide +kernel

/-- C55: grading a graded database again changes no payload. -/
theorem C55_idempotent {s : Grid K} {n nL nW nH : Nat} (hg : s.geom.Lawful) (hx : s.rd.Exact) (hm : 0 ≤ s.gradientMax)
    (hlv : s.geom.level (s.resVert * s.geom.vertExag) = .ok (n : Int)) (hd : Dims s nL nW nH) {db db' : Db K}
    (ho : OnGrid s n nL nW nH db) {junk junk' : Payload K} (h : grade s junk db = .ok db' ()) :
    ∃ db'', grade s junk' db' = .ok db'' () ∧
      ∀ l < nL, ∀ w < nW, ∀ h < nH, ∀ p, PointPayload s n db'' l w h p ↔ PointPayload s n db' l w h p := by
  obtain ⟨d, h1, h2, -, V, h4, h5⟩ := grade_dims hg hlv hd ho junk
  cases h1.symm.trans h
  obtain ⟨d2, g1, -, -, V2, g4, g5⟩ := grade_dims hg hlv hd h2 junk'
  obtain ⟨m1, m2⟩ := hd.res hm
  refine ⟨d2, g1, fun l hl w hw i hi p => ?_⟩
  have e : ∀ l < nL, ∀ w < nW, ∀ i < nH, V2 l w i = passes .exact (s.gradientMax * s.resHoriz) (s.gradientMax * s.resVert) nL nW nH V l w i :=
    fun l hl w hw i hi => ((h5 l hl w hw i hi _).1 ((g4 l hl w hw i hi _).2 rfl)).trans (hx.passes_eq ..)
  have hb := passes_bounded m1 m2 nL nW nH V
  have hV2 : Bounded3 (s.gradientMax * s.resHoriz) (s.gradientMax * s.resVert) nL nW nH fun l w h => (V2 l w h).vs := by
    refine ⟨fun w hw i hi l hl => ?_, fun l hl i hi w hw => ?_, fun l hl w hw i hi => ?_⟩
    · show |(V2 (l + 1) w i).vs - (V2 l w i).vs| ≤ _
      rw [e _ hl w hw i hi, e l (by omega) w hw i hi]; exact hb.len w hw i hi l hl
    · show |(V2 l (w + 1) i).vs - (V2 l w i).vs| ≤ _
      rw [e l hl _ hw i hi, e l hl w (by omega) i hi]; exact hb.width l hl i hi w hw
    · show |(V2 l w (i + 1)).vs - (V2 l w i).vs| ≤ _
      rw [e l hl w hw _ hi, e l hl w hw i (by omega)]; exact hb.ht l hl w hw i hi
  rw [g5 l hl w hw i hi p, hx.passes_eq, g4 l hl w hw i hi p, passes_id hV2 l hl w hw i hi]

example : exGradeSpeeds ((grade exGrid (exPay 0 0) (exGridDb exSpeeds)).bind fun db _ => grade exGrid (exPay 0 0) db) =
      some [some 500, some 600, some 900, some 1000, some 900, some 1000, some 1300, some 1400] := by decide +kernel

end
end CenCalVM
