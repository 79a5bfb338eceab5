/-
C100 to C102: ingestion in `float` and `double`.
-/
import Verif.Lemmas.IngestFloat
import Verif.Props.EndToEnd
import Verif.Props.AvgFloat

set_option linter.unusedSectionVars false

namespace CenCalVM
open FileApps GridIngester VMCreator
variable {K : Type} [Field K] [LinearOrder K] [IsStrictOrderedRing K] [FloorRing K]

/-! ### C100 -/

/-- C100: computing in `float` and `double`, if ingesting a grid file ends normally, every point of the file with a fault block and a
zone has an octant in the database, at the cell of its location with the elevation converted up to a relative error of 2^-52; its
lengths, speeds and density are 1000 times those read from the file up to a relative error of 2^-22, with the same sign; -999 stays
-999 exactly; quality factors and ids are those read; and the database has no other octants than these and those it had. -/
theorem C100 {rs rdb : IntRound K} {env : EtreeEnv} {nf : NumFmt K} (hb : nf.rd.Binary rs rdb) {junk : Payload K} {g : Geom K}
    {files : String → Option (List Char)} {c c' : Creator K} {name : String} {f : EtreeFile K} (hc : c.pDB = some (name, f))
    {filename : String} {m : Counts} (h : addGrid env nf junk (some g) files c filename = .ok c' m)
    {text t t' : List Char} (hf : files filename = some text) {hd : Header K} (hh : HeaderText nf text hd t)
    {pts : List (Point K)} (hp : PointsText nf t pts t') (hn : pts.length = hd.numTotal.toNat) :
    ∃ n : Nat, g.level (nf.rd.double (hd.resHoriz * 1000)) = .ok (n : Int) ∧ ∃ es f', c'.pDB = some (name, f') ∧
      f'.db.entries.Perm (es ++ f.db.entries) ∧
      List.Forall₂ (fun (p : Point K) (e : Entry K) =>
        (∃ elev code, ConvertedUpTo (1 / 2 ^ 52) p.elev elev ∧
          g.lonLatElevToAddr ⟨⟨0, 0, 0, n⟩, .leaf⟩ p.lon p.lat elev = .ok (e.addr, code)) ∧
        ConvertedUpTo (1 / 2 ^ 22) p.payload.vp e.payload.vp ∧ ConvertedUpTo (1 / 2 ^ 22) p.payload.vs e.payload.vs ∧
        ConvertedUpTo (1 / 2 ^ 22) p.payload.density e.payload.density ∧ ConvertedUpTo (1 / 2 ^ 22) p.payload.depth e.payload.depth ∧
        e.payload.qp = p.payload.qp ∧ e.payload.qs = p.payload.qs ∧ e.payload.faultBlock = p.payload.faultBlock ∧
        e.payload.zone = p.payload.zone) (pts.filter fun p => HasData p) es := by
  obtain ⟨n, h1, es, f', h2, h3, h4⟩ := C39 hc h hf hh hp hn
  refine ⟨n, h1, es, f', h2, h3, h4.imp ?_⟩
  rintro p e ⟨el, code, c0, c1, c2, c3, c4, c5, c6, c7, c8, c9⟩
  exact ⟨⟨el, code, double_upTo hb c0, c1⟩, single_upTo' hb c2, single_upTo' hb c3, single_upTo' hb c4, single_upTo' hb c5, c6, c7, c8, c9⟩

/-- Numbers in decimal notation, rounded to the nearest of their type, and so is what is computed with them. -/
def exNumFmt32 : NumFmt ℚ :=
  { exNumFmt with
    real := fun t => (exReal t).map (fl IntRound.nearest 53)
    real32 := fun t => (exReal t).map (fl IntRound.nearest 24)
    rd := ⟨fl IntRound.nearest 24, fl IntRound.nearest 53⟩ }
theorem exNumFmt32_binary : exNumFmt32.rd.Binary IntRound.nearest IntRound.nearest := ⟨rfl, rfl⟩

/-- A grid of two points, the second without a fault block. -/
def exGridText32 : List Char :=
  ("819.2 204.8 1 1 2 2\n220 40 -350 2.3 1.5001 2.7 100 50 -0.999 1 7 3\n" ++ "220 40 -0.1 2 1.5 2.5 100 50 0.03 0 7 3\n").toList

/-- The first point of a grid is ingested with rounded values; the depth of -0.999 km becomes -999 m, which means no data. -/
example : exNumFmt32.rd.Binary IntRound.nearest IntRound.nearest ∧
    countsOf (addGrid exEtree exNumFmt32 exStored (some exGeom) (fun _ => some exGridText32) exCreator "g") = some ⟨1, 1⟩ ∧
    openEntries (addGrid exEtree exNumFmt32 exStored (some exGeom) (fun _ => some exGridText32) exCreator "g") =
      some [⟨⟨⟨0, 0, 0, 1⟩, .leaf⟩, ⟨2300, 12288819 / 8192, 2700, 100, 50, -999, 1, 7⟩⟩] ∧
    fl IntRound.nearest 24 (fl IntRound.nearest 24 (15001 / 10000) * 1000 : ℚ) ≠ 15001 / 10 :=
  ⟨exNumFmt32_binary, by decide +kernel, by decide +kernel, by decide +kernel⟩

/-! ### C101 -/

/-- C101: computing in `double`, a grid with a readable header is rejected without inserting anything if exactly one resolution is
zero, or the ratio of the resolutions differs from the vertical exaggeration by more than the factor 1 +- (10^-6 + 10^-13), or the horizontal
resolution differs by more than that from the edge length of its level. -/
theorem C101 {rs rdb : IntRound K} {env : EtreeEnv} {nf : NumFmt K} (hb : nf.rd.Binary rs rdb) {junk : Payload K} {g : Geom K}
    {files : String → Option (List Char)} {c : Creator K} {filename : String} {text t : List Char} (hf : files filename = some text)
    {hd : Header K} (hh : HeaderText nf text hd t)
    (hbad : (hd.resHoriz = 0 ∧ hd.resVert ≠ 0) ∨ (hd.resHoriz ≠ 0 ∧ hd.resVert = 0) ∨
      (hd.resVert ≠ 0 ∧ |1 - hd.resHoriz / hd.resVert / g.vertExag| > 1 / 10 ^ 6 + 1 / 10 ^ 13) ∨
      (∃ n : Nat, n ≤ 31 ∧ g.level (nf.rd.double (hd.resHoriz * 1000)) = .ok (n : Int) ∧
        |1 - hd.resHoriz * 1000 / g.edgeLen n| > 1 / 10 ^ 6 + 1 / 10 ^ 13)) :
    ∃ msg, addGrid env nf junk (some g) files c filename = .exc msg c := by
  have hr := readHeader_iff.1 ⟨hh, rfl⟩
  unfold addGrid
  simp only [hf, hr]
  have hz : ∀ x : K, fl rdb 53 (x * 1000) = 0 ↔ x = 0 := fun x => by
    obtain ⟨k, hk, ek⟩ := double_factor (rdb := rdb) (x * 1000)
    have := factor_pos hk (by norm_num)
    rw [ek]
    constructor
    · intro h
      by_contra hx
      exact mul_ne_zero this.ne' (mul_ne_zero hx (by norm_num)) h
    · rintro rfl; simp
  have htol : tolerance nf.rd = fl rdb 53 (1 / 1000000) := by unfold tolerance; rw [hb.2]
  by_cases hro : ratioOff nf.rd (nf.rd.double (hd.resHoriz * 1000)) (nf.rd.double (hd.resVert * 1000)) g.vertExag (tolerance nf.rd) = true
  · rw [if_pos hro]; exact ⟨_, rfl⟩
  · rw [if_neg hro]
    have hno : ¬ (hd.resVert ≠ 0 ∧ |1 - hd.resHoriz / hd.resVert / g.vertExag| > 1 / 10 ^ 6 + 1 / 10 ^ 13) := by
      rintro ⟨h1, h2⟩
      apply hro
      unfold ratioOff
      rw [htol, hb.2, if_neg (by rw [hz]; exact h1), decide_eq_true_eq]
      obtain ⟨k, hk, ek⟩ := ratio_factor (rdb := rdb) hd.resHoriz hd.resVert g.vertExag
      exact (off_iff hk ek).1 h2
    rcases hbad with ⟨h1, h2⟩ | ⟨h1, h2⟩ | h | ⟨n, hn, hlv, hoff⟩
    · exfalso
      apply hno
      refine ⟨h2, ?_⟩
      rw [h1]
      norm_num
    · exfalso
      apply hro
      unfold ratioOff
      rw [hb.2, if_pos (by rw [hz]; exact h2), decide_eq_true_eq]
      exact fun h => h1 ((hz _).1 h)
    · exact absurd h hno
    · rw [hlv]
      simp only [Int.toNat_natCast]
      rw [if_neg (by omega), htol, hb.2, if_pos ?_]
      · exact ⟨_, rfl⟩
      · obtain ⟨k, hk, ek⟩ := quot_factor (rdb := rdb) hd.resHoriz (g.edgeLen n)
        exact (off_iff hk ek).1 hoff

/-- C101: computing in `double`, a grid file with a header within the factor 1 +- (10^-6 - 10^-13) of the geometry, the declared number of
data lines and points with data that can be inserted is ingested. -/
theorem C101_accepted {rs rdb : IntRound K} {env : EtreeEnv} {nf : NumFmt K} (hb : nf.rd.Binary rs rdb) {junk : Payload K} {g : Geom K}
    {files : String → Option (List Char)} {c c' : Creator K} {filename : String} {text t t' : List Char} (hf : files filename = some text)
    {hd : Header K} (hh : HeaderText nf text hd t) {pts : List (Point K)} (hp : PointsText nf t pts t')
    (hn : pts.length = hd.numTotal.toNat)
    (hratio : hd.resVert ≠ 0 ∧ |1 - hd.resHoriz / hd.resVert / g.vertExag| ≤ 1 / 10 ^ 6 - 1 / 10 ^ 13) {n : Nat} (hn31 : n ≤ 31)
    (hlv : g.level (nf.rd.double (hd.resHoriz * 1000)) = .ok (n : Int))
    (hres : |1 - hd.resHoriz * 1000 / g.edgeLen n| ≤ 1 / 10 ^ 6 - 1 / 10 ^ 13)
    {data : List (Datum K)} (hdata : List.Forall₂ (StoredFor nf.rd) (pts.filter fun p => HasData p) data)
    (hi : insertAll env g (nf.rd.double (hd.resHoriz * 1000)) data c = .ok c' ()) :
    addGrid env nf junk (some g) files c filename =
      .ok c' ⟨pts.countP fun p => HasData p, pts.countP fun p => ¬ HasData p⟩ := by
  have hr := readHeader_iff.1 ⟨hh, rfl⟩
  have htol : tolerance nf.rd = fl rdb 53 (1 / 1000000) := by unfold tolerance; rw [hb.2]
  have hv : fl rdb 53 (hd.resVert * 1000) ≠ 0 := by
    obtain ⟨k, hk, ek⟩ := double_factor (rdb := rdb) (hd.resVert * 1000)
    have := factor_pos hk (by norm_num)
    rw [ek]
    exact mul_ne_zero this.ne' (mul_ne_zero hratio.1 (by norm_num))
  unfold addGrid
  simp only [hf, hr, hlv, Int.toNat_natCast]
  have h1 : ratioOff nf.rd (nf.rd.double (hd.resHoriz * 1000)) (nf.rd.double (hd.resVert * 1000)) g.vertExag (tolerance nf.rd) = false := by
    unfold ratioOff
    rw [htol, hb.2, if_neg hv, decide_eq_false_iff_not]
    obtain ⟨k, hk, ek⟩ := ratio_factor (rdb := rdb) hd.resHoriz hd.resVert g.vertExag
    exact (off_iff hk ek).2 hratio.2
  have h2 : ¬ |nf.rd.double (1 - nf.rd.double (nf.rd.double (hd.resHoriz * 1000) / g.edgeLen n))| > tolerance nf.rd := by
    rw [htol, hb.2]
    obtain ⟨k, hk, ek⟩ := quot_factor (rdb := rdb) hd.resHoriz (g.edgeLen n)
    exact (off_iff hk ek).2 hres
  rw [h1, if_neg (by simp), if_neg (by omega), if_neg h2, ← hn, pointLoop_eq ?_ hp]
  · rw [stored_map_eq hdata] at hi
    simp only [decide_not] at hi ⊢
    rw [hi]
    simp
  · cases pts with
    | nil => exact Or.inr rfl
    | cons p ps =>
      left
      obtain ⟨_, ⟨_, _, _, _, _, _, _, _, _, _, _, ⟨_, hw, _⟩, _⟩, _⟩ := hp
      exact good_of_word hw

/-- The resolutions 819.2 and 204.8 as numbers of type `double` are not in the ratio 4 of the geometry to the last digit of decimal arithmetic, but are
accepted; the resolution 819.21 is rejected. -/
example : (∃ hd t, HeaderText exNumFmt32 exGridText32 hd t ∧ hd.resVert ≠ 0 ∧ hd.resHoriz ≠ 8192 / 10 ∧
      |1 - hd.resHoriz / hd.resVert / exGeom.vertExag| ≤ 1 / 10 ^ 6 - 1 / 10 ^ 13 ∧
      exGeom.level (exNumFmt32.rd.double (hd.resHoriz * 1000)) = .ok ((1 : Nat) : Int) ∧
      |1 - hd.resHoriz * 1000 / exGeom.edgeLen 1| ≤ 1 / 10 ^ 6 - 1 / 10 ^ 13) ∧
    (∃ hd t, HeaderText exNumFmt32 "819.21 204.8 1 1 1 1\n".toList hd t ∧ hd.resVert ≠ 0 ∧
      |1 - hd.resHoriz / hd.resVert / exGeom.vertExag| > 1 / 10 ^ 6 + 1 / 10 ^ 13) ∧
    msgOf (addGrid exEtree exNumFmt32 exStored (some exGeom) (fun _ => some "819.21 204.8 1 1 1 1\n".toList) exCreator "g") =
      some "Vertical exaggeration does not match velocity model vertical exaggeration." :=
  ⟨⟨(readHeader exNumFmt32 (Stream.ofText exGridText32)).2, (readHeader exNumFmt32 (Stream.ofText exGridText32)).1.rest,
      (readHeader_iff (e := false)).2 (by decide +kernel) |>.1, by decide +kernel, by decide +kernel, by decide +kernel, by decide +kernel, by decide +kernel⟩,
    ⟨(readHeader exNumFmt32 (Stream.ofText "819.21 204.8 1 1 1 1\n".toList)).2, ['\n'],
      (readHeader_iff (e := false)).2 (by decide +kernel) |>.1, by decide +kernel, by decide +kernel⟩, by decide +kernel⟩

/-! ### C102 -/

theorem pointIn_ingested {nf : NumFmt K} {g : Geom K} {files : String → Option (List Char)} {ws : List String} {k : Key} {n : Nat} {p : Point K}
    (hg : g.Lawful) (h : PointIn nf g files ws k n p) : ∃ e, IngestedIn nf g files ws k e ∧ OctantFor nf.rd g n p e ∧ e.addr.level = n := by
  obtain ⟨w, hw, text, hd, t, pts, t', h1, h2, h3, h4, h5, h6, h7, elev, a, h8, h9, h10⟩ := h
  have hs := datumOf_stored nf.rd p
  have ho : OctantFor nf.rd g n p ⟨a, (datumOf nf.rd p).payload⟩ :=
    ⟨elev, 0, h8, h9, hs.vp, hs.vs, hs.density, hs.depth, hs.qp, hs.qs, hs.faultBlock, hs.zone⟩
  exact ⟨_, ⟨w, hw, text, hd, t, pts, t', h1, h2, h3, h4, n, h5, p, h6, h7, ho, h10⟩, ho, (hg.keeps _ _ _ _ _ _ h9).1⟩

theorem ingested_pointIn {nf : NumFmt K} {g : Geom K} {files : String → Option (List Char)} {ws : List String} {k : Key} {e : Entry K}
    (hin : ∀ w ∈ ws, ∀ t, files w = some t → GridInside nf g t) (h : IngestedIn nf g files ws k e) :
    ∃ n p, PointIn nf g files ws k n p ∧ OctantFor nf.rd g n p e := by
  obtain ⟨w, hw, text, hd, t, pts, t', h1, h2, h3, h4, n, h5, p, h6, h7, ho, h10⟩ := h
  obtain ⟨a, ha, -⟩ := (hin w hw text h1 hd t pts t' h2 h3 h4 n h5).2 p h6 h7 _ ho.choose_spec.choose_spec.1
  have ho' := ho
  obtain ⟨elev, code, c1, c2, -⟩ := ho'
  obtain ⟨a, ha, -⟩ := (hin w hw text h1 hd t pts t' h2 h3 h4 n h5).2 p h6 h7 elev c1
  have hae : a = e.addr := by
    have ha : g.lonLatElevToAddr _ p.lon p.lat elev = .ok (a, 0) := ha
    exact (congrArg Prod.fst (Outcome.ok.inj (ha.symm.trans c2)))
  exact ⟨n, p, ⟨w, hw, text, hd, t, pts, t', h1, h2, h3, h4, h5, h6, h7, elev, a, c1, ha, by rw [hae]; exact h10⟩, ho⟩

/-- C102: computing in `float` and `double`, a database is created by cencalvmgen from grids whose points with data lie inside the
model, and averaged by cencalvmavg, both with exit code 0.  Then a FIXEDRES query on the result, at a location whose cell at the level of
the query resolution holds points of the grids with octants smaller than the cell, answers with a summary of exactly the points of the
grids in that cell: it is solid if and only if one of them is; each real value lies between bounds for the values of the points that
decide (the solid ones if there is one, else the water ones), converted exactly, up to 2^-13 times the larger bound; it is no-data if none
decides; and it carries no fault block or zone. -/
theorem C102 {ri rs rdb : IntRound K} {env : EtreeEnv} (hadv : ∀ i, env.adv i = false) {nf : NumFmt K} (hbin : nf.rd.Binary rs rdb)
    {junk : Payload K} {g : Geom K} (hg : g.Lawful)
    {files : String → Option (List Char)} {aenv : Averager.Env K} (hae : aenv.engine.Reliable) (has : Single ri aenv.engine)
    (hcl : aenv.closeLoss = none)
    {stamp stamp' params tmp out avg : String} (hp0 : params ≠ "") (ht0 : tmp ≠ "") (ho0 : out ≠ "") (ha0 : avg ≠ "")
    {disk disk₁ disk₂ : EtreeDisk K}
    (hgen : genMain env nf junk g files stamp (argsIOT params out tmp) disk = .ok (0, disk₁))
    (havg : avgMain aenv stamp' (argsIO out avg) disk₁ = .ok (0, disk₂))
    {text : List Char} (hp : files params = some text) {ws : List String} (hws : WordsOf text ws) (hb : EndsBlank text)
    (hin : ∀ w ∈ ws, ∀ t, files w = some t → GridInside nf g t) :
    ∃ f, disk₂ avg = some f ∧ ∀ {fmt : Fmt K} {q : VMQuery K}, q.Open g f.db → q.queryFn = .FIXEDRES →
      ∀ {m : Nat}, g.level (g.vertExag * q.queryRes) = .ok (m : Int) → ∀ {lon lat elev : K}, NotSquashed q elev →
      ∀ {a : Addr}, CellOf g m lon lat elev a → ∀ {ps : Point K → Prop}, (∀ x, ps x ↔ ∃ n, PointIn nf g files ws a.toKey n x) →
      (∃ n x, PointIn nf g files ws a.toKey n x ∧ m < n) →
      ∃ p, PayloadOf fmt q lon lat elev p ∧ p.faultBlock = -999 ∧ p.zone = -999 ∧
        (0 < p.vs ↔ ∃ x, ps x ∧ 0 < x.payload.vs) ∧
        ((∃ x, DecidingPoint ps x) → ∀ r ∈ Payload.reals (K := K), ∀ lo hi,
          (∀ x v, DecidingPoint ps x → InMetres x v → lo ≤ r v ∧ r v ≤ hi) →
            lo - max |lo| |hi| / 2 ^ 13 ≤ r p ∧ r p ≤ hi + max |lo| |hi| / 2 ^ 13) ∧
        ((¬ ∃ x, DecidingPoint ps x) → ∀ r ∈ Payload.reals (K := K), r p = -999) := by
  obtain ⟨text', grids, f₁, b1, b2, b3, b4, b5, b6, b7, b8⟩ := C52 hadv (genMain_iot hp0 ho0 ht0 hgen)
  rw [hp] at b1; cases b1
  rw [C53_partial hws hb] at b2
  obtain ⟨s, c1, c2⟩ := avgMain_io hcl ho0 ha0 b3 havg
  have hall := grids_inside hg b2 hin
  have hgood : f₁.db.Good := ⟨fun e he => (hall e (b4.mem_iff.1 he)).1, b5⟩
  have hroot : f₁.db.BelowRoot := fun e he => (hall e (b4.mem_iff.1 he)).2.1
  have hno := nonOverlapping_of_ok hae hgood hroot c1
  obtain ⟨s', d1, d2⟩ := single_upTo hae has hgood b6 hno hroot
  rw [c1] at d1; cases d1
  obtain ⟨s', d1, d3⟩ := C87_range hae has hgood b6 hno hroot
  rw [c1] at d1; cases d1
  have hing : ∀ k e, IngestedIn nf g files ws k e ↔ e ∈ f₁.db.entries ∧ k.Contains e.addr.toKey := fun k e => by
    rw [grids_ingested b2, b4.mem_iff]
  refine ⟨_, c2, ?_⟩
  intro fmt q hq hfn m hm lon lat elev hs a ha ps hps ⟨n₀, x₀, hx₀, hlt⟩
  obtain ⟨e₀, he₀, -, hl₀⟩ := pointIn_ingested hg hx₀
  obtain ⟨he1, he2⟩ := (hing _ _).1 he₀
  obtain ⟨x, hx, hxn, hxk, hpay, hblock, hzone⟩ := fixedres_interior (fmt := fmt) hg (fun _ _ h => ⟨h.block, h.zone⟩) d2 hgood hno hq hfn hm hs ha he1 he2
    (by rw [hl₀]; exact hlt)
  have hto : ∀ y, ps y → ∃ n e, IngestedIn nf g files ws a.toKey e ∧ OctantFor nf.rd g n y e := fun y hy => by
    obtain ⟨n, hn⟩ := (hps y).1 hy
    obtain ⟨e, h1, h2, -⟩ := pointIn_ingested hg hn
    exact ⟨n, e, h1, h2⟩
  have hof : ∀ e, IngestedIn nf g files ws a.toKey e → ∃ n y, ps y ∧ OctantFor nf.rd g n y e := fun e he => by
    obtain ⟨n, y, h1, h2⟩ := ingested_pointIn hin he
    exact ⟨n, y, (hps y).2 ⟨n, h1⟩, h2⟩
  have hvs : ∀ {n y e}, OctantFor nf.rd g n y e → (0 < e.payload.vs ↔ 0 < y.payload.vs) := fun h => by
    obtain ⟨el, code, -, -, -, c, -⟩ := h; exact convertedUpTo_pos (single_upTo' hbin c)
  have hvp : ∀ {n y e}, OctantFor nf.rd g n y e → (0 < e.payload.vp ↔ 0 < y.payload.vp) := fun h => by
    obtain ⟨el, code, -, -, c, -⟩ := h; exact convertedUpTo_pos (single_upTo' hbin c)
  have hdec : ∀ y, Decides (IngestedIn nf g files ws a.toKey) y ↔ f₁.db.Contributes x.addr.toKey y := by
    rw [hxk]; exact decides_contributes (hing _)
  have hsolid : (∃ e, IngestedIn nf g files ws a.toKey e ∧ 0 < e.payload.vs) ↔ ∃ y, ps y ∧ 0 < y.payload.vs := by
    constructor
    · rintro ⟨e, he, hv⟩
      obtain ⟨n, y, h1, h2⟩ := hof e he
      exact ⟨y, h1, (hvs h2).1 hv⟩
    · rintro ⟨y, hy, hv⟩
      obtain ⟨n, e, h1, h2⟩ := hto y hy
      exact ⟨e, h1, (hvs h2).2 hv⟩
  have hd1 : ∀ {n y e}, ps y → IngestedIn nf g files ws a.toKey e → OctantFor nf.rd g n y e →
      (DecidingPoint ps y ↔ Decides (IngestedIn nf g files ws a.toKey) e) := fun {n y e} hy he ho => by
    unfold DecidingPoint Decides
    rw [hvs ho, hvp ho]
    have : (∀ d, ps d → ¬ 0 < d.payload.vs) ↔ ∀ d, IngestedIn nf g files ws a.toKey d → ¬ 0 < d.payload.vs := by
      have := not_congr hsolid
      simp only [not_exists, not_and] at this
      exact this.symm
    rw [this]
    simp only [hy, he, true_and]
  obtain ⟨r1, r2, r3⟩ := d3 x hx hxn
  refine ⟨x.payload, hpay, hblock, hzone, ?_, ?_, ?_⟩
  · rw [r1, ← hsolid]
    simp only [hing, hxk, and_assoc]
  · rintro ⟨y, hy⟩ r hr lo hi hbd
    obtain ⟨n, e, h1, h2⟩ := hto y hy.1
    have hM0 : 0 ≤ max |lo| |hi| := le_max_of_le_left (abs_nonneg _)
    obtain ⟨k1, k2⟩ := r2 ⟨e, (hdec e).1 ((hd1 hy.1 h1 h2).1 hy)⟩ r hr (lo - 1 / 2 ^ 22 * max |lo| |hi|) (hi + 1 / 2 ^ 22 * max |lo| |hi|) fun z hz => by
      have hz' := (hdec z).2 hz
      obtain ⟨n, w, w1, w2⟩ := hof z hz'.1
      obtain ⟨v, hv⟩ := exists_metres w
      obtain ⟨l1, l2⟩ := hbd w v ((hd1 w1 hz'.1 w2).2 hz') hv
      exact octantFor_bounds hbin w2 hv hr l1 l2
    have hl := le_max_left |lo| |hi|
    have hh := le_max_right |lo| |hi|
    generalize max |lo| |hi| = M at *
    have e0 : |1 / 2 ^ 22 * M| = 1 / 2 ^ 22 * M := abs_of_nonneg (mul_nonneg (by positivity) hM0)
    have hM : max |lo - 1 / 2 ^ 22 * M| |hi + 1 / 2 ^ 22 * M| ≤ (1 + 1 / 2 ^ 22) * M := by
      refine max_le ?_ ?_
      · refine (abs_sub _ _).trans ?_
        rw [e0]; linarith
      · refine (abs_add_le _ _).trans ?_
        rw [e0]; linarith
    generalize max |lo - 1 / 2 ^ 22 * M| |hi + 1 / 2 ^ 22 * M| = N at *
    norm_num at hM k1 k2 ⊢
    constructor <;> linarith
  · intro hn r hr
    refine r3 (fun ⟨e, he⟩ => hn ?_) r hr
    have hz' := (hdec e).2 he
    obtain ⟨n, w, w1, w2⟩ := hof e hz'.1
    exact ⟨w, (hd1 w1 hz'.1 w2).2 hz'⟩

/-- The files of the example: the list of grids and the grid. -/
def exRunFiles32 (n : String) : Option (List Char) := if n = "p" then some "g\n".toList else if n = "g" then some exGridText32 else none
/-- The first point of the example, as read. -/
def exPoint32 : Point ℚ := (readPoint exNumFmt32 exStored (readHeader exNumFmt32 (Stream.ofText exGridText32)).1).2
/-- cencalvmavg in an environment in which nothing fails and results are rounded to the nearest number of type `float`. -/
def exAvgEnv32 : Averager.Env ℚ := { exAvgEnv with engine := exEnv32 }
/-- The database cencalvmavg makes of the example. -/
def exAveraged32 : Db ℚ :=
  ⟨[⟨⟨⟨0, 0, 0, 0⟩, .interior⟩, ⟨2300, 12288819 / 8192, 2700, 100, 50, -999, -999, -999⟩⟩,
    ⟨⟨⟨0, 0, 0, 1⟩, .leaf⟩, ⟨2300, 12288819 / 8192, 2700, 100, 50, -999, 1, 7⟩⟩]⟩

theorem exHeaderText32 : HeaderText exNumFmt32 exGridText32 (readHeader exNumFmt32 (Stream.ofText exGridText32)).2
    (readHeader exNumFmt32 (Stream.ofText exGridText32)).1.rest :=
  (readHeader_iff (e := false)).2 (by decide +kernel) |>.1

theorem exPointsText32 : ∃ p t', HasData exPoint32 ∧ ¬ HasData p ∧
    PointsText exNumFmt32 (readHeader exNumFmt32 (Stream.ofText exGridText32)).1.rest [exPoint32, p] t' := by
  have f2 : readPoint exNumFmt32 exStored ⟨(readHeader exNumFmt32 (Stream.ofText exGridText32)).1.rest, false, false⟩ =
      (⟨exRest2, false, false⟩, exPoint32) := by decide +kernel
  have f4 : readPoint exNumFmt32 exStored ⟨exRest2, false, false⟩ =
      (⟨['\n'], false, false⟩, (readPoint exNumFmt32 exStored ⟨exRest2, false, false⟩).2) := by decide +kernel
  obtain ⟨g1, g2, g3⟩ := readPoint_iff.2 f2
  obtain ⟨k1, k2, k3⟩ := readPoint_iff.2 f4
  exact ⟨_, _, by decide +kernel, by decide +kernel, _, g2, g3, _, k2, k3, rfl⟩

theorem exInside32 : GridInside exNumFmt32 exGeomLv exGridText32 := by
  intro hd t pts t' h1 h2 h3 n h4
  obtain ⟨rfl, rfl⟩ := headerText_unique h1 exHeaderText32
  obtain ⟨p, t₂, e1, e2, e3⟩ := exPointsText32
  have hl : (readHeader exNumFmt32 (Stream.ofText exGridText32)).2.numTotal.toNat = 2 := by decide +kernel
  obtain rfl := pointsText_unique h2 e3 (h3.trans hl)
  have hn : n = 1 := by
    have h5 : exGeomLv.level (exNumFmt32.rd.double ((readHeader exNumFmt32 (Stream.ofText exGridText32)).2.resHoriz * 1000)) = .ok 1 := by
      decide +kernel
    rw [h5] at h4
    have : (1 : Int) = n := Outcome.ok.inj h4
    omega
  subst hn
  refine ⟨Nat.one_pos, fun p hp hd elev he => ?_⟩
  simp only [List.mem_cons, List.not_mem_nil, or_false] at hp
  rcases hp with hp | hp
  · rw [hp] at he
    have : elev = -350000 := by
      rcases he with ⟨h, -⟩ | ⟨-, h⟩
      · exact absurd h (by decide +kernel)
      · have h5 : exNumFmt32.rd.double (1000 * exPoint32.elev) = -350000 := by decide +kernel
        exact h.trans h5
    subst this
    rw [hp]
    exact ⟨⟨⟨0, 0, 0, 1⟩, .leaf⟩, by unfold CellOf; decide +kernel, by decide +kernel⟩
  · exact absurd (hp ▸ hd) e2

theorem exPointIn32 : PointIn exNumFmt32 exGeomLv exRunFiles32 ["g"] ⟨0, 0, 0, 0⟩ 1 exPoint32 := by
  obtain ⟨p, t₂, e1, e2, e3⟩ := exPointsText32
  exact ⟨"g", by simp, exGridText32, _, _, _, _, rfl, exHeaderText32, e3,
    (show 2 = (readHeader exNumFmt32 (Stream.ofText exGridText32)).2.numTotal.toNat by decide +kernel), by decide +kernel, by simp, e1, -350000,
    ⟨⟨0, 0, 0, 1⟩, .leaf⟩, Or.inr ⟨by decide +kernel, by decide +kernel⟩, by unfold CellOf; decide +kernel, by decide +kernel⟩

/-- Both programs end with code 0, and the answer at the size of the root is the average of the one point with data, whose shear
velocity, 1500.1 m/s in the file, is rounded. -/
example : (∀ i, exEtree.adv i = false) ∧ exNumFmt32.rd.Binary IntRound.nearest IntRound.nearest ∧ exAvgEnv32.engine.Reliable ∧
    Single IntRound.nearest exAvgEnv32.engine ∧ exAvgEnv32.closeLoss = none ∧ exRunFiles32 "p" = some "g\n".toList ∧
    GridInside exNumFmt32 exGeomLv exGridText32 ∧
    codeAnd "a" (avgMain exAvgEnv32 "s" (argsIO "o" "a")
        (diskOf (genMain exEtree exNumFmt32 exStored exGeomLv exRunFiles32 "s" (argsIOT "p" "o" "t") fun _ => none))) =
      some (0, some (exAveraged32.entries, some (genDescription ++ "\ns\nspatially averaged on: s"))) ∧
    exGeomLv.level (exGeomLv.vertExag * 409600) = .ok ((0 : Nat) : Int) ∧ CellOf exGeomLv 0 230 45 (-350500) ⟨⟨0, 0, 0, 0⟩, .leaf⟩ ∧
    PointIn exNumFmt32 exGeomLv exRunFiles32 ["g"] ⟨0, 0, 0, 0⟩ 1 exPoint32 ∧
    PayloadOf exFmt { VMQuery.init exGeomLv with queryFn := .FIXEDRES, queryRes := 409600, db := some exAveraged32 } 230 45 (-350500)
      ⟨2300, 12288819 / 8192, 2700, 100, 50, -999, -999, -999⟩ :=
  ⟨fun _ => rfl, exNumFmt32_binary, exEnv32_reliable, exEnv32_single, rfl, rfl, exInside32, by decide +kernel, by decide +kernel,
    by unfold CellOf; decide +kernel, exPointIn32, payloadOf_of_vals (by decide +kernel)⟩

end CenCalVM
