/-
C103: a WAVERES answer in `float` and `double` summarises the points of an octant as large as the wavelength.
-/
import Verif.Lemmas.WaveFloat
import Verif.Props.IngestFloat
import Verif.Props.WaveEndToEnd

set_option linter.unusedSectionVars false

namespace CenCalVM
open FileApps GridIngester
variable {K : Type} [Field K] [LinearOrder K] [IsStrictOrderedRing K] [FloorRing K]

/-- C103: computing in `float` and `double`, a database is created by cencalvmgen from grids whose points with data lie inside the
model, and averaged by cencalvmavg, both with exit code 0.  Then a WAVERES query on the result, at a location in the octant `k₀` of a
solid point `x` of the grids, answers with solid material that summarises the solid points of the grids in one octant `k` around `k₀`: each
real value lies between any bounds for the values of those points, converted exactly, up to 2^-13 times the larger bound.  If `lo` and `hi`
bound the shear velocities of those points, `k` is the root or at least as long as the wavelength of `lo` less 2^-12 times that of `hi`;
and it is `k₀` itself, answered with the values of `x` up to a relative error of 2^-22, or shorter than twice the wavelength of `hi` and
2^-12 more.  `T` is the period times the vertical exaggeration, with which the code multiplies it. -/
theorem C103 {ri rs rdb : IntRound K} {env : EtreeEnv} (hadv : ∀ i, env.adv i = false) {nf : NumFmt K} (hbin : nf.rd.Binary rs rdb)
    (hread : ∀ w v, nf.real32 w = some v → fl rs 24 v = v)
    {junk : Payload K} {g : Geom K} (hg : g.Lawful) (hlen : ∀ n, 0 < g.edgeLen n) (hhalf : ∀ n, g.edgeLen n = 2 * g.edgeLen (n + 1))
    {files : String → Option (List Char)} {aenv : Averager.Env K} (hae : aenv.engine.Reliable) (has : Single ri aenv.engine)
    (hcl : aenv.closeLoss = none)
    {stamp stamp' params tmp out avg : String} (hp0 : params ≠ "") (ht0 : tmp ≠ "") (ho0 : out ≠ "") (ha0 : avg ≠ "")
    {disk disk₁ disk₂ : EtreeDisk K}
    (hgen : genMain env nf junk g files stamp (argsIOT params out tmp) disk = .ok (0, disk₁))
    (havg : avgMain aenv stamp' (argsIO out avg) disk₁ = .ok (0, disk₂))
    {text : List Char} (hp : files params = some text) {ws : List String} (hws : WordsOf text ws) (hb : EndsBlank text)
    (hin : ∀ w ∈ ws, ∀ t, files w = some t → GridInside nf g t) :
    ∃ f, disk₂ avg = some f ∧ ∀ {fmt : Fmt K} {q : VMQuery K} {qs qd : IntRound K}, q.Open g f.db → q.rd.Binary qs qd →
      q.queryFn = .WAVERES → ∀ {T : K}, T = g.vertExag * q.queryRes → 0 ≤ T → fl qd 53 T = T →
      ∀ {lon lat elev : K}, NotSquashed q elev → ∀ {a : Addr}, CellOf g 31 lon lat elev a →
      ∀ {k₀ : Key} {x : Point K}, k₀.Octant → PointIn nf g files ws k₀ k₀.level x → k₀.Contains a.toKey → 0 < x.payload.vs →
      ∃ p k, PayloadOf fmt q lon lat elev p ∧ k.Octant ∧ k.Contains k₀ ∧ 0 < p.vs ∧
        (∀ r ∈ Payload.reals (K := K), ∀ lo hi,
          (∀ n y v, PointIn nf g files ws k n y → 0 < y.payload.vs → InMetres y v → lo ≤ r v ∧ r v ≤ hi) →
            lo - max |lo| |hi| / 2 ^ 13 ≤ r p ∧ r p ≤ hi + max |lo| |hi| / 2 ^ 13) ∧
        (∀ lo hi, (∀ n y v, PointIn nf g files ws k n y → 0 < y.payload.vs → InMetres y v → lo ≤ v.vs ∧ v.vs ≤ hi) →
          (k.level = 0 ∨ (lo - hi / 2 ^ 12) * T ≤ g.edgeLen k.level) ∧
          (k = k₀ ∨ g.edgeLen k.level < 2 * ((1 + 1 / 2 ^ 12) * hi * T))) ∧
        (k = k₀ ∧ InMetresUpTo (1 / 2 ^ 22) x p ∨ k.level < k₀.level ∧ p.faultBlock = -999 ∧ p.zone = -999) := by
  obtain ⟨text', grids, f₁, b1, b2, b3, b4, b5, b6, b7, b8⟩ := C52 hadv (genMain_iot hp0 ho0 ht0 hgen)
  rw [hp] at b1; cases b1
  rw [C53_partial hws hb] at b2
  obtain ⟨s, c1, c2⟩ := avgMain_io hcl ho0 ha0 b3 havg
  have hall := grids_inside hg b2 hin
  have hgood : f₁.db.Good := ⟨fun e he => (hall e (b4.mem_iff.1 he)).1, b5⟩
  have hroot : f₁.db.BelowRoot := fun e he => (hall e (b4.mem_iff.1 he)).2.1
  have hno := nonOverlapping_of_ok hae hgood hroot c1
  obtain ⟨s', d1, d2⟩ := single_upTo hae has hgood b6 hno hroot
  rw [c1] at d1; cases d1
  obtain ⟨s', d1, d3⟩ := C87_range hae has hgood b6 hno hroot
  rw [c1] at d1; cases d1
  have hing : ∀ k e, IngestedIn nf g files ws k e ↔ e ∈ f₁.db.entries ∧ k.Contains e.addr.toKey := fun k e => by
    rw [grids_ingested b2, b4.mem_iff]
  -- what is stored are numbers of type float
  have hsi : f₁.db.Single rs := by
    intro e he r hr
    have heo := hgood.octants e he
    have hself : e.addr.toKey.Contains e.addr.toKey := by rw [Key.contains_iff_trunc heo heo]; exact ⟨le_rfl, heo.trunc_self⟩
    obtain ⟨w, -, text, hd, t, pts, t', -, -, h3, -, n, -, p, h6, -, ho, -⟩ := (hing e.addr.toKey e).2 ⟨he, hself⟩
    obtain ⟨u, u', hu⟩ := pointsText_mem h3 p h6
    exact octantFor_single hbin hread ho hu hr
  refine ⟨_, c2, ?_⟩
  intro fmt q qs qd hq hrd hfn T hT hT0 hTd lon lat elev hs a ha k₀ x hk₀ hx hka hxv
  obtain ⟨s', d1, hso⟩ := average_single (rk := qs) hae has hgood b6 hno hroot hsi
  rw [c1] at d1; cases d1
  have halg := hg.aligned _ _ _ _ _ ha
  obtain ⟨e, he, heo', hel⟩ := pointIn_ingested hg hx
  obtain ⟨he1, hke⟩ := (hing _ _).1 he
  have heo := hgood.octants e he1
  have hek : e.addr.toKey = k₀ := by
    obtain ⟨-, h⟩ := (Key.contains_iff_trunc hk₀ heo).1 hke
    rw [← h, ← hel]; exact heo.trunc_self.symm
  subst hek
  have hvs : ∀ {n y e}, OctantFor nf.rd g n y e → (0 < e.payload.vs ↔ 0 < y.payload.vs) := fun h => by
    obtain ⟨el, code, -, -, -, c, -⟩ := h; exact convertedUpTo_pos (single_upTo' hbin c)
  have hev : 0 < e.payload.vs := (hvs heo').2 hxv
  have hblock : e.payload.faultBlock ≠ 0 := by
    obtain ⟨w, -, text, hd, t, pts, t', -, -, -, -, n, -, p, -, hdata, ⟨el, code, -, -, -, -, -, -, -, -, hfb, -⟩, -⟩ := he
    rw [hfb]; exact hdata.1
  have hleaf : e.addr.type = .leaf := by
    obtain ⟨el, code, -, ho, -⟩ := heo'
    exact (hg.keeps _ _ _ _ _ _ ho).2
  have hout := d2.good.octants
  obtain ⟨hfin, hoth⟩ := averageBy_finest d2 hgood hno halg he1 hka
  -- values of the octants around the location
  have hval : ∀ z ∈ s.out.entries, z.addr.toKey.Contains a.toKey → 0 < z.payload.vs ∧ ∀ r ∈ Payload.reals (K := K), ∀ lo hi,
      (∀ n y v, PointIn nf g files ws z.addr.toKey n y → 0 < y.payload.vs → InMetres y v → lo ≤ r v ∧ r v ≤ hi) →
        lo - max |lo| |hi| / 2 ^ 13 ≤ r z.payload ∧ r z.payload ≤ hi + max |lo| |hi| / 2 ^ 13 := by
    intro z hz hza
    obtain ⟨hze, hzz⟩ := hoth z hz hza
    have hpt : ∀ d, IngestedIn nf g files ws z.addr.toKey d → 0 < d.payload.vs → ∀ r ∈ Payload.reals (K := K), ∀ lo hi,
        (∀ n y v, PointIn nf g files ws z.addr.toKey n y → 0 < y.payload.vs → InMetres y v → lo ≤ r v ∧ r v ≤ hi) →
        lo - 1 / 2 ^ 22 * max |lo| |hi| ≤ r d.payload ∧ r d.payload ≤ hi + 1 / 2 ^ 22 * max |lo| |hi| := by
      intro d hd hdv r hr lo hi h
      obtain ⟨n, y, h1, h2⟩ := ingested_pointIn hin hd
      obtain ⟨v, hv⟩ := exists_metres y
      obtain ⟨l1, l2⟩ := h n y v h1 ((hvs h2).1 hdv) hv
      exact octantFor_bounds hbin h2 hv hr l1 l2
    have hM0 : ∀ lo hi : K, 0 ≤ max |lo| |hi| := fun lo hi => le_max_of_le_left (abs_nonneg _)
    rcases hzz with rfl | hzn
    · refine ⟨hev, fun r hr lo hi h => ?_⟩
      obtain ⟨k1, k2⟩ := hpt z he hev r hr lo hi h
      have := hM0 lo hi
      generalize max |lo| |hi| = M at *
      norm_num at k1 k2 ⊢
      constructor <;> linarith
    · obtain ⟨r1, r2, -⟩ := d3 z hz hzn
      refine ⟨r1.2 ⟨e, he1, hze, hev⟩, fun r hr lo hi h => ?_⟩
      obtain ⟨k1, k2⟩ := r2 ⟨e, he1, hze, Or.inl hev⟩ r hr (lo - 1 / 2 ^ 22 * max |lo| |hi|) (hi + 1 / 2 ^ 22 * max |lo| |hi|) fun d hd => by
        obtain ⟨hd, hdc, hd' | ⟨-, hd'⟩⟩ := hd
        · exact hpt d ((hing _ _).2 ⟨hd, hdc⟩) hd' r hr lo hi h
        · exact absurd hev (hd' e he1 hze)
      exact widen_twice (le_max_left _ _) (le_max_right _ _) rfl k1 k2
  have hreal : (fun p : Payload K => p.vs) ∈ Payload.reals (K := K) := by simp [Payload.reals]
  have hpay : PayloadOf fmt q lon lat elev (VMQuery.bothP q g s.out (a, 0)) :=
    (VMQuery.payloadOf_plain hq.lawful hq.geom_eq hq.db_eq hs).2
      ⟨31, (a, 0), by unfold LookupLevel; rw [hfn], ha, rfl⟩
  have hdet : VMQuery.detP q g s.out (a, 0) = VMQuery.ansP q g s.out a := by unfold VMQuery.detP; simp
  have hboth : (VMQuery.ansP q g s.out a).faultBlock ≠ 0 → VMQuery.bothP q g s.out (a, 0) = VMQuery.ansP q g s.out a := fun h => by
    unfold VMQuery.bothP; rw [hdet, if_neg h]
  rcases waveAnswer_upTo hrd hfn hlen hT hTd d2.good (averageBy_closed d2) hso halg with
    ⟨hw, -⟩ | ⟨-, first, last, hfirst, hlast, hlc, hnot, hbelow, hans⟩
  · have := (hw e hfin).1
    rw [hleaf] at this; cases this
  obtain rfl := Db.finest_unique d2.good halg hfirst hfin
  obtain ⟨hle, hlm⟩ := hoth last hlast hlc
  obtain ⟨hlv, hlb⟩ := hval last hlast hlc
  -- the solid point itself lies in the octant
  have hself : ∀ z : Entry K, z.addr.toKey.Contains first.addr.toKey → PointIn nf g files ws z.addr.toKey first.addr.toKey.level x := fun z hz => by
    obtain ⟨w, hw, text, hd, t, pts, t', h1, h2, h3, h4, h5, h6, h7, el, a', h8, h9, h10⟩ := hx
    exact ⟨w, hw, text, hd, t, pts, t', h1, h2, h3, h4, h5, h6, h7, el, a', h8, h9, Key.contains_trans hz h10⟩
  have hhi : ∀ lo hi, (∀ n y v, PointIn nf g files ws last.addr.toKey n y → 0 < y.payload.vs → InMetres y v → lo ≤ v.vs ∧ v.vs ≤ hi) →
      lo ≤ hi ∧ 0 < hi := fun lo hi h => by
    obtain ⟨v, hv⟩ := exists_metres x
    obtain ⟨h1, h2⟩ := h _ x v (hself last hle) hxv hv
    have h3 : 0 < v.vs := by
      rcases hv.vs with ⟨h4, -⟩ | ⟨-, h4⟩
      · rw [h4] at hxv; norm_num at hxv
      · rw [h4]; simp only [id]; positivity
    exact ⟨h1.trans h2, h3.trans_le h2⟩
  have hlong : ∀ lo hi, (∀ n y v, PointIn nf g files ws last.addr.toKey n y → 0 < y.payload.vs → InMetres y v → lo ≤ v.vs ∧ v.vs ≤ hi) →
      last.addr.toKey.level = 0 ∨ (lo - hi / 2 ^ 12) * T ≤ g.edgeLen last.addr.toKey.level := by
    intro lo hi h
    obtain ⟨hlh, hh0⟩ := hhi lo hi h
    by_cases h0 : last.addr.level = 0
    · exact Or.inl h0
    right
    have hL := hlen last.addr.level
    show (lo - hi / 2 ^ 12) * T ≤ g.edgeLen last.addr.level
    rcases le_or_gt lo 0 with hlo | hlo
    · refine le_trans (mul_nonpos_of_nonpos_of_nonneg ?_ hT0) hL.le
      have : 0 ≤ hi / 2 ^ 12 := by positivity
      linarith
    · by_contra hlt
      refine hnot ⟨hlv, ?_, Nat.pos_of_ne_zero h0⟩
      have h1 := (hlb _ hreal lo hi h).1
      rw [abs_of_pos hlo, abs_of_pos hh0, max_eq_right hlh] at h1
      have h2 : (lo - hi / 2 ^ 12) * (1 + 1 / 2 ^ 52) ≤ last.payload.vs := by
        norm_num at h1 ⊢; linarith
      have h3 := mul_le_mul_of_nonneg_right h2 hT0
      have h4 := mul_lt_mul_of_pos_right (not_le.1 hlt) (by norm_num : (0 : K) < 1 + 1 / 2 ^ 52)
      calc g.edgeLen last.addr.level * (1 + 1 / 2 ^ 52) < (lo - hi / 2 ^ 12) * T * (1 + 1 / 2 ^ 52) := h4
        _ = (lo - hi / 2 ^ 12) * (1 + 1 / 2 ^ 52) * T := by ring
        _ ≤ _ := h3
  rcases hans with ⟨rfl, hpp⟩ | ⟨c, hc, hcc, hcl', hmean⟩
  · refine ⟨last.payload, last.addr.toKey, ?_, heo, hle, hev, hlb, fun lo hi h => ⟨hlong lo hi h, Or.inl rfl⟩, Or.inl ⟨rfl, octantFor_metres hbin heo'⟩⟩
    rw [hboth (by rw [hpp]; exact hblock), hpp] at hpay
    exact hpay
  · obtain ⟨hcv, hcb⟩ := hval c hc hcc
    have hcw := hbelow c hc hcc (by omega)
    have hlev : last.addr.level < first.addr.level := by have := hfin.2.2 c hc hcc; omega
    have hlast_c : last.addr.toKey.Contains c.addr.toKey :=
      Key.contains_nested (hout last hlast) (hout c hc) halg hlc hcc (by show last.addr.level ≤ c.addr.level; omega)
    have hlm : last ∉ f₁.db.entries := by
      rcases hlm with rfl | h
      · exact absurd hlev (lt_irrefl _)
      · exact h
    have hsp := (d2.others last hlast hlm).2.2
    obtain ⟨m1, m7, m8⟩ := hmean
    have hsub : ∀ n y, PointIn nf g files ws c.addr.toKey n y → PointIn nf g files ws last.addr.toKey n y := by
      rintro n y ⟨w, hw, text, hd, t, pts, t', h1, h2, h3, h4, h5, h6, h7, el, a', h8, h9, h10⟩
      exact ⟨w, hw, text, hd, t, pts, t', h1, h2, h3, h4, h5, h6, h7, el, a', h8, h9, Key.contains_trans hlast_c h10⟩
    refine ⟨VMQuery.ansP q g s.out a, last.addr.toKey, ?_, hout last hlast, hle, ?_, ?_, fun lo hi h => ⟨hlong lo hi h, Or.inr ?_⟩,
      Or.inr ⟨hlev, by rw [m7, hsp.block], by rw [m8, hsp.zone]⟩⟩
    · rw [← hboth (by rw [m7, hsp.block]; decide)]; exact hpay
    · exact (lt_min hcv hlv).trans_le (m1 _ hreal).1
    · intro r hr lo hi h
      have h1 := hlb r hr lo hi h
      have h2 := hcb r hr lo hi fun n y v hy => h n y v (hsub n y hy)
      exact ⟨(le_min h2.1 h1.1).trans (m1 r hr).1, (m1 r hr).2.1.trans (max_le h2.2 h1.2)⟩
    · obtain ⟨-, hh0⟩ := hhi lo hi h
      have h1 := (hcb _ hreal 0 hi fun n y v hy hyv hv => ⟨?_, (h n y v (hsub n y hy) hyv hv).2⟩).2
      · rw [abs_zero, abs_of_pos hh0, max_eq_right hh0.le] at h1
        have h2 := hcw.2.1
        rw [hcl'] at h2
        have h0 : c.payload.vs ≤ (1 + 1 / 2 ^ 12) * hi := by norm_num at h1 ⊢; linarith
        have h3 := mul_le_mul_of_nonneg_right h0 hT0
        have h4 := hhalf last.addr.level
        have h5 : g.edgeLen last.addr.toKey.level = g.edgeLen last.addr.level := rfl
        rw [h5, h4]
        linarith
      · rcases hv.vs with ⟨h4, -⟩ | ⟨-, h4⟩
        · rw [h4] at hyv; norm_num at hyv
        · show 0 ≤ v.vs
          rw [h4]; simp only [id]; positivity

theorem exNumFmt32_reads (w : List Char) (v : ℚ) (h : exNumFmt32.real32 w = some v) : fl IntRound.nearest 24 v = v := by
  have h : (exReal w).map (fl IntRound.nearest 24) = some v := h
  rw [Option.map_eq_some_iff] at h
  obtain ⟨x, -, rfl⟩ := h
  exact fl_fl (by norm_num) le_rfl x

/-- A WAVERES query on the example of C102, rounding to the nearest. -/
def exWave32 (period : ℚ) : VMQuery ℚ :=
  { VMQuery.init exGeomLv with
    queryFn := .WAVERES
    queryRes := period
    db := some exAveraged32
    rd := ⟨fl IntRound.nearest 24, fl IntRound.nearest 53⟩ }

/-- The example of C102 queried with two periods: the wavelength of the shorter one fits in the octant of the point, which is returned; that
of the longer one does not, and the mean with the average of the root is. -/
example : (∀ i, exEtree.adv i = false) ∧ exNumFmt32.rd.Binary IntRound.nearest IntRound.nearest ∧
    (∀ w v, exNumFmt32.real32 w = some v → fl IntRound.nearest 24 v = v) ∧ (∀ n, 0 < exGeomLv.edgeLen n) ∧
    (∀ n, exGeomLv.edgeLen n = 2 * exGeomLv.edgeLen (n + 1)) ∧ exAvgEnv32.engine.Reliable ∧
    Single IntRound.nearest exAvgEnv32.engine ∧ exRunFiles32 "p" = some "g\n".toList ∧ GridInside exNumFmt32 exGeomLv exGridText32 ∧
    codeAnd "a" (avgMain exAvgEnv32 "s" (argsIO "o" "a")
        (diskOf (genMain exEtree exNumFmt32 exStored exGeomLv exRunFiles32 "s" (argsIOT "p" "o" "t") fun _ => none))) =
      some (0, some (exAveraged32.entries, some (genDescription ++ "\ns\nspatially averaged on: s"))) ∧
    (∃ a, CellOf exGeomLv 31 230 45 (-350500) a ∧ (⟨0, 0, 0, 1⟩ : Key).Contains a.toKey) ∧
    PointIn exNumFmt32 exGeomLv exRunFiles32 ["g"] ⟨0, 0, 0, 1⟩ 1 exPoint32 ∧ 0 < exPoint32.payload.vs ∧
    (exWave32 1).rd.Binary IntRound.nearest IntRound.nearest ∧
    fl IntRound.nearest 53 (exGeomLv.vertExag * 1) = exGeomLv.vertExag * 1 ∧
    fl IntRound.nearest 53 (exGeomLv.vertExag * 1000) = exGeomLv.vertExag * 1000 ∧
    PayloadOf exFmt (exWave32 1) 230 45 (-350500) ⟨2300, 12288819 / 8192, 2700, 100, 50, -999, 1, 7⟩ ∧
    PayloadOf exFmt (exWave32 1000) 230 45 (-350500) ⟨2300, 12288819 / 8192, 2700, 100, 50, -999, -999, -999⟩ := by
  refine ⟨fun _ => rfl, exNumFmt32_binary, exNumFmt32_reads, fun n => ?_, exHalf, exEnv32_reliable, exEnv32_single, rfl, exInside32, by decide +kernel,
    ⟨⟨⟨133693, 276561, 242745344, 31⟩, .leaf⟩, by unfold CellOf; decide +kernel, by decide +kernel⟩, ?_, by decide +kernel, ⟨rfl, rfl⟩,
    by decide +kernel, by decide +kernel, payloadOf_of_vals (by decide +kernel), payloadOf_of_vals (by decide +kernel)⟩
  · show 0 < GeomCenCA.edgeLen n; unfold GeomCenCA.edgeLen GeomCenCA.ROOTLEN; positivity
  · obtain ⟨p, t₂, e1, e2, e3⟩ := exPointsText32
    exact ⟨"g", by simp, exGridText32, _, _, _, _, rfl, exHeaderText32, e3,
      (show 2 = (readHeader exNumFmt32 (Stream.ofText exGridText32)).2.numTotal.toNat by decide +kernel), by decide +kernel, by simp, e1, -350000,
      ⟨⟨0, 0, 0, 1⟩, .leaf⟩, Or.inr ⟨by decide +kernel, by decide +kernel⟩, by unfold CellOf; decide +kernel, by decide +kernel⟩

end CenCalVM
