/-
C98: a WAVERES answer summarises the ingested points of an octant as large as the wavelength.
-/
import Verif.Lemmas.WaveEndToEnd
import Verif.Props.EndToEnd

set_option linter.unusedSectionVars false

namespace CenCalVM
open FileApps
variable {K : Type} [Field K] [LinearOrder K] [IsStrictOrderedRing K]

/-- C98: a database is created by cencalvmgen from grids whose points with data lie inside the model, and averaged by cencalvmavg, both
with exit code 0.  Then a WAVERES query on the result, at a location in the octant of an ingested solid point `e`, answers with solid
material that summarises the solid points ingested in one octant `k` around that point: each real value lies between any bounds for the
values of those points.  `k` is the root or at least as long as the shortest shear wavelength among those points; and it is the
octant of `e` itself, answered with the values of `e`, or less than twice as long as the longest shear wavelength among them.
`T` is the period times the vertical exaggeration, with which the code multiplies it. -/
theorem C98 {env : EtreeEnv} (hadv : ∀ i, env.adv i = false) {nf : NumFmt K} {junk : Payload K} {g : Geom K} (hg : g.Lawful)
    (hhalf : ∀ n, g.edgeLen n = 2 * g.edgeLen (n + 1))
    {files : String → Option (List Char)} {aenv : Averager.Env K} (hae : aenv.engine.Reliable) (hax : aenv.engine.Exact) (hcl : aenv.closeLoss = none)
    {stamp stamp' params tmp out avg : String} (hp0 : params ≠ "") (ht0 : tmp ≠ "") (ho0 : out ≠ "") (ha0 : avg ≠ "")
    {disk disk₁ disk₂ : EtreeDisk K}
    (hgen : genMain env nf junk g files stamp (argsIOT params out tmp) disk = .ok (0, disk₁))
    (havg : avgMain aenv stamp' (argsIO out avg) disk₁ = .ok (0, disk₂))
    {text : List Char} (hp : files params = some text) {ws : List String} (hws : WordsOf text ws) (hb : EndsBlank text)
    (hin : ∀ w ∈ ws, ∀ t, files w = some t → GridInside nf g t) :
    ∃ f, disk₂ avg = some f ∧ ∀ {fmt : Fmt K} {q : VMQuery K}, q.Open g f.db → q.rd.Exact → q.queryFn = .WAVERES →
      ∀ {T : K}, T = g.vertExag * q.queryRes → 0 ≤ T → ∀ {lon lat elev : K}, NotSquashed q elev →
      ∀ {a : Addr}, CellOf g 31 lon lat elev a →
      ∀ {e : Entry K}, IngestedIn nf g files ws e.addr.toKey e → e.addr.toKey.Contains a.toKey → 0 < e.payload.vs →
      ∃ p k, PayloadOf fmt q lon lat elev p ∧ k.Octant ∧ k.Contains e.addr.toKey ∧ 0 < p.vs ∧
        (∀ r ∈ Payload.reals (K := K), ∀ lo hi,
          (∀ d, IngestedIn nf g files ws k d → 0 < d.payload.vs → lo ≤ r d.payload ∧ r d.payload ≤ hi) → lo ≤ r p ∧ r p ≤ hi) ∧
        (k.level = 0 ∨ ∀ v, (∀ d, IngestedIn nf g files ws k d → 0 < d.payload.vs → v ≤ d.payload.vs) → v * T ≤ g.edgeLen k.level) ∧
        (k = e.addr.toKey ∧ p = e.payload ∨
          k.level < e.addr.level ∧ p.faultBlock = -999 ∧ p.zone = -999 ∧
            ∀ v, (∀ d, IngestedIn nf g files ws k d → 0 < d.payload.vs → d.payload.vs ≤ v) → g.edgeLen k.level < 2 * (v * T)) := by
  obtain ⟨text', grids, f₁, b1, b2, b3, b4, b5, b6, b7, b8⟩ := C52 hadv (genMain_iot hp0 ho0 ht0 hgen)
  rw [hp] at b1; cases b1
  rw [C53_partial hws hb] at b2
  obtain ⟨s, c1, c2⟩ := avgMain_io hcl ho0 ha0 b3 havg
  have hall := grids_inside hg b2 hin
  have hgood : f₁.db.Good := ⟨fun e he => (hall e (b4.mem_iff.1 he)).1, b5⟩
  have hroot : f₁.db.BelowRoot := fun e he => (hall e (b4.mem_iff.1 he)).2.1
  have hno := nonOverlapping_of_ok hae hgood hroot c1
  obtain ⟨s', d1, d2⟩ := averageOf hae hax hgood b6 hno hroot
  rw [c1] at d1; cases d1
  obtain ⟨s', d1, d3⟩ := C29 hae hax hgood b6 hno
  rw [c1] at d1; cases d1
  have hing : ∀ k e, IngestedIn nf g files ws k e ↔ e ∈ f₁.db.entries ∧ k.Contains e.addr.toKey := fun k e => by
    rw [grids_ingested b2, b4.mem_iff]
  refine ⟨_, c2, ?_⟩
  intro fmt q hq hrd hfn T hT hT0 lon lat elev hs a ha e he hea hev
  obtain ⟨he1, -⟩ := (hing _ _).1 he
  have halg := hg.aligned _ _ _ _ _ ha
  have heo := hgood.octants e he1
  -- type and fault block of an ingested point
  obtain ⟨hleaf, hblock⟩ : e.addr.type = .leaf ∧ e.payload.faultBlock ≠ 0 := by
    obtain ⟨w, -, text, hd, t, pts, t', -, -, -, -, n, -, p, -, hdata, ⟨el, code, -, ho, -, -, -, -, -, -, hfb, -⟩, -⟩ := he
    exact ⟨(hg.keeps _ _ _ _ _ _ ho).2, by rw [hfb]; exact hdata.1⟩
  have hout := d2.good.octants
  -- values of such an octant
  obtain ⟨hfin, hoth⟩ := averageBy_finest d2 hgood hno halg he1 hea
  have hval : ∀ x ∈ s.out.entries, x.addr.toKey.Contains a.toKey → 0 < x.payload.vs ∧ ∀ r ∈ Payload.reals (K := K), ∀ lo hi,
      (∀ d, IngestedIn nf g files ws x.addr.toKey d → 0 < d.payload.vs → lo ≤ r d.payload ∧ r d.payload ≤ hi) →
        lo ≤ r x.payload ∧ r x.payload ≤ hi := by
    intro x hx hxa
    obtain ⟨hxe, rfl | hxn⟩ := hoth x hx hxa
    · exact ⟨hev, fun r _ lo hi h => h x he hev⟩
    · obtain ⟨r1, r2, -⟩ := d3 x hx hxn
      refine ⟨r1.2 ⟨e, he1, hxe, hev⟩, fun r hr lo hi h => r2 ⟨e, he1, hxe, Or.inl hev⟩ r hr lo hi ?_⟩
      rintro d ⟨hd, hdc, hd' | ⟨-, hd'⟩⟩
      · exact h d ((hing _ _).2 ⟨hd, hdc⟩) hd'
      · exact absurd hev (hd' e he1 hxe)
  have hup : ∀ x ∈ s.out.entries, x.addr.toKey.Contains a.toKey → x.addr.toKey.Contains e.addr.toKey := fun x hx hxa => (hoth x hx hxa).1
  have hvs : (fun p : Payload K => p.vs) ∈ Payload.reals (K := K) := by simp [Payload.reals]
  have hpay : PayloadOf fmt q lon lat elev (VMQuery.bothP q g s.out (a, 0)) :=
    (VMQuery.payloadOf_plain hq.lawful hq.geom_eq hq.db_eq hs).2
      ⟨31, (a, 0), by unfold LookupLevel; rw [hfn], ha, rfl⟩
  have hdet : VMQuery.detP q g s.out (a, 0) = VMQuery.ansP q g s.out a := by unfold VMQuery.detP; simp
  have hboth : (VMQuery.ansP q g s.out a).faultBlock ≠ 0 → VMQuery.bothP q g s.out (a, 0) = VMQuery.ansP q g s.out a := fun h => by
    unfold VMQuery.bothP; rw [hdet, if_neg h]
  obtain ⟨-, hw⟩ := VMQuery.ansP_wave hrd hfn g d2.good (averageBy_closed d2) halg
  rcases hw with ⟨hw, -⟩ | ⟨-, first, last, hfirst, hlast, hlc, hnot, hbelow, hans⟩
  · exact absurd (Or.inl hleaf) (hw e hfin)
  obtain rfl := Db.finest_unique d2.good halg hfirst hfin
  have hle := hup last hlast hlc
  obtain ⟨hlv, hlb⟩ := hval last hlast hlc
  rw [← hT] at hnot hbelow
  have hlong : last.addr.toKey.level = 0 ∨ ∀ v, (∀ d, IngestedIn nf g files ws last.addr.toKey d → 0 < d.payload.vs → v ≤ d.payload.vs) →
      v * T ≤ g.edgeLen last.addr.toKey.level := by
    by_cases h0 : last.addr.level = 0
    · exact Or.inl h0
    · refine Or.inr fun v hv => ?_
      by_contra hlt
      refine hnot ⟨hlv, lt_of_lt_of_le (not_le.1 hlt) (mul_le_mul_of_nonneg_right ?_ hT0), Nat.pos_of_ne_zero h0⟩
      by_contra hvl
      -- the bounds v and the largest value of a solid point around
      obtain ⟨t, ht⟩ : ∃ t : K, ∀ d ∈ f₁.db.entries, d.payload.vs ≤ t := by
        generalize f₁.db.entries = l
        induction l with
        | nil => exact ⟨0, fun d hd => by simp at hd⟩
        | cons x l ih =>
          obtain ⟨t, ht⟩ := ih
          refine ⟨max x.payload.vs t, fun d hd => ?_⟩
          rcases List.mem_cons.1 hd with rfl | hd
          · exact le_max_left _ _
          · exact (ht d hd).trans (le_max_right _ _)
      exact hvl (hlb _ hvs v t fun d hd hdv => ⟨hv d hd hdv, ht d ((hing _ _).1 hd).1⟩).1
  rcases hans with ⟨rfl, hpp⟩ | ⟨c, hc, hcc, hcl', hmean⟩
  · refine ⟨last.payload, last.addr.toKey, ?_, heo, by rw [Key.contains_iff_trunc heo heo]; exact ⟨le_rfl, heo.trunc_self⟩, hev, hlb, hlong, Or.inl ⟨rfl, rfl⟩⟩
    rw [hboth (by rw [hpp]; exact hblock), hpp] at hpay
    exact hpay
  · obtain ⟨hcv, hcb⟩ := hval c hc hcc
    have hcw := hbelow c hc hcc (by omega)
    have hlev : last.addr.level < first.addr.level := by have := hfin.2.2 c hc hcc; omega
    have hlast_c : last.addr.toKey.Contains c.addr.toKey :=
      Key.contains_nested (hout last hlast) (hout c hc) halg hlc hcc (by show last.addr.level ≤ c.addr.level; omega)
    have hlm : last ∉ f₁.db.entries := by
      rcases (hoth last hlast hlc).2 with rfl | h
      · exact absurd hlev (lt_irrefl _)
      · exact h
    have hsp := (d2.others last hlast hlm).2.2
    obtain ⟨m1, m2, m3, m4, m5, m6, m7, m8⟩ := hmean
    have hsub : ∀ d, IngestedIn nf g files ws c.addr.toKey d → IngestedIn nf g files ws last.addr.toKey d := fun d hd => by
      rw [hing] at hd ⊢; exact ⟨hd.1, Key.contains_trans hlast_c hd.2⟩
    refine ⟨VMQuery.ansP q g s.out a, last.addr.toKey, ?_, hout last hlast, hle, ?_, ?_, hlong,
      Or.inr ⟨hlev, by rw [m7, hsp.block], by rw [m8, hsp.zone], fun v hv => ?_⟩⟩
    · rw [← hboth (by rw [m7, hsp.block]; decide)]; exact hpay
    · rw [m2]; linarith
    · intro r hr lo hi h
      have h1 := hlb r hr lo hi h
      have h2 := hcb r hr lo hi fun d hd => h d (hsub d hd)
      simp only [Payload.reals, List.mem_cons, List.not_mem_nil, or_false] at hr
      rcases hr with rfl | rfl | rfl | rfl | rfl | rfl <;> simp only [m1, m2, m3, m4, m5, m6] <;>
        constructor <;> linarith [h1.1, h1.2, h2.1, h2.2]
    · have h1 : c.payload.vs ≤ v := by
        obtain ⟨t, ht⟩ : ∃ t : K, ∀ d ∈ f₁.db.entries, t ≤ d.payload.vs := by
          generalize f₁.db.entries = l
          induction l with
          | nil => exact ⟨0, fun d hd => by simp at hd⟩
          | cons x l ih =>
            obtain ⟨t, ht⟩ := ih
            refine ⟨min x.payload.vs t, fun d hd => ?_⟩
            rcases List.mem_cons.1 hd with rfl | hd
            · exact min_le_left _ _
            · exact (min_le_right _ _).trans (ht d hd)
        exact (hcb _ hvs t v fun d hd hdv => ⟨ht d ((hing _ _).1 hd).1, hv d (hsub d hd) hdv⟩).2
      have h2 := hcw.2.1
      rw [hcl'] at h2
      have h3 := mul_le_mul_of_nonneg_right h1 hT0
      have h4 := hhalf last.addr.level
      have h5 : g.edgeLen last.addr.toKey.level = g.edgeLen last.addr.level := rfl
      rw [h5, h4]
      linarith

theorem exHalf (n : Nat) : exGeomLv.edgeLen n = 2 * exGeomLv.edgeLen (n + 1) := by
  show (GeomCenCA.edgeLen n : ℚ) = 2 * GeomCenCA.edgeLen (n + 1)
  unfold GeomCenCA.edgeLen
  rw [pow_succ]; field_simp

/-- The example of C76 queried with two periods: the wavelength of the shorter one fits in the octant of the point, which is returned; that
of the longer one does not, and the mean with the average of the root is. -/
example : exRunFiles "p" = some "g\n".toList ∧ GridInside exNumFmt exGeomLv exGridText ∧
    codeAnd "o" (genMain exEtree exNumFmt exStored exGeomLv exRunFiles "s" (argsIOT "p" "o" "t") fun _ => none) =
      some (0, some ([⟨⟨⟨0, 0, 0, 1⟩, .leaf⟩, exStored⟩], some (genDescription ++ "\ns"))) ∧
    codeAnd "a" (avgMain exAvgEnv "s" (argsIO "o" "a")
        (diskOf (genMain exEtree exNumFmt exStored exGeomLv exRunFiles "s" (argsIOT "p" "o" "t") fun _ => none))) =
      some (0, some (exAveraged.entries, some (genDescription ++ "\ns\nspatially averaged on: s"))) ∧
    (∃ a, CellOf exGeomLv 31 230 45 (-350500) a ∧ (⟨0, 0, 0, 1⟩ : Key).Contains a.toKey) ∧
    (VMQuery.init exGeomLv).rd.Exact ∧ 0 < exStored.vs ∧ (0 : ℚ) ≤ exGeomLv.vertExag * 1 ∧
    PayloadOf exFmt { VMQuery.init exGeomLv with queryFn := .WAVERES, queryRes := 1, db := some exAveraged } 230 45 (-350500) exStored ∧
    PayloadOf exFmt { VMQuery.init exGeomLv with queryFn := .WAVERES, queryRes := 1000, db := some exAveraged } 230 45 (-350500)
      { exStored with faultBlock := -999, zone := -999 } :=
  ⟨rfl, exInsideLv, by decide +kernel, by decide +kernel, ⟨⟨⟨133693, 276561, 242745344, 31⟩, .leaf⟩, by unfold CellOf; decide +kernel, by decide +kernel⟩, Rd.exact_exact, by decide +kernel, by decide +kernel,
    payloadOf_of_vals (by decide +kernel), payloadOf_of_vals (by decide +kernel)⟩

end CenCalVM
