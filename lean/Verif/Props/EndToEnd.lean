/-
C76: a fixed-resolution answer summarises the ingested points of its cell.
-/
import Verif.Props.AvgLocal
import Verif.Lemmas.FixedCell

set_option linter.unusedSectionVars false

namespace CenCalVM
open FileApps
variable {K : Type} [Field K] [LinearOrder K] [IsStrictOrderedRing K]

theorem converted_unique {rnd : K → K} {a b b' : K} (h : Converted rnd a b) (h' : Converted rnd a b') : b = b' := by
  rcases h with ⟨h1, h2⟩ | ⟨h1, h2⟩ <;> rcases h' with ⟨h3, h4⟩ | ⟨h3, h4⟩
  · rw [h2, h4]
  · exact absurd h1 h3
  · exact absurd h3 h1
  · rw [h2, h4]

theorem octantFor_unique {rd : Rd K} {g : Geom K} {n : Nat} {p : GridIngester.Point K} {e e' : Entry K} (h : OctantFor rd g n p e) (h' : OctantFor rd g n p e') :
    e = e' := by
  obtain ⟨el, c, a1, a2, a3, a4, a5, a6, a7, a8, a9, a10⟩ := h
  obtain ⟨el', c', b1, b2, b3, b4, b5, b6, b7, b8, b9, b10⟩ := h'
  have e0 := converted_unique a1 b1
  subst e0
  have e1 : e.addr = e'.addr := congrArg Prod.fst (Outcome.ok.inj (a2.symm.trans b2))
  have e2 := converted_unique a3 b3
  have e3 := converted_unique a4 b4
  have e4 := converted_unique a5 b5
  have e5 := converted_unique a6 b6
  have e6 := a7.trans b7.symm
  have e7 := a8.trans b8.symm
  have e8 := a9.trans b9.symm
  have e9 := a10.trans b10.symm
  rcases e with ⟨ad, p⟩
  rcases e' with ⟨ad', p'⟩
  cases p; cases p'
  simp only at *
  subst e1 e2 e3 e4 e5 e6 e7 e8 e9
  rfl

/-- The octants of the grids are those ingested. -/
theorem grids_ingested {nf : NumFmt K} {g : Geom K} {files : String → Option (List Char)} {ws : List String}
    {grids : List (List (Entry K))} (h : List.Forall₂ (GridOctants nf g files) ws grids) (k : Key) (e : Entry K) :
    IngestedIn nf g files ws k e ↔ e ∈ grids.flatten ∧ k.Contains e.addr.toKey := by
  induction h with
  | nil => simp [IngestedIn]
  | @cons w es ws grids hw h ih =>
    have hhead : (∃ text hd t pts t', files w = some text ∧ HeaderText nf text hd t ∧ PointsText nf t pts t' ∧
        pts.length = hd.numTotal.toNat ∧ ∃ n : Nat, g.level (nf.rd.double (hd.resHoriz * 1000)) = .ok (n : Int) ∧
          ∃ p ∈ pts, HasData p ∧ OctantFor nf.rd g n p e ∧ k.Contains e.addr.toKey) ↔ e ∈ es ∧ k.Contains e.addr.toKey := by
      obtain ⟨text, ht, ⟨hd, t, pts, t', a1, a2, a3, n, a4, a5⟩ | ⟨a1, rfl⟩⟩ := hw
      · constructor
        · rintro ⟨text₂, hd₂, t₂, pts₂, t₂', b0, b1, b2, b3, n₂, b4, p, b5, b6, b7, b8⟩
          rw [ht] at b0; cases b0
          obtain ⟨rfl, rfl⟩ := headerText_unique a1 b1
          obtain rfl := pointsText_unique a2 b2 (a3.trans b3.symm)
          rw [a4] at b4
          have hn : n = n₂ := by simpa using b4
          subst hn
          have hpm : p ∈ pts.filter fun p => decide (HasData p) := List.mem_filter.2 ⟨b5, by simpa using b6⟩
          obtain ⟨j, hj, rfl⟩ := List.getElem_of_mem hpm
          have hjl : j < es.length := by rw [← a5.length_eq]; exact hj
          have ho := a5.get hj hjl
          simp only [List.get_eq_getElem] at ho
          rw [octantFor_unique b7 ho] at b8 ⊢
          exact ⟨List.getElem_mem _, b8⟩
        · rintro ⟨he, hk⟩
          obtain ⟨j, hj, rfl⟩ := List.getElem_of_mem he
          have hjl : j < (pts.filter fun p => decide (HasData p)).length := by rw [a5.length_eq]; exact hj
          have ho := a5.get hjl hj
          simp only [List.get_eq_getElem] at ho
          have hm := List.mem_filter.1 (List.getElem_mem hjl)
          exact ⟨text, hd, t, pts, t', ht, a1, a2, a3, n, a4, _, hm.1, by simpa using hm.2, ho, hk⟩
      · constructor
        · rintro ⟨text₂, hd₂, t₂, pts₂, t₂', b0, b1, -⟩
          rw [ht] at b0; cases b0
          exact absurd b1 (a1 _ _)
        · rintro ⟨he, -⟩; simp at he
    rw [List.flatten_cons, List.mem_append, or_and_right, ← hhead, ← ih]
    unfold IngestedIn
    simp only [List.mem_cons, or_and_right, exists_or, exists_eq_left]

/-- C76: a database is created by cencalvmgen from grids whose points with data lie inside the model, and averaged by cencalvmavg, both
with exit code 0.  Then a FIXEDRES query on the result, at a location whose cell at the level of the query resolution holds ingested
points with octants smaller than the cell, answers with a summary of exactly the ingested points in that cell: it is solid if and only if
one of them is; each real value lies between bounds for the values of the points that decide (the solid ones if there is one, else the
water ones); it is no-data if none decides; and it carries no fault block or zone. -/
theorem C76 {env : EtreeEnv} (hadv : ∀ i, env.adv i = false) {nf : NumFmt K} {junk : Payload K} {g : Geom K} (hg : g.Lawful)
    {files : String → Option (List Char)} {aenv : Averager.Env K} (hae : aenv.engine.Reliable) (hax : aenv.engine.Exact) (hcl : aenv.closeLoss = none)
    {stamp stamp' params tmp out avg : String} (hp0 : params ≠ "") (ht0 : tmp ≠ "") (ho0 : out ≠ "") (ha0 : avg ≠ "")
    {disk disk₁ disk₂ : EtreeDisk K}
    (hgen : genMain env nf junk g files stamp (argsIOT params out tmp) disk = .ok (0, disk₁))
    (havg : avgMain aenv stamp' (argsIO out avg) disk₁ = .ok (0, disk₂))
    {text : List Char} (hp : files params = some text) {ws : List String} (hws : WordsOf text ws) (hb : EndsBlank text)
    (hin : ∀ w ∈ ws, ∀ t, files w = some t → GridInside nf g t) :
    ∃ f, disk₂ avg = some f ∧ ∀ {fmt : Fmt K} {q : VMQuery K}, q.Open g f.db → q.queryFn = .FIXEDRES →
      ∀ {m : Nat}, g.level (g.vertExag * q.queryRes) = .ok (m : Int) → ∀ {lon lat elev : K}, NotSquashed q elev →
      ∀ {a : Addr}, CellOf g m lon lat elev a → (∃ e, IngestedIn nf g files ws a.toKey e ∧ m < e.addr.level) →
      ∃ p, PayloadOf fmt q lon lat elev p ∧ p.faultBlock = -999 ∧ p.zone = -999 ∧
        (0 < p.vs ↔ ∃ e, IngestedIn nf g files ws a.toKey e ∧ 0 < e.payload.vs) ∧
        ((∃ e, Decides (IngestedIn nf g files ws a.toKey) e) → ∀ r ∈ Payload.reals (K := K), ∀ lo hi,
          (∀ e, Decides (IngestedIn nf g files ws a.toKey) e → lo ≤ r e.payload ∧ r e.payload ≤ hi) → lo ≤ r p ∧ r p ≤ hi) ∧
        ((¬ ∃ e, Decides (IngestedIn nf g files ws a.toKey) e) → ∀ r ∈ Payload.reals (K := K), r p = -999) := by
  obtain ⟨text', grids, f₁, b1, b2, b3, b4, b5, b6, b7, b8⟩ := C52 hadv (genMain_iot hp0 ho0 ht0 hgen)
  rw [hp] at b1; cases b1
  rw [C53_partial hws hb] at b2
  obtain ⟨s, c1, c2⟩ := avgMain_io hcl ho0 ha0 b3 havg
  have hall := grids_inside hg b2 hin
  have hgood : f₁.db.Good := ⟨fun e he => (hall e (b4.mem_iff.1 he)).1, b5⟩
  have hroot : f₁.db.BelowRoot := fun e he => (hall e (b4.mem_iff.1 he)).2.1
  have hno := nonOverlapping_of_ok hae hgood hroot c1
  obtain ⟨s', d1, d2⟩ := averageOf hae hax hgood b6 hno hroot
  rw [c1] at d1; cases d1
  obtain ⟨s', d1, d3⟩ := C29 hae hax hgood b6 hno
  rw [c1] at d1; cases d1
  have hing : ∀ k e, IngestedIn nf g files ws k e ↔ e ∈ f₁.db.entries ∧ k.Contains e.addr.toKey := fun k e => by
    rw [grids_ingested b2, b4.mem_iff]
  refine ⟨_, c2, ?_⟩
  intro fmt q hq hfn m hm lon lat elev hs a ha ⟨e, he, hlt⟩
  obtain ⟨he1, he2⟩ := (hing _ _).1 he
  obtain ⟨x, hx, hxn, hxk, hpay, hblock, hzone⟩ := fixedres_interior (fmt := fmt) hg (fun _ _ h => ⟨h.block, h.zone⟩) d2 hgood hno hq hfn hm hs ha he1 he2 hlt
  have hdec : ∀ y, Decides (IngestedIn nf g files ws a.toKey) y ↔ f₁.db.Contributes x.addr.toKey y := by
    rw [hxk]; exact decides_contributes (hing _)
  obtain ⟨r1, r2, r3⟩ := d3 x hx hxn
  refine ⟨x.payload, hpay, hblock, hzone, ?_, ?_, ?_⟩
  · rw [r1]
    simp only [hing, hxk, and_assoc]
  · rintro ⟨y, hy⟩ r hr lo hi hb
    exact r2 ⟨y, (hdec y).1 hy⟩ r hr lo hi fun z hz => hb z ((hdec z).2 hz)
  · intro hn r hr
    exact r3 (fun ⟨y, hy⟩ => hn ⟨y, (hdec y).2 hy⟩) r hr

/-- The geometry of the examples with two resolutions: above 1000 km the root, else level 1. -/
def exGeomLv : Geom ℚ := GeomCenCA.geom exFrame exProj (fun r => if 1000000 < r then .ok 0 else .ok 1)

theorem exInsideLv : GridInside exNumFmt exGeomLv exGridText := by
  intro hd t pts t' h1 h2 h3 n h4
  obtain ⟨rfl, rfl⟩ := headerText_unique h1 exHeaderText
  refine exInside _ _ _ _ h1 h2 h3 n ?_
  have : exGeomLv.level ((4096 / 5 : ℚ) * 1000) = .ok 1 := by decide +kernel
  exact this.symm.trans h4

theorem exIngested : IngestedIn exNumFmt exGeomLv exRunFiles ["g"] ⟨0, 0, 0, 0⟩ ⟨⟨⟨0, 0, 0, 1⟩, .leaf⟩, exStored⟩ :=
  ⟨"g", by simp, exGridText, _, _, _, _, rfl, exHeaderText, exPointsText, rfl, 1, by decide +kernel, exPoint1, by simp,
    ⟨by decide, by decide⟩, ⟨-350000, 0, Or.inr ⟨by norm_num [exPoint1], by decide +kernel⟩, by decide +kernel,
      Or.inr ⟨by norm_num [exPoint1], by decide +kernel⟩, Or.inr ⟨by norm_num [exPoint1], by decide +kernel⟩,
      Or.inr ⟨by norm_num [exPoint1], by decide +kernel⟩, Or.inl ⟨rfl, rfl⟩, rfl, rfl, rfl, rfl⟩, by decide +kernel⟩

/-- The averaged database of the example. -/
def exAveraged : Db ℚ :=
  ⟨[⟨⟨⟨0, 0, 0, 0⟩, .interior⟩, { exStored with faultBlock := -999, zone := -999 }⟩, ⟨⟨⟨0, 0, 0, 1⟩, .leaf⟩, exStored⟩]⟩

/-- The example of C67 queried at the size of the root: both programs end with code 0, the point lies in the root, the answer is its
average. -/
example : exRunFiles "p" = some "g\n".toList ∧ GridInside exNumFmt exGeomLv exGridText ∧
    codeAnd "o" (genMain exEtree exNumFmt exStored exGeomLv exRunFiles "s" (argsIOT "p" "o" "t") fun _ => none) =
      some (0, some ([⟨⟨⟨0, 0, 0, 1⟩, .leaf⟩, exStored⟩], some (genDescription ++ "\ns"))) ∧
    codeAnd "a" (avgMain exAvgEnv "s" (argsIO "o" "a")
        (diskOf (genMain exEtree exNumFmt exStored exGeomLv exRunFiles "s" (argsIOT "p" "o" "t") fun _ => none))) =
      some (0, some (exAveraged.entries, some (genDescription ++ "\ns\nspatially averaged on: s"))) ∧
    exGeomLv.level (exGeomLv.vertExag * 409600) = .ok ((0 : Nat) : Int) ∧ CellOf exGeomLv 0 230 45 (-350500) ⟨⟨0, 0, 0, 0⟩, .leaf⟩ ∧
    IngestedIn exNumFmt exGeomLv exRunFiles ["g"] ⟨0, 0, 0, 0⟩ ⟨⟨⟨0, 0, 0, 1⟩, .leaf⟩, exStored⟩ ∧
    PayloadOf exFmt { VMQuery.init exGeomLv with queryFn := .FIXEDRES, queryRes := 409600, db := some exAveraged } 230 45 (-350500)
      { exStored with faultBlock := -999, zone := -999 } :=
  ⟨rfl, exInsideLv, by decide +kernel, by decide +kernel, by decide +kernel, by unfold CellOf; decide +kernel, exIngested,
    payloadOf_of_vals (by decide +kernel)⟩

end CenCalVM
