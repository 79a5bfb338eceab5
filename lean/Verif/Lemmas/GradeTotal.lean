/-
Runs of the grader that end normally.
-/
import Verif.Lemmas.GradeRun
import Verif.Props.Create

set_option linter.unusedSectionVars false

namespace CenCalVM
namespace VsGrader
variable {K : Type} [Field K] [LinearOrder K] [IsStrictOrderedRing K] [FloorRing K]

/-- The answers do not depend on what else the query object holds. -/
theorem payloadOf_queryFor {fmt : Fmt K} {rd : Rd K} {g : Geom K} {db : Db K} {type : Int} {res : K} {q q' : VMQuery K} (hg : g.Lawful)
    (h : QueryFor rd g db type res q) (h' : QueryFor rd g db type res q') {lon lat elev : K} {p : Payload K}
    (hp : PayloadOf fmt q lon lat elev p) : PayloadOf fmt q' lon lat elev p := by
  rw [VMQuery.payloadOf_plain hg h.geom h.db (Or.inl h.squash)] at hp
  rw [VMQuery.payloadOf_plain hg h'.geom h'.db (Or.inl h'.squash)]
  have e1 : q.queryFn = q'.queryFn := by
    rcases h.fn with ⟨a, b⟩ | ⟨a, b⟩ | ⟨a, b⟩ | ⟨a1, a2, a3, b⟩ <;>
      rcases h'.fn with ⟨c, d⟩ | ⟨c, d⟩ | ⟨c, d⟩ | ⟨c1, c2, c3, d⟩ <;> first | (exfalso; omega) | rw [b, d]
  have e2 : q.queryRes = q'.queryRes := by
    rcases h.res with ⟨a, b⟩ | ⟨a, b⟩ <;> rcases h'.res with ⟨c, d⟩ | ⟨c, d⟩
    · rw [b, d]
    · exact absurd a (not_lt.2 c)
    · exact absurd c (not_lt.2 a)
    · rw [b, d]
  have e3 : q.dbExt = q'.dbExt := h.dbExt.trans h'.dbExt.symm
  have e4 : q.rd = q'.rd := h.rd.trans h'.rd.symm
  obtain ⟨n, c, a1, a2, a3⟩ := hp
  cases q
  cases q'
  simp only at e1 e2 e3 e4
  subst e1 e2 e3 e4
  exact ⟨n, c, a1, a2, a3⟩

/-- A point of the grid where the query answers with a payload whose numbers fit. -/
def AnsweredAt (fmt : Fmt K) (q : VMQuery K) (s : Grid K) (n : Nat) (pt : Nat × Nat × Nat) : Prop :=
  (∃ a, PointCell s n pt.1 pt.2.1 pt.2.2 a) ∧ ∀ lon lat elev, PointAt s pt.1 pt.2.1 pt.2.2 lon lat elev →
    ∃ p, PayloadOf fmt q lon lat elev p ∧ (-32768 ≤ p.faultBlock ∧ p.faultBlock < 32768) ∧ (-32768 ≤ p.zone ∧ p.zone < 32768)

theorem extractPoint_run {fmt : Fmt K} {env : EtreeEnv} (he : env.Reliable) {s : Grid K} {n : Nat}
    (hlv : s.geom.level s.resHoriz = .ok (n : Int)) {q : VMQuery K} {g : Geom K} {db0 : Db K} (hg : g.Lawful) (hgeom : q.geom = some g)
    (hdb : q.db = some db0) (hsq : q.squashTopo = false) (hv : q.queryVals = (List.range 8).map some) {w : Work K} (hw : Alike q w.q)
    {name : String} {f : EtreeFile K} (hc : w.c.pDB = some (name, f)) {pt : Nat × Nat × Nat} (hp : AnsweredAt fmt q s n pt)
    (hn : ∀ a, PointCell s n pt.1 pt.2.1 pt.2.2 a → ∀ x ∈ f.db.entries, x.addr.toKey ≠ a.toKey) :
    ∃ w', extractPoint fmt env s pt.1 pt.2.1 pt.2.2 w = .ok w' () := by
  obtain ⟨⟨a, ha⟩, hans⟩ := hp
  have ⟨lon, lat, elev, hat, hcell⟩ := ha
  obtain ⟨p, h1, h2, h3⟩ := hans lon lat elev hat
  obtain ⟨eh, hweq⟩ := hw
  unfold extractPoint
  rw [loc_of_pointAt hat]
  simp only
  obtain ⟨g', db', fe, b1, b2, b3, b4⟩ := VMQuery.payloadOf_iff.1 ((payloadOf_err hg hgeom hdb hsq eh).2 h1)
  have hq := VMQuery.query_of_fetch (fs := w.fs) (q := { q with err := eh }) b1 b2 b3 (List.range 8) (by simp)
  have hq0 : ({ q with err := eh, queryVals := (List.range 8).map some } : VMQuery K) = w.q := by rw [hweq, ← hv]
  simp only at hq
  rw [hq0] at hq
  simp only [List.length_range, Nat.cast_ofNat] at hq
  rw [hq]
  simp only
  rw [b4]
  obtain ⟨r, hr⟩ := extractPayload_total (rd := s.rd) (minVs := s.minVs) h2 h3
  rw [hr]
  simp only
  have hi := VMCreator.insert_eq he (d := ⟨r, lon, lat, elev⟩) hlv hc hcell
  simp only at hi
  rw [hi]
  cases hins : f.db.insert ⟨a, r⟩ with
  | none =>
    obtain ⟨x, hx1, hx2⟩ := Db.insert_none_iff.1 hins
    exact absurd hx2 (hn a ha x hx1)
  | some db => exact ⟨_, rfl⟩

theorem extractEach_run {fmt : Fmt K} {env : EtreeEnv} (he : env.Reliable) {s : Grid K} {n : Nat}
    (hlv : s.geom.level s.resHoriz = .ok (n : Int)) {q : VMQuery K} {g : Geom K} {db0 : Db K} (hg : g.Lawful) (hgeom : q.geom = some g)
    (hdb : q.db = some db0) (hsq : q.squashTopo = false) (hv : q.queryVals = (List.range 8).map some) {pts : List (Nat × Nat × Nat)}
    (hp : ∀ pt ∈ pts, AnsweredAt fmt q s n pt)
    (hd : pts.Pairwise fun x y => ∀ a b, PointCell s n x.1 x.2.1 x.2.2 a → PointCell s n y.1 y.2.1 y.2.2 b → a.toKey ≠ b.toKey)
    {w : Work K} (hw : Alike q w.q) {name : String} {f : EtreeFile K} (hc : w.c.pDB = some (name, f))
    (hn : ∀ pt ∈ pts, ∀ a, PointCell s n pt.1 pt.2.1 pt.2.2 a → ∀ x ∈ f.db.entries, x.addr.toKey ≠ a.toKey) :
    ∃ w', each (fun pt w => extractPoint fmt env s pt.1 pt.2.1 pt.2.2 w) pts w = .ok w' () := by
  induction pts generalizing w f with
  | nil => exact ⟨w, rfl⟩
  | cons pt pts ih =>
    obtain ⟨w1, h1⟩ := extractPoint_run he hlv hg hgeom hdb hsq hv hw hc (hp pt (by simp)) (hn pt (by simp))
    obtain ⟨e, db, c1, c2, c3, c4⟩ := extractPoint_ok hlv hg hgeom hdb hsq hv hw hc h1
    obtain ⟨d1, d2⟩ := List.pairwise_cons.1 hd
    obtain ⟨w2, h2⟩ := ih (fun x hx => hp x (by simp [hx])) d2 (w := w1) c3 (f := { f with db := db }) (by rw [c4]) (by
      intro x hx a ha y hy
      rcases List.mem_cons.1 ((Db.insert_some c2).2.1.subset hy) with rfl | hy
      · obtain ⟨⟨b, hb⟩, -⟩ := hp pt (by simp)
        have hkey := d1 x hx b a hb ha
        obtain ⟨lon, lat, elev, p, code, k1, -, k3, -⟩ := c1
        obtain ⟨lon', lat', elev', k4, k5⟩ := hb
        have e1 := (loc_of_pointAt k1).symm.trans (loc_of_pointAt k4)
        cases e1
        have e2 := k3.symm.trans k5
        have e3 : y.addr = b := congrArg Prod.fst (Outcome.ok.inj e2)
        rw [e3]
        exact hkey
      · exact hn x (by simp [hx]) a ha y hy)
    refine ⟨w2, ?_⟩
    unfold each
    rw [h1, Run.bind_ok]
    exact h2

/-- The extraction ends normally. -/
theorem extract_run {fmt : Fmt K} {env : EtreeEnv} (he : env.Reliable) {s : Grid K} {nm : Names K} {gq : Geom K} {fs : Files} {disk : EtreeDisk K}
    {n nL nW nH : Nat} (hlv : s.geom.level s.resHoriz = .ok (n : Int)) (hgq : gq.Lawful)
    (hnL : s.numLen = .ok nL) (hnW : s.numWidth = .ok nW) (hnH : s.numHt = .ok nH) (hne : nm.fileTmp ≠ nm.fileIn) {fi : EtreeFile K}
    (hf : disk nm.fileIn = some fi) {q : VMQuery K} (hq : QueryFor s.rd gq fi.db nm.queryType nm.queryRes q)
    (hp : ∀ pt ∈ points nL nW nH, AnsweredAt fmt q s n pt)
    (hd : (points nL nW nH).Pairwise fun x y => ∀ a b, PointCell s n x.1 x.2.1 x.2.2 a → PointCell s n y.1 y.2.1 y.2.2 b → a.toKey ≠ b.toKey) :
    ∃ disk', extract fmt env s nm gq fs disk = .ok disk' () := by
  obtain ⟨q0, hq0⟩ := openQuery_total s.rd gq nm.queryType nm.queryRes nm.cacheSize nm.fileIn (fun n => (disk n).map (·.db))
  obtain ⟨o1, o2, o3, o4, o5⟩ := openQuery_ok hq0
  have hqf := o5 fi.db (by simp [hf])
  unfold extract
  rw [hq0]
  simp only [VMCreator.openDB, he.create, he.schema, he.setMeta, Bool.false_eq_true, if_false, if_neg hne]
  unfold extractLoops
  simp only [hnL, hnW, hnH]
  rw [loops_eq_each (fun pt w => extractPoint fmt env s pt.1 pt.2.1 pt.2.2 w)]
  have hp0 : ∀ pt ∈ points nL nW nH, AnsweredAt fmt q0 s n pt := by
    intro pt hpt
    obtain ⟨a1, a2⟩ := hp pt hpt
    refine ⟨a1, fun lon lat elev hat => ?_⟩
    obtain ⟨p, b1, b2⟩ := a2 lon lat elev hat
    exact ⟨p, payloadOf_queryFor hgq hq hqf b1, b2⟩
  obtain ⟨w', hw'⟩ := extractEach_run he hlv hgq hqf.geom hqf.db hqf.squash o1 hp0 hd
    (w := ⟨q0, fs, { VMCreator.init disk with filename := nm.fileTmp, pDB := some (nm.fileTmp,
      ⟨Db.empty, some SCHEMA, some (VMCreator.metainfo nm.description nm.stamp)⟩) }⟩) ⟨q0.err, rfl⟩ rfl
    (fun pt _ a _ x hx => by simp [Db.empty] at hx)
  rw [hw']
  exact ⟨_, rfl⟩

theorem separate_pairwise {s : Grid K} {n nL nW nH : Nat} (hsep : Separate s n nL nW nH) :
    (points nL nW nH).Pairwise fun x y => ∀ a b, PointCell s n x.1 x.2.1 x.2.2 a → PointCell s n y.1 y.2.1 y.2.2 b → a.toKey ≠ b.toKey := by
  refine List.Pairwise.imp_of_mem ?_ (List.nodup_iff_pairwise_ne.1 (points_nodup nL nW nH))
  rintro ⟨l, w, h⟩ ⟨l', w', h'⟩ hx hy hne a b ha hb hk
  obtain ⟨h1, h2, h3⟩ := mem_points.1 hx
  obtain ⟨h1', h2', h3'⟩ := mem_points.1 hy
  exact hne (by simpa using hsep.2 l h1 w h2 h h3 l' h1' w' h2' h' h3' a b ha hb hk)

/-- The database left by an extraction holds the grid. -/
theorem onGrid_of_extracted {fmt : Fmt K} {q : VMQuery K} {s : Grid K} {n nL nW nH : Nat} (hg : s.geom.Lawful) (hsep : Separate s n nL nW nH)
    {db : Db K} {es : List (Entry K)} (hs : db.Sorted) (hp : db.entries.Perm es)
    (hf : List.Forall₂ (ExtractedAt fmt q s n) (points nL nW nH) es) : OnGrid s n nL nW nH db := by
  refine ⟨hs, ?_, ?_, ?_⟩
  · intro e he
    obtain ⟨i, hi, rfl⟩ := List.getElem_of_mem (hp.subset he)
    have := (List.forall₂_iff_get.1 hf).2 i (by rw [hf.length_eq]; exact hi) hi
    simp only [List.get_eq_getElem] at this
    obtain ⟨lon, lat, elev, p, code, -, -, c3, -⟩ := this
    exact (hg.keeps _ _ _ _ _ _ c3).1
  · intro l hl w hw h hh
    obtain ⟨i, hi, ei⟩ := List.getElem_of_mem (mem_points.2 ⟨hl, hw, hh⟩)
    have hi' : i < es.length := by rw [← hf.length_eq]; exact hi
    have := (List.forall₂_iff_get.1 hf).2 i hi hi'
    simp only [List.get_eq_getElem] at this
    obtain ⟨lon, lat, elev, p, code, c1, -, c3, -⟩ := this
    rw [ei] at c1
    obtain ⟨a, ha⟩ := hsep.1 l hl w hw h hh
    have ⟨lon', lat', elev', d1, d2⟩ := ha
    have e := (loc_of_pointAt c1).symm.trans (loc_of_pointAt d1)
    cases e
    have e := congrArg Prod.fst (Outcome.ok.inj (c3.symm.trans d2))
    exact ⟨_, a, ha, es[i], hp.symm.subset (List.getElem_mem hi'), congrArg Addr.toKey e, rfl⟩
  · exact hsep.2

/-- A run ends normally. -/
theorem run_run {fmt : Fmt K} {env : EtreeEnv} (he : env.Reliable) {s : Grid K} {nm : Names K} {gq : Geom K} {junk : Payload K} {fs : Files}
    {disk : EtreeDisk K} {n nL nW nH : Nat} (hg : s.geom.Lawful) (hlv : s.geom.level s.resHoriz = .ok (n : Int)) (hgq : gq.Lawful)
    (hnL : s.numLen = .ok nL) (hnW : s.numWidth = .ok nW) (hnH : s.numHt = .ok nH) (hpos : points nL nW nH ≠ [])
    (hne : nm.fileTmp ≠ nm.fileIn) (hout : nm.fileOut ≠ nm.fileTmp) {fi : EtreeFile K}
    (hf : disk nm.fileIn = some fi) {q : VMQuery K} (hq : QueryFor s.rd gq fi.db nm.queryType nm.queryRes q)
    (hp : ∀ pt ∈ points nL nW nH, AnsweredAt fmt q s n pt) (hsep : Separate s n nL nW nH) :
    ∃ disk', run fmt env s nm gq junk fs disk = .ok disk' () := by
  obtain ⟨disk1, h1⟩ := extract_run (fs := fs) he hlv hgq hnL hnW hnH hne hf hq hp (separate_pairwise hsep)
  obtain ⟨fi', q', f, es, -, -, a3, a4, a5, a6, -, -, -⟩ := extract_ok hlv hgq hnL hnW hnH hpos h1
  have ho := onGrid_of_extracted hg hsep a4 a5 a6
  have hfne : f.db.entries ≠ [] := by
    intro h0
    rw [h0] at a5
    have h2 := a6.length_eq
    rw [List.nil_perm.1 a5] at h2
    exact hpos (List.length_eq_zero_iff.1 h2)
  obtain ⟨disk2, f2, b1, b2, b3, -⟩ := C35 he a3 a4 hfne hout
  have hf2 : f2.db = f.db := by
    cases h : f2.db
    cases h' : f.db
    rw [h, h'] at b3
    simp only at b3
    rw [b3]
  obtain ⟨db', hgr⟩ := grade_runs hg hlv hnL hnW hnH ho junk
  unfold run
  rw [h1, Run.bind_ok, b1, Run.bind_ok, b2]
  simp only [hf2, hgr]
  exact ⟨_, rfl⟩

end VsGrader
end CenCalVM
