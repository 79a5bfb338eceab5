/-
Properties C18-C23: requested values, squashing, elevation, repeatability.
-/
import Verif.Props.Query

set_option linter.unusedSectionVars false

namespace CenCalVM
open VMQuery

section
variable {K : Type} [Field K] [LinearOrder K] [IsStrictOrderedRing K]

/-! ### C18 -/

/-- C18: selecting values by valid names (the first `used.length` names of the array passed, any letter case, any
order, repetitions allowed) changes nothing but the selection, and every later query returns at position `i` the
value named at position `i`: number `k` of the payload the query answers with, or the elevation. -/
theorem C18 (fmt : Fmt K) (q : VMQuery K) {used rest : List String} {ks : List Nat}
    (hnames : List.Forall₂ NamesValue used ks) (hne : used ≠ []) {g : Geom K} {db : Db K} (ho : q.Open g db) :
    ∃ q', setQueryVals q (used ++ rest) used.length = .ok q' ∧ q' = { q with queryVals := ks.map some } ∧
      ∀ fs lon lat elev num q'' fs' vals, query fmt q' fs num lon lat elev = .ok (q'', fs', vals) →
        vals.length = used.length ∧ ∀ i k : Nat, ks[i]? = some k →
          (∀ p, k < 8 → PayloadOf fmt q lon lat elev p → vals[i]? = some (pick p k)) ∧
          (∀ z, k = 8 → ElevationOf fmt q lon lat elev z → vals[i]? = some z) := by
  have hidx : used.map valueIndex = ks.map some := by
    clear hne
    induction hnames with
    | nil => rfl
    | cons h _ ih => simp only [List.map_cons, ih, valueIndex_of_names h]
  have hlen : used.length = ks.length := hnames.length_eq
  have hfold : ∀ h0 : ErrorHandler, used.foldl nameErr h0 = h0 := by
    clear hne hlen hidx
    induction hnames with
    | nil => intro _; rfl
    | cons h _ ih => intro h0; rw [List.foldl_cons]; unfold nameErr; rw [valueIndex_of_names h]; exact ih h0
  have hpos : 0 < used.length := List.length_pos_iff.2 hne
  refine ⟨{ q with queryVals := ks.map some }, ?_, rfl, ?_⟩
  · unfold setQueryVals
    rw [if_pos (by omega), if_pos (by simp)]
    simp only [Int.toNat_natCast, List.take_left', hidx, hfold]
  · intro fs lon lat elev num q'' fs' vals hr
    have ho' : VMQuery.Open { q with queryVals := ks.map some } g db :=
      ⟨ho.geom_eq, ho.db_eq, ho.lawful, ho.good, ho.goodExt⟩
    obtain ⟨-, -, -, f, hf, -, hv, -⟩ := (query_iff ho'.lawful ho'.geom_eq ho'.db_eq).1 hr
    have hf' : fetch fmt q g db scratch lon lat elev = .ok f := hf
    refine ⟨by rw [hv, hlen]; simp, fun i k hik => ⟨fun p hk hp => ?_, fun z hk hz => ?_⟩⟩
    · rw [hv]
      simp only [List.map_map, List.getElem?_map, hik, Option.map_some, Function.comp, copyVal_of_lt _ _ _ hk]
      rw [payloadOf_fetch ho.geom_eq ho.db_eq hp hf']
    · subst hk
      rw [hv]
      simp only [List.map_map, List.getElem?_map, hik, Option.map_some, Function.comp]
      obtain ⟨q3, fs3, h3⟩ := hz
      have ho3 : VMQuery.Open { q with queryVals := [some 8] } g db :=
        ⟨ho.geom_eq, ho.db_eq, ho.lawful, ho.good, ho.goodExt⟩
      obtain ⟨-, -, -, f3, hf3, -, hv3, -⟩ := (query_iff ho3.lawful ho3.geom_eq ho3.db_eq).1 h3
      have hf3' : fetch fmt q g db scratch lon lat elev = .ok f3 := hf3
      rw [hf'] at hf3'; cases hf3'
      simp only [List.map_cons, List.map_nil, List.cons.injEq, and_true] at hv3
      rw [hv3]

theorem ex_names : List.Forall₂ NamesValue ["density", "ELEVATION", "vS", "Density"] [2, 8, 1, 2] :=
  .cons ⟨"Density", rfl, by decide +kernel⟩ (.cons ⟨"elevation", rfl, by decide +kernel⟩
    (.cons ⟨"Vs", rfl, by decide +kernel⟩ (.cons ⟨"Density", rfl, by decide +kernel⟩ .nil)))

example : ∃ q', setQueryVals exQ (["density", "ELEVATION", "vS", "Density"] ++ ["unused"]) 4 = .ok q' ∧
    valsOf (query exFmt q' (fun _ => "") 4 220 40 (-100)) = some [2500, -38370, 2000, 2500] :=
  ⟨{ exQ with queryVals := [some 2, some 8, some 1, some 2] }, by
    obtain ⟨q', h1, h2, -⟩ := C18 exFmt exQ (rest := ["unused"]) ex_names (by simp) exQ_open
    rw [h2] at h1; exact h1, by decide +kernel⟩

/-- C18: a count that is not positive changes nothing. -/
theorem C18_count (q : VMQuery K) (names : List String) (n : Int) (hn : n ≤ 0) :
    setQueryVals q names n = .ok q := by
  unfold setQueryVals; rw [if_neg (by omega)]

/-- C18: if one of the names is not the name of a value, the status is ERROR afterwards. -/
theorem C18_unknown (q : VMQuery K) {used rest : List String} {name : String} (hmem : name ∈ used)
    (hun : ∀ k, ¬ NamesValue name k) :
    ∃ q', setQueryVals q (used ++ rest) used.length = .ok q' ∧ q'.err.status = .ERROR := by
  have hpos : 0 < used.length := List.length_pos_iff.2 (by rintro rfl; simp at hmem)
  refine ⟨{ q with queryVals := used.map valueIndex, err := used.foldl nameErr q.err }, ?_, ?_⟩
  · unfold setQueryVals
    rw [if_pos (by omega), if_pos (by simp)]
    simp only [Int.toNat_natCast, List.take_left']
  · have hno : valueIndex name = none := by
      cases h : valueIndex name with
      | none => rfl
      | some k => exact absurd (names_of_valueIndex h) (hun k)
    dsimp only
    have keep : ∀ (l : List String) (h : ErrorHandler), h.status = .ERROR →
        (l.foldl nameErr h).status = .ERROR := by
      intro l
      induction l with
      | nil => intro h hh; exact hh
      | cons a l ih =>
        intro h hh
        rw [List.foldl_cons]
        apply ih
        unfold nameErr
        split
        · exact hh
        · rfl
    have gen : ∀ (l : List String), name ∈ l → ∀ h : ErrorHandler,
        (l.foldl nameErr h).status = .ERROR := by
      intro l
      induction l with
      | nil => intro h; simp at h
      | cons a l ih =>
        intro hm h
        rw [List.foldl_cons]
        by_cases ha : a = name
        · subst ha; exact keep l _ (by unfold nameErr; rw [hno]; rfl)
        · exact ih (by simpa [Ne.symm ha] using hm) _
    exact gen used hmem q.err

example : ∀ k, ¬ NamesValue "Vx" k := by
  intro k ⟨c, hc, h⟩
  have : k < 9 := by
    by_contra hk
    rw [List.getElem?_eq_none (by simpa [valueNames] using hk)] at hc; cases hc
  match k, this with
  | 0, _ | 1, _ | 2, _ | 3, _ | 4, _ | 5, _ | 6, _ | 7, _ | 8, _ => cases hc; exact absurd h (by decide +kernel)

/-! ### C19 -/

/-- C19 for queries whose selected values are all known and whose conversions succeed: a value is returned for
every slot.  Missing parts, both false: an unknown name selected (`C19_false`), failing projections
(`C17_false_projection`). -/
theorem C19_partial (fmt : Fmt K) {q : VMQuery K} {g : Geom K} {db : Db K} (ho : q.Open g db) (hg : g.Total)
    (hv : ∀ v ∈ q.queryVals, ∃ k < 9, v = some k) {n : Nat} (hn : LookupLevel q g n) (hn31 : n ≤ 31)
    (fs : Files) (lon lat elev : K) :
    ∃ q' fs' vals, query fmt q fs q.queryVals.length lon lat elev = .ok (q', fs', vals) ∧
      vals.length = q.queryVals.length := by
  have helev : ∀ adj, ∃ r, elevAt q.rd g db q.dbExt lon lat elev adj = .ok r := by
    intro adj
    unfold elevAt queryElev
    obtain ⟨a1, h1⟩ := hg.1 (leafAt scratch ETREE_MAXLEVEL) lon lat elev (by decide)
    rw [h1, Outcome.bind_ok]
    cases he : elevOctant db q.dbExt a1.1.toKey with
    | none => exact ⟨_, rfl⟩
    | some ed =>
      obtain ⟨e, d⟩ := ed
      dsimp only
      have hgo := (elevOctant_iff ho.lawful ho.good ho.goodExt (b := a1.1) (code := a1.2) h1 e d).1 he
      obtain ⟨hd, hmem⟩ := groundOctant_good ho.good ho.goodExt hgo
      have hl := (hd.octants e hmem).level_le
      obtain ⟨c, hc⟩ := hg.2 e.addr hl
      rw [hc, Outcome.bind_ok]
      have hk := (ho.lawful.keeps _ a1.1 _ _ _ a1.2 h1).1
      obtain ⟨a2, h2⟩ := hg.1 a1.1 lon lat (q.rd.double (c.2.2 + e.payload.depth)) (by rw [hk]; decide)
      rw [h2, Outcome.bind_ok]
      split
      · obtain ⟨c', hc'⟩ := hg.2 (oneCellLower e.addr) hl
        rw [hc']; exact ⟨_, rfl⟩
      · exact ⟨_, rfl⟩
  have hsq : ∃ r, squashElev q g db scratch lon lat elev = .ok r := by
    unfold squashElev
    split
    · exact helev true
    · exact ⟨_, rfl⟩
  obtain ⟨r, hr⟩ := hsq
  obtain ⟨c, hc⟩ := hg.1 { x := 0, y := 0, z := 0, level := n, type := .leaf } lon lat (elevUsed q elev r.1) hn31
  have hf : fetch fmt q g db scratch lon lat elev = .ok ⟨r.1, bothP q g db c, c.1,
      bothH fmt q g db c lon lat (elevUsed q elev r.1)⟩ := by
    rw [fetch_eq ho.lawful, hr, Outcome.bind_ok, levelFor_iff.2 hn, Outcome.bind_ok]
    have hc' : conv g n lon lat (elevUsed q elev r.1) = .ok c := hc
    rw [hc']; rfl
  refine ⟨_, _, _, (query_iff ho.lawful ho.geom_eq ho.db_eq).2 ⟨rfl, hv, ?_, _, hf, rfl, rfl, rfl⟩, by simp⟩
  intro _
  obtain ⟨r', hr'⟩ := helev false
  rw [hr']; simp

/-- The central California geometry is total if its projection is. -/
theorem C19_geometry [FloorRing K] (fr : Frame K) (proj : Projector K) (lv : K → Outcome Int)
    (h1 : ∀ a b, ∃ r, proj.project a b = .ok r) (h2 : ∀ a b, ∃ r, proj.invProject a b = .ok r) :
    (GeomCenCA.geom fr proj lv).Total := by
  refine ⟨fun a lon lat elev ha => ?_, fun a ha => ?_⟩
  · show ∃ r, GeomCenCA.lonLatElevToAddr fr proj a lon lat elev = .ok r
    unfold GeomCenCA.lonLatElevToAddr
    obtain ⟨⟨x, y⟩, hxy⟩ := h1 lon lat
    rw [if_pos (by omega), hxy]
    dsimp only
    split <;> exact ⟨_, rfl⟩
  · show ∃ r, GeomCenCA.addrToLonLatElev fr proj a = .ok r
    unfold GeomCenCA.addrToLonLatElev
    rw [if_pos (by omega)]
    dsimp only
    obtain ⟨⟨x, y⟩, hxy⟩ := h2 (GeomCenCA.projX fr (GeomCenCA.centroidCoord a.x a.level)
      (GeomCenCA.centroidCoord a.y a.level)) (GeomCenCA.projY fr (GeomCenCA.centroidCoord a.x a.level)
      (GeomCenCA.centroidCoord a.y a.level))
    rw [hxy]; exact ⟨_, rfl⟩

end

theorem exGeom_total : exGeom.Total :=
  C19_geometry _ _ _ (fun a b => ⟨(a, b), rfl⟩) (fun a b => ⟨(a, b), rfl⟩)

example : exQ.Open exGeom exDb ∧ exGeom.Total ∧ (∀ v ∈ exQ.queryVals, ∃ k < 9, v = some k) ∧
    LookupLevel exQ exGeom 31 :=
  ⟨exQ_open, exGeom_total, by simp [exQ, VMQuery.init, List.range, List.range.loop], rfl⟩

/-- C19 is false: after selecting an unknown name, every query reads an element of the selection that was never
written. -/
theorem C19_false {K : Type} [Field K] [LinearOrder K] [IsStrictOrderedRing K] (fmt : Fmt K) (q : VMQuery K)
    {g : Geom K} {db : Db K} (ho : q.Open g db) {used rest : List String} {name : String} (hmem : name ∈ used)
    (hun : ∀ k, ¬ NamesValue name k) :
    ∃ q', setQueryVals q (used ++ rest) used.length = .ok q' ∧ ∀ fs num lon lat elev vals,
      query fmt q' fs num lon lat elev ≠ .ok vals := by
  have hpos : 0 < used.length := List.length_pos_iff.2 (by rintro rfl; simp at hmem)
  have hset : setQueryVals q (used ++ rest) used.length = .ok { q with
        queryVals := used.map valueIndex
        err := used.foldl nameErr q.err } := by
    unfold setQueryVals
    rw [if_pos (by omega), if_pos (by simp)]
    simp only [Int.toNat_natCast, List.take_left']
  refine ⟨_, hset, ?_⟩
  rintro fs num lon lat elev ⟨q'', fs', vals⟩ hr
  obtain ⟨-, hv, -⟩ := (query_iff (q := { q with
    queryVals := used.map valueIndex, err := used.foldl nameErr q.err }) ho.lawful ho.geom_eq ho.db_eq).1 hr
  obtain ⟨k, -, hk⟩ := hv (valueIndex name) (List.mem_map.2 ⟨name, hmem, rfl⟩)
  exact hun k (names_of_valueIndex hk)

/-- The outcome is undefined behaviour. -/
def isUb {α : Type} : Outcome α → Bool
  | .ub => true
  | _ => false

/-- A witness of `C19_false`: `queryVals("Vs", "Vx")` and a query for two values. -/
example : isUb (do
    let q ← setQueryVals exQ ["Vs", "Vx"] 2
    query exFmt q (fun _ => "") 2 220 40 (-100)) = true := by decide +kernel

section
variable {K : Type} [Field K] [LinearOrder K] [IsStrictOrderedRing K]

/-! ### C20 -/

/-- C20, at or below the limit (or squashing off): the payload is that of the query with squashing off. -/
theorem C20_below {fmt : Fmt K} {q : VMQuery K} {g : Geom K} {db : Db K} (ho : q.Open g db) {lon lat elev : K}
    (hs : NotSquashed q elev) (p : Payload K) :
    PayloadOf fmt q lon lat elev p ↔ PayloadOf fmt { q with squashTopo := false } lon lat elev p := by
  rw [payloadOf_plain ho.lawful ho.geom_eq ho.db_eq hs,
    payloadOf_plain (q := { q with squashTopo := false }) ho.lawful ho.geom_eq ho.db_eq (Or.inl rfl)]
  exact Iff.rfl

/-- C20, above the limit: the payload is that of the unsquashed query at elevation plus the ground elevation used
for squashing, or of the unsquashed query itself if no ground elevation is known (-999). -/
theorem C20 {fmt : Fmt K} {q : VMQuery K} {g : Geom K} {db : Db K} (ho : q.Open g db) {lon lat elev : K}
    (hsq : q.squashTopo = true) (hlim : q.squashLimit < elev) {p : Payload K}
    (hp : PayloadOf fmt q lon lat elev p) :
    ∃ z, SquashGround q.rd g db q.dbExt lon lat elev z ∧
      PayloadOf fmt { q with squashTopo := false } lon lat (if z = -999 then elev else q.rd.double (elev + z)) p := by
  obtain ⟨r, hr, h⟩ := (payloadOf_shift ho.lawful ho.geom_eq ho.db_eq).1 hp
  unfold squashElev at hr
  rw [if_pos ⟨hsq, hlim⟩] at hr
  refine ⟨r.1, elevAt_true ho.lawful ho.good ho.goodExt hr, ?_⟩
  have : elevUsed q elev r.1 = if r.1 = -999 then elev else q.rd.double (elev + r.1) := by
    unfold elevUsed
    by_cases h : r.1 = -999
    · rw [if_pos h, if_neg]; rintro ⟨-, -, h'⟩; exact h' h
    · rw [if_neg h, if_pos ⟨hsq, hlim, h⟩]
  rw [this] at h
  exact h

/-- The example query object with squashing: -100 below the ground is -38470, still in the same leaf. -/
def exSquash : VMQuery ℚ := squash exQ true (-2000)

example : exSquash.Open exGeom exDb ∧ exSquash.squashTopo = true ∧ exSquash.squashLimit < -100 ∧
    PayloadOf exFmt exSquash 220 40 (-100) (exPay 2000 1) :=
  ⟨⟨rfl, rfl, exGeom_lawful, exDb_good, fun _ h => by cases h⟩, rfl, by decide +kernel,
    payloadOf_of_vals (by decide +kernel)⟩

/-- The example query object with squashing at elevation 0 gives the ground: at the ground of the regional model
outside the detailed one. -/
example : PayloadOf exFmt (squash exQ2 true (-500000)) 220 40 (-200000) (exPay 3000 2) :=
  payloadOf_of_vals (by decide +kernel)

/-- C20, size of the adjustment: in the central California geometry, moving an octant that is not at the bottom of
the model down by one cell lowers its centroid by its height, a quarter of its edge length. -/
theorem C20_one_cell [FloorRing K] {fr : Frame K} {proj : Projector K} {lv : K → Outcome Int} {a : Addr}
    (ha : a.toKey.Octant) (hz : a.z ≠ 0) {c c' : K × K × K}
    (h1 : (GeomCenCA.geom fr proj lv).addrToLonLatElev a = .ok c)
    (h2 : (GeomCenCA.geom fr proj lv).addrToLonLatElev
      { a with z := BitVec.ofInt 32 ((a.z.toNat : Int) - a.toKey.size) } = .ok c') :
    c'.1 = c.1 ∧ c'.2.1 = c.2.1 ∧ c'.2.2 = c.2.2 - (1638400 / 2 ^ a.level) / 4 := by
  have hl := ha.level_le
  have hzn : a.z.toNat ≠ 0 := fun h => hz (BitVec.eq_of_toNat_eq h)
  have hge : a.toKey.size ≤ a.z.toNat := Nat.le_of_dvd (by omega) ha.z_dvd
  have hlt := ha.z_lt
  have hz' : (BitVec.ofInt 32 ((a.z.toNat : Int) - a.toKey.size)).toNat = a.z.toNat - a.toKey.size := by
    rw [BitVec.toNat_ofInt, ← Int.natCast_sub hge, Int.emod_eq_of_lt (by positivity) (by norm_num; omega)]
    rfl
  change GeomCenCA.addrToLonLatElev fr proj a = _ at h1
  change GeomCenCA.addrToLonLatElev fr proj _ = _ at h2
  unfold GeomCenCA.addrToLonLatElev at h1 h2
  rw [if_pos (by omega)] at h1
  rw [if_pos (by show a.level < 32; omega)] at h2
  dsimp only at h1 h2
  cases hp : proj.invProject (GeomCenCA.projX fr (GeomCenCA.centroidCoord a.x a.level)
      (GeomCenCA.centroidCoord a.y a.level)) (GeomCenCA.projY fr (GeomCenCA.centroidCoord a.x a.level)
      (GeomCenCA.centroidCoord a.y a.level)) with
  | exc m => rw [hp] at h1; cases h1
  | ub => rw [hp] at h1; cases h1
  | ok xy =>
    rw [hp] at h1 h2
    cases h1; cases h2
    refine ⟨rfl, rfl, ?_⟩
    unfold GeomCenCA.elevOfRoot GeomCenCA.centroidCoord GeomCenCA.edgeLen GeomCenCA.ROOTLEN GeomCenCA.VERTEXAG
      GeomCenCA.MAXELEV
    rw [hz', GeomCenCA.tickLen_toNat hl, Nat.cast_sub hge]
    have hs : (a.toKey.size : K) = ((2 ^ (31 - a.level) : Nat) : K) := rfl
    rw [hs]
    have hne : ((2 ^ (31 - a.level) : Nat) : K) ≠ 0 := by positivity
    field_simp
    ring

example : (⟨0, 0, 0x60000000, 2⟩ : Key).Octant ∧ (0x60000000 : BitVec 32) ≠ 0 := ⟨by decide, by decide⟩

/-- For an octant at the bottom of the model the adjustment wraps around: the root octant is moved up by its
height instead of down. -/
theorem C20_wraps : exGeom.addrToLonLatElev ⟨⟨0, 0, 0, 0⟩, .leaf⟩ = .ok (1146880, -163840, -192000) ∧
    exGeom.addrToLonLatElev (oneCellLower ⟨⟨0, 0, 0, 0⟩, .leaf⟩) = .ok (1146880, -163840, 217600) :=
  ⟨by decide +kernel, by decide +kernel⟩

/-! ### C21 -/

/-- C21: two query objects with the same geometry and databases, whatever their query types, resolutions, squash
settings and other requested values, return the same elevation, unless the computation of the elevation failed
(status ERROR). -/
theorem C21 {fmt : Fmt K} {q₁ q₂ q₁' q₂' : VMQuery K} {g : Geom K} {db : Db K} (ho₁ : q₁.Open g db)
    (ho₂ : q₂.Open g db) (hext : q₁.dbExt = q₂.dbExt)
    (hrd : q₁.rd = q₂.rd) {fs₁ fs₂ fs₁' fs₂' : Files} {n₁ n₂ : Int} {lon lat elev : K}
    {v₁ v₂ : List K} (h₁ : query fmt q₁ fs₁ n₁ lon lat elev = .ok (q₁', fs₁', v₁))
    (h₂ : query fmt q₂ fs₂ n₂ lon lat elev = .ok (q₂', fs₂', v₂))
    (hok : q₁'.err.status ≠ .ERROR ∨ q₂'.err.status ≠ .ERROR)
    {i j : Nat} (hi : q₁.queryVals[i]? = some (some 8)) (hj : q₂.queryVals[j]? = some (some 8)) :
    ∃ z, v₁[i]? = some z ∧ v₂[j]? = some z := by
  obtain ⟨-, -, hu, f₁, -, -, hv₁, hq₁⟩ := (query_iff ho₁.lawful ho₁.geom_eq ho₁.db_eq).1 h₁
  obtain ⟨-, -, -, f₂, -, -, hv₂, hq₂⟩ := (query_iff ho₂.lawful ho₂.geom_eq ho₂.db_eq).1 h₂
  have hm₁ : some 8 ∈ q₁.queryVals := List.mem_of_getElem? hi
  have hm₂ : some 8 ∈ q₂.queryVals := List.mem_of_getElem? hj
  rw [← hext, ← hrd] at hv₂ hq₂
  cases hE : elevAt q₁.rd g db q₁.dbExt lon lat elev false with
  | ub => exact absurd hE (hu hm₁)
  | exc m =>
    rw [hE] at hq₁ hq₂
    unfold copyErr at hq₁ hq₂
    simp only [hm₁, hm₂, if_true] at hq₁ hq₂
    rcases hok with h | h
    · exact absurd (by rw [hq₁]; rfl) h
    · exact absurd (by rw [hq₂]; rfl) h
  | ok r =>
    rw [hE] at hv₁ hv₂
    refine ⟨r.1, ?_, ?_⟩
    · rw [hv₁, List.getElem?_map, hi]; rfl
    · rw [hv₂, List.getElem?_map, hj]; rfl

example : exQ.Open exGeom exDb ∧ exSquash.Open exGeom exDb ∧ exQ.dbExt = exSquash.dbExt ∧ exQ.rd = exSquash.rd ∧
    exQ.queryVals[8]? = some (some 8) ∧
    statusOf (query exFmt exQ (fun _ => "") 9 220 40 (-100)) = some .OK ∧
    valsOf (query exFmt exSquash (fun _ => "") 9 220 40 (-100)) =
      some [4000, 2000, 2500, 100, 50, 30, 1, 7, -38370] :=
  ⟨exQ_open, ⟨rfl, rfl, exGeom_lawful, exDb_good, fun _ h => by cases h⟩, rfl, rfl, rfl, by decide +kernel,
    by decide +kernel⟩

/-! ### C22 -/

/-- What C22 claims of an elevation `z`: centroid elevation plus depth of the leaf holding the location, or -999
if no leaf does; the sum is rounded to double. -/
def LeafElevation (rd : Rd K) (g : Geom K) (db : Db K) (ext : Option (Db K)) (lon lat elev z : K) : Prop :=
  ∃ a code, g.lonLatElevToAddr { x := 0, y := 0, z := 0, level := 31, type := .leaf } lon lat elev = .ok (a, code) ∧
    (((∀ e, ¬ GroundLeaf db ext a.toKey e) ∧ z = -999) ∨
      ∃ e c, GroundLeaf db ext a.toKey e ∧ g.addrToLonLatElev e.addr = .ok c ∧ z = rd.double (c.2.2 + e.payload.depth))

/-- C22 when the extended model holds only leaves: the elevation is centroid elevation plus depth of the leaf
holding the location (detailed model first), or -999 if there is none.  Missing parts, both false: an extended
model with averages (`C22_false`), and "-999 only if no leaf holds the location" (`C22_false_sentinel`). -/
theorem C22_partial {fmt : Fmt K} {q q' : VMQuery K} {g : Geom K} {db : Db K} (ho : q.Open g db)
    (hleaves : ∀ x, q.dbExt = some x → ∀ e ∈ x.entries, e.addr.type = .leaf)
    {fs fs' : Files} {n : Int} {lon lat elev : K} {vals : List K}
    (h : query fmt q fs n lon lat elev = .ok (q', fs', vals)) (hok : q'.err.status ≠ .ERROR)
    {i : Nat} (hi : q.queryVals[i]? = some (some 8)) :
    ∃ z, vals[i]? = some z ∧ LeafElevation q.rd g db q.dbExt lon lat elev z := by
  obtain ⟨-, -, hu, f₁, -, -, hv₁, hq₁⟩ := (query_iff ho.lawful ho.geom_eq ho.db_eq).1 h
  have hm₁ : some 8 ∈ q.queryVals := List.mem_of_getElem? hi
  cases hE : elevAt q.rd g db q.dbExt lon lat elev false with
  | ub => exact absurd hE (hu hm₁)
  | exc m =>
    rw [hE] at hq₁
    unfold copyErr at hq₁
    simp only [hm₁, if_true] at hq₁
    exact absurd (by rw [hq₁]; rfl) hok
  | ok r =>
    rw [hE] at hv₁
    refine ⟨r.1, by rw [hv₁, List.getElem?_map, hi]; rfl, ?_⟩
    obtain ⟨a, code, hc, hz⟩ := elevAt_false ho.lawful ho.good ho.goodExt hE
    have hiff : ∀ e, GroundLeaf db q.dbExt a.toKey e ↔ ∃ d, GroundOctant db q.dbExt a.toKey e d := by
      intro e
      unfold GroundLeaf GroundOctant
      constructor
      · rintro ⟨hl, h | ⟨h1, x, hx, h2⟩⟩
        · exact ⟨db, Or.inl ⟨rfl, h, hl⟩⟩
        · exact ⟨x, Or.inr ⟨h1, hx, h2⟩⟩
      · rintro ⟨d, ⟨rfl, h, hl⟩ | ⟨h1, hx, h2⟩⟩
        · exact ⟨hl, Or.inl h⟩
        · exact ⟨hleaves d hx e h2.1, Or.inr ⟨h1, d, hx, h2⟩⟩
    refine ⟨a, code, hc, ?_⟩
    rcases hz with ⟨h1, h2⟩ | ⟨e, d, c, h1, h2, h3⟩
    · exact Or.inl ⟨fun e he => by obtain ⟨d, hd⟩ := (hiff e).1 he; exact h1 e d hd, h2⟩
    · exact Or.inr ⟨e, c, (hiff e).2 ⟨d, h1⟩, h2, h3⟩

end

/-- C22 with the geometry of the model: the elevation `z` is the middle `m` of the leaf's vertical extent
plus its depth.  Partial as
`C22_partial`. -/
theorem C22_centroid_partial {K : Type} [Field K] [LinearOrder K] [IsStrictOrderedRing K] [FloorRing K] {fmt : Fmt K}
    {q q' : VMQuery K} {f : Frame K} {proj : Projector K} {level : K → Outcome Int} {db : Db K}
    (ho : q.Open (GeomCenCA.geom f proj level) db)
    (hleaves : ∀ x, q.dbExt = some x → ∀ e ∈ x.entries, e.addr.type = .leaf)
    {fs fs' : Files} {n : Int} {lon lat elev : K} {vals : List K}
    (h : query fmt q fs n lon lat elev = .ok (q', fs', vals)) (hok : q'.err.status ≠ .ERROR)
    {i : Nat} (hi : q.queryVals[i]? = some (some 8)) :
    ∃ z a code, vals[i]? = some z ∧
      GeomCenCA.lonLatElevToAddr f proj { x := 0, y := 0, z := 0, level := 31, type := .leaf } lon lat elev = .ok (a, code) ∧
      (((∀ e, ¬ GroundLeaf db q.dbExt a.toKey e) ∧ z = -999) ∨ ∃ e m, GroundLeaf db q.dbExt a.toKey e ∧
        z = q.rd.double (m + e.payload.depth) ∧ 4 * (12800 - m) = 1638400 - axisMiddle e.addr.z.toNat e.addr.toKey.size) := by
  obtain ⟨z, hz, a, code, hc, hl⟩ := C22_partial ho hleaves h hok hi
  refine ⟨z, a, code, hz, hc, ?_⟩
  rcases hl with hl | ⟨e, c, h1, h2, rfl⟩
  · exact Or.inl hl
  · refine Or.inr ⟨e, c.2.2, h1, rfl, ?_⟩
    have hlev : e.addr.level ≤ 31 := by
      obtain ⟨-, h1 | ⟨-, x, hx, h1⟩⟩ := h1
      · exact (ho.good.octants e h1.1).level_le
      · exact ((ho.goodExt x hx).octants e h1.1).level_le
    obtain ⟨p, q, -, -, -, h3⟩ := C03_centroid hlev (lon := c.1) (lat := c.2.1) (elev := c.2.2) h2
    rw [← h3]

example : exQ2.Open exGeom exDb ∧ (∀ x, exQ2.dbExt = some x → ∀ e ∈ x.entries, e.addr.type = .leaf) ∧
    statusOf (query exFmt exQ2 (fun _ => "") 9 220 40 (-200000)) = some .OK ∧
    valsOf (query exFmt exQ2 (fun _ => "") 9 220 40 (-200000)) =
      some [6000, 3000, 2500, 100, 50, 30, 2, 7, -191970] :=
  ⟨exQ2_open, fun x h e he => by cases h; simp [exDbExt] at he; rw [he], by decide +kernel, by decide +kernel⟩

/-- A query object whose extended model holds an average. -/
def exQ3 : VMQuery ℚ := { VMQuery.init exGeom with db := some exDb, dbExt := some exCoarse }

/-- C22 is false: in the extended model the elevation is taken from an average. -/
theorem C22_false : ¬ ∀ (q q' : VMQuery ℚ) (x : Db ℚ) (fs fs' : Files) (lon lat elev : ℚ) (vals : List ℚ) (z : ℚ),
    q.Open exGeom exDb → q.dbExt = some x → query exFmt q fs 9 lon lat elev = .ok (q', fs', vals) →
    q.queryVals[8]? = some (some 8) → vals[8]? = some z → LeafElevation q.rd exGeom exDb (some x) lon lat elev z := by
  intro h
  obtain ⟨q', fs', hq⟩ := valsOf_some (o := query exFmt exQ3 (fun _ => "") 9 220 40 (-200000))
    (v := [-999, -999, -999, -999, -999, -999, 0, 0, -191970]) (by decide +kernel)
  have ho : exQ3.Open exGeom exDb := ⟨rfl, rfl, exGeom_lawful, exDb_good, fun x h => by cases h; exact exCoarse_good⟩
  obtain ⟨a, code, hc, hz⟩ := h exQ3 q' exCoarse (fun _ => "") fs' 220 40 (-200000) _ (-191970) ho rfl hq rfl rfl
  have hcell : exGeom.lonLatElevToAddr { x := 0, y := 0, z := 0, level := 31, type := .leaf } 220 40 (-200000) =
      .ok (⟨⟨0x00020000, 0x00040000, 0x3d800000, 31⟩, .leaf⟩, 0) := by decide +kernel
  rw [hcell] at hc
  cases hc
  have ha : (⟨0x00020000, 0x00040000, 0x3d800000, 31⟩ : Key).Aligned := exGeom_lawful.aligned _ _ _ _ _ hcell
  rcases hz with ⟨-, hz⟩ | ⟨e, c, ⟨hl, hg⟩, -, -⟩
  · norm_num at hz
  · rcases hg with hg | ⟨-, x, hx, hg⟩
    · rw [← Db.search_iff exDb_good ha] at hg
      have : exDb.search ⟨0x00020000, 0x00040000, 0x3d800000, 31⟩ =
        some ⟨⟨⟨0, 0, 0, 0⟩, .interior⟩, exPay 1600 (-999)⟩ := by decide +kernel
      rw [this] at hg; cases hg; cases hl
    · cases hx
      rw [← Db.search_iff exCoarse_good ha] at hg
      have : exCoarse.search ⟨0x00020000, 0x00040000, 0x3d800000, 31⟩ =
        some ⟨⟨⟨0, 0, 0, 0⟩, .interior⟩, exPay 1600 (-999)⟩ := by decide +kernel
      rw [this] at hg; cases hg; cases hl

/-- A database whose only leaf has its ground at elevation -999. -/
def exSentinel : Db ℚ := ⟨[⟨⟨⟨0, 0, 0, 0⟩, .leaf⟩, { exPay 2000 1 with depth := 191001 }⟩]⟩

/-- C22 is false: -999 is also returned where a leaf holds the location and its ground is at -999 m. -/
theorem C22_false_sentinel :
    valsOf (query exFmt { VMQuery.init exGeom with db := some exSentinel } (fun _ => "") 9 220 40 (-100)) =
      some [4000, 2000, 2500, 100, 50, 191001, 1, 7, -999] := by decide +kernel

section
variable {K : Type} [Field K] [LinearOrder K] [IsStrictOrderedRing K]

/-! ### C23 -/

/-- Calls that are not configuration: queries, and status and log calls on the error handler. -/
inductive QuietCall (K : Type) where
  | query (num : Int) (lon lat elev : K)
  | handler (c : ErrCall)

/-- One such call on a query object and the files. -/
def quietStep (fmt : Fmt K) (canOpen : String → Bool) (s : VMQuery K × Files) : QuietCall K → Outcome (VMQuery K × Files)
  | .query num lon lat elev => do
    let r ← query fmt s.1 s.2 num lon lat elev
    .ok (r.1, r.2.1)
  | .handler c =>
    let r := ErrorHandler.call canOpen (s.1.err, s.2) c
    .ok ({ s.1 with err := r.1 }, r.2)

/-- A history of such calls. -/
def quietRun (fmt : Fmt K) (canOpen : String → Bool) (s : VMQuery K × Files) (cs : List (QuietCall K)) :
    Outcome (VMQuery K × Files) :=
  cs.foldlM (quietStep fmt canOpen) s

/-- C23: no history of queries and status or log calls changes configuration or databases, and a query after the
history returns exactly the values it returned before. -/
theorem C23 (fmt : Fmt K) (canOpen : String → Bool) {q q' : VMQuery K} {g : Geom K} {db : Db K} (ho : q.Open g db)
    {fs fs' : Files} {cs : List (QuietCall K)} (h : quietRun fmt canOpen (q, fs) cs = .ok (q', fs')) :
    q' = { q with err := q'.err } ∧
    ∀ num lon lat elev vals, (∃ r fr, query fmt q fs num lon lat elev = .ok (r, fr, vals)) ↔
      ∃ r fr, query fmt q' fs' num lon lat elev = .ok (r, fr, vals) := by
  have hq : q' = { q with err := q'.err } := by
    clear ho
    induction cs generalizing q fs with
    | nil => cases h; rfl
    | cons c cs ih =>
      unfold quietRun at h ih
      rw [List.foldlM_cons] at h
      cases hc : quietStep fmt canOpen (q, fs) c with
      | exc m => rw [hc] at h; cases h
      | ub => rw [hc] at h; cases h
      | ok s1 =>
        rw [hc, Outcome.bind_ok] at h
        have h2 := ih (q := s1.1) (fs := s1.2) h
        have h1 : s1.1 = { q with err := s1.1.err } := by
          cases c with
          | handler c => cases hc; rfl
          | query num lon lat elev =>
            simp only [quietStep] at hc
            cases hr : query fmt q fs num lon lat elev with
            | exc m => rw [hr] at hc; cases hc
            | ub => rw [hr] at hc; cases hc
            | ok r =>
              rw [hr] at hc; cases hc
              obtain ⟨-, g, db, f, s, -, -, -, -, -, hq⟩ := query_ok (q' := r.1) (fs' := r.2.1) (vals := r.2.2) hr
              rw [hq]
        rw [h2, h1]
  refine ⟨hq, fun num lon lat elev vals => ?_⟩
  have ho' : q'.Open g db := by
    rw [hq]; exact ⟨ho.geom_eq, ho.db_eq, ho.lawful, ho.good, ho.goodExt⟩
  have hf : ∀ (e₁ e₂ : ErrorHandler) f, fetch fmt { q with err := e₁ } g db scratch lon lat elev = .ok f →
      ∃ f', fetch fmt { q with err := e₂ } g db scratch lon lat elev = .ok f' ∧ f'.payload = f.payload ∧
        f'.elevRef = f.elevRef := by
    intro e₁ e₂ f hf
    rw [fetch_eq ho.lawful] at hf ⊢
    change (do
      let r ← squashElev q g db scratch lon lat elev
      let n ← levelFor q g
      let c ← conv g n lon lat (elevUsed q elev r.1)
      .ok ⟨r.1, bothP q g db c, c.1, bothH fmt { q with err := e₁ } g db c lon lat (elevUsed q elev r.1)⟩ :
      Outcome (Fetched K)) = _ at hf
    change ∃ f', (do
      let r ← squashElev q g db scratch lon lat elev
      let n ← levelFor q g
      let c ← conv g n lon lat (elevUsed q elev r.1)
      .ok ⟨r.1, bothP q g db c, c.1, bothH fmt { q with err := e₂ } g db c lon lat (elevUsed q elev r.1)⟩ :
      Outcome (Fetched K)) = .ok f' ∧ _
    cases hr : squashElev q g db scratch lon lat elev with
    | exc m => rw [hr] at hf; cases hf
    | ub => rw [hr] at hf; cases hf
    | ok r =>
      rw [hr, Outcome.bind_ok] at hf
      rw [Outcome.bind_ok]
      cases hl : levelFor q g with
      | exc m => rw [hl] at hf; cases hf
      | ub => rw [hl] at hf; cases hf
      | ok n =>
        rw [hl, Outcome.bind_ok] at hf
        rw [Outcome.bind_ok]
        cases hc : conv g n lon lat (elevUsed q elev r.1) with
        | exc m => rw [hc] at hf; cases hf
        | ub => rw [hc] at hf; cases hf
        | ok c =>
          rw [hc, Outcome.bind_ok] at hf
          cases hf
          exact ⟨_, rfl, rfl, rfl⟩
  have hdir : ∀ (e₁ e₂ : ErrorHandler) (f₁ f₂ : Files),
      (∃ r fr, query fmt { q with err := e₁ } f₁ num lon lat elev = .ok (r, fr, vals)) →
      ∃ r fr, query fmt { q with err := e₂ } f₂ num lon lat elev = .ok (r, fr, vals) := by
    rintro e₁ e₂ f₁ f₂ ⟨r, fr, hr⟩
    obtain ⟨h1, h2, h3, f, hfe, -, h5, -⟩ :=
      (query_iff (q := { q with err := e₁ }) ho.lawful ho.geom_eq ho.db_eq).1 hr
    obtain ⟨f', hf', hp, her⟩ := hf e₁ e₂ f hfe
    refine ⟨_, _, (query_iff (q := { q with err := e₂ }) ho.lawful ho.geom_eq ho.db_eq).2
      ⟨h1, h2, h3, f', hf', rfl, ?_, rfl⟩⟩
    rw [h5, hp, her]
  constructor
  · intro h
    rw [hq]
    exact hdir q.err _ _ _ h
  · intro h
    rw [hq] at h
    exact hdir _ q.err _ _ h

example : exQ.Open exGeom exDb ∧ (match quietRun exFmt (fun _ => true) (exQ, fun _ => "")
    [.query 9 220 40 (-200000), .handler .resetStatus, .query 9 220 40 (-100)] with
    | .ok (q', _) => decide (q'.err.status = .OK)
    | _ => false) = true := ⟨exQ_open, by decide +kernel⟩

end

/-- Boundary of C16: a stored leaf whose fault block is the no-data id 0 counts as no data although its values are
returned (the ingester never stores such a point, C38). -/
theorem C16_zero_block :
    valsOf (query exFmt { VMQuery.init exGeom with db := some ⟨[⟨⟨⟨0, 0, 0, 0⟩, .leaf⟩, exPay 2000 0⟩]⟩ }
      (fun _ => "") 9 220 40 (-100)) = some [4000, 2000, 2500, 100, 50, 30, 0, 7, -191970] ∧
    statusOf (query exFmt { VMQuery.init exGeom with db := some ⟨[⟨⟨⟨0, 0, 0, 0⟩, .leaf⟩, exPay 2000 0⟩]⟩ }
      (fun _ => "") 9 220 40 (-100)) = some .WARNING := ⟨by decide +kernel, by decide +kernel⟩

end CenCalVM
