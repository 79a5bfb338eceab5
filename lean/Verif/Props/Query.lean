/-
Properties C10-C17: what a query answers and signals.
-/
import Verif.Props.ExampleData

set_option linter.unusedSectionVars false

namespace CenCalVM
open VMQuery

section
variable {K : Type} [Field K] [LinearOrder K] [IsStrictOrderedRing K]

/-! ### C10 -/

/-- C10: a MAXRES query answers from the smallest stored octant containing the location's finest cell if that is
a leaf, detailed model first, then extended model; otherwise with the no-data payload.  For squashed locations
see `C10_any` and C20. -/
theorem C10 {fmt : Fmt K} {q : VMQuery K} {g : Geom K} {db : Db K} (ho : q.Open g db) (hq : q.queryFn = .MAXRES)
    {lon lat elev : K} (hs : NotSquashed q elev) {p : Payload K} (hp : PayloadOf fmt q lon lat elev p) :
    (∃ a, CellOf g 31 lon lat elev a ∧
      Combined (FromFinest (fun e => e.addr.type = .leaf) a.toKey) db q.dbExt p) ∨
    (OutsideOf g 31 lon lat elev ∧ p = noDataPayload) := by
  obtain ⟨n, c, hn, hc, rfl⟩ := (payloadOf_plain ho.lawful ho.geom_eq ho.db_eq hs).1 hp
  have hn31 : n = 31 := by unfold LookupLevel at hn; rw [hq] at hn; exact hn
  subst hn31
  rcases conv_cases ho.lawful hc with ⟨h0, hcell, ha, hl, -⟩ | ⟨h0, hout, hx⟩
  · left
    have hw : q.queryFn ≠ .WAVERES := by rw [hq]; simp
    have hacc : Acceptable q g c.1.level = fun e => e.addr.type = .leaf := by
      funext e; unfold Acceptable; rw [hq]; simp
    refine ⟨c.1, hcell, ?_⟩
    have hc' : c = (c.1, 0) := Prod.ext rfl h0
    rw [hc', ← hacc]
    exact bothP_combined (ansP_fromFinest hw g ho.good ha)
      (fun x hx => ansP_fromFinest hw g (ho.goodExt x hx) ha)
  · right
    exact ⟨hout, bothP_outside h0 hx (fun x hx => (ho.goodExt x hx).octants)⟩

example : exQ2.Open exGeom exDb ∧ exQ2.queryFn = .MAXRES ∧ NotSquashed exQ2 (-100) ∧
    PayloadOf exFmt exQ2 220 40 (-100) (exPay 2000 1) :=
  ⟨exQ2_open, rfl, Or.inl rfl, payloadOf_of_vals (by decide +kernel)⟩
/-- In a corner of the model not covered by the detailed model the regional model answers. -/
example : PayloadOf exFmt exQ2 220 40 (-200000) (exPay 3000 2) ∧ PayloadOf exFmt exQ 220 40 (-200000) noDataPayload :=
  ⟨payloadOf_of_vals (by decide +kernel), payloadOf_of_vals (by decide +kernel)⟩

/-- C10 for any squash setting: the answer of a MAXRES query is the payload of a stored leaf or the no-data
payload. -/
theorem C10_any {fmt : Fmt K} {q : VMQuery K} {g : Geom K} {db : Db K} (ho : q.Open g db) (hq : q.queryFn = .MAXRES)
    {lon lat elev : K} {p : Payload K} (hp : PayloadOf fmt q lon lat elev p) :
    p = noDataPayload ∨ ∃ d, (d = db ∨ q.dbExt = some d) ∧ ∃ e ∈ d.entries, e.addr.type = .leaf ∧ p = e.payload := by
  obtain ⟨r, -, h⟩ := (payloadOf_shift ho.lawful ho.geom_eq ho.db_eq).1 hp
  have ho' : VMQuery.Open { q with squashTopo := false } g db :=
    ⟨ho.geom_eq, ho.db_eq, ho.lawful, ho.good, ho.goodExt⟩
  rcases C10 ho' hq (Or.inl rfl) h with ⟨a, -, hC⟩ | ⟨-, h⟩
  · have key : ∀ d, (d = db ∨ q.dbExt = some d) → FromFinest (fun e => e.addr.type = .leaf) a.toKey d p →
        p = noDataPayload ∨ ∃ d, (d = db ∨ q.dbExt = some d) ∧ ∃ e ∈ d.entries, e.addr.type = .leaf ∧
          p = e.payload := by
      rintro d hd (⟨e, he, ht, hp⟩ | ⟨-, hp⟩)
      · exact Or.inr ⟨d, hd, e, he.1, ht, hp⟩
      · exact Or.inl hp
    rcases hC with ⟨h, -⟩ | ⟨p0, x, -, -, hx, h⟩
    · exact key db (Or.inl rfl) h
    · exact key x (Or.inr hx) h
  · exact Or.inl h

/-- C10 for the central California geometry: the leaf whose payload is returned contains the location. -/
theorem C10_location [FloorRing K] {fmt : Fmt K} {q : VMQuery K} {fr : Frame K} (hf : fr.Rigid) {proj : Projector K}
    {lv : K → Outcome Int} {db : Db K} (ho : q.Open (GeomCenCA.geom fr proj lv) db) (hq : q.queryFn = .MAXRES)
    {lon lat elev u v w : K} (hloc : AtRootCoords fr proj lon lat elev u v w)
    (hu : inHalfOpen u) (hv : inHalfOpen v) (hw : inHalfOpen w)
    (hs : NotSquashed q elev) {p : Payload K} (hp : PayloadOf fmt q lon lat elev p) :
    p = noDataPayload ∨ ∃ d, (d = db ∨ q.dbExt = some d) ∧ ∃ e ∈ d.entries, e.addr.type = .leaf ∧
      e.addr.toKey.HasPoint u v w ∧ p = e.payload := by
  obtain ⟨b, hb, -, -, -, hpt⟩ := C01_partial hf hloc hu hv hw ⟨⟨0, 0, 0, 31⟩, .leaf⟩ (by decide)
  rcases C10 ho hq hs hp with ⟨a, hcell, hC⟩ | ⟨-, h⟩
  · have hab : a = b := by
      have h1 : GeomCenCA.lonLatElevToAddr fr proj ⟨⟨0, 0, 0, 31⟩, .leaf⟩ lon lat elev = .ok (a, 0) := hcell
      rw [hb] at h1; cases h1; rfl
    subst hab
    have key : ∀ d, (d = db ∨ q.dbExt = some d) → FromFinest (fun e => e.addr.type = .leaf) a.toKey d p →
        p = noDataPayload ∨ ∃ d, (d = db ∨ q.dbExt = some d) ∧ ∃ e ∈ d.entries, e.addr.type = .leaf ∧
          e.addr.toKey.HasPoint u v w ∧ p = e.payload := by
      rintro d hd (⟨e, he, ht, hp⟩ | ⟨-, hp⟩)
      · exact Or.inr ⟨d, hd, e, he.1, ht, Key.contains_hasPoint he.2.1 hpt, hp⟩
      · exact Or.inl hp
    rcases hC with ⟨h, -⟩ | ⟨p0, x, -, -, hx, h⟩
    · exact key db (Or.inl rfl) h
    · exact key x (Or.inr hx) h
  · exact Or.inl h

example : exFrame.Rigid ∧ exQ.Open (GeomCenCA.geom exFrame exProj (fun _ => .ok 1)) exDb ∧ exQ.queryFn = .MAXRES ∧
    AtRootCoords exFrame exProj 220 40 (-100) 100 200 1586800 ∧ inHalfOpen (100 : ℚ) ∧
    inHalfOpen (200 : ℚ) ∧ inHalfOpen (1586800 : ℚ) ∧ NotSquashed exQ (-100) ∧
    PayloadOf exFmt exQ 220 40 (-100) (exPay 2000 1) :=
  ⟨exFrame_rigid, exQ_open, rfl, ex_at, by norm_num [inHalfOpen], by norm_num [inHalfOpen],
    by norm_num [inHalfOpen], Or.inl rfl, payloadOf_of_vals (by decide +kernel)⟩

/-! ### C11 -/

/-- C11: a FIXEDRES query answers from the smallest stored octant containing the location's cell at the level `n`
of the requested resolution (so never from a finer octant), if that octant is a leaf or exactly at level `n`;
otherwise with the no-data payload. -/
theorem C11 {fmt : Fmt K} {q : VMQuery K} {g : Geom K} {db : Db K} (ho : q.Open g db) (hq : q.queryFn = .FIXEDRES)
    {n : Nat} (hn : g.level (g.vertExag * q.queryRes) = .ok (n : Int))
    {lon lat elev : K} (hs : NotSquashed q elev) {p : Payload K} (hp : PayloadOf fmt q lon lat elev p) :
    (∃ a, CellOf g n lon lat elev a ∧ a.level = n ∧
      Combined (FromFinest (fun e => e.addr.level ≤ n ∧ (e.addr.level = n ∨ e.addr.type = .leaf)) a.toKey)
        db q.dbExt p) ∨
    (OutsideOf g n lon lat elev ∧ p = noDataPayload) := by
  obtain ⟨m, c, hm, hc, rfl⟩ := (payloadOf_plain ho.lawful ho.geom_eq ho.db_eq hs).1 hp
  have hmn : m = n := by
    unfold LookupLevel at hm; rw [hq] at hm; dsimp only at hm; rw [hn] at hm; cases hm; rfl
  subst hmn
  rcases conv_cases ho.lawful hc with ⟨h0, hcell, ha, hl, -⟩ | ⟨h0, hout, hx⟩
  · left
    have hw : q.queryFn ≠ .WAVERES := by rw [hq]; simp
    refine ⟨c.1, hcell, hl, ?_⟩
    have hc' : c = (c.1, 0) := Prod.ext rfl h0
    rw [hc']
    have conv : ∀ d : Db K, d.Good → ∀ p', FromFinest (Acceptable q g c.1.level) c.1.toKey d p' →
        FromFinest (fun e => e.addr.level ≤ m ∧ (e.addr.level = m ∨ e.addr.type = .leaf)) c.1.toKey d p' := by
      intro d hd p' h
      have hle : ∀ e, d.Finest c.1.toKey e → e.addr.level ≤ m := by
        intro e he
        have := ((Key.contains_iff_trunc' (hd.octants e he.1).aligned ha).1 he.2.1).1
        rw [hl] at this; exact this
      have hiff : ∀ e, d.Finest c.1.toKey e →
          (Acceptable q g c.1.level e ↔ (e.addr.level ≤ m ∧ (e.addr.level = m ∨ e.addr.type = .leaf))) := by
        intro e he
        have h1 := hle e he
        unfold Acceptable
        rw [hq, hl]
        dsimp only
        constructor
        · rintro (h | h)
          · exact ⟨h1, Or.inr h⟩
          · exact ⟨h1, Or.inl (by omega)⟩
        · rintro ⟨-, h | h⟩
          · exact Or.inr (by omega)
          · exact Or.inl h
      rcases h with ⟨e, he, hA, hp⟩ | ⟨h, hp⟩
      · exact Or.inl ⟨e, he, (hiff e he).1 hA, hp⟩
      · exact Or.inr ⟨fun e he hA => h e he ((hiff e he).2 hA), hp⟩
    exact bothP_combined (conv db ho.good _ (ansP_fromFinest hw g ho.good ha))
      (fun x hx => conv x (ho.goodExt x hx) _ (ansP_fromFinest hw g (ho.goodExt x hx) ha))
  · right
    exact ⟨hout, bothP_outside h0 hx (fun x hx => (ho.goodExt x hx).octants)⟩

/-- The example query object, FIXEDRES at level 1: the average of level 1 is returned, not the finer leaf. -/
def exFixed : VMQuery ℚ := { exQ with queryFn := .FIXEDRES }

example : exFixed.Open exGeom exDb ∧ exFixed.queryFn = .FIXEDRES ∧
    exGeom.level (exGeom.vertExag * exFixed.queryRes) = .ok ((1 : Nat) : Int) ∧ NotSquashed exFixed (-100) ∧
    PayloadOf exFmt exFixed 220 40 (-100) (exPay 1800 (-999)) :=
  ⟨⟨rfl, rfl, exGeom_lawful, exDb_good, fun _ h => by cases h⟩, rfl, rfl, Or.inl rfl,
    payloadOf_of_vals (by decide +kernel)⟩

/-! ### C12 -/

/-- What a WAVERES query answers from one database: nothing acceptable, or the result of the walk. -/
def WaveAnswer (q : VMQuery K) (g : Geom K) (a : Key) (db : Db K) (p : Payload K) : Prop :=
  ((∀ e, db.Finest a e → ¬ Acceptable q g 31 e) ∧ p = noDataPayload) ∨
    (∃ e, db.Finest a e ∧ Acceptable q g 31 e) ∧ WaveWalk g (g.vertExag * q.queryRes) db a p

/-- C12: when all ancestors are stored, a WAVERES query walks up from the smallest stored octant containing the
location to the first octant whose edge is not shorter than the shear wavelength (or that is not solid, or is the
root), and returns its payload if it is the first one, otherwise the mean with its predecessor on the walk. -/
theorem C12 {fmt : Fmt K} {q : VMQuery K} {g : Geom K} {db : Db K} (ho : q.Open g db) (hrd : q.rd.Exact) (hq : q.queryFn = .WAVERES)
    (hanc : db.AncestorClosed) (hancx : ∀ x, q.dbExt = some x → x.AncestorClosed)
    {lon lat elev : K} (hs : NotSquashed q elev) {p : Payload K} (hp : PayloadOf fmt q lon lat elev p) :
    (∃ a, CellOf g 31 lon lat elev a ∧ Combined (WaveAnswer q g a.toKey) db q.dbExt p) ∨
    (OutsideOf g 31 lon lat elev ∧ p = noDataPayload) := by
  obtain ⟨n, c, hn, hc, rfl⟩ := (payloadOf_plain ho.lawful ho.geom_eq ho.db_eq hs).1 hp
  have hn31 : n = 31 := by unfold LookupLevel at hn; rw [hq] at hn; exact hn
  subst hn31
  rcases conv_cases ho.lawful hc with ⟨h0, hcell, ha, hl, -⟩ | ⟨h0, hout, hx⟩
  · left
    refine ⟨c.1, hcell, ?_⟩
    have hc' : c = (c.1, 0) := Prod.ext rfl h0
    rw [hc']
    have key : ∀ d : Db K, d.Good → d.AncestorClosed → WaveAnswer q g c.1.toKey d (ansP q g d c.1) := by
      intro d hd hda
      have := (ansP_wave hrd hq g hd hda ha).2
      rw [hl] at this; exact this
    exact bothP_combined (key db ho.good hanc) (fun x hx => key x (ho.goodExt x hx) (hancx x hx))
  · right
    exact ⟨hout, bothP_outside h0 hx (fun x hx => (ho.goodExt x hx).octants)⟩

/-- The example query object, WAVERES with a period long enough to reach the root. -/
def exWave : VMQuery ℚ := { exQ with queryFn := .WAVERES, queryRes := 100 }

example : exWave.Open exGeom exDb ∧ exWave.rd.Exact ∧ exWave.queryFn = .WAVERES ∧ exDb.AncestorClosed ∧ NotSquashed exWave (-100) ∧
    PayloadOf exFmt exWave 220 40 (-100) ⟨3800, 1900, 2500, 100, 50, 30, -999, 7⟩ :=
  ⟨⟨rfl, rfl, exGeom_lawful, exDb_good, fun _ h => by cases h⟩, Rd.exact_exact, rfl, exDb_closed, Or.inl rfl,
    payloadOf_of_vals (by decide +kernel)⟩

/-- C12, the walk ends by itself: allowing more rounds than the level of the octant it starts at changes nothing,
in any database. -/
theorem C12_terminates (rd : Rd K) (g : Geom K) (db : Db K) (T : K) (child : Payload K) (e : Entry K) (extra : Nat) :
    waveLoop rd g db T (e.addr.level + extra) child e = waveLoop rd g db T e.addr.level child e ∧
      ∃ w, waveLoop rd g db T e.addr.level child e = .ok w :=
  ⟨waveLoop_fuel rd g db T e.addr.level child e _ le_rfl (by omega), waveLoop_ok rd g db T _ child e⟩

/-! ### C13 -/

/-- The claim of C13 for one model: if the smallest octant containing the location is an average whose edge is
longer than the requested wavelength `Vs * T`, the answer is no data. -/
def NoCoarseAverage (vsOk : K → Prop) : Prop :=
  ∀ (fmt : Fmt K) (q : VMQuery K) (g : Geom K) (db : Db K), q.Open g db → q.rd.Exact → q.queryFn = .WAVERES → q.dbExt = none →
    ∀ (lon lat elev : K) (a : Addr) (e : Entry K) (p : Payload K), NotSquashed q elev →
      CellOf g 31 lon lat elev a → db.Finest a.toKey e → e.addr.type = .interior → vsOk e.payload.vs →
      e.payload.vs * (g.vertExag * q.queryRes) < g.edgeLen e.addr.level →
      PayloadOf fmt q lon lat elev p → p = noDataPayload

/-- C13 for averages with Vs ≥ 0.  Missing part: averages of water octants (Vs < 0), for which the claim is false
(`C13_false`). -/
theorem C13_partial : NoCoarseAverage (K := K) (fun vs => 0 ≤ vs) := by
  intro fmt q g db ho hrd hq hx lon lat elev a e p hs hcell hfin ht hvs hcoarse hp
  obtain ⟨n, c, hn, hc, rfl⟩ := (payloadOf_plain ho.lawful ho.geom_eq ho.db_eq hs).1 hp
  have hn31 : n = 31 := by unfold LookupLevel at hn; rw [hq] at hn; exact hn
  subst hn31
  have hca : c = (a, 0) := by
    have h1 : conv g 31 lon lat elev = .ok (a, 0) := hcell
    rw [hc] at h1; cases h1; rfl
  subst hca
  have ha := ho.lawful.aligned _ _ _ _ _ hcell
  have hna : ansP q g db a = noDataPayload := by
    refine (ansP_noData g ho.good.octants ha ?_).1
    intro f hf
    rw [Db.finest_unique ho.good ha hf hfin]
    unfold Acceptable
    rw [hq, ht]
    rintro (h | ⟨h1, h2⟩)
    · cases h
    · have hpos : 0 < e.payload.vs := lt_of_le_of_ne hvs (Ne.symm h1)
      rw [(hrd _).2, div_le_iff₀ hpos] at h2
      linarith [mul_comm (g.vertExag * q.queryRes) e.payload.vs]
  unfold bothP detP
  simp [hx, hna]

end

/-- A database holding one coarse average of solid rock. -/
def exCoarse : Db ℚ := ⟨[⟨⟨⟨0, 0, 0, 0⟩, .interior⟩, exPay 1600 (-999)⟩]⟩
/-- A database holding one coarse average of water. -/
def exWater : Db ℚ := ⟨[⟨⟨⟨0, 0, 0, 0⟩, .interior⟩, exPay (-5) (-999)⟩]⟩
/-- A WAVERES query object on a database. -/
def exWaveOn (d : Db ℚ) : VMQuery ℚ := { VMQuery.init exGeom with db := some d, queryFn := .WAVERES, queryRes := 1 }

theorem exWaveOn_open (d : Db ℚ) (hd : d.Good) : (exWaveOn d).Open exGeom d :=
  ⟨rfl, rfl, exGeom_lawful, hd, fun _ h => by cases h⟩
theorem exWater_good : exWater.Good := ⟨by unfold Db.Octants; decide +kernel, by unfold Db.Sorted; decide +kernel⟩
theorem exCoarse_good : exCoarse.Good := ⟨by unfold Db.Octants; decide +kernel, by unfold Db.Sorted; decide +kernel⟩

example : (exWaveOn exCoarse).Open exGeom exCoarse ∧ (exWaveOn exCoarse).rd.Exact ∧ CellOf exGeom 31 220 40 (-100) exCell ∧
    exCoarse.search exCell.toKey = some ⟨⟨⟨0, 0, 0, 0⟩, .interior⟩, exPay 1600 (-999)⟩ ∧
    (1600 : ℚ) * (exGeom.vertExag * 1) < exGeom.edgeLen 0 ∧
    PayloadOf exFmt (exWaveOn exCoarse) 220 40 (-100) noDataPayload :=
  ⟨exWaveOn_open _ exCoarse_good, Rd.exact_exact, exCell_of, by decide +kernel, by decide +kernel, payloadOf_of_vals (by decide +kernel)⟩

/-- C13 as stated is false: an average with negative shear speed (water) is returned however coarse it is. -/
theorem C13_false : ¬ NoCoarseAverage (K := ℚ) (fun _ => True) := by
  intro h
  have := h exFmt (exWaveOn exWater) exGeom exWater (exWaveOn_open _ exWater_good) Rd.exact_exact rfl rfl 220 40 (-100) exCell
    ⟨⟨⟨0, 0, 0, 0⟩, .interior⟩, exPay (-5) (-999)⟩ (exPay (-5) (-999)) (Or.inl rfl) exCell_of
    (Db.search_finest exWater_good.octants (exGeom_lawful.aligned _ _ _ _ _ exCell_of) (by decide +kernel))
    rfl trivial (by decide +kernel) (payloadOf_of_vals (by decide +kernel))
  exact absurd this (by decide +kernel)

section
variable {K : Type} [Field K] [LinearOrder K] [IsStrictOrderedRing K]

/-! ### C14 -/

/-- C14: with both models open, the answer is `pd`, what the query on the detailed model alone answers, if its
fault block is not zero, and otherwise `pe`, what the same query on the extended model alone answers. -/
theorem C14 {fmt : Fmt K} {q : VMQuery K} {g : Geom K} {db x : Db K} (ho : q.Open g db) (hx : q.dbExt = some x)
    {lon lat elev : K} (hs : NotSquashed q elev) (p : Payload K) :
    PayloadOf fmt q lon lat elev p ↔ ∃ pd pe, PayloadOf fmt { q with dbExt := none } lon lat elev pd ∧
      PayloadOf fmt { q with db := some x, dbExt := none } lon lat elev pe ∧
      p = if pd.faultBlock ≠ 0 then pd else pe := by
  have h1 := fun p => payloadOf_plain (p := p) (fmt := fmt) (lon := lon) (lat := lat) ho.lawful ho.geom_eq ho.db_eq hs
  have h2 := fun p => payloadOf_plain (p := p) (fmt := fmt) (q := { q with dbExt := none }) (lon := lon) (lat := lat)
    (elev := elev) ho.lawful ho.geom_eq ho.db_eq hs
  have h3 := fun p => payloadOf_plain (p := p) (fmt := fmt) (q := { q with db := some x, dbExt := none })
    (lon := lon) (lat := lat) (elev := elev) ho.lawful ho.geom_eq rfl hs
  simp only [h1, h2, h3]
  have key : ∀ n c, conv g n lon lat elev = .ok c → bothP q g db c =
      if (bothP { q with dbExt := none } g db c).faultBlock ≠ 0 then bothP { q with dbExt := none } g db c
      else bothP { q with db := some x, dbExt := none } g x c := by
    intro n c hc
    have e1 : bothP { q with dbExt := none } g db c = detP q g db c := by
      unfold bothP; simp only [ite_self]; rfl
    have e2 : bothP { q with db := some x, dbExt := none } g x c = detP q g x c := by
      unfold bothP; simp only [ite_self]; rfl
    rw [e1, e2]
    unfold bothP
    rw [hx]
    by_cases hfb : (detP q g db c).faultBlock = 0
    · simp only [hfb, if_true, ne_eq, not_true, if_false]
      unfold detP
      split
      · rename_i hc0
        rcases conv_cases ho.lawful hc with ⟨h0, -⟩ | ⟨-, -, h0⟩
        · exact absurd h0 hc0
        · exact (ansP_outside q g (ho.goodExt x hx).octants h0).1
      · rfl
    · simp [hfb]
  constructor
  · rintro ⟨n, c, hn, hc, rfl⟩
    exact ⟨_, _, ⟨n, c, hn, hc, rfl⟩, ⟨n, c, hn, hc, rfl⟩, key n c hc⟩
  · rintro ⟨pd, pe, ⟨n, c, hn, hc, rfl⟩, ⟨n', c', hn', hc', rfl⟩, rfl⟩
    have : n = n' := lookupLevel_unique (q := q) (g := g) hn hn'
    subst this
    rw [hc] at hc'; cases hc'
    exact ⟨n, c, hn, hc, key n c hc⟩

example : exQ2.Open exGeom exDb ∧ exQ2.dbExt = some exDbExt ∧ NotSquashed exQ2 (-200000) ∧
    PayloadOf exFmt { exQ2 with dbExt := none } 220 40 (-200000) noDataPayload ∧
    PayloadOf exFmt { exQ2 with db := some exDbExt, dbExt := none } 220 40 (-200000) (exPay 3000 2) ∧
    PayloadOf exFmt exQ2 220 40 (-200000) (exPay 3000 2) :=
  ⟨exQ2_open, rfl, Or.inl rfl, payloadOf_of_vals (by decide +kernel), payloadOf_of_vals (by decide +kernel),
    payloadOf_of_vals (by decide +kernel)⟩

/-! ### C15 -/

/-- The no-data value of value number `n`: -999 for the six real values, 0 for fault block and zone. -/
def noDataValue (n : Nat) : K := if n < 6 then -999 else 0

/-- C15, values: if no acceptable octant of either model contains the location, every requested payload value is
the no-data value. -/
theorem C15_values {fmt : Fmt K} {q q' : VMQuery K} {g : Geom K} {db : Db K} (ho : q.Open g db)
    {n : Nat} (hn : LookupLevel q g n) {lon lat elev : K} (hs : NotSquashed q elev) {a : Addr}
    (hcell : CellOf g n lon lat elev a)
    (h1 : ∀ e, db.Finest a.toKey e → ¬ Acceptable q g n e)
    (h2 : ∀ x, q.dbExt = some x → ∀ e, x.Finest a.toKey e → ¬ Acceptable q g n e)
    {fs fs' : Files} {num : Int} {vals : List K} (hr : query fmt q fs num lon lat elev = .ok (q', fs', vals)) :
    PayloadOf fmt q lon lat elev noDataPayload ∧
    vals.length = q.queryVals.length ∧
    ∀ i k : Nat, q.queryVals[i]? = some (some k) → k < 8 → vals[i]? = some (noDataValue k) := by
  have ha := ho.lawful.aligned _ _ _ _ _ hcell
  have hl := (ho.lawful.keeps _ _ _ _ _ _ hcell).1
  simp only at hl
  have hP : bothP q g db (a, 0) = noDataPayload := by
    unfold bothP detP
    simp only [ne_eq, not_true, if_false]
    rw [(ansP_noData g ho.good.octants ha (by rw [hl]; exact h1)).1]
    cases hx : q.dbExt with
    | none => simp
    | some x => simp [(ansP_noData g (ho.goodExt x hx).octants ha (by rw [hl]; exact h2 x hx)).1]
  have hp : PayloadOf fmt q lon lat elev noDataPayload :=
    (payloadOf_plain ho.lawful ho.geom_eq ho.db_eq hs).2 ⟨n, (a, 0), hn, hcell, hP⟩
  obtain ⟨-, g', db', f, s, hg', hdb', hf, -, hc, -⟩ := query_ok hr
  rw [ho.geom_eq] at hg'; rw [ho.db_eq] at hdb'; cases hg'; cases hdb'
  obtain ⟨c1, c2⟩ := copyValues_ok hc
  refine ⟨hp, c1, fun i k hik hk => ?_⟩
  rw [c2 i k hik hk, payloadOf_fetch ho.geom_eq ho.db_eq hp hf]
  match k, hk with
  | 0, _ | 1, _ | 2, _ | 3, _ | 4, _ | 5, _ => simp [pick, noDataPayload, noDataValue, NODATAVAL]
  | 6, _ | 7, _ => simp [pick, noDataPayload, noDataValue, NODATABLOCK, NODATAZONE]

example : exQ.Open exGeom exDb ∧ LookupLevel exQ exGeom 31 ∧ NotSquashed exQ (-200000) ∧
    CellOf exGeom 31 220 40 (-200000) ⟨⟨0x00020000, 0x00040000, 0x3d800000, 31⟩, .leaf⟩ ∧
    exDb.search ⟨0x00020000, 0x00040000, 0x3d800000, 31⟩ =
      some ⟨⟨⟨0, 0, 0, 0⟩, .interior⟩, exPay 1600 (-999)⟩ ∧
    ¬ Acceptable exQ exGeom 31 ⟨⟨⟨0, 0, 0, 0⟩, .interior⟩, exPay 1600 (-999)⟩ ∧
    valsOf (query exFmt exQ (fun _ => "") 9 220 40 (-200000)) =
      some [-999, -999, -999, -999, -999, -999, 0, 0, -999] :=
  ⟨exQ_open, rfl, Or.inl rfl, by unfold CellOf; decide +kernel, by decide +kernel, by
    rintro (h | h)
    · cases h
    · exact h, by decide +kernel⟩

/-- C15, signalling, in any configuration: if the answer has fault block 0 (as the no-data payload has), the
status becomes WARNING with a message naming the location (ERROR only if the requested elevation could not be
computed), and exactly one line for the location is appended to the file being logged to. -/
theorem C15_signal {fmt : Fmt K} {q q' : VMQuery K} {g : Geom K} {db : Db K} (ho : q.Open g db)
    {lon lat elev : K} {p : Payload K} (hp : PayloadOf fmt q lon lat elev p) (hfb : p.faultBlock = 0)
    {fs fs' : Files} {num : Int} {vals : List K} (hr : query fmt q fs num lon lat elev = .ok (q', fs', vals)) :
    (q'.err.status = .ERROR ∨ (q'.err.status = .WARNING ∧ q'.err.message =
      "WARNING: No data for " ++ fmt.sci lon ++ ", " ++ fmt.sci lat ++ ", " ++ fmt.sci elev ++ ".\n")) ∧
    (g.NoThrow → q'.err.status = .WARNING) ∧
    (∀ name, name ≠ NULLFILE → fs' name = if q.err.sink = some name then
      fs name ++ (fmt.sci lon ++ ", " ++ fmt.sci lat ++ ", " ++ fmt.sci elev ++ ", No data\n") else fs name) := by
  obtain ⟨-, -, -, f, hf, rfl, -, rfl⟩ := (query_iff ho.lawful ho.geom_eq ho.db_eq).1 hr
  have hfp := payloadOf_fetch ho.geom_eq ho.db_eq hp hf
  rw [hfp, if_pos hfb, if_pos hfb]
  refine ⟨?_, ?_, ?_⟩
  · unfold copyErr
    dsimp only
    split
    · split
      · exact Or.inl rfl
      · exact Or.inr ⟨rfl, rfl⟩
    · exact Or.inr ⟨rfl, rfl⟩
  · intro hnt
    have hne : ∀ m, elevAt q.rd g db q.dbExt lon lat elev false ≠ .exc m := queryElev_ne_exc hnt
    unfold copyErr
    dsimp only
    split
    · rename_i m hm; exact absurd hm (hne m)
    · rfl
  · intro name hname
    rw [log_congr (fetch_err_sink ho.lawful hf)]
    unfold ErrorHandler.log
    cases hsk : q.err.sink with
    | none => simp
    | some sn =>
      dsimp only
      unfold Files.set
      by_cases hnull : sn = NULLFILE
      · rw [if_pos hnull, if_neg]; simp only [Option.some.injEq]; intro h; exact hname (h ▸ hnull)
      · rw [if_neg hnull]
        by_cases hsn : name = sn
        · subst hsn; simp [noDataLine]
        · rw [if_neg hsn, if_neg]; simp only [Option.some.injEq]; exact fun h => hsn h.symm

example : PayloadOf exFmt exQ 220 40 (-200000) noDataPayload ∧ (noDataPayload : Payload ℚ).faultBlock = 0 ∧
    statusOf (query exFmt exQ (fun _ => "") 9 220 40 (-200000)) = some .WARNING :=
  ⟨payloadOf_of_vals (by decide +kernel), rfl, by decide +kernel⟩

/-! ### C16 -/

/-- C16: if a query finds data and nothing fails (no conversion throws; for WAVERES all ancestors are stored), the
query object including its status and message and all files are exactly what they were before. -/
theorem C16 {fmt : Fmt K} {q q' : VMQuery K} {g : Geom K} {db : Db K} (ho : q.Open g db) (hnt : g.NoThrow)
    (hw : q.queryFn = .WAVERES → db.AncestorClosed ∧ ∀ x, q.dbExt = some x → x.AncestorClosed)
    {lon lat elev : K} {p : Payload K} (hp : PayloadOf fmt q lon lat elev p) (hfb : p.faultBlock ≠ 0)
    {fs fs' : Files} {num : Int} {vals : List K} (hr : query fmt q fs num lon lat elev = .ok (q', fs', vals)) :
    q' = q ∧ fs' = fs := by
  obtain ⟨-, -, -, f, hf, rfl, -, rfl⟩ := (query_iff ho.lawful ho.geom_eq ho.db_eq).1 hr
  have hfp := payloadOf_fetch ho.geom_eq ho.db_eq hp hf
  rw [hfp, if_neg hfb, if_neg hfb]
  refine ⟨?_, rfl⟩
  have hne : ∀ m, elevAt q.rd g db q.dbExt lon lat elev false ≠ .exc m := queryElev_ne_exc hnt
  have : copyErr (elevAt q.rd g db q.dbExt lon lat elev false) f.err q.queryVals = q.err := by
    unfold copyErr
    split
    · rename_i m hm; exact absurd hm (hne m)
    · exact fetch_err_closed ho hw hf
  rw [this]

example : exQ.Open exGeom exDb ∧ exGeom.NoThrow ∧ PayloadOf exFmt exQ 220 40 (-100) (exPay 2000 1) ∧
    (exPay 2000 1).faultBlock ≠ 0 ∧ valsOf (query exFmt exQ (fun _ => "") 9 220 40 (-100)) =
      some [4000, 2000, 2500, 100, 50, 30, 1, 7, -38370] :=
  ⟨exQ_open, exGeom_noThrow, payloadOf_of_vals (by decide +kernel), by decide, by decide +kernel⟩

/-! ### C17 -/

/-- C17, first part: an ERROR set before a query that finds data is still there after it.  Missing parts, both
false: queries finding no data (`C17_false_noData`), projection failures (`C17_false_projection`). -/
theorem C17_partial {fmt : Fmt K} {q q' : VMQuery K} {g : Geom K} {db : Db K} (ho : q.Open g db)
    (hw : q.queryFn = .WAVERES → db.AncestorClosed ∧ ∀ x, q.dbExt = some x → x.AncestorClosed)
    {lon lat elev : K} {p : Payload K} (hp : PayloadOf fmt q lon lat elev p) (hfb : p.faultBlock ≠ 0)
    {fs fs' : Files} {num : Int} {vals : List K} (hr : query fmt q fs num lon lat elev = .ok (q', fs', vals))
    (he : q.err.status = .ERROR) : q'.err.status = .ERROR := by
  obtain ⟨-, -, -, f, hf, -, -, rfl⟩ := (query_iff ho.lawful ho.geom_eq ho.db_eq).1 hr
  have hfp := payloadOf_fetch ho.geom_eq ho.db_eq hp hf
  rw [hfp, if_neg hfb, fetch_err_closed ho hw hf]
  unfold copyErr
  dsimp only
  split
  · split
    · rfl
    · exact he
  · exact he

/-- C17, second part: if the elevation is requested and the inverse projection of the octant found for it fails,
the status after the query is ERROR with the projection's message, whatever it was before. -/
theorem C17_elevation_partial {fmt : Fmt K} {q q' : VMQuery K} {g : Geom K} {db : Db K} (ho : q.Open g db)
    {lon lat elev : K} {a : Addr} (hcell : CellOf g 31 lon lat elev a) {e : Entry K}
    (hfin : db.Finest a.toKey e) (hleaf : e.addr.type = .leaf) {m : String} (hm : g.addrToLonLatElev e.addr = .exc m)
    (h8 : some 8 ∈ q.queryVals)
    {fs fs' : Files} {num : Int} {vals : List K} (hr : query fmt q fs num lon lat elev = .ok (q', fs', vals)) :
    q'.err.status = .ERROR ∧ q'.err.message = m := by
  obtain ⟨-, -, -, f, hf, -, -, rfl⟩ := (query_iff ho.lawful ho.geom_eq ho.db_eq).1 hr
  have ha := ho.lawful.aligned _ _ _ _ _ hcell
  have : elevAt q.rd g db q.dbExt lon lat elev false = .exc m := by
    unfold elevAt queryElev
    rw [conv_leafAt ho.lawful]
    have h1 : conv g ETREE_MAXLEVEL lon lat elev = .ok (a, 0) := hcell
    rw [h1, Outcome.bind_ok]
    have h2 : elevOctant db q.dbExt a.toKey = some (e, db) := by
      unfold elevOctant; rw [(Db.search_iff ho.good ha).2 hfin]; simp [hleaf]
    rw [h2]
    dsimp only
    rw [hm]; rfl
  rw [this]
  unfold copyErr
  simp only [h8, if_true]
  exact ⟨rfl, rfl⟩

end

/-- A geometry whose inverse projection fails. -/
def exGeomInv : Geom ℚ :=
  GeomCenCA.geom exFrame ⟨fun a b => .ok (a, b), fun _ _ => .exc "inverse"⟩ (fun _ => .ok 1)

example : VMQuery.Open { exQ with geom := some exGeomInv } exGeomInv exDb ∧
    CellOf exGeomInv 31 220 40 (-100) exCell ∧
    exDb.search exCell.toKey = some ⟨⟨⟨0, 0, 0x60000000, 2⟩, .leaf⟩, exPay 2000 1⟩ ∧
    exGeomInv.addrToLonLatElev ⟨⟨0, 0, 0x60000000, 2⟩, .leaf⟩ = .exc "inverse" ∧
    statusOf (query exFmt { exQ with geom := some exGeomInv } (fun _ => "") 9 220 40 (-100)) = some .ERROR :=
  ⟨⟨rfl, rfl, GeomCenCA.geom_lawful _ _ _, exDb_good, fun _ h => by cases h⟩, by unfold CellOf; decide +kernel,
    by decide +kernel, by decide +kernel, by decide +kernel⟩

/-- The example query object after an error. -/
def exQErr : VMQuery ℚ := { exQ with err := ErrorHandler.init.error "earlier" }

example : exQErr.Open exGeom exDb ∧ exQErr.err.status = .ERROR ∧
    PayloadOf exFmt exQErr 220 40 (-100) (exPay 2000 1) ∧
    statusOf (query exFmt exQErr (fun _ => "") 9 220 40 (-100)) = some .ERROR :=
  ⟨⟨rfl, rfl, exGeom_lawful, exDb_good, fun _ h => by cases h⟩, rfl, payloadOf_of_vals (by decide +kernel),
    by decide +kernel⟩

/-- C17 is false for queries that find no data: the warning replaces the error. -/
theorem C17_false_noData : ¬ ∀ (q q' : VMQuery ℚ) (lon lat elev : ℚ) (fs fs' : Files) (vals : List ℚ),
    q.Open exGeom exDb → query exFmt q fs q.queryVals.length lon lat elev = .ok (q', fs', vals) →
    q.err.status = .ERROR → q'.err.status = .ERROR := by
  intro h
  have hs : statusOf (query exFmt exQErr (fun _ => "") 9 220 40 (-200000)) = some .WARNING := by decide +kernel
  cases hq : query exFmt exQErr (fun _ => "") 9 220 40 (-200000) with
  | ub => rw [hq] at hs; cases hs
  | exc m => rw [hq] at hs; cases hs
  | ok r =>
    have h1 := h exQErr r.1 220 40 (-200000) (fun _ => "") r.2.1 r.2.2
      ⟨rfl, rfl, exGeom_lawful, exDb_good, fun _ h => by cases h⟩ hq rfl
    rw [hq] at hs
    simp only [statusOf, Option.some.injEq] at hs
    rw [hs] at h1; cases h1

/-- C17 is false for projection failures: the query then reads an uninitialised payload (undefined behaviour), in
every state and for every location whose projection fails. -/
theorem C17_false_projection {K : Type} [Field K] [LinearOrder K] {fmt : Fmt K} {q : VMQuery K} {g : Geom K}
    {db : Db K} (hgeom : q.geom = some g) (hdb : q.db = some db) (fs : Files) (lon lat elev : K) (num : Int)
    {n : Nat} (hn : LookupLevel q g n) (hn31 : n ≤ 31)
    (hproj : ∀ (a : Addr) (elev' : K), a.level ≤ 31 → ∃ m, g.lonLatElevToAddr a lon lat elev' = .exc m) :
    query fmt q fs num lon lat elev = .ub := by
  unfold query
  split
  · rfl
  · simp only [hgeom, hdb]
    have hf : ∃ m, fetch fmt q g db ⟨⟨0, 0, 0, 0⟩, .leaf⟩ lon lat elev = .exc m := by
      unfold fetch squashElev
      split
      · obtain ⟨m, hm⟩ := hproj (leafAt ⟨⟨0, 0, 0, 0⟩, .leaf⟩ ETREE_MAXLEVEL) elev (by decide)
        refine ⟨m, ?_⟩
        unfold queryElev
        rw [hm]; rfl
      · rw [Outcome.bind_ok]; dsimp only
        rw [runQueryFn_false, levelFor_iff.2 hn, Outcome.bind_ok]
        obtain ⟨m, hm⟩ := hproj (leafAt ⟨⟨0, 0, 0, 0⟩, .leaf⟩ n)
          (if q.squashTopo = true ∧ elev > q.squashLimit ∧ (0 : K) ≠ NODATAVAL then q.rd.double (elev + 0) else elev) hn31
        refine ⟨m, ?_⟩
        rw [hm]; rfl
    obtain ⟨m, hm⟩ := hf
    rw [hm]

theorem exGeomPartial_throws (a : Addr) (elev : ℚ) (ha : a.level ≤ 31) :
    ∃ m, exGeomPartial.lonLatElevToAddr a 0 91 elev = .exc m := by
  have : exProjPartial.project 0 91 = .exc "proj" := by decide +kernel
  refine ⟨"proj", ?_⟩
  show GeomCenCA.lonLatElevToAddr exFrame exProjPartial a 0 91 elev = _
  unfold GeomCenCA.lonLatElevToAddr
  rw [if_pos (by omega), this]

example : query exFmt { exQ with geom := some exGeomPartial } (fun _ => "") 9 0 91 0 = .ub :=
  C17_false_projection (g := exGeomPartial) (db := exDb) (n := 31) rfl rfl _ _ _ _ _ rfl le_rfl exGeomPartial_throws

end CenCalVM
