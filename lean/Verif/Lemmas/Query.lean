/-
Structure of VMQuery::query: which payload it fetches, how values are copied.
-/
import Verif.Lemmas.Search
import Verif.Lemmas.Geometry

set_option linter.unusedSectionVars false

namespace CenCalVM

/-! ### The central California geometry is lawful -/

section
variable {K : Type} [Field K] [LinearOrder K] [IsStrictOrderedRing K] [FloorRing K]

theorem GeomCenCA.geom_lawful (f : Frame K) (proj : Projector K) (lv : K → Outcome Int) :
    (GeomCenCA.geom f proj lv).Lawful where
  overwrites := by
    intro a b hl ht lon lat elev
    obtain ⟨⟨ax, ay, az, al⟩, at'⟩ := a
    obtain ⟨⟨bx, bY, bz, bl⟩, bt⟩ := b
    simp only at hl ht
    subst hl ht
    rfl
  keeps := by
    intro a b lon lat elev code h
    simp only [geom, lonLatElevToAddr] at h
    split at h
    · split at h
      · cases h
      · cases h
      · split at h <;> (cases h; exact ⟨rfl, rfl⟩)
    · cases h
  aligned := by
    intro a b lon lat elev h
    simp only [geom, lonLatElevToAddr] at h
    split at h
    · rename_i hl
      split at h
      · cases h
      · cases h
      · split at h
        · cases h
        · rename_i hin
          cases h
          simp only [not_or, not_lt, gt_iff_lt] at hin
          obtain ⟨-, h1, -, h2, -, h3⟩ := hin
          unfold ROOTLEN at h1 h2 h3
          have hl' : a.level ≤ 31 := by omega
          exact ⟨hl', tick_dvd h1 hl', tick_dvd h2 hl', tick_dvd h3 hl'⟩
    · cases h
  outside := by
    intro a b lon lat elev code h hc
    simp only [geom, lonLatElevToAddr] at h
    split at h
    · split at h
      · cases h
      · cases h
      · split at h
        · cases h; show 2 ^ 31 ≤ (-1 : BitVec 32).toNat; decide
        · cases h; exact absurd rfl hc
    · cases h

end

namespace VMQuery
variable {K : Type} [Field K] [LinearOrder K]

/-! ### Copying values -/

theorem copyValue_pick (q : VMQuery K) (g : Geom K) (db : Db K) (lon lat elev : K) (p : Payload K)
    (s : CopyState K) {n : Nat} (h : n < 8) : copyValue q g db lon lat elev p s (some n) = .ok (pick p n, s) := by
  match n, h with
  | 0, _ | 1, _ | 2, _ | 3, _ | 4, _ | 5, _ | 6, _ | 7, _ => rfl

theorem copyValues_ok {q : VMQuery K} {g : Geom K} {db : Db K} {lon lat elev : K} {p : Payload K}
    {vs : List (Option Nat)} {s s' : CopyState K} {vals : List K}
    (h : copyValues q g db lon lat elev p s vs = .ok (vals, s')) :
    vals.length = vs.length ∧ ∀ (i n : Nat), vs[i]? = some (some n) → n < 8 → vals[i]? = some (pick p n) := by
  induction vs generalizing s vals s' with
  | nil => cases h; simp
  | cons v vs ih =>
    simp only [copyValues] at h
    cases hv : copyValue q g db lon lat elev p s v with
    | exc m => rw [hv] at h; cases h
    | ub => rw [hv] at h; cases h
    | ok r =>
      rw [hv] at h
      simp only [Outcome.bind_ok] at h
      cases hr : copyValues q g db lon lat elev p r.2 vs with
      | exc m => rw [hr] at h; cases h
      | ub => rw [hr] at h; cases h
      | ok rs =>
        rw [hr] at h
        cases h
        obtain ⟨h1, h2⟩ := ih hr
        refine ⟨by simp [h1], fun i n hi hn => ?_⟩
        cases i with
        | zero =>
          simp only [List.length_cons, Nat.zero_lt_succ, List.getElem?_eq_getElem,
            List.getElem_cons_zero, Option.some.injEq] at hi
          subst hi
          rw [copyValue_pick _ _ _ _ _ _ _ _ hn] at hv
          cases hv; simp
        | succ i => simpa using h2 i n (by simpa using hi) hn

theorem copyValues_picks (q : VMQuery K) (g : Geom K) (db : Db K) (lon lat elev : K) (p : Payload K)
    (s : CopyState K) (ns : List Nat) (h : ∀ n ∈ ns, n < 8) :
    copyValues q g db lon lat elev p s (ns.map some) = .ok (ns.map (pick p), s) := by
  induction ns with
  | nil => rfl
  | cons n ns ih =>
    simp only [List.map_cons, copyValues]
    rw [copyValue_pick _ _ _ _ _ _ _ _ (h n (by simp))]
    simp only [Outcome.bind_ok]
    rw [ih (fun m hm => h m (by simp [hm]))]
    rfl

/-! ### Anatomy of a successful query -/

/-- The scratch address before the query. -/
def scratch : Addr := ⟨⟨0, 0, 0, 0⟩, .leaf⟩

theorem query_ok {fmt : Fmt K} {q q' : VMQuery K} {fs fs' : Files} {n : Int} {lon lat elev : K} {vals : List K}
    (h : query fmt q fs n lon lat elev = .ok (q', fs', vals)) :
    n = q.queryVals.length ∧ ∃ g db f s, q.geom = some g ∧ q.db = some db ∧
      fetch fmt q g db scratch lon lat elev = .ok f ∧
      fs' = (if f.payload.faultBlock = 0 then f.err.log fs (noDataLine fmt lon lat elev) else fs) ∧
      copyValues q g db lon lat elev f.payload
        ⟨f.elevRef, f.addr, if f.payload.faultBlock = 0 then f.err.warning (noDataWarning fmt lon lat elev)
          else f.err⟩ q.queryVals = .ok (vals, s) ∧
      q' = { q with err := s.err } := by
  unfold query at h
  split at h
  · cases h
  · rename_i hn
    refine ⟨by simpa using hn, ?_⟩
    split at h
    · rename_i g db hg hdb
      refine ⟨g, db, ?_⟩
      cases hf : fetch fmt q g db scratch lon lat elev with
      | exc m => unfold scratch at hf; rw [hf] at h; cases h
      | ub => unfold scratch at hf; rw [hf] at h; cases h
      | ok f =>
        unfold scratch at hf
        rw [hf] at h
        simp only [decide_eq_true_eq] at h
        unfold NODATABLOCK at h
        cases hc : copyValues q g db lon lat elev f.payload ⟨f.elevRef, f.addr,
            if f.payload.faultBlock = 0 then f.err.warning (noDataWarning fmt lon lat elev) else f.err⟩
            q.queryVals with
        | exc m => rw [hc] at h; cases h
        | ub => rw [hc] at h; cases h
        | ok r =>
          rw [hc] at h
          cases h
          exact ⟨f, r.2, hg, hdb, rfl, rfl, hc, rfl⟩
    · cases h

theorem fetch_vals (fmt : Fmt K) (q : VMQuery K) (v : List (Option Nat)) (g : Geom K) (db : Db K) (a : Addr)
    (lon lat elev : K) :
    fetch fmt { q with queryVals := v } g db a lon lat elev = fetch fmt q g db a lon lat elev := rfl

theorem query_of_fetch {fmt : Fmt K} {q : VMQuery K} {fs : Files} {lon lat elev : K} {g : Geom K}
    {db : Db K} {f : Fetched K} (hg : q.geom = some g) (hdb : q.db = some db)
    (hf : fetch fmt q g db scratch lon lat elev = .ok f) (ns : List Nat) (hns : ∀ n ∈ ns, n < 8) :
    query fmt { q with queryVals := ns.map some } fs ns.length lon lat elev =
      .ok ({ q with queryVals := ns.map some, err := if f.payload.faultBlock = 0 then
              f.err.warning (noDataWarning fmt lon lat elev) else f.err },
        (if f.payload.faultBlock = 0 then f.err.log fs (noDataLine fmt lon lat elev) else fs),
        ns.map (pick f.payload)) := by
  unfold query
  rw [if_neg (by simp)]
  have hf' : fetch fmt { q with queryVals := ns.map some } g db ⟨⟨0, 0, 0, 0⟩, .leaf⟩ lon lat elev = .ok f := hf
  dsimp only
  simp only [hg, hdb] at hf' ⊢
  rw [hf']
  simp only [NODATABLOCK]
  rw [copyValues_picks _ _ _ _ _ _ _ _ _ hns]
  by_cases hfb : f.payload.faultBlock = 0 <;> simp [hfb]

variable [IsStrictOrderedRing K]

theorem pick_inj {p p' : Payload K} (h : (List.range 8).map (pick p) = (List.range 8).map (pick p')) : p = p' := by
  have h' : [p.vp, p.vs, p.density, p.qp, p.qs, p.depth, (p.faultBlock : K), (p.zone : K)] =
      [p'.vp, p'.vs, p'.density, p'.qp, p'.qs, p'.depth, (p'.faultBlock : K), (p'.zone : K)] := h
  simp only [List.cons.injEq, Int.cast_inj, and_true] at h'
  obtain ⟨h1, h2, h3, h4, h5, h6, h7, h8⟩ := h'
  cases p; cases p'; simp_all

/-- The payload a query answers with is the one its first part fetches. -/
theorem payloadOf_iff {fmt : Fmt K} {q : VMQuery K} {lon lat elev : K} {p : Payload K} :
    PayloadOf fmt q lon lat elev p ↔ ∃ g db f, q.geom = some g ∧ q.db = some db ∧
      fetch fmt q g db scratch lon lat elev = .ok f ∧ f.payload = p := by
  constructor
  · rintro ⟨q', fs', h⟩
    obtain ⟨-, g, db, f, s, hg, hdb, hf, -, hc, -⟩ := query_ok h
    refine ⟨g, db, f, hg, hdb, hf, ?_⟩
    rw [copyValues_picks _ _ _ _ _ _ _ _ _ (by simp)] at hc
    simp only [Outcome.ok.injEq, Prod.mk.injEq] at hc
    exact pick_inj hc.1
  · rintro ⟨g, db, f, hg, hdb, hf, rfl⟩
    have := query_of_fetch (fs := fun _ => "") hg hdb hf (List.range 8) (by simp)
    exact ⟨_, _, this⟩

theorem payloadOf_unique {fmt : Fmt K} {q : VMQuery K} {lon lat elev : K} {p p' : Payload K}
    (h : PayloadOf fmt q lon lat elev p) (h' : PayloadOf fmt q lon lat elev p') : p = p' := by
  obtain ⟨g, db, f, hg, hdb, hf, rfl⟩ := payloadOf_iff.1 h
  obtain ⟨g', db', f', hg', hdb', hf', rfl⟩ := payloadOf_iff.1 h'
  rw [hg] at hg'; rw [hdb] at hdb'; cases hg'; cases hdb'
  rw [hf] at hf'; cases hf'; rfl

omit [IsStrictOrderedRing K]

/-! ### The query functions -/

/-- Level at which the location is looked up. -/
def levelFor (q : VMQuery K) (g : Geom K) : Outcome Nat :=
  match q.queryFn with
  | .MAXRES => .ok 31
  | .WAVERES => .ok 31
  | .FIXEDRES => do
    let n ← g.level (g.vertExag * q.queryRes)
    if n < 0 then .ub else .ok n.toNat

/-- With a given address only the address matters. -/
theorem runQueryFn_false (fmt : Fmt K) (q : VMQuery K) (g : Geom K) (h : ErrorHandler) (addr : Addr) (db : Db K)
    (lon lat elev : K) :
    runQueryFn fmt q g h addr db lon lat elev false = (do
      let n ← levelFor q g
      let r ← g.lonLatElevToAddr (leafAt addr n) lon lat elev
      if r.2 ≠ 0 then .ok (noDataPayload, r.1, h)
      else runQueryFn fmt q g h r.1 db lon lat elev true) := by
  unfold runQueryFn levelFor
  cases hq : q.queryFn with
  | MAXRES =>
    simp only [queryMax, ETREE_MAXLEVEL, Outcome.bind_ok, if_true, Bool.false_eq_true, if_false]
    cases g.lonLatElevToAddr (leafAt addr 31) lon lat elev with
    | exc m => rfl
    | ub => rfl
    | ok r =>
      simp only [Outcome.bind_ok]
      by_cases hr : r.2 ≠ 0
      · simp [hr]
      · simp [hr]
  | FIXEDRES =>
    simp only [queryFixed, if_true, Bool.false_eq_true, if_false, Outcome.bind_ok]
    cases g.level (g.vertExag * q.queryRes) with
    | exc m => rfl
    | ub => rfl
    | ok n =>
      simp only [Outcome.bind_ok]
      by_cases hn : n < 0
      · simp [hn]
      · simp only [hn, if_false, Outcome.bind_ok]
        cases g.lonLatElevToAddr (leafAt addr n.toNat) lon lat elev with
        | exc m => rfl
        | ub => rfl
        | ok r =>
          simp only [Outcome.bind_ok]
          by_cases hr : r.2 ≠ 0
          · simp [hr]
          · simp [hr]
  | WAVERES =>
    simp only [queryWave, ETREE_MAXLEVEL, Outcome.bind_ok, if_true, Bool.false_eq_true, if_false]
    cases g.lonLatElevToAddr (leafAt addr 31) lon lat elev with
    | exc m => rfl
    | ub => rfl
    | ok r =>
      simp only [Outcome.bind_ok]
      by_cases hr : r.2 ≠ 0
      · simp [hr]
      · simp [hr]

/-- The walk of a WAVERES query always returns. -/
theorem waveLoop_ok (rd : Rd K) (g : Geom K) (db : Db K) (T : K) (fuel : Nat) (child : Payload K) (res : Entry K) :
    ∃ w, waveLoop rd g db T fuel child res = .ok w := by
  induction fuel generalizing child res with
  | zero => exact ⟨_, rfl⟩
  | succ n ih =>
    unfold waveLoop
    split
    · rename_i hc
      have hanc : ∃ p, findAncestor res.addr ((res.addr.level : Int) - 1) = .ok p := by
        unfold findAncestor
        rw [if_pos (by omega)]; exact ⟨_, rfl⟩
      obtain ⟨p, hp⟩ := hanc
      rw [hp]
      dsimp only
      split
      · exact ⟨_, rfl⟩
      · exact ih _ _
    · exact ⟨_, rfl⟩

/-- Answer of one database for an address. -/
def ansP (q : VMQuery K) (g : Geom K) (db : Db K) (a : Addr) : Payload K :=
  match db.search a.toKey with
  | none => noDataPayload
  | some e =>
    match q.queryFn with
    | .MAXRES => if e.addr.type = .interior then noDataPayload else e.payload
    | .FIXEDRES => if e.addr.type = .interior ∧ a.level > e.addr.level then noDataPayload else e.payload
    | .WAVERES =>
      if e.addr.type = .interior ∧
          quotGt q.rd (g.edgeLen e.addr.level) e.payload.vs (g.vertExag * q.queryRes) = true then noDataPayload
      else match waveLoop q.rd g db (g.vertExag * q.queryRes) e.addr.level e.payload e with
        | .ok (.reached c l) => waveAverage q.rd c l
        | _ => e.payload

/-- The octant without stored parent that a WAVERES query meets. -/
def orphanOf (q : VMQuery K) (g : Geom K) (db : Db K) (a : Addr) : Option (Addr × Addr) :=
  match q.queryFn, db.search a.toKey with
  | .WAVERES, some e =>
      if e.addr.type = .interior ∧
          quotGt q.rd (g.edgeLen e.addr.level) e.payload.vs (g.vertExag * q.queryRes) = true then none
      else match waveLoop q.rd g db (g.vertExag * q.queryRes) e.addr.level e.payload e with
        | .ok (.orphan p c) => some (p, c)
        | _ => none
  | _, _ => none

/-- Effect on the handler. -/
def ansH (fmt : Fmt K) (lon lat elev : K) : Option (Addr × Addr) → ErrorHandler → ErrorHandler
  | none, h => h
  | some (p, c), h => h.warning (orphanMessage fmt p c lon lat elev)

/-- With an address given, a query function never fails. -/
theorem runQueryFn_true (fmt : Fmt K) (q : VMQuery K) (g : Geom K) (h : ErrorHandler) (db : Db K) (a : Addr)
    (lon lat elev : K) : runQueryFn fmt q g h a db lon lat elev true =
      .ok (ansP q g db a, a, ansH fmt lon lat elev (orphanOf q g db a) h) := by
  unfold runQueryFn ansP orphanOf
  cases hq : q.queryFn with
  | MAXRES =>
    simp only [queryMax, Outcome.bind_ok, if_true]
    cases hs : db.search a.toKey with
    | none => rfl
    | some e => by_cases ht : e.addr.type = .interior <;> simp [ht, ansH]
  | FIXEDRES =>
    simp only [queryFixed, Outcome.bind_ok, if_true]
    cases hs : db.search a.toKey with
    | none => rfl
    | some e =>
      by_cases ht : e.addr.type = .interior ∧ a.level > e.addr.level
      · simp only [if_pos ht]; rfl
      · simp only [if_neg ht]; rfl
  | WAVERES =>
    simp only [queryWave, Outcome.bind_ok, if_true]
    cases hs : db.search a.toKey with
    | none => rfl
    | some e =>
      by_cases ht : e.addr.type = .interior ∧
          quotGt q.rd (g.edgeLen e.addr.level) e.payload.vs (g.vertExag * q.queryRes) = true
      · simp only [if_pos ht]; rfl
      · obtain ⟨w, hw⟩ := waveLoop_ok q.rd g db (g.vertExag * q.queryRes) e.addr.level e.payload e
        simp only [if_neg ht, hw]
        cases w <;> rfl

/-- The location is converted for level `n`. -/
def conv (g : Geom K) (n : Nat) (lon lat elev : K) : Outcome (Addr × Int) :=
  g.lonLatElevToAddr { x := 0, y := 0, z := 0, level := n, type := .leaf } lon lat elev

theorem conv_leafAt {g : Geom K} (hg : g.Lawful) (a : Addr) (n : Nat) (lon lat elev : K) :
    g.lonLatElevToAddr (leafAt a n) lon lat elev = conv g n lon lat elev :=
  hg.overwrites (leafAt a n) ⟨⟨0, 0, 0, n⟩, .leaf⟩ rfl rfl _ _ _

/-- Answer of the detailed model for a converted location. -/
def detP (q : VMQuery K) (g : Geom K) (db : Db K) (r : Addr × Int) : Payload K :=
  if r.2 ≠ 0 then noDataPayload else ansP q g db r.1

/-- Orphan met in the detailed model. -/
def detO (q : VMQuery K) (g : Geom K) (db : Db K) (r : Addr × Int) : Option (Addr × Addr) :=
  if r.2 ≠ 0 then none else orphanOf q g db r.1

/-- Both models together. -/
def bothP (q : VMQuery K) (g : Geom K) (db : Db K) (r : Addr × Int) : Payload K :=
  if (detP q g db r).faultBlock = 0 then
    match q.dbExt with
    | none => detP q g db r
    | some x => ansP q g x r.1
  else detP q g db r

/-- Handler after consulting both models. -/
def bothH (fmt : Fmt K) (q : VMQuery K) (g : Geom K) (db : Db K) (r : Addr × Int) (lon lat elev : K) : ErrorHandler :=
  let h := ansH fmt lon lat elev (detO q g db r) q.err
  if (detP q g db r).faultBlock = 0 then
    match q.dbExt with
    | none => h
    | some x => ansH fmt lon lat elev (orphanOf q g x r.1) h
  else h

/-- Elevation at which the models are consulted. -/
def elevUsed (q : VMQuery K) (elev er : K) : K :=
  if q.squashTopo ∧ elev > q.squashLimit ∧ er ≠ NODATAVAL then q.rd.double (elev + er) else elev

theorem fetch_eq {g : Geom K} (hg : g.Lawful) (fmt : Fmt K) (q : VMQuery K) (db : Db K) (addr : Addr)
    (lon lat elev : K) :
    fetch fmt q g db addr lon lat elev = (do
      let r ← squashElev q g db addr lon lat elev
      let n ← levelFor q g
      let c ← conv g n lon lat (elevUsed q elev r.1)
      .ok ⟨r.1, bothP q g db c, c.1, bothH fmt q g db c lon lat (elevUsed q elev r.1)⟩) := by
  unfold fetch
  cases squashElev q g db addr lon lat elev with
  | exc m => rfl
  | ub => rfl
  | ok r =>
    simp only [Outcome.bind_ok]
    change (do
      let p ← runQueryFn fmt q g q.err r.2 db lon lat (elevUsed q elev r.1) false
      if p.1.faultBlock = NODATABLOCK then
        match q.dbExt with
        | none => .ok ⟨r.1, p.1, p.2.1, p.2.2⟩
        | some x => do
          let p' ← runQueryFn fmt q g p.2.2 p.2.1 x lon lat (elevUsed q elev r.1) true
          .ok ⟨r.1, p'.1, p'.2.1, p'.2.2⟩
      else .ok ⟨r.1, p.1, p.2.1, p.2.2⟩ : Outcome (Fetched K)) = _
    rw [runQueryFn_false]
    cases levelFor q g with
    | exc m => rfl
    | ub => rfl
    | ok n =>
      simp only [Outcome.bind_ok]
      rw [conv_leafAt hg]
      cases conv g n lon lat (elevUsed q elev r.1) with
      | exc m => rfl
      | ub => rfl
      | ok c =>
        simp only [Outcome.bind_ok, runQueryFn_true, NODATABLOCK]
        unfold bothP bothH detP detO
        by_cases hc : c.2 ≠ 0
        · simp only [if_pos hc, Outcome.bind_ok, ansH]
          split
          · cases q.dbExt <;> rfl
          · rfl
        · simp only [if_neg hc, Outcome.bind_ok]
          split
          · cases q.dbExt <;> rfl
          · rfl

/-- Without squashing the answer is that of the two models at the location. -/
theorem fetch_plain {g : Geom K} (hg : g.Lawful) (fmt : Fmt K) {q : VMQuery K} (db : Db K) (addr : Addr)
    {lon lat elev : K} (hs : NotSquashed q elev) :
    fetch fmt q g db addr lon lat elev = (do
      let n ← levelFor q g
      let c ← conv g n lon lat elev
      .ok ⟨0, bothP q g db c, c.1, bothH fmt q g db c lon lat elev⟩) := by
  rw [fetch_eq hg]
  have h1 : ¬ (q.squashTopo = true ∧ elev > q.squashLimit) := by
    rintro ⟨h, h'⟩
    rcases hs with h2 | h2
    · rw [h] at h2; cases h2
    · exact absurd h' (not_lt.2 h2)
  have h2 : elevUsed q elev 0 = elev := by
    unfold elevUsed; rw [if_neg]; rintro ⟨a, b, -⟩; exact h1 ⟨a, b⟩
  unfold squashElev
  rw [if_neg h1]
  simp only [Outcome.bind_ok, h2]

end VMQuery
end CenCalVM
