/-
Effects of queries on status and log; elevations.
-/
import Verif.Lemmas.QuerySpec

set_option linter.unusedSectionVars false

namespace CenCalVM
namespace VMQuery
variable {K : Type} [Field K] [LinearOrder K]

/-- The address passed to the elevation query does not matter. -/
theorem queryElev_addr {rd : Rd K} {g : Geom K} (hg : g.Lawful) (db : Db K) (ext : Option (Db K)) (a b : Addr)
    (lon lat elev : K) (adj : Bool) :
    queryElev rd g db ext a lon lat elev adj = queryElev rd g db ext b lon lat elev adj := by
  unfold queryElev
  rw [conv_leafAt hg, conv_leafAt hg]

/-- The elevation query from a fixed address. -/
def elevAt (rd : Rd K) (g : Geom K) (db : Db K) (ext : Option (Db K)) (lon lat elev : K) (adj : Bool) : Outcome (K × Addr) :=
  queryElev rd g db ext scratch lon lat elev adj

theorem copyValue_elev {g : Geom K} (hg : g.Lawful) (q : VMQuery K) (db : Db K) (lon lat elev : K) (p : Payload K)
    (s : CopyState K) :
    copyValue q g db lon lat elev p s (some 8) =
      match elevAt q.rd g db q.dbExt lon lat elev false with
      | .ok r => .ok (r.1, { s with elevRef := r.1, addr := r.2 })
      | .exc m => .ok (s.elevRef, { s with err := s.err.error m })
      | .ub => .ub := by
  unfold elevAt
  rw [queryElev_addr hg db q.dbExt scratch s.addr]
  rfl

theorem copyValue_slot {q : VMQuery K} {g : Geom K} {db : Db K} {lon lat elev : K} {p : Payload K}
    {s : CopyState K} {v : Option Nat} {r : K × CopyState K}
    (h : copyValue q g db lon lat elev p s v = .ok r) : ∃ n < 9, v = some n := by
  unfold copyValue at h
  split at h <;> first | exact ⟨_, by decide, rfl⟩ | cases h

/-- All slots of a successful copy hold value numbers. -/
theorem copyValues_slots {q : VMQuery K} {g : Geom K} {db : Db K} {lon lat elev : K} {p : Payload K}
    {s : CopyState K} {vs : List (Option Nat)} {r : List K × CopyState K}
    (h : copyValues q g db lon lat elev p s vs = .ok r) : ∀ v ∈ vs, ∃ n < 9, v = some n := by
  induction vs generalizing s r with
  | nil => simp
  | cons v vs ih =>
    simp only [copyValues] at h
    cases hv : copyValue q g db lon lat elev p s v with
    | exc m => rw [hv] at h; cases h
    | ub => rw [hv] at h; cases h
    | ok r1 =>
      rw [hv, Outcome.bind_ok] at h
      cases hr : copyValues q g db lon lat elev p r1.2 vs with
      | exc m => rw [hr] at h; cases h
      | ub => rw [hr] at h; cases h
      | ok rs =>
        intro w hw
        rcases List.mem_cons.1 hw with rfl | hw
        · exact copyValue_slot hv
        · exact ih hr w hw

/-- Copying in terms of the elevation query: the handler after. -/
def copyErr (E : Outcome (K × Addr)) (h : ErrorHandler) (vs : List (Option Nat)) : ErrorHandler :=
  match E with
  | .exc m => if some 8 ∈ vs then h.error m else h
  | _ => h

/-- Copying in terms of the elevation query: the values. -/
def copyVal (p : Payload K) (E : Outcome (K × Addr)) (er : K) : Option Nat → K
  | some 8 => match E with
    | .ok r => r.1
    | _ => er
  | some n => pick p n
  | none => 0

theorem copyVal_of_lt (p : Payload K) (E : Outcome (K × Addr)) (er : K) {n : Nat} (h : n < 8) :
    copyVal p E er (some n) = pick p n := by
  match n, h with
  | 0, _ | 1, _ | 2, _ | 3, _ | 4, _ | 5, _ | 6, _ | 7, _ => rfl

theorem error_error (h : ErrorHandler) (m m' : String) : (h.error m).error m' = h.error m' := rfl

theorem copyValues_eq {g : Geom K} (hg : g.Lawful) (q : VMQuery K) (db : Db K) (lon lat elev : K) (p : Payload K)
    (s : CopyState K) (vs : List (Option Nat)) (hv : ∀ v ∈ vs, ∃ n < 9, v = some n)
    (hE : some 8 ∈ vs → elevAt q.rd g db q.dbExt lon lat elev false ≠ .ub) :
    ∃ s', copyValues q g db lon lat elev p s vs =
        .ok (vs.map (copyVal p (elevAt q.rd g db q.dbExt lon lat elev false) s.elevRef), s') ∧
      s'.err = copyErr (elevAt q.rd g db q.dbExt lon lat elev false) s.err vs := by
  induction vs generalizing s with
  | nil => exact ⟨s, rfl, by unfold copyErr; split <;> simp⟩
  | cons v vs ih =>
    obtain ⟨n, hn, rfl⟩ := hv v (by simp)
    have hv' : ∀ v ∈ vs, ∃ n < 9, v = some n := fun v h => hv v (by simp [h])
    have hE' : some 8 ∈ vs → elevAt q.rd g db q.dbExt lon lat elev false ≠ .ub := fun h => hE (by simp [h])
    simp only [copyValues, List.map_cons]
    by_cases h8 : n = 8
    · subst h8
      rw [copyValue_elev hg]
      cases hEl : elevAt q.rd g db q.dbExt lon lat elev false with
      | ub => exact absurd hEl (hE (by simp))
      | ok r =>
        dsimp only
        rw [Outcome.bind_ok]
        obtain ⟨s', h1, h2⟩ := ih { s with elevRef := r.1, addr := r.2 } hv' hE'
        rw [hEl] at h1 h2
        refine ⟨s', ?_, ?_⟩
        · rw [h1, Outcome.bind_ok]
          congr 3
        · rw [h2]; rfl
      | exc m =>
        dsimp only
        rw [Outcome.bind_ok]
        obtain ⟨s', h1, h2⟩ := ih { s with err := s.err.error m } hv' hE'
        rw [hEl] at h1 h2
        refine ⟨s', ?_, ?_⟩
        · rw [h1, Outcome.bind_ok]; rfl
        · rw [h2]; unfold copyErr; simp only [List.mem_cons, true_or, if_true]
          split <;> rfl
    · have hn8 : n < 8 := by omega
      rw [copyValue_pick _ _ _ _ _ _ _ _ hn8, Outcome.bind_ok]
      obtain ⟨s', h1, h2⟩ := ih s hv' hE'
      refine ⟨s', ?_, ?_⟩
      · rw [h1, Outcome.bind_ok, copyVal_of_lt _ _ _ hn8]
      · rw [h2]; unfold copyErr
        split
        · have : (some 8 ∈ some n :: vs) ↔ some 8 ∈ vs := by simp [Ne.symm h8]
          simp only [this]
        · rfl

theorem copyValues_elev_ne_ub {g : Geom K} (hg : g.Lawful) {q : VMQuery K} {db : Db K} {lon lat elev : K}
    {p : Payload K} {s : CopyState K} {vs : List (Option Nat)} {r : List K × CopyState K}
    (h : copyValues q g db lon lat elev p s vs = .ok r) :
    some 8 ∈ vs → elevAt q.rd g db q.dbExt lon lat elev false ≠ .ub := by
  induction vs generalizing s r with
  | nil => simp
  | cons v vs ih =>
    simp only [copyValues] at h
    cases hv : copyValue q g db lon lat elev p s v with
    | exc m => rw [hv] at h; cases h
    | ub => rw [hv] at h; cases h
    | ok r1 =>
      rw [hv, Outcome.bind_ok] at h
      cases hr : copyValues q g db lon lat elev p r1.2 vs with
      | exc m => rw [hr] at h; cases h
      | ub => rw [hr] at h; cases h
      | ok rs =>
        intro hw
        rcases List.mem_cons.1 hw with h8 | hw
        · intro hE
          subst h8
          rw [copyValue_elev hg, hE] at hv
          cases hv
        · exact ih hr hw

/-- A query, completely: it returns normally iff the fetch does, all slots hold value numbers and the elevation
query, if asked for, is defined. -/
theorem query_iff {fmt : Fmt K} {q q' : VMQuery K} {g : Geom K} {db : Db K} (hg : g.Lawful)
    (hgeom : q.geom = some g) (hdb : q.db = some db) {fs fs' : Files} {n : Int} {lon lat elev : K} {vals : List K} :
    query fmt q fs n lon lat elev = .ok (q', fs', vals) ↔
      n = q.queryVals.length ∧ (∀ v ∈ q.queryVals, ∃ n < 9, v = some n) ∧
      (some 8 ∈ q.queryVals → elevAt q.rd g db q.dbExt lon lat elev false ≠ .ub) ∧
      ∃ f, fetch fmt q g db scratch lon lat elev = .ok f ∧
        fs' = (if f.payload.faultBlock = 0 then f.err.log fs (noDataLine fmt lon lat elev) else fs) ∧
        vals = q.queryVals.map (copyVal f.payload (elevAt q.rd g db q.dbExt lon lat elev false) f.elevRef) ∧
        q' = { q with err := (copyErr (elevAt q.rd g db q.dbExt lon lat elev false)
          (if f.payload.faultBlock = 0 then f.err.warning (noDataWarning fmt lon lat elev) else f.err)
          q.queryVals) } := by
  constructor
  · intro h
    obtain ⟨hn, g', db', f, s, hg', hdb', hf, hfs, hc, hq⟩ := query_ok h
    rw [hgeom] at hg'; rw [hdb] at hdb'; cases hg'; cases hdb'
    have h1 := copyValues_slots hc
    have h2 := copyValues_elev_ne_ub hg hc
    refine ⟨hn, h1, h2, f, hf, hfs, ?_⟩
    obtain ⟨s', h3, h4⟩ := copyValues_eq hg q db lon lat elev f.payload ⟨f.elevRef, f.addr,
      if f.payload.faultBlock = 0 then f.err.warning (noDataWarning fmt lon lat elev) else f.err⟩ q.queryVals h1 h2
    rw [h3] at hc; cases hc
    exact ⟨rfl, by rw [hq, h4]⟩
  · rintro ⟨rfl, h1, h2, f, hf, rfl, rfl, rfl⟩
    obtain ⟨s', h3, h4⟩ := copyValues_eq hg q db lon lat elev f.payload ⟨f.elevRef, f.addr,
      if f.payload.faultBlock = 0 then f.err.warning (noDataWarning fmt lon lat elev) else f.err⟩ q.queryVals h1 h2
    unfold query
    rw [if_neg (by simp)]
    have hf' : fetch fmt q g db ⟨⟨0, 0, 0, 0⟩, .leaf⟩ lon lat elev = .ok f := hf
    simp only [hgeom, hdb, hf', NODATABLOCK]
    by_cases hfb : f.payload.faultBlock = 0
    · simp only [hfb, if_true, decide_true] at h3 h4 ⊢
      rw [h3]; simp only [h4]
    · simp only [hfb, if_false, decide_false, Bool.false_eq_true] at h3 h4 ⊢
      rw [h3]; simp only [h4]

/-- What a fetch leaves in the handler: the handler before, or a warning about a missing parent. -/
theorem fetch_err {fmt : Fmt K} {q : VMQuery K} {g : Geom K} {db : Db K} (hg : g.Lawful) {a : Addr}
    {lon lat elev : K} {f : Fetched K} (h : fetch fmt q g db a lon lat elev = .ok f) :
    f.err = q.err ∨ (q.queryFn = .WAVERES ∧ ∃ m, f.err = q.err.warning m) := by
  rw [fetch_eq hg] at h
  cases hr : squashElev q g db a lon lat elev with
  | exc m => rw [hr] at h; cases h
  | ub => rw [hr] at h; cases h
  | ok r =>
    rw [hr, Outcome.bind_ok] at h
    cases hl : levelFor q g with
    | exc m => rw [hl] at h; cases h
    | ub => rw [hl] at h; cases h
    | ok n =>
      rw [hl, Outcome.bind_ok] at h
      cases hc : conv g n lon lat (elevUsed q elev r.1) with
      | exc m => rw [hc] at h; cases h
      | ub => rw [hc] at h; cases h
      | ok c =>
        rw [hc, Outcome.bind_ok] at h
        cases h
        have key : ∀ (d : Db K) (a : Addr), orphanOf q g d a ≠ none → q.queryFn = .WAVERES := by
          intro d a h
          unfold orphanOf at h
          cases hq : q.queryFn with
          | WAVERES => rfl
          | MAXRES => rw [hq] at h; simp at h
          | FIXEDRES => rw [hq] at h; simp at h
        have keyd : detO q g db c ≠ none → q.queryFn = .WAVERES := by
          intro h; unfold detO at h; split at h
          · exact absurd rfl h
          · exact key _ _ h
        have step : ∀ (o : Option (Addr × Addr)) (h : ErrorHandler), (o ≠ none → q.queryFn = .WAVERES) →
            (h = q.err ∨ (q.queryFn = .WAVERES ∧ ∃ m, h = q.err.warning m)) →
            (ansH fmt lon lat (elevUsed q elev r.1) o h = q.err ∨
              (q.queryFn = .WAVERES ∧ ∃ m, ansH fmt lon lat (elevUsed q elev r.1) o h = q.err.warning m)) := by
          intro o h ho hh
          cases o with
          | none => exact hh
          | some pc =>
            right
            refine ⟨ho (by simp), ?_⟩
            rcases hh with rfl | ⟨_, m, rfl⟩ <;> exact ⟨_, rfl⟩
        have h1 := step (detO q g db c) q.err keyd (Or.inl rfl)
        unfold bothH
        dsimp only
        split
        · cases hx : q.dbExt with
          | none => exact h1
          | some x => exact step _ _ (key x c.1) h1
        · exact h1

/-- With ancestors stored a fetch leaves the handler alone. -/
theorem fetch_err_closed [IsStrictOrderedRing K] {fmt : Fmt K} {q : VMQuery K} {g : Geom K} {db : Db K}
    (ho : q.Open g db) (hw : q.queryFn = .WAVERES → db.AncestorClosed ∧ ∀ x, q.dbExt = some x → x.AncestorClosed)
    {a : Addr} {lon lat elev : K} {f : Fetched K}
    (h : fetch fmt q g db a lon lat elev = .ok f) : f.err = q.err := by
  rw [fetch_eq ho.lawful] at h
  cases hr : squashElev q g db a lon lat elev with
  | exc m => rw [hr] at h; cases h
  | ub => rw [hr] at h; cases h
  | ok r =>
    rw [hr, Outcome.bind_ok] at h
    cases hl : levelFor q g with
    | exc m => rw [hl] at h; cases h
    | ub => rw [hl] at h; cases h
    | ok n =>
      rw [hl, Outcome.bind_ok] at h
      cases hc : conv g n lon lat (elevUsed q elev r.1) with
      | exc m => rw [hc] at h; cases h
      | ub => rw [hc] at h; cases h
      | ok c =>
        rw [hc, Outcome.bind_ok] at h
        cases h
        have key : ∀ d : Db K, d.Good → (q.queryFn = .WAVERES → d.AncestorClosed) → c.1.toKey.Aligned →
            orphanOf q g d c.1 = none := by
          intro d hd hda ha
          cases hq : q.queryFn with
          | WAVERES => exact (ansP_walk hq g hd (hda hq) ha).1
          | MAXRES => unfold orphanOf; rw [hq]
          | FIXEDRES => unfold orphanOf; rw [hq]
        have hext : ∀ x, q.dbExt = some x → orphanOf q g x c.1 = none := by
          intro x hx
          rcases conv_cases ho.lawful hc with ⟨-, -, ha, -⟩ | ⟨-, -, ha⟩
          · exact key x (ho.goodExt x hx) (fun h => (hw h).2 x hx) ha
          · exact (ansP_outside q g (ho.goodExt x hx).octants ha).2
        have hd : detO q g db c = none := by
          unfold detO
          split
          · rfl
          · rename_i h0
            rcases conv_cases ho.lawful hc with ⟨-, -, ha, -⟩ | ⟨h1, -, -⟩
            · exact key db ho.good (fun h => (hw h).1) ha
            · exact absurd h1 h0
        unfold bothH
        rw [hd]
        dsimp only [ansH]
        split
        · cases hx : q.dbExt with
          | none => rfl
          | some x => dsimp only; rw [hext x hx]
        · rfl

theorem log_congr {h h' : ErrorHandler} (hs : h.sink = h'.sink) (fs : Files) (m : String) :
    h.log fs m = h'.log fs m := by
  unfold ErrorHandler.log; rw [hs]

theorem fetch_err_sink {fmt : Fmt K} {q : VMQuery K} {g : Geom K} {db : Db K} (hg : g.Lawful) {a : Addr}
    {lon lat elev : K} {f : Fetched K} (h : fetch fmt q g db a lon lat elev = .ok f) : f.err.sink = q.err.sink := by
  rcases fetch_err hg h with h | ⟨-, m, h⟩ <;> rw [h]
  rfl

theorem payloadOf_fetch [IsStrictOrderedRing K] {fmt : Fmt K} {q : VMQuery K} {g : Geom K} {db : Db K}
    (hgeom : q.geom = some g) (hdb : q.db = some db) {lon lat elev : K} {p : Payload K} {f : Fetched K}
    (hp : PayloadOf fmt q lon lat elev p) (hf : fetch fmt q g db scratch lon lat elev = .ok f) :
    f.payload = p := by
  obtain ⟨g', db', f', hg', hdb', hf', rfl⟩ := payloadOf_iff.1 hp
  rw [hgeom] at hg'; rw [hdb] at hdb'; cases hg'; cases hdb'
  rw [hf] at hf'; cases hf'; rfl

/-- A query is the unsquashed query at the elevation used. -/
theorem payloadOf_shift [IsStrictOrderedRing K] {fmt : Fmt K} {q : VMQuery K} {g : Geom K} {db : Db K}
    (hg : g.Lawful) (hgeom : q.geom = some g) (hdb : q.db = some db) {lon lat elev : K} {p : Payload K} :
    PayloadOf fmt q lon lat elev p ↔ ∃ r, squashElev q g db scratch lon lat elev = .ok r ∧
      PayloadOf fmt { q with squashTopo := false } lon lat (elevUsed q elev r.1) p := by
  have hplain : ∀ e, PayloadOf fmt { q with squashTopo := false } lon lat e p ↔
      ∃ n c, LookupLevel { q with squashTopo := false } g n ∧ conv g n lon lat e = .ok c ∧
        bothP { q with squashTopo := false } g db c = p :=
    fun e => payloadOf_plain (q := { q with squashTopo := false }) hg hgeom hdb (Or.inl rfl)
  constructor
  · intro h
    obtain ⟨g', db', f, hg', hdb', hf, rfl⟩ := payloadOf_iff.1 h
    rw [hgeom] at hg'; rw [hdb] at hdb'; cases hg'; cases hdb'
    rw [fetch_eq hg] at hf
    cases hr : squashElev q g db scratch lon lat elev with
    | exc m => rw [hr] at hf; cases hf
    | ub => rw [hr] at hf; cases hf
    | ok r =>
      rw [hr, Outcome.bind_ok] at hf
      refine ⟨r, rfl, (hplain _).2 ?_⟩
      cases hl : levelFor q g with
      | exc m => rw [hl] at hf; cases hf
      | ub => rw [hl] at hf; cases hf
      | ok n =>
        rw [hl, Outcome.bind_ok] at hf
        cases hc : conv g n lon lat (elevUsed q elev r.1) with
        | exc m => rw [hc] at hf; cases hf
        | ub => rw [hc] at hf; cases hf
        | ok c =>
          rw [hc, Outcome.bind_ok] at hf
          cases hf
          exact ⟨n, c, levelFor_iff.1 hl, hc, rfl⟩
  · rintro ⟨r, hr, h⟩
    obtain ⟨n, c, hn, hc, hp⟩ := (hplain _).1 h
    have hn' : LookupLevel q g n := hn
    refine payloadOf_iff.2 ⟨g, db, ⟨r.1, bothP q g db c, c.1, bothH fmt q g db c lon lat (elevUsed q elev r.1)⟩,
      hgeom, hdb, ?_, hp⟩
    rw [fetch_eq hg, hr, Outcome.bind_ok, levelFor_iff.2 hn', Outcome.bind_ok, hc]
    rfl

theorem queryElev_ne_exc {rd : Rd K} {g : Geom K} (hnt : g.NoThrow) {db : Db K} {ext : Option (Db K)} {a : Addr}
    {lon lat elev : K} {adj : Bool} (m : String) : queryElev rd g db ext a lon lat elev adj ≠ .exc m := by
  unfold queryElev
  cases h1 : g.lonLatElevToAddr (leafAt a ETREE_MAXLEVEL) lon lat elev with
  | exc m => exact absurd h1 (hnt.1 _ _ _ _ _)
  | ub => simp
  | ok a1 =>
    rw [Outcome.bind_ok]
    cases elevOctant db ext a1.1.toKey with
    | none => simp
    | some ed =>
      obtain ⟨e, d⟩ := ed
      dsimp only
      cases h2 : g.addrToLonLatElev e.addr with
      | exc m => exact absurd h2 (hnt.2 _ _)
      | ub => simp
      | ok c =>
        rw [Outcome.bind_ok]
        cases h3 : g.lonLatElevToAddr a1.1 lon lat (rd.double (c.2.2 + e.payload.depth)) with
        | exc m => exact absurd h3 (hnt.1 _ _ _ _ _)
        | ub => simp
        | ok a2 =>
          rw [Outcome.bind_ok]
          split
          · cases h4 : g.addrToLonLatElev (oneCellLower e.addr) with
            | exc m => exact absurd h4 (hnt.2 _ _)
            | ub => simp
            | ok c' => simp
          · simp

/-- Search for a converted location, inside or outside. -/
theorem search_cell {g : Geom K} (hg : g.Lawful) {db : Db K} (hdb : db.Good) {a b : Addr} {lon lat elev : K}
    {code : Int} (h : g.lonLatElevToAddr a lon lat elev = .ok (b, code)) (e : Entry K) :
    db.search b.toKey = some e ↔ db.Finest b.toKey e := by
  by_cases hc : code = 0
  · subst hc; exact Db.search_iff hdb (hg.aligned _ _ _ _ _ h)
  · have hx := hg.outside _ _ _ _ _ _ h hc
    rw [Db.search_outside hdb.octants hx]
    constructor
    · intro h; cases h
    · rintro ⟨h1, h2, -⟩
      have ho := hdb.octants e h1
      obtain ⟨j, hj⟩ := ho.x_dvd
      have hlt := ho.x_lt
      have hpow : e.addr.toKey.size * 2 ^ e.addr.level = 2 ^ 31 := by
        unfold Key.size; rw [← pow_add]; congr 1; have := ho.level_le; omega
      have hjl : j < 2 ^ e.addr.level := by
        by_contra hcon
        have := Nat.mul_le_mul_left e.addr.toKey.size (not_lt.1 hcon)
        omega
      have hsum : e.addr.toKey.size * (j + 1) ≤ 2 ^ 31 := by
        rw [← hpow]; exact Nat.mul_le_mul_left _ hjl
      rw [Nat.mul_add] at hsum
      have h3 := h2.1.2
      have h4 : 0 < b.toKey.size := by unfold Key.size; positivity
      omega

theorem elevOctant_iff {g : Geom K} (hg : g.Lawful) {db : Db K} (hdb : db.Good) {ext : Option (Db K)}
    (hext : ∀ x, ext = some x → x.Good) {a b : Addr} {lon lat elev : K}
    {code : Int} (h : g.lonLatElevToAddr a lon lat elev = .ok (b, code)) (e : Entry K) (d : Db K) :
    elevOctant db ext b.toKey = some (e, d) ↔ GroundOctant db ext b.toKey e d := by
  have hs := search_cell hg hdb h
  have hsx : ∀ x, ext = some x → ∀ e, x.search b.toKey = some e ↔ x.Finest b.toKey e :=
    fun x hx => search_cell hg (hext x hx) h
  have hin : ∀ (e : Entry K) (d : Db K), elevOctantExt ext b.toKey = some (e, d) ↔ ext = some d ∧ d.Finest b.toKey e := by
    intro e d
    unfold elevOctantExt
    cases hx : ext with
    | none => simp
    | some x =>
      dsimp only
      have h1 := hsx x hx
      cases hsr : x.search b.toKey with
      | none =>
        simp only [Option.map_none, reduceCtorEq, Option.some.injEq, false_iff, not_and]
        rintro rfl hf
        rw [(h1 e).2 hf] at hsr; cases hsr
      | some f =>
        simp only [Option.map_some, Option.some.injEq, Prod.mk.injEq]
        constructor
        · rintro ⟨rfl, rfl⟩; exact ⟨rfl, (h1 f).1 hsr⟩
        · rintro ⟨rfl, hf⟩
          rw [(h1 e).2 hf] at hsr; cases hsr; exact ⟨rfl, rfl⟩
  unfold elevOctant GroundOctant
  cases hsr : db.search b.toKey with
  | none =>
    dsimp only
    rw [hin]
    have hno : ∀ f, ¬ db.Finest b.toKey f := fun f hf => by rw [(hs f).2 hf] at hsr; cases hsr
    constructor
    · intro h; exact Or.inr ⟨fun f hf => absurd hf (hno f), h⟩
    · rintro (⟨-, hf, -⟩ | ⟨-, h⟩)
      · exact absurd hf (hno e)
      · exact h
  | some f0 =>
    have hf0 := (hs f0).1 hsr
    have hu : ∀ f, db.Finest b.toKey f → f = f0 := fun f hf => by
      have := (hs f).2 hf; rw [hsr] at this; cases this; rfl
    dsimp only
    by_cases ht : f0.addr.type = .interior
    · rw [if_pos ht, hin]
      constructor
      · intro h; exact Or.inr ⟨fun f hf => by rw [hu f hf, ht]; simp, h⟩
      · rintro (⟨-, hf, hl⟩ | ⟨-, h⟩)
        · rw [hu e hf, ht] at hl; cases hl
        · exact h
    · rw [if_neg ht]
      have hl0 : f0.addr.type = .leaf := by
        cases h : f0.addr.type with
        | leaf => rfl
        | interior => exact absurd h ht
      simp only [Option.some.injEq, Prod.mk.injEq]
      constructor
      · rintro ⟨rfl, rfl⟩; exact Or.inl ⟨rfl, hf0, hl0⟩
      · rintro (⟨rfl, hf, -⟩ | ⟨h, -⟩)
        · exact ⟨(hu e hf).symm, rfl⟩
        · exact absurd hl0 (h f0 hf0)

theorem elevOctant_none {g : Geom K} (hg : g.Lawful) {db : Db K} (hdb : db.Good) {ext : Option (Db K)}
    (hext : ∀ x, ext = some x → x.Good) {a b : Addr} {lon lat elev : K}
    {code : Int} (h : g.lonLatElevToAddr a lon lat elev = .ok (b, code)) :
    elevOctant db ext b.toKey = none ↔ ∀ e d, ¬ GroundOctant db ext b.toKey e d := by
  constructor
  · intro h1 e d h2
    rw [(elevOctant_iff hg hdb hext h e d).2 h2] at h1; cases h1
  · intro h1
    cases h2 : elevOctant db ext b.toKey with
    | none => rfl
    | some ed => exact absurd ((elevOctant_iff hg hdb hext h ed.1 ed.2).1 h2) (h1 _ _)

theorem groundMissing_iff {d : Db K} {k : Key} (hs : ∀ e, d.search k = some e ↔ d.Finest k e) :
    groundMissing d k = true ↔ ¬ HasRock d k := by
  unfold groundMissing HasRock
  cases h : d.search k with
  | none =>
    simp only [true_iff]
    rintro ⟨f, hf, -⟩
    rw [(hs f).2 hf] at h; cases h
  | some e =>
    have he := (hs e).1 h
    have hu : ∀ f, d.Finest k f → f = e := fun f hf => by
      have := (hs f).2 hf; rw [h] at this; cases this; rfl
    simp only [Bool.or_eq_true, decide_eq_true_eq]
    change (e.addr.type = .interior ∨ e.payload.vs = -999) ↔ _
    constructor
    · rintro h1 ⟨f, hf, hl, hv⟩
      rw [hu f hf] at hl hv
      rcases h1 with h1 | h1
      · rw [h1] at hl; cases hl
      · exact hv h1
    · intro h1
      by_contra hcon
      rw [not_or] at hcon
      refine h1 ⟨e, he, ?_, hcon.2⟩
      cases ht : e.addr.type with
      | leaf => rfl
      | interior => exact absurd ht hcon.1

theorem oneCellLower_eq {a : Addr} (h : a.toKey.Octant) :
    oneCellLower a = { a with z := BitVec.ofInt 32 ((a.z.toNat : Int) - a.toKey.size) } := by
  unfold oneCellLower
  congr 2
  apply BitVec.eq_of_toInt_eq
  have hl := h.level_le
  have ht : (GeomCenCA.tickLen a.level).toNat = a.toKey.size := GeomCenCA.tickLen_toNat hl
  rw [BitVec.toInt_ofInt, BitVec.toInt_sub, ← ht]
  rw [BitVec.toInt_eq_toNat_bmod, BitVec.toInt_eq_toNat_bmod]
  simp

/-- The elevation query without adjustment, specified. -/
theorem elevAt_false {rd : Rd K} {g : Geom K} (hg : g.Lawful) {db : Db K} (hdb : db.Good) {ext : Option (Db K)}
    (hext : ∀ x, ext = some x → x.Good) {lon lat elev : K} {r : K × Addr}
    (h : elevAt rd g db ext lon lat elev false = .ok r) : GroundElev rd g db ext lon lat elev r.1 := by
  unfold elevAt queryElev at h
  rw [conv_leafAt hg] at h
  cases hc : conv g ETREE_MAXLEVEL lon lat elev with
  | exc m => rw [hc] at h; cases h
  | ub => rw [hc] at h; cases h
  | ok a1 =>
    rw [hc, Outcome.bind_ok] at h
    have hc' : g.lonLatElevToAddr { x := 0, y := 0, z := 0, level := 31, type := .leaf } lon lat elev =
      .ok (a1.1, a1.2) := hc
    refine ⟨a1.1, a1.2, hc', ?_⟩
    cases he : elevOctant db ext a1.1.toKey with
    | none =>
      rw [he] at h; cases h
      exact Or.inl ⟨(elevOctant_none hg hdb hext hc').1 he, rfl⟩
    | some ed =>
      obtain ⟨e, d⟩ := ed
      rw [he] at h
      dsimp only at h
      have hgo := (elevOctant_iff hg hdb hext hc' e d).1 he
      cases hcc : g.addrToLonLatElev e.addr with
      | exc m => rw [hcc] at h; cases h
      | ub => rw [hcc] at h; cases h
      | ok c =>
        rw [hcc, Outcome.bind_ok] at h
        cases ha2 : g.lonLatElevToAddr a1.1 lon lat (rd.double (c.2.2 + e.payload.depth)) with
        | exc m => rw [ha2] at h; cases h
        | ub => rw [ha2] at h; cases h
        | ok a2 =>
          rw [ha2, Outcome.bind_ok] at h
          simp only [Bool.and_false, Bool.false_eq_true, if_false] at h
          cases h
          exact Or.inr ⟨e, d, c, hgo, hcc, rfl⟩

theorem groundOctant_good {db : Db K} (hdb : db.Good) {ext : Option (Db K)}
    (hext : ∀ x, ext = some x → x.Good) {a : Key} {e : Entry K} {d : Db K} (h : GroundOctant db ext a e d) :
    d.Good ∧ e ∈ d.entries := by
  rcases h with ⟨rfl, h, -⟩ | ⟨-, hx, h⟩
  · exact ⟨hdb, h.1⟩
  · exact ⟨hext d hx, h.1⟩

/-- The elevation query with adjustment, specified; the one without adjustment then succeeds too. -/
theorem elevAt_true {rd : Rd K} {g : Geom K} (hg : g.Lawful) {db : Db K} (hdb : db.Good) {ext : Option (Db K)}
    (hext : ∀ x, ext = some x → x.Good) {lon lat elev : K} {r : K × Addr}
    (h : elevAt rd g db ext lon lat elev true = .ok r) : SquashGround rd g db ext lon lat elev r.1 := by
  unfold elevAt queryElev at h
  rw [conv_leafAt hg] at h
  cases hc : conv g ETREE_MAXLEVEL lon lat elev with
  | exc m => rw [hc] at h; cases h
  | ub => rw [hc] at h; cases h
  | ok a1 =>
    rw [hc, Outcome.bind_ok] at h
    have hc' : g.lonLatElevToAddr { x := 0, y := 0, z := 0, level := 31, type := .leaf } lon lat elev =
      .ok (a1.1, a1.2) := hc
    refine ⟨a1.1, a1.2, hc', ?_⟩
    cases he : elevOctant db ext a1.1.toKey with
    | none =>
      rw [he] at h; cases h
      exact Or.inl ⟨(elevOctant_none hg hdb hext hc').1 he, rfl⟩
    | some ed =>
      obtain ⟨e, d⟩ := ed
      rw [he] at h
      dsimp only at h
      have hgo := (elevOctant_iff hg hdb hext hc' e d).1 he
      obtain ⟨hd, hmem⟩ := groundOctant_good hdb hext hgo
      cases hcc : g.addrToLonLatElev e.addr with
      | exc m => rw [hcc] at h; cases h
      | ub => rw [hcc] at h; cases h
      | ok c =>
        rw [hcc, Outcome.bind_ok] at h
        have hk := hg.keeps _ _ _ _ _ _ hc'
        have hov : g.lonLatElevToAddr a1.1 lon lat (rd.double (c.2.2 + e.payload.depth)) =
            g.lonLatElevToAddr { x := 0, y := 0, z := 0, level := 31, type := .leaf } lon lat
              (rd.double (c.2.2 + e.payload.depth)) := hg.overwrites _ _ hk.1 hk.2 _ _ _
        cases ha2 : g.lonLatElevToAddr a1.1 lon lat (rd.double (c.2.2 + e.payload.depth)) with
        | exc m => rw [ha2] at h; cases h
        | ub => rw [ha2] at h; cases h
        | ok a2 =>
          rw [ha2, Outcome.bind_ok] at h
          rw [ha2] at hov
          refine Or.inr ⟨e, d, c, a2.1, a2.2, hgo, hcc, hov.symm, ?_⟩
          have hgm := groundMissing_iff (d := d) (k := a2.1.toKey)
            (fun f => search_cell hg hd (a := a1.1) (b := a2.1) (code := a2.2) ha2 f)
          simp only [Bool.and_true] at h
          split at h
          · rename_i hm
            right
            refine ⟨hgm.1 hm, ?_⟩
            rw [← oneCellLower_eq (hd.octants e hmem)]
            cases hc4 : g.addrToLonLatElev (oneCellLower e.addr) with
            | exc m => rw [hc4] at h; cases h
            | ub => rw [hc4] at h; cases h
            | ok c' => rw [hc4] at h; cases h; exact ⟨c', rfl, rfl⟩
          · rename_i hm
            left
            cases h
            refine ⟨?_, rfl⟩
            by_contra hcon
            exact hm (hgm.2 hcon)

/-- Names and value numbers. -/
theorem valueIndex_of_names {name : String} {k : Nat} (h : NamesValue name k) : valueIndex name = some k := by
  obtain ⟨c, hc, h⟩ := h
  have hk : k < 9 := by
    by_contra hk
    rw [List.getElem?_eq_none (by simpa [valueNames] using hk)] at hc; cases hc
  unfold valueIndex sameName
  rw [← h]
  match k, hk with
  | 0, _ | 1, _ | 2, _ | 3, _ | 4, _ | 5, _ | 6, _ | 7, _ | 8, _ => cases hc; decide +kernel

theorem names_of_valueIndex {name : String} {k : Nat} (h : valueIndex name = some k) : NamesValue name k := by
  unfold valueIndex sameName at h
  repeat' (split at h)
  all_goals first
    | (cases h; rename_i h1; exact ⟨_, rfl, by simpa using h1⟩)
    | cases h

end VMQuery
end CenCalVM
