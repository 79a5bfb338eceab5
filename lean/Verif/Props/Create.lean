/-
Properties C35 to C40: creating a database, packing it, filling it from grid files.
-/
import Verif.Lemmas.Create
import Verif.Props.Query

set_option linter.unusedSectionVars false

namespace CenCalVM
open VMCreator GridIngester

section
variable {K : Type} [Field K] [LinearOrder K] [IsStrictOrderedRing K]

/-! ### Example data -/

/-- Decimal digits. -/
def exDigits (l : List Char) : Option Nat :=
  if l ≠ [] ∧ l.all Char.isDigit then some (l.foldl (fun n c => 10 * n + (c.toNat - 48)) 0) else none
/-- An unsigned decimal number. -/
def exUnsigned (l : List Char) : Option ℚ :=
  match l.span (· ≠ '.') with
  | (a, []) => (exDigits a).map fun n => (n : ℚ)
  | (a, _ :: b) => match exDigits a, exDigits b with
    | some n, some m => some (n + m / 10 ^ b.length)
    | _, _ => none
/-- A signed decimal number. -/
def exReal : List Char → Option ℚ
  | '-' :: l => (exUnsigned l).map fun v => -v
  | l => exUnsigned l
/-- An integer. -/
def exInt : List Char → Option Int
  | '-' :: l => (exDigits l).map fun n => -(n : Int)
  | l => (exDigits l).map fun n => (n : Int)
/-- Numbers in decimal notation. -/
def exNumFmt : NumFmt ℚ where
  scan := List.span fun c => c.isDigit || c == '-' || c == '.'
  real := exReal
  real32 := exReal
  int := exInt
  int16 := exInt
  scan_eq t := by simp [List.span_eq_takeWhile_dropWhile]

/-- libetree without failures. -/
def exEtree : EtreeEnv :=
  ⟨fun _ => false, false, false, false, false, fun _ => false, fun _ => false, fun _ => false, fun _ => false, false, false, "e"⟩
theorem exEtree_reliable : exEtree.Reliable :=
  ⟨fun _ => rfl, rfl, rfl, rfl, rfl, fun _ => rfl, fun _ => rfl, fun _ => rfl, fun _ => rfl, rfl, rfl⟩
/-- libetree failing to advance from the first octant. -/
def exEtreeAdv : EtreeEnv := { exEtree with adv := fun i => i == 0 }

/-- A creator with an empty open database. -/
def exCreator : Creator ℚ := ⟨"t", some ("t", ⟨Db.empty, some SCHEMA, some "m"⟩), fun _ => none⟩

/-- The octants of the database a method leaves open. -/
def openEntries {α : Type} : Run (Creator ℚ) α → Option (List (Entry ℚ))
  | .ok c _ => c.pDB.map fun f => f.2.db.entries
  | _ => none

/-! ### C35 -/

/-- C35: if libetree does not fail, packing a database with octants to another file ends normally; the packed file holds the same octants
in the same order, which is the Z-order, and the same metadata, every search gives the same answer, and no other file is
touched. -/
theorem C35 {env : EtreeEnv} (he : env.Reliable) {disk : EtreeDisk K} {packed unpacked : String} {f : EtreeFile K}
    (hf : disk unpacked = some f) (hs : f.db.Sorted) (hne : f.db.entries ≠ []) (hn : packed ≠ unpacked) :
    ∃ disk' f', packDB env disk packed unpacked = .ok disk' () ∧ disk' packed = some f' ∧
      f'.db.entries = f.db.entries ∧ f'.db.Sorted ∧ f'.appmeta = f.appmeta ∧ f'.schema = some SCHEMA ∧
      (∀ k, f'.db.search k = f.db.search k) ∧ ∀ name, name ≠ packed → disk' name = disk name := by
  have hl : packLoop env 0 f.db.entries Db.empty = .ok f.db () := packLoop_sorted he (out := []) hs
  refine ⟨disk.set packed ⟨f.db, some SCHEMA, f.appmeta⟩, ⟨f.db, some SCHEMA, f.appmeta⟩, ?_, ?_, rfl, hs, rfl, rfl, fun _ => rfl, ?_⟩
  · unfold packDB
    simp only [hf, he.create, he.schema, he.setMeta, he.beginAppend, he.endAppend, he.closeIn, he.closeOut, hne, hl, hn,
      Bool.and_false, Bool.or_self, Bool.false_eq_true, if_false]
  · simp [EtreeDisk.set]
  · intro name hn; simp [EtreeDisk.set, hn]

/-- Two octants are packed. -/
example : exEtree.Reliable ∧ exDb.Sorted ∧ exDb.entries ≠ [] ∧
    ∃ d, packDB exEtree (fun n => if n = "t" then some ⟨exDb, some SCHEMA, some "m"⟩ else none) "o" "t" = .ok d () ∧
      (d "o").map (·.db) = some exDb :=
  ⟨exEtree_reliable, exDb_good.sorted, by simp [exDb], _, rfl, by decide +kernel⟩

/-- C35: packing an empty database to another file raises an exception, with or without failures of libetree. -/
theorem C35_empty (env : EtreeEnv) {disk : EtreeDisk K} {packed unpacked : String} {f : EtreeFile K}
    (hf : disk unpacked = some f) (hne : f.db.entries = []) (hn : packed ≠ unpacked) :
    ∃ m disk', packDB env disk packed unpacked = .exc m disk' := by
  unfold packDB
  simp only [hf, hne, hn, if_true, if_false]
  split
  · exact ⟨_, _, rfl⟩
  · split
    · exact ⟨_, _, rfl⟩
    · split
      · exact ⟨_, _, rfl⟩
      · exact ⟨_, _, rfl⟩

example : (Db.empty : Db ℚ).entries = [] := rfl

/-- Packing a database to itself is not refused: its file is truncated while it is read. -/
theorem C35_same {env : EtreeEnv} {disk : EtreeDisk K} {name : String} {f : EtreeFile K} (hf : disk name = some f)
    (hc : env.create name = false) : packDB env disk name name = .ub := by
  unfold packDB
  simp [hf, hc]

example : exEtree.create "t" = false := rfl

theorem packDB_ne {env : EtreeEnv} {disk disk' : EtreeDisk K} {packed unpacked : String}
    (h : packDB env disk packed unpacked = .ok disk' ()) : packed ≠ unpacked := by
  intro he
  unfold packDB at h
  split at h
  · cases h
  split at h
  · cases h
  cases h

/-- C35 when libetree may fail: if packing ends normally and no advance of the cursor before the last octant failed, the
packed file is a complete copy. -/
theorem C35_faults {env : EtreeEnv} {disk disk' : EtreeDisk K} {packed unpacked : String} {f : EtreeFile K}
    (hf : disk unpacked = some f) (hadv : ∀ i, i + 1 < f.db.entries.length → env.adv i = false)
    (h : packDB env disk packed unpacked = .ok disk' ()) :
    ∃ f', disk' packed = some f' ∧ f'.db.entries = f.db.entries ∧ f'.appmeta = f.appmeta ∧ f'.schema = some SCHEMA := by
  unfold packDB at h
  simp only [hf] at h
  split at h
  · cases h
  split at h
  · cases h
  split at h
  · cases h
  split at h
  · cases h
  split at h
  · cases h
  split at h
  · cases h
  cases hl : packLoop env 0 f.db.entries Db.empty with
  | ub => rw [hl] at h; cases h
  | exc m o => rw [hl] at h; cases h
  | ok o _ =>
    rw [hl] at h
    simp only at h
    split at h
    · cases h
    · cases h
      refine ⟨⟨o, some SCHEMA, f.appmeta⟩, by simp [EtreeDisk.set], ?_, rfl, rfl⟩
      have := packLoop_ok (out := []) (fun j _ hj => hadv j (by omega)) hl
      simpa using this

theorem packLoop_reports {env : EtreeEnv} {es : List (Entry K)} {out r : Db K} {i : Nat}
    (hadv : ∀ j, i ≤ j → j + 1 < i + es.length → env.adv j = false) (h : packLoop env i es out = .ok r ()) :
    ∀ j, i ≤ j → j < i + es.length → env.get j = false ∧ env.append j = false := by
  induction es generalizing i out with
  | nil => intro j h1 h2; simp at h2; omega
  | cons e es ih =>
    unfold packLoop at h
    split at h
    · cases h
    rename_i hg
    split at h
    · cases h
    rename_i ha
    intro j h1 h2
    rw [List.length_cons] at h2
    by_cases hj : j = i
    · subst hj; exact ⟨by simpa using hg, by simpa using ha⟩
    have hi : env.adv i = false := hadv i le_rfl (by rw [List.length_cons]; omega)
    cases hd : Db.append out e with
    | none => rw [hd] at h; cases h
    | some d =>
      simp only [hd, hi, Bool.false_eq_true, if_false] at h
      exact ih (fun j h1 h2 => hadv j (by omega) (by rw [List.length_cons]; omega)) h j (by omega) (by omega)

/-- C35 when libetree may fail: packing ends normally only if no call failed, apart from advancing the cursor. -/
theorem C35_reports {env : EtreeEnv} {disk disk' : EtreeDisk K} {packed unpacked : String} {f : EtreeFile K}
    (hf : disk unpacked = some f) (hadv : ∀ i, i + 1 < f.db.entries.length → env.adv i = false)
    (h : packDB env disk packed unpacked = .ok disk' ()) :
    env.create packed = false ∧ env.schema = false ∧ (f.appmeta ≠ none → env.setMeta = false) ∧ env.beginAppend = false ∧
      (∀ i < f.db.entries.length, env.get i = false ∧ env.append i = false) ∧ env.endAppend = false ∧ env.closeIn = false ∧
      env.closeOut = false := by
  unfold packDB at h
  simp only [hf] at h
  split at h
  · cases h
  rename_i h1
  split at h
  · cases h
  split at h
  · cases h
  rename_i h2
  split at h
  · cases h
  rename_i h3
  split at h
  · cases h
  split at h
  · cases h
  rename_i h4
  cases hl : packLoop env 0 f.db.entries Db.empty with
  | ub => rw [hl] at h; cases h
  | exc m o => rw [hl] at h; cases h
  | ok o _ =>
    rw [hl] at h
    simp only at h
    split at h
    · cases h
    rename_i h5
    simp only [Bool.or_eq_true, not_or, Bool.not_eq_true] at h5
    refine ⟨by simpa using h1, by simpa using h2, fun hm => ?_, by simpa using h4, fun i hi => ?_, h5.1.1, h5.1.2, h5.2⟩
    · cases ha : f.appmeta with
      | none => exact absurd ha hm
      | some x => rw [ha] at h3; simpa using h3
    · exact packLoop_reports (fun j _ hj => hadv j (by omega)) hl i (Nat.zero_le i) (by omega)

/-- Packing the example ends normally. -/
example : ∃ d, packDB exEtree (fun n => if n = "t" then some ⟨exDb, some SCHEMA, some "m"⟩ else none) "o" "t" = .ok d () ∧
    (∀ i, i + 1 < exDb.entries.length → exEtree.adv i = false) ∧ exDb.entries.length = 3 :=
  ⟨_, rfl, fun _ _ => rfl, by decide⟩

/-- A failure to advance is taken for the end: packing ends normally with only the first of three octants. -/
theorem C35_advance_loses :
    ∃ d, packDB exEtreeAdv (fun n => if n = "t" then some ⟨exDb, some SCHEMA, none⟩ else none) "o" "t" = .ok d () ∧
      ((d "o").map fun f => f.db.entries.length) = some 1 ∧ exDb.entries.length = 3 :=
  ⟨_, rfl, by decide +kernel, by decide⟩

/-! ### C36 -/

/-- A MAXRES query answers with the smallest leaf holding the location's cell, unless that leaf has no data and there is
an extended model. -/
theorem maxres_finest (fmt : Fmt K) {q : VMQuery K} {g : Geom K} {db : Db K} (ho : q.Open g db) (hq : q.queryFn = .MAXRES)
    {lon lat elev : K} (hs : NotSquashed q elev) {a : Addr} (ha : CellOf g 31 lon lat elev a) {e : Entry K}
    (he : db.Finest a.toKey e) (ht : e.addr.type = .leaf) (hp : e.payload.faultBlock ≠ 0 ∨ q.dbExt = none) :
    PayloadOf fmt q lon lat elev e.payload := by
  have hl : LookupLevel q g 31 := by unfold LookupLevel; rw [hq]
  have hq' : PayloadOf fmt q lon lat elev (VMQuery.bothP q g db (a, 0)) :=
    (VMQuery.payloadOf_plain ho.lawful ho.geom_eq ho.db_eq hs).2 ⟨31, (a, 0), hl, ha, rfl⟩
  have hal := ho.lawful.aligned _ _ _ _ _ ha
  rcases C10 ho hq hs hq' with ⟨b, hb, hC⟩ | ⟨⟨b, code, hb, hc⟩, -⟩
  · have hab : b = a := by
      have h1 : g.lonLatElevToAddr _ lon lat elev = .ok (b, 0) := hb
      have h2 : g.lonLatElevToAddr _ lon lat elev = .ok (a, 0) := ha
      rw [h1] at h2; cases h2; rfl
    subst hab
    have hF : ∀ p, FromFinest (fun e => e.addr.type = .leaf) b.toKey db p → p = e.payload := by
      rintro p (⟨x, hx, -, hp⟩ | ⟨hx, -⟩)
      · rw [hp, Db.finest_unique ho.good hal hx he]
      · exact absurd ht (hx e he)
    rcases hC with ⟨h, -⟩ | ⟨p0, x, h, h0, hx, -⟩
    · rw [hF _ h] at hq'; exact hq'
    · rw [hF _ h] at h0
      rcases hp with hp | hp
      · exact absurd h0 hp
      · rw [hp] at hx; cases hx
  · have h2 : g.lonLatElevToAddr _ lon lat elev = .ok (a, 0) := ha
    rw [hb] at h2; cases h2; exact absurd rfl hc

/-- C36: data is inserted at the locations `data` with one resolution (of level `n`) in an open database whose octants are
not finer; `es` are the octants to be created, one per location: its cell with its payload.  If the cells are different and
not yet stored, all insertions succeed, the database then holds exactly the old octants and these, and afterwards a MAXRES
query at any location whose finest cell lies in one of them answers with the payload inserted there. -/
theorem C36 {env : EtreeEnv} (he : env.Reliable) {g : Geom K} (hg : g.Lawful) {n : Nat} {res : K}
    (hlv : g.level res = .ok (n : Int)) {data : List (Datum K)} {es : List (Entry K)}
    (hes : List.Forall₂ (fun d e => CellOf g n d.lon d.lat d.elev e.addr ∧ e.addr.toKey.Octant ∧ e.payload = d.payload) data es)
    {c : Creator K} {name : String} {f : EtreeFile K} (hc : c.pDB = some (name, f)) (hf : f.db.Good)
    (hfl : ∀ x ∈ f.db.entries, x.addr.level ≤ n)
    (hd : es.Pairwise fun a b => a.addr.toKey ≠ b.addr.toKey)
    (hnew : ∀ e ∈ es, ∀ x ∈ f.db.entries, x.addr.toKey ≠ e.addr.toKey) :
    ∃ c' f', insertAll env g res data c = .ok c' () ∧ c'.pDB = some (name, f') ∧ f'.db.Good ∧
      (∀ x, x ∈ f'.db.entries ↔ x ∈ es ∨ x ∈ f.db.entries) ∧
      ∀ {fmt : Fmt K} {q : VMQuery K}, q.Open g f'.db → q.queryFn = .MAXRES →
      ∀ {lon lat elev : K}, NotSquashed q elev → ∀ {a : Addr}, CellOf g 31 lon lat elev a →
      ∀ e ∈ es, e.addr.toKey.Contains a.toKey → (e.payload.faultBlock ≠ 0 ∨ q.dbExt = none) →
      PayloadOf fmt q lon lat elev e.payload := by
  have hpl : List.Forall₂ (Placed g n) data es := by
    refine hes.imp ?_
    rintro d e ⟨h1, -, h3⟩
    exact ⟨h3, 0, h1⟩
  obtain ⟨c', h⟩ := insertAll_run he hlv hpl hc hd hnew
  obtain ⟨es', db, a1, a2, a3, a4, -, -⟩ := insertAll_ok hlv hc h
  have hee : es' = es := by
    clear hnew hd h a2 hes
    induction hpl generalizing es' with
    | nil => cases a1; rfl
    | cons h1 h2 ih =>
      cases a1 with
      | @cons _ e' _ _ b1 b2 =>
      rw [ih _ b2]
      obtain ⟨p1, k1, p2⟩ := h1
      obtain ⟨q1, k2, q2⟩ := b1
      rw [p2] at q2
      rename_i e _ _ _
      cases e; cases e'
      cases q2
      cases p1; cases q1; rfl
  subst hee
  have hmem : ∀ x, x ∈ db.entries ↔ x ∈ es' ∨ x ∈ f.db.entries := fun x => by rw [a2.mem_iff, List.mem_append]
  have hoct : ∀ e ∈ es', e.addr.toKey.Octant ∧ e.addr.level = n ∧ e.addr.type = .leaf := by
    intro e hx
    clear a1 hpl h a2 hmem hnew hd
    induction hes with
    | nil => simp at hx
    | cons h1 h2 ih =>
      rcases List.mem_cons.1 hx with rfl | hx
      · exact ⟨h1.2.1, (hg.keeps _ _ _ _ _ _ h1.1).1, (hg.keeps _ _ _ _ _ _ h1.1).2⟩
      · exact ih hx
  refine ⟨c', { f with db := db }, h, by rw [a3], ⟨fun x hx => ?_, a4 hf.sorted⟩, hmem, ?_⟩
  · rcases (hmem x).1 hx with hx | hx
    · exact (hoct x hx).1
    · exact hf.octants x hx
  · intro fmt q ho hq lon lat elev hs a ha e hx hca hp
    refine maxres_finest fmt ho hq hs ha ⟨(hmem e).2 (Or.inl hx), hca, ?_⟩ (hoct e hx).2.2 hp
    intro y hy hya
    rw [(hoct e hx).2.1]
    rcases (hmem y).1 hy with hy | hy
    · exact (hoct y hy).2.1.le
    · exact hfl y hy

/-- Two locations in different cells of level 1. -/
def exData : List (Datum ℚ) := [⟨exPay 2000 1, 220, 40, -350000⟩, ⟨exPay 1500 3, 220, 40, -100⟩]
/-- Their octants. -/
def exDataOct : List (Entry ℚ) :=
  [⟨⟨⟨0, 0, 0, 1⟩, .leaf⟩, exPay 2000 1⟩, ⟨⟨⟨0, 0, 0x40000000, 1⟩, .leaf⟩, exPay 1500 3⟩]

example : exGeom.level 819200 = .ok 1 ∧
    List.Forall₂ (fun d e => CellOf exGeom 1 d.lon d.lat d.elev e.addr ∧ e.addr.toKey.Octant ∧ e.payload = d.payload)
      exData exDataOct ∧
    (exDataOct.Pairwise fun a b => a.addr.toKey ≠ b.addr.toKey) ∧
    openEntries (insertAll exEtree exGeom 819200 exData exCreator) = some exDataOct :=
  ⟨rfl, .cons ⟨by unfold CellOf; decide +kernel, by decide +kernel, rfl⟩
    (.cons ⟨by unfold CellOf; decide +kernel, by decide +kernel, rfl⟩ .nil), by unfold exDataOct; decide +kernel, by decide +kernel⟩

/-- C36: if two of the locations lie in the same cell, or one in a stored octant of the same level, the insertions end in
an exception. -/
theorem C36_twice {env : EtreeEnv} (he : env.Reliable) {g : Geom K} {n : Nat} {res : K}
    (hlv : g.level res = .ok (n : Int)) {data : List (Datum K)} {es : List (Entry K)}
    (hes : List.Forall₂ (fun d e => CellOf g n d.lon d.lat d.elev e.addr ∧ e.payload = d.payload) data es)
    {c : Creator K} {name : String} {f : EtreeFile K} (hc : c.pDB = some (name, f))
    (hd : ¬ ((es.Pairwise fun a b => a.addr.toKey ≠ b.addr.toKey) ∧
      ∀ e ∈ es, ∀ x ∈ f.db.entries, x.addr.toKey ≠ e.addr.toKey)) :
    ∃ m c', insertAll env g res data c = .exc m c' := by
  refine insertAll_exc he hlv (hes.imp ?_) hc hd
  rintro d e ⟨h1, h3⟩
  exact ⟨h3, 0, h1⟩

/-- Two locations in one cell. -/
example : List.Forall₂ (fun (d : Datum ℚ) (e : Entry ℚ) => CellOf exGeom 1 d.lon d.lat d.elev e.addr ∧ e.payload = d.payload)
      [(⟨exPay 2000 1, 220, 40, -350000⟩ : Datum ℚ), ⟨exPay 1500 3, 221, 41, -350001⟩]
      [⟨⟨⟨0, 0, 0, 1⟩, .leaf⟩, exPay 2000 1⟩, ⟨⟨⟨0, 0, 0, 1⟩, .leaf⟩, exPay 1500 3⟩] ∧
    ¬ ([(⟨⟨⟨0, 0, 0, 1⟩, .leaf⟩, exPay 2000 1⟩ : Entry ℚ), ⟨⟨⟨0, 0, 0, 1⟩, .leaf⟩, exPay 1500 3⟩].Pairwise
      fun a b => a.addr.toKey ≠ b.addr.toKey) :=
  ⟨.cons ⟨by unfold CellOf; decide +kernel, rfl⟩ (.cons ⟨by unfold CellOf; decide +kernel, rfl⟩ .nil), by decide +kernel⟩

/-- C36 for the central California geometry: a location in the model at root coordinates `u v w` gets data inserted; then
at every location whose root coordinates lie in the same cell the MAXRES query answers with it. -/
theorem C36_location [FloorRing K] {env : EtreeEnv} (he : env.Reliable) {fr : Frame K} (hf : fr.Rigid) {proj : Projector K}
    {lv : K → Outcome Int} {n : Nat} (hn : n ≤ 31) {res : K} (hlv : lv res = .ok (n : Int)) {d : Datum K} {u v w : K}
    (hd : AtRootCoords fr proj d.lon d.lat d.elev u v w) (hu : inHalfOpen u) (hv : inHalfOpen v) (hw : inHalfOpen w)
    {c : Creator K} {name : String} {f : EtreeFile K} (hc : c.pDB = some (name, f)) (hg : f.db.Good)
    (hfl : ∀ x ∈ f.db.entries, x.addr.level ≤ n) (hnew : ∀ x ∈ f.db.entries, x.addr.level = n → ¬ x.addr.toKey.HasPoint u v w) :
    ∃ c' f', insert env c d.payload d.lon d.lat d.elev res (some (GeomCenCA.geom fr proj lv)) = .ok c' () ∧
      c'.pDB = some (name, f') ∧ f'.db.Good ∧
      ∃ k : Key, k.level = n ∧ k.HasPoint u v w ∧
      ∀ {fmt : Fmt K} {q : VMQuery K}, q.Open (GeomCenCA.geom fr proj lv) f'.db → q.queryFn = .MAXRES →
      ∀ {lon lat elev x y z : K}, NotSquashed q elev → AtRootCoords fr proj lon lat elev x y z →
      inHalfOpen x → inHalfOpen y → inHalfOpen z → k.HasPoint x y z →
      (d.payload.faultBlock ≠ 0 ∨ q.dbExt = none) → PayloadOf fmt q lon lat elev d.payload := by
  obtain ⟨b, hb, hbo, hbl, hbt, hbp⟩ := C01_partial hf hd hu hv hw ⟨⟨0, 0, 0, n⟩, .leaf⟩ hn
  have hlaw := GeomCenCA.geom_lawful fr proj lv
  obtain ⟨c', f', h1, h2, h3, h4, h5⟩ := C36 he hlaw (g := GeomCenCA.geom fr proj lv) (n := n) hlv (data := [d])
    (es := [⟨b, d.payload⟩]) (.cons ⟨hb, hbo, rfl⟩ .nil) hc hg hfl (by simp) (by
      intro e hx x hxx hk
      simp at hx; subst hx
      simp only at hk
      exact hnew x hxx (by rw [hk]; exact hbl) (by rw [hk]; exact hbp))
  refine ⟨c', f', ?_, h2, h3, b.toKey, hbl, hbp, ?_⟩
  · unfold insertAll insertAll at h1
    cases hi : insert env c d.payload d.lon d.lat d.elev res (some (GeomCenCA.geom fr proj lv)) with
    | ok c2 u => rw [hi, Run.bind_ok] at h1; cases h1; rfl
    | exc m c2 => rw [hi] at h1; cases h1
    | ub => rw [hi] at h1; cases h1
  · intro fmt q ho hq lon lat elev x y z hs hloc hx hy hz hk hp
    obtain ⟨a, ha, hao, hal, -, hap⟩ := C01_partial hf hloc hx hy hz ⟨⟨0, 0, 0, 31⟩, .leaf⟩ (by decide)
    obtain ⟨b', hb', hbo', hbl', -, hbp'⟩ := C01_partial hf hloc hx hy hz ⟨⟨0, 0, 0, n⟩, .leaf⟩ hn
    have hcon := C04_contains hf hloc hx hy hz ⟨⟨0, 0, 0, 31⟩, .leaf⟩ ⟨⟨0, 0, 0, n⟩, .leaf⟩ a b' hn (by decide) ha hb'
    have hbb : b'.toKey = b.toKey := by
      have := C01_unique_partial hf hloc hx hy hz b.toKey hbo hk .leaf 0 0 0
      rw [hbl] at this
      rw [hb'] at this
      cases this; rfl
    rw [hbb] at hcon
    exact h5 ho hq hs ha ⟨b, d.payload⟩ (by simp) hcon hp

example : exFrame.Rigid ∧ AtRootCoords exFrame exProj 220 40 (-100) 100 200 1586800 ∧ inHalfOpen (100 : ℚ) ∧
    inHalfOpen (200 : ℚ) ∧ inHalfOpen (1586800 : ℚ) ∧ (⟨0, 0, 0x40000000, 1⟩ : Key).HasPoint (100 : ℚ) 200 1586800 ∧
    openEntries (insert exEtree exCreator (exPay 1500 3) 220 40 (-100) 819200 (some exGeom)) =
      some [⟨⟨⟨0, 0, 0x40000000, 1⟩, .leaf⟩, exPay 1500 3⟩] ∧
    PayloadOf exFmt { VMQuery.init exGeom with db := some ⟨exDataOct⟩ } 230 30 (-900) (exPay 1500 3) :=
  ⟨exFrame_rigid, ex_at, by norm_num [inHalfOpen], by norm_num [inHalfOpen], by norm_num [inHalfOpen],
    by unfold Key.HasPoint axisHas; decide +kernel, by decide +kernel, payloadOf_of_vals (by decide +kernel)⟩

/-! ### C37 -/

/-- The full statement of C37: inserting at a location outside the model raises an exception. -/
def OutsideInsertRaises (env : EtreeEnv) (g : Geom K) : Prop :=
  ∀ (c : Creator K) (d : Datum K) (n : Nat) (res : K), n ≤ 31 → g.level res = .ok (n : Int) → OutsideOf g n d.lon d.lat d.elev →
    (∃ name f, c.pDB = some (name, f)) → ∃ m c', insert env c d.payload d.lon d.lat d.elev res (some g) = .exc m c'

/-- C37 is false of the code: the first insertion outside the model is stored, as an octant outside the root cube. -/
theorem C37_false : ¬ OutsideInsertRaises exEtree exGeom := by
  intro h
  obtain ⟨m, c', h⟩ := h exCreator ⟨exPay 1500 3, 220, 40, 20000⟩ 1 819200 (by decide) rfl
    ⟨⟨⟨-1, -1, -1, 1⟩, .leaf⟩, 1, by decide +kernel, by decide⟩ ⟨_, _, rfl⟩
  have : openEntries (insert exEtree exCreator (exPay 1500 3) 220 40 20000 819200 (some exGeom)) =
    some [⟨⟨⟨-1, -1, -1, 1⟩, .leaf⟩, exPay 1500 3⟩] := by decide +kernel
  rw [h] at this
  cases this

/-- C37, partial: with the central California geometry, once an octant has been stored for a location outside the model,
every later insertion outside the model at the same resolution raises an exception and changes nothing.  Missing: the first one
raises no exception. -/
theorem C37_partial [FloorRing K] {env : EtreeEnv} (he : env.Reliable) {fr : Frame K} {proj : Projector K} {lv : K → Outcome Int}
    {n : Nat} {res : K} (hlv : lv res = .ok (n : Int)) {c : Creator K} {name : String} {f : EtreeFile K}
    (hc : c.pDB = some (name, f)) {d₀ d : Datum K} (ho : OutsideOf (GeomCenCA.geom fr proj lv) n d.lon d.lat d.elev)
    {e₀ : Entry K} (h₀ : e₀ ∈ f.db.entries) {code₀ : Int} (hcode : code₀ ≠ 0)
    (hp : GeomCenCA.lonLatElevToAddr fr proj ⟨⟨0, 0, 0, n⟩, .leaf⟩ d₀.lon d₀.lat d₀.elev = .ok (e₀.addr, code₀)) :
    ∃ m, insert env c d.payload d.lon d.lat d.elev res (some (GeomCenCA.geom fr proj lv)) = .exc m c := by
  have key : ∀ (lon lat elev : K) (a : Addr) (code : Int),
      GeomCenCA.lonLatElevToAddr fr proj ⟨⟨0, 0, 0, n⟩, .leaf⟩ lon lat elev = .ok (a, code) → code ≠ 0 →
        a = ⟨⟨-1, -1, -1, n⟩, .leaf⟩ := by
    intro lon lat elev a code h hne
    unfold GeomCenCA.lonLatElevToAddr at h
    split at h
    · split at h
      · cases h
      · cases h
      · dsimp only at h
        split at h
        · cases h; rfl
        · cases h; exact absurd rfl hne
    · cases h
  obtain ⟨a, code, h1, h2⟩ := ho
  have ha := key _ _ _ _ _ h1 h2
  have ha0 := key _ _ _ _ _ hp hcode
  rw [insert_eq he hlv hc h1]
  rw [Db.insert_none_iff.2 ⟨e₀, h₀, by rw [ha, ha0]⟩]
  exact ⟨_, rfl⟩

/-- The second of two insertions above the model fails. -/
example : OutsideOf exGeom 1 220 40 20000 ∧ OutsideOf exGeom 1 9000000 40 0 ∧
    openEntries (insertAll exEtree exGeom 819200 [⟨exPay 1500 3, 220, 40, 20000⟩] exCreator) =
      some [⟨⟨⟨-1, -1, -1, 1⟩, .leaf⟩, exPay 1500 3⟩] ∧
    openEntries (insertAll exEtree exGeom 819200
      [⟨exPay 1500 3, 220, 40, 20000⟩, ⟨exPay 1700 4, 9000000, 40, 0⟩] exCreator) = none :=
  ⟨⟨⟨⟨-1, -1, -1, 1⟩, .leaf⟩, 1, by decide +kernel, by decide⟩,
    ⟨⟨⟨-1, -1, -1, 1⟩, .leaf⟩, 1, by decide +kernel, by decide⟩, by decide +kernel, by decide +kernel⟩

/-! ### C38, C39 -/

/-- What an ingestion that ends normally has passed. -/
theorem addGrid_ok {env : EtreeEnv} {nf : NumFmt K} {junk : Payload K} {g : Geom K} {files : String → Option (List Char)}
    {c c' : Creator K} {filename : String} {m : Counts} (h : addGrid env nf junk (some g) files c filename = .ok c' m) :
    ∃ text, files filename = some text ∧
      ∃ n : Nat, n ≤ 31 ∧ g.level (nf.rd.double ((readHeader nf (Stream.ofText text)).2.resHoriz * 1000)) = .ok (n : Int) ∧
        pointLoop env nf junk g (nf.rd.double ((readHeader nf (Stream.ofText text)).2.resHoriz * 1000))
          (readHeader nf (Stream.ofText text)).2.numTotal.toNat (readHeader nf (Stream.ofText text)).1 ⟨0, 0⟩ c = .ok c' m := by
  unfold addGrid at h
  simp only at h
  cases hf : files filename with
  | none => rw [hf] at h; cases h
  | some text =>
    rw [hf] at h
    simp only at h
    split at h
    · cases h
    · cases hl : g.level (nf.rd.double ((readHeader nf (Stream.ofText text)).2.resHoriz * 1000)) with
      | exc m => rw [hl] at h; cases h
      | ub => rw [hl] at h; cases h
      | ok n =>
        rw [hl] at h
        simp only at h
        split at h
        · cases h
        · rename_i hn
          split at h
          · cases h
          · refine ⟨text, rfl, n.toNat, by omega, ?_, h⟩
            rw [Int.toNat_of_nonneg (by omega)]; exact hl

/-- C38: if ingesting a grid file ends normally and the file has a readable header, its text continues with exactly the
declared number of data lines; the points counted as added are those with a fault block and a zone, the others are counted as
ignored, together they are the declared total, and what happened to the database are the insertions of the points with data, in
file order, each at the declared resolution and with its converted values (`StoredFor`).  Without a readable header nothing
is added. -/
theorem C38 {env : EtreeEnv} {nf : NumFmt K} {junk : Payload K} {g : Geom K} {files : String → Option (List Char)}
    {c c' : Creator K} {filename : String} {m : Counts} (h : addGrid env nf junk (some g) files c filename = .ok c' m) :
    ∃ text, files filename = some text ∧
      ((∃ hd t pts t', HeaderText nf text hd t ∧ PointsText nf t pts t' ∧ pts.length = hd.numTotal.toNat ∧
        m.added = pts.countP (fun p => HasData p) ∧ m.ignored = pts.countP (fun p => ¬ HasData p) ∧
        m.added + m.ignored = hd.numTotal.toNat ∧
        ∃ data, List.Forall₂ (StoredFor nf.rd) (pts.filter fun p => HasData p) data ∧
          insertAll env g (nf.rd.double (hd.resHoriz * 1000)) data c = .ok c' ()) ∨
      ((∀ hd t, ¬ HeaderText nf text hd t) ∧ c' = c ∧ m = ⟨0, 0⟩)) := by
  obtain ⟨text, hf, n, -, -, hl⟩ := addGrid_ok h
  refine ⟨text, hf, ?_⟩
  rcases hr : readHeader nf (Stream.ofText text) with ⟨⟨t, e, fl⟩, hd⟩
  cases fl with
  | true =>
    right
    have h0 : (readHeader nf (Stream.ofText text)).2.numTotal = 0 := readHeader_fail (by rw [hr])
    rw [h0] at hl
    cases hl
    refine ⟨fun hd' t' hh => ?_, rfl, rfl⟩
    have := readHeader_iff.1 ⟨hh, rfl⟩
    rw [hr] at this
    cases this
  | false =>
    left
    obtain ⟨hh, -⟩ := readHeader_iff.2 hr
    rw [hr] at hl
    obtain ⟨pts, t', h1, h2, h3, h4, h5⟩ := pointLoop_ok hl
    have e4 : m.ignored = pts.countP (fun p => ¬ HasData p) := by
      rw [h4]
      simp only [Nat.zero_add]
      congr 1; funext p; simp
    refine ⟨hd, t, pts, t', hh, h1, h2, by rw [h3]; simp, e4, ?_, _, stored_map _ _, h5⟩
    rw [h3, h4, ← h2, List.length_eq_countP_add_countP (fun p => decide (HasData p)) (l := pts)]
    simp

/-- C38, converse: a grid file with a header that fits the geometry within one part in a million, the declared number of data lines and points with data
that can be inserted is ingested. -/
theorem C38_accepted {env : EtreeEnv} {nf : NumFmt K} {junk : Payload K} {g : Geom K} {files : String → Option (List Char)}
    {c c' : Creator K} {filename : String} {text t t' : List Char} (hx : nf.rd.Exact) (hf : files filename = some text) {hd : Header K}
    (hh : HeaderText nf text hd t) {pts : List (Point K)} (hp : PointsText nf t pts t') (hn : pts.length = hd.numTotal.toNat)
    (hratio : hd.resVert ≠ 0 ∧ |1 - hd.resHoriz / hd.resVert / g.vertExag| ≤ 1 / 10 ^ 6) {n : Nat} (hn31 : n ≤ 31)
    (hlv : g.level (hd.resHoriz * 1000) = .ok (n : Int)) (hres : |1 - hd.resHoriz * 1000 / g.edgeLen n| ≤ 1 / 10 ^ 6)
    {data : List (Datum K)} (hdata : List.Forall₂ (StoredFor nf.rd) (pts.filter fun p => HasData p) data)
    (hi : insertAll env g (hd.resHoriz * 1000) data c = .ok c' ()) :
    addGrid env nf junk (some g) files c filename =
      .ok c' ⟨pts.countP fun p => HasData p, pts.countP fun p => ¬ HasData p⟩ := by
  have hr := readHeader_iff.1 ⟨hh, rfl⟩
  have h1000 : (1000 : K) ≠ 0 := by norm_num
  unfold addGrid
  have hdb : ∀ x, nf.rd.double x = x := fun x => (hx x).2
  have htol : tolerance nf.rd = 1 / 1000000 := hdb _
  simp only [hf, hr, hdb, hlv, Int.toNat_natCast]
  have h1 : ratioOff nf.rd (hd.resHoriz * 1000) (hd.resVert * 1000) g.vertExag (tolerance nf.rd) = false := by
    unfold ratioOff
    simp only [hdb]
    rw [if_neg (mul_ne_zero hratio.1 h1000)]
    rw [mul_div_mul_right _ _ h1000, htol, decide_eq_false_iff_not, not_lt]
    exact hratio.2.trans (by norm_num)
  have h2 : ¬ |1 - hd.resHoriz * 1000 / g.edgeLen n| > tolerance nf.rd := by
    rw [htol, gt_iff_lt, not_lt]
    exact hres.trans (by norm_num)
  rw [h1, if_neg (by simp), if_neg (by omega), if_neg h2, ← hn, pointLoop_eq ?_ hp]
  · rw [stored_map_eq hdata] at hi
    simp only [decide_not] at hi ⊢
    rw [hi]
    simp
  · cases pts with
    | nil => exact Or.inr rfl
    | cons p ps =>
      left
      obtain ⟨_, ⟨_, _, _, _, _, _, _, _, _, _, _, ⟨_, hw, _⟩, _⟩, _⟩ := hp
      exact good_of_word hw

/-- A grid of two points, the second without a fault block. -/
def exGridText : List Char :=
  ("819.2 204.8 1 1 2 2\n220 40 -350 2 1.5 2.5 100 50 -999 1 7 3\n" ++ "220 40 -0.1 2 1.5 2.5 100 50 0.03 0 7 3\n").toList
/-- The files of the examples: the grid. -/
def exFiles (n : String) : Option (List Char) := if n = "g" then some exGridText else none
/-- The payload stored for the first point. -/
def exStored : Payload ℚ := ⟨2000, 1500, 2500, 100, 50, -999, 1, 7⟩

/-- The counts of an ingestion. -/
def countsOf : Run (Creator ℚ) Counts → Option Counts
  | .ok _ n => some n
  | _ => none

example : countsOf (addGrid exEtree exNumFmt exStored (some exGeom) exFiles exCreator "g") = some ⟨1, 1⟩ ∧
    openEntries (addGrid exEtree exNumFmt exStored (some exGeom) exFiles exCreator "g") =
      some [⟨⟨⟨0, 0, 0, 1⟩, .leaf⟩, exStored⟩] := ⟨by decide +kernel, by decide +kernel⟩

/-- C39: if ingesting a grid file ends normally, every point of the file with a fault block and a zone has an octant in the
database, the cell of its location (elevation converted), whose payload is the point's with lengths, speeds and density
multiplied by 1000 unless they are -999, and quality factors and ids unchanged; and the database has no other octants
than these and those it had. -/
theorem C39 {env : EtreeEnv} {nf : NumFmt K} {junk : Payload K} {g : Geom K} {files : String → Option (List Char)}
    {c c' : Creator K} {name : String} {f : EtreeFile K} (hc : c.pDB = some (name, f)) {filename : String} {m : Counts}
    (h : addGrid env nf junk (some g) files c filename = .ok c' m)
    {text t t' : List Char} (hf : files filename = some text) {hd : Header K} (hh : HeaderText nf text hd t)
    {pts : List (Point K)} (hp : PointsText nf t pts t') (hn : pts.length = hd.numTotal.toNat) :
    ∃ n : Nat, g.level (nf.rd.double (hd.resHoriz * 1000)) = .ok (n : Int) ∧ ∃ es f', c'.pDB = some (name, f') ∧
      f'.db.entries.Perm (es ++ f.db.entries) ∧
      List.Forall₂ (OctantFor nf.rd g n) (pts.filter fun p => HasData p) es := by
  obtain ⟨text', hf', n, -, hlv, hl⟩ := addGrid_ok h
  rw [hf] at hf'; cases hf'
  rw [readHeader_iff.1 ⟨hh, rfl⟩] at hlv hl
  dsimp only at hlv hl
  rw [← hn, pointLoop_eq ?_ hp] at hl
  · cases hi : insertAll env g (nf.rd.double (hd.resHoriz * 1000)) ((pts.filter fun p => decide (HasData p)).map (datumOf nf.rd)) c with
    | ub => rw [hi] at hl; cases hl
    | exc m cx => rw [hi] at hl; cases hl
    | ok cx _ =>
      rw [hi] at hl
      cases hl
      obtain ⟨es, db, a1, a2, a3, -⟩ := insertAll_ok hlv hc hi
      refine ⟨n, hlv, es, { f with db := db }, by rw [a3], a2, ?_⟩
      have a4 := List.forall₂_map_left_iff.1 a1
      refine a4.imp ?_
      rintro p e ⟨h1, code, h2⟩
      have hs := datumOf_stored nf.rd p
      refine ⟨_, code, hs.elev, h2, ?_⟩
      rw [h1]
      exact ⟨hs.vp, hs.vs, hs.density, hs.depth, hs.qp, hs.qs, hs.faultBlock, hs.zone⟩
  · cases pts with
    | nil => exact Or.inr rfl
    | cons p ps =>
      left
      obtain ⟨_, ⟨_, _, _, _, _, _, _, _, _, _, _, ⟨_, hw, _⟩, _⟩, _⟩ := hp
      exact good_of_word hw

/-- The first point of the example: no-data depth kept, the rest converted. -/
example : Converted id (-999 : ℚ) (-999) ∧ Converted id (2 : ℚ) 2000 ∧ Converted id (-350 : ℚ) (-350000) ∧
    ∃ hd t pts t', HeaderText exNumFmt exGridText hd t ∧ PointsText exNumFmt t pts t' ∧ pts.length = hd.numTotal.toNat ∧
      pts.length = 2 := by
  refine ⟨Or.inl ⟨rfl, rfl⟩, Or.inr (by norm_num), Or.inr (by norm_num), ?_⟩
  cases h : addGrid exEtree exNumFmt exStored (some exGeom) exFiles exCreator "g" with
  | ok c' m =>
    obtain ⟨text, hf, ⟨hd, t, pts, t', h1, h2, h3, -, -, h6, -⟩ | ⟨-, -, h0⟩⟩ := C38 h
    · cases hf
      refine ⟨hd, t, pts, t', h1, h2, h3, ?_⟩
      have hm : countsOf (addGrid exEtree exNumFmt exStored (some exGeom) exFiles exCreator "g") = some ⟨1, 1⟩ := by
        decide +kernel
      rw [h] at hm; cases hm
      rw [h3, ← h6]; rfl
    · have hm : countsOf (addGrid exEtree exNumFmt exStored (some exGeom) exFiles exCreator "g") = some ⟨1, 1⟩ := by
        decide +kernel
      rw [h, h0] at hm; cases hm
  | exc m c' =>
    have hm : countsOf (addGrid exEtree exNumFmt exStored (some exGeom) exFiles exCreator "g") = some ⟨1, 1⟩ := by decide +kernel
    rw [h] at hm; cases hm
  | ub =>
    have hm : countsOf (addGrid exEtree exNumFmt exStored (some exGeom) exFiles exCreator "g") = some ⟨1, 1⟩ := by decide +kernel
    rw [h] at hm; cases hm

/-! ### C40 -/

/-- The message of an exception. -/
def msgOf : Run (Creator ℚ) Counts → Option String
  | .exc m _ => some m
  | _ => none

/-- C40, partial: a grid with a readable header is rejected without inserting anything if exactly one resolution is zero, or
the ratio of the resolutions differs from the vertical exaggeration beyond 1/1000000, or the horizontal resolution differs
from the edge length of its level.  Missing: both resolutions zero, and a total different from the product of the
counts. -/
theorem C40_partial {env : EtreeEnv} {nf : NumFmt K} {junk : Payload K} {g : Geom K} {files : String → Option (List Char)}
    {c : Creator K} {filename : String} {text t : List Char} (hx : nf.rd.Exact) (hf : files filename = some text) {hd : Header K}
    (hh : HeaderText nf text hd t)
    (hbad : (hd.resHoriz = 0 ∧ hd.resVert ≠ 0) ∨ (hd.resHoriz ≠ 0 ∧ hd.resVert = 0) ∨
      (hd.resVert ≠ 0 ∧ |1 - hd.resHoriz / hd.resVert / g.vertExag| > 1 / 1000000) ∨
      (∃ n : Nat, n ≤ 31 ∧ g.level (hd.resHoriz * 1000) = .ok (n : Int) ∧ |1 - hd.resHoriz * 1000 / g.edgeLen n| > 1 / 1000000)) :
    ∃ msg, addGrid env nf junk (some g) files c filename = .exc msg c := by
  have hr := readHeader_iff.1 ⟨hh, rfl⟩
  have h1000 : (1000 : K) ≠ 0 := by norm_num
  have hdb : ∀ x, nf.rd.double x = x := fun x => (hx x).2
  have htol : tolerance nf.rd = 1 / 1000000 := hdb _
  unfold addGrid
  simp only [hf, hr, hdb]
  by_cases hro : ratioOff nf.rd (hd.resHoriz * 1000) (hd.resVert * 1000) g.vertExag (tolerance nf.rd) = true
  · rw [if_pos hro]; exact ⟨_, rfl⟩
  · rw [if_neg hro]
    have hq : hd.resVert ≠ 0 → hd.resHoriz * 1000 / (hd.resVert * 1000) = hd.resHoriz / hd.resVert := fun h => by field_simp
    have hno : ¬ (hd.resVert ≠ 0 ∧ |1 - hd.resHoriz / hd.resVert / g.vertExag| > 1 / 1000000) := by
      rintro ⟨h1, h2⟩
      apply hro
      unfold ratioOff
      simp only [hdb]
      rw [if_neg (mul_ne_zero h1 h1000), hq h1]
      simpa [htol] using h2
    rcases hbad with ⟨h1, h2⟩ | ⟨h1, h2⟩ | h | ⟨n, hn, hlv, hoff⟩
    · exfalso
      apply hno
      refine ⟨h2, ?_⟩
      rw [h1]
      norm_num
    · exfalso
      apply hro
      unfold ratioOff
      rw [if_pos (by rw [h2, zero_mul])]
      simpa using h1
    · exact absurd h hno
    · rw [hlv]
      simp only [Int.toNat_natCast]
      rw [if_neg (by omega), if_pos (by simpa [htol] using hoff)]
      exact ⟨_, rfl⟩

/-- Resolutions in the ratio 1 instead of 4. -/
example : (∃ hd t, HeaderText exNumFmt "819.2 819.2 1 1 1 1\n".toList hd t ∧ hd.resVert ≠ 0 ∧
      |1 - hd.resHoriz / hd.resVert / exGeom.vertExag| > 1 / 1000000) ∧
    msgOf (addGrid exEtree exNumFmt exStored (some exGeom) (fun _ => some "819.2 819.2 1 1 1 1\n".toList) exCreator "g") =
      some "Vertical exaggeration does not match velocity model vertical exaggeration." :=
  ⟨⟨⟨4096 / 5, 4096 / 5, 1, 1, 1, 1⟩, ['\n'], (readHeader_iff (e := false)).2 (by decide +kernel) |>.1, by decide +kernel,
    by decide +kernel⟩, by decide +kernel⟩

/-- C40 is false of the code: with both resolutions zero no exception is raised; the level of the resolution is
undefined behaviour. -/
theorem C40_false_zero {env : EtreeEnv} {nf : NumFmt ℝ} {junk : Payload ℝ} {proj : Projector ℝ}
    {files : String → Option (List Char)} {c : Creator ℝ} {filename : String} {text t : List Char}
    (h0 : nf.rd.double 0 = 0) (hf : files filename = some text) {hd : Header ℝ} (hh : HeaderText nf text hd t) (h1 : hd.resHoriz = 0) (h2 : hd.resVert = 0) :
    addGrid env nf junk (some (GeomCenCA.cenCA proj)) files c filename = .ub := by
  have hr := readHeader_iff.1 ⟨hh, rfl⟩
  unfold addGrid
  simp only [hf, hr, h1, h2, zero_mul, h0]
  have : ratioOff nf.rd (0 : ℝ) 0 (GeomCenCA.cenCA proj).vertExag (tolerance nf.rd) = false := by unfold ratioOff; simp
  rw [this, if_neg (by simp)]
  have : (GeomCenCA.cenCA proj).level 0 = .ub := by
    show GeomCenCA.level 0 = .ub
    unfold GeomCenCA.level; simp
  rw [this]

/-- Such a header. -/
example : ∃ hd t, HeaderText exNumFmt "0 0 1 1 1 1\n".toList hd t ∧ hd.resHoriz = 0 ∧ hd.resVert = 0 :=
  ⟨⟨0, 0, 1, 1, 1, 1⟩, ['\n'], (readHeader_iff (e := false)).2 rfl |>.1, rfl, rfl⟩

/-- C40 is false of the code: a total different from the product of the counts is accepted. -/
theorem C40_false_total : ∃ hd t, HeaderText exNumFmt "819.2 204.8 7 8 9 1\n220 40 -350 2 1.5 2.5 100 50 -999 1 7 3\n".toList hd t ∧
    hd.numTotal ≠ hd.numX * hd.numY * hd.numZ ∧
    countsOf (addGrid exEtree exNumFmt exStored (some exGeom)
      (fun _ => some "819.2 204.8 7 8 9 1\n220 40 -350 2 1.5 2.5 100 50 -999 1 7 3\n".toList) exCreator "g") = some ⟨1, 0⟩ :=
  ⟨⟨4096 / 5, 1024 / 5, 7, 8, 9, 1⟩, "\n220 40 -350 2 1.5 2.5 100 50 -999 1 7 3\n".toList,
    (readHeader_iff (e := false)).2 (by decide +kernel) |>.1, by decide, by decide +kernel⟩

/-- A header that cannot be read to the end is accepted as that of an empty grid. -/
theorem C40_unreadable : (∀ hd t, ¬ HeaderText exNumFmt "819.2 204.8 one 1 1 1\n".toList hd t) ∧
    countsOf (addGrid exEtree exNumFmt exStored (some exGeom) (fun _ => some "819.2 204.8 one 1 1 1\n".toList) exCreator "g") =
      some ⟨0, 0⟩ := by
  refine ⟨fun hd t h => ?_, by decide +kernel⟩
  have h1 := readHeader_iff.1 ⟨h, rfl⟩
  have h2 : (readHeader exNumFmt (Stream.ofText "819.2 204.8 one 1 1 1\n".toList)).1.fail = true := by decide +kernel
  rw [h1] at h2
  cases h2

/-! ### C52, C53 -/

theorem addGrid_octants {env : EtreeEnv} {nf : NumFmt K} {junk : Payload K} {g : Geom K} {files : String → Option (List Char)}
    {c c' : Creator K} {name : String} {f : EtreeFile K} (hc : c.pDB = some (name, f)) {filename : String} {m : Counts}
    (h : addGrid env nf junk (some g) files c filename = .ok c' m) :
    ∃ es db, GridOctants nf g files filename es ∧ c' = { c with pDB := some (name, { f with db := db }) } ∧
      db.entries.Perm (es ++ f.db.entries) ∧ (f.db.Sorted → db.Sorted) := by
  obtain ⟨text, hf, n, -, hlv, hl⟩ := addGrid_ok h
  rcases hr : readHeader nf (Stream.ofText text) with ⟨⟨t, e, fl⟩, hd⟩
  cases fl with
  | true =>
    have h0 : (readHeader nf (Stream.ofText text)).2.numTotal = 0 := readHeader_fail (by rw [hr])
    rw [h0] at hl
    cases hl
    refine ⟨[], f.db, ⟨text, hf, Or.inr ⟨fun hd' t' hh => ?_, rfl⟩⟩, ?_, List.Perm.refl _, id⟩
    · have := readHeader_iff.1 ⟨hh, rfl⟩
      rw [hr] at this
      cases this
    · cases c; cases f; cases hc; rfl
  | false =>
    obtain ⟨hh, -⟩ := readHeader_iff.2 hr
    rw [hr] at hl hlv
    obtain ⟨pts, t', h1, h2, h3, h4, h5⟩ := pointLoop_ok hl
    obtain ⟨es, db, a1, a2, a3, a4, -⟩ := insertAll_ok hlv hc h5
    refine ⟨es, db, ⟨text, hf, Or.inl ⟨hd, t, pts, t', hh, h1, h2, n, hlv, ?_⟩⟩, a3, a2, a4⟩
    have a4 := List.forall₂_map_left_iff.1 a1
    refine a4.imp ?_
    rintro p e ⟨h1, code, h2⟩
    have hs := datumOf_stored nf.rd p
    refine ⟨_, code, hs.elev, h2, ?_⟩
    rw [h1]
    exact ⟨hs.vp, hs.vs, hs.density, hs.depth, hs.qp, hs.qs, hs.faultBlock, hs.zone⟩

theorem addGrids_octants {env : EtreeEnv} {nf : NumFmt K} {junk : Payload K} {g : Geom K} {files : String → Option (List Char)}
    {names : List String} {c c' : Creator K} {name : String} {f : EtreeFile K} (hc : c.pDB = some (name, f))
    (h : addGrids env nf junk (some g) files names c = .ok c' ()) :
    ∃ grids db, List.Forall₂ (GridOctants nf g files) names grids ∧ c' = { c with pDB := some (name, { f with db := db }) } ∧
      db.entries.Perm (grids.flatten ++ f.db.entries) ∧ (f.db.Sorted → db.Sorted) := by
  induction names generalizing c f with
  | nil =>
    cases h
    refine ⟨[], f.db, .nil, ?_, List.Perm.refl _, id⟩
    cases c'; cases f; cases hc; rfl
  | cons a names ih =>
    unfold addGrids at h
    cases hi : addGrid env nf junk (some g) files c a with
    | ub => rw [hi] at h; cases h
    | exc m cx => rw [hi] at h; cases h
    | ok cx m =>
      rw [hi, Run.bind_ok] at h
      obtain ⟨es, db, b1, rfl, b3, b4⟩ := addGrid_octants hc hi
      obtain ⟨grids, db', d1, d2, d3, d4⟩ := ih (f := { f with db := db }) rfl h
      refine ⟨es :: grids, db', .cons b1 d1, d2, ?_, fun hs => d4 (b4 hs)⟩
      refine d3.trans ((b3.append_left _).trans ?_)
      simp only [List.flatten_cons]
      rw [← List.append_assoc]
      exact List.perm_append_comm.append_right _

/-- C52: if the ingester ends normally (and no failing advance of the packing cursor is taken for the end), the output
database holds, in Z-order, exactly the octants for the points with data of the grids named in the parameter file, each once,
with the schema and the description. -/
theorem C52 {env : EtreeEnv} {nf : NumFmt K} {junk : Payload K} {g : Geom K} {files : String → Option (List Char)}
    {disk disk' : EtreeDisk K} {params tmp out description stamp : String} (hadv : ∀ i, env.adv i = false)
    (h : run env nf junk (some g) files disk params tmp out description stamp = .ok disk' ()) :
    ∃ text grids f', files params = some text ∧ List.Forall₂ (GridOctants nf g files) (readParams text) grids ∧
      disk' out = some f' ∧ f'.db.entries.Perm grids.flatten ∧ f'.db.Sorted ∧ f'.db.entries ≠ [] ∧
      f'.schema = some SCHEMA ∧ f'.appmeta = some (metainfo description stamp) := by
  unfold run at h
  cases hp : files params with
  | none => rw [hp] at h; cases h
  | some text =>
    rw [hp] at h
    simp only at h
    cases ho : openDB env (init disk) tmp description stamp with
    | ub => rw [ho] at h; cases h
    | exc m c => rw [ho] at h; cases h
    | ok c _ =>
      have hc : c.pDB = some (tmp, ⟨Db.empty, some SCHEMA, some (metainfo description stamp)⟩) := by
        unfold openDB at ho
        split at ho
        · cases ho
        split at ho
        · cases ho
        split at ho
        · cases ho
        cases ho; rfl
      rw [ho, Run.bind_ok] at h
      cases ha : addGrids env nf junk (some g) files (readParams text) c with
      | ub => rw [ha] at h; cases h
      | exc m c => rw [ha] at h; cases h
      | ok c' _ =>
        rw [ha] at h
        simp only at h
        obtain ⟨grids, db, b1, rfl, b3, b4⟩ := addGrids_octants hc ha
        have hd : (closeDB { c with pDB := some (tmp, (⟨db, some SCHEMA, some (metainfo description stamp)⟩ : EtreeFile K)) }).disk tmp =
            some ⟨db, some SCHEMA, some (metainfo description stamp)⟩ := by
          simp [closeDB, EtreeDisk.set]
        obtain ⟨f', e1, e2, e3, e4⟩ := C35_faults hd (fun i _ => hadv i) h
        have hne : db.entries ≠ [] := by
          intro h0
          obtain ⟨m, d, hx⟩ := C35_empty env (packed := out) hd h0 (packDB_ne h)
          rw [hx] at h; cases h
        refine ⟨text, grids, f', rfl, b1, e1, ?_, ?_, ?_, e4, e3⟩
        · rw [e2]; simpa [Db.empty] using b3
        · unfold Db.Sorted; rw [e2]; exact b4 List.Pairwise.nil
        · rw [e2]; exact hne

/-- A parameter file naming one grid. -/
def exRunFiles (n : String) : Option (List Char) := if n = "p" then some "g\n".toList else exFiles n

example : (match run exEtree exNumFmt exStored (some exGeom) exRunFiles (fun _ => none) "p" "t" "o" "d" "s" with
    | .ok d _ => (d "o").map fun f => f.db.entries
    | _ => none) = some [⟨⟨⟨0, 0, 0, 1⟩, .leaf⟩, exStored⟩] := by decide +kernel

theorem readNames_words {text : List Char} {ws : List String} (h : WordsOf text ws) {n : Nat} (hn : text.length < n) :
    readNames n ⟨text, false, false⟩ = if EndsBlank text ∨ text = [] then ws else ws.dropLast := by
  induction h generalizing n with
  | @nil t h =>
    have hd : t.dropWhile Stream.isSpace = [] := by
      rw [List.dropWhile_eq_nil_iff]; exact h
    cases n with
    | zero => omega
    | succ n =>
      unfold readNames
      rw [if_pos (show Stream.good ⟨t, false, false⟩ = true from rfl)]
      simp only [Stream.extract, Stream.good, Bool.not_false, Bool.and_self, Bool.not_true, Bool.false_eq_true, if_false, hd]
      rw [show (if EndsBlank t ∨ t = [] then ([] : List String) else [].dropLast) = [] by split <;> rfl]
      cases n with
      | zero => rfl
      | succ n => rfl
  | @cons space w t ws hs hne hw ht h ih =>
    cases n with
    | zero => omega
    | succ n =>
      have hb : (space ++ (w ++ t)).dropWhile Stream.isSpace = w ++ t := by
        refine dropWhile_append_space hs ?_
        cases w with
        | nil => exact absurd rfl hne
        | cons a w => intro c hc; simp at hc; subst hc; exact hw _ List.mem_cons_self
      have hsp : List.span (fun ch => !Stream.isSpace ch) (w ++ t) = (w, t) := by
        rw [List.span_eq_takeWhile_dropWhile]
        have h1 : ∀ c ∈ w, (!Stream.isSpace c) = true := fun c hc => by simp [hw c hc]
        have h2 : t.takeWhile (fun ch => !Stream.isSpace ch) = [] := by
          cases t with
          | nil => rfl
          | cons a t => have := ht a (by simp); simp [this]
        have h3 : t.dropWhile (fun ch => !Stream.isSpace ch) = t := by
          cases t with
          | nil => rfl
          | cons a t => have := ht a (by simp); simp [this]
        rw [List.takeWhile_append_of_pos h1, List.dropWhile_append_of_pos h1, h2, h3, List.append_nil]
      have hx : Stream.extract (List.span fun ch => !Stream.isSpace ch) (fun t => some (String.ofList t)) "" ⟨space ++ (w ++ t), false, false⟩ "" =
          (⟨t, t.isEmpty, false⟩, String.ofList w) := by
        unfold Stream.extract
        simp only [Stream.good, Bool.not_false, Bool.and_self, Bool.not_true, Bool.false_eq_true, if_false, hb]
        cases w with
        | nil => exact absurd rfl hne
        | cons a w => simp only [List.cons_append] at hsp ⊢; rw [hsp]
      unfold readNames
      rw [if_pos (show Stream.good ⟨space ++ (w ++ t), false, false⟩ = true from rfl)]
      simp only [hx]
      have hlen : t.length < n := by
        simp only [List.length_append] at hn
        have := List.length_pos_iff.2 hne
        omega
      cases t with
      | nil =>
        have hws : ws = [] := by
          generalize hq : ([] : List Char) = q at h
          cases h with
          | nil _ => rfl
          | cons hs' hne' hw' ht' h' => simp at hq; exact absurd hq.2.1 hne'
        subst hws
        have hnb : ¬ (EndsBlank (space ++ (w ++ [])) ∨ space ++ (w ++ []) = []) := by
          rintro (⟨c, hc, hcs⟩ | h0)
          · rw [List.append_nil, List.getLast?_append_of_ne_nil _ hne] at hc
            have := hw c (List.mem_of_getLast? hc)
            rw [this] at hcs; cases hcs
          · simp at h0; exact hne h0.2
        rw [if_neg hnb]
        simp only [Stream.good, List.isEmpty_nil, Bool.not_true, Bool.false_and, Bool.false_eq_true, if_false]
        cases n with
        | zero => rfl
        | succ n => rfl
      | cons a t =>
        have hi := ih hlen
        have he : EndsBlank (space ++ (w ++ a :: t)) ↔ EndsBlank (a :: t) := by
          unfold EndsBlank
          rw [← List.append_assoc, List.getLast?_append_of_ne_nil _ (by simp)]
        have hne2 : ws = [] → EndsBlank (a :: t) := by
          rintro rfl
          generalize hq : a :: t = q at h
          cases h with
          | nil h =>
            subst hq
            exact ⟨(a :: t).getLast (by simp), List.getLast?_eq_some_getLast _ , h _ (List.getLast_mem _)⟩
        simp only [Stream.good, List.isEmpty_cons, Bool.not_false, Bool.and_self, if_true]
        rw [hi]
        simp only [he, reduceCtorEq, or_false, List.append_eq_nil_iff, and_false]
        split
        · rfl
        · rename_i hnb
          rw [List.dropLast_cons_of_ne_nil fun h0 => hnb (hne2 h0)]

/-- C53, partial: if the parameter file ends with whitespace, the grids processed are the words of the file, in order.
Missing: a last word without whitespace after it. -/
theorem C53_partial {text : List Char} {ws : List String} (h : WordsOf text ws) (hb : EndsBlank text) : readParams text = ws := by
  unfold readParams Stream.ofText
  rw [readNames_words h (Nat.lt_succ_self _), if_pos (Or.inl hb)]

example : WordsOf "a.txt b.txt\n".toList ["a.txt", "b.txt"] ∧ EndsBlank "a.txt b.txt\n".toList :=
  ⟨WordsOf.cons (space := []) (w := "a.txt".toList) (t := " b.txt\n".toList) (by simp) (by decide) (by decide +kernel) (by decide +kernel)
    (WordsOf.cons (space := [' ']) (w := "b.txt".toList) (t := ['\n']) (by decide) (by decide) (by decide +kernel) (by decide)
      (.nil (by decide))), by decide +kernel⟩

/-- C53 is false of the code: a last word without whitespace after it is always left out. -/
theorem C53_false {text : List Char} {ws : List String} (h : WordsOf text ws) (hb : ¬ EndsBlank text) (hne : text ≠ []) :
    readParams text = ws.dropLast := by
  unfold readParams Stream.ofText
  rw [readNames_words h (Nat.lt_succ_self _), if_neg (by simp [hb, hne])]

example : WordsOf "a.txt".toList ["a.txt"] ∧ ¬ EndsBlank "a.txt".toList ∧ readParams "a.txt".toList = [] :=
  ⟨WordsOf.cons (space := []) (w := "a.txt".toList) (t := []) (by simp) (by decide) (by decide +kernel) (by decide) (.nil (by simp)),
    by decide +kernel, by decide +kernel⟩

end
end CenCalVM
