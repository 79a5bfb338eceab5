/-
From the structure of queries to their specification.
-/
import Verif.Lemmas.Query

set_option linter.unusedSectionVars false

namespace CenCalVM

theorem Key.contains_trans {a b c : Key} (h1 : a.Contains b) (h2 : b.Contains c) : a.Contains c := by
  unfold Key.Contains Key.axisIn at *; omega

theorem Key.contains_hasPoint {K : Type} [Field K] [LinearOrder K] [IsStrictOrderedRing K] {a b : Key}
    {p q r : K} (h : a.Contains b) (hb : b.HasPoint p q r) : a.HasPoint p q r := by
  have key : ∀ t s t' s' : Nat, Key.axisIn t s t' s' → ∀ v : K, axisHas t' s' v → axisHas t s v := by
    rintro t s t' s' ⟨h1, h2⟩ v ⟨h3, h4⟩
    have hp : (0 : K) < 1638400 / 2 ^ 31 := by positivity
    have h1' : (t : K) ≤ t' := by exact_mod_cast h1
    have h2' : (t' : K) + s' ≤ t + s := by exact_mod_cast h2
    exact ⟨le_trans (by nlinarith) h3, lt_of_lt_of_le h4 (by nlinarith)⟩
  exact ⟨key _ _ _ _ h.1 _ hb.1, key _ _ _ _ h.2.1 _ hb.2.1, key _ _ _ _ h.2.2 _ hb.2.2⟩

namespace Db
variable {K : Type}

/-- A stored octant is found under its own address. -/
theorem search_self {db : Db K} (hdb : db.Good) {e : Entry K} (he : e ∈ db.entries) :
    db.search e.addr.toKey = some e := by
  have ho := hdb.octants e he
  rw [search_iff hdb ho.aligned]
  refine ⟨he, ?_, fun f hf hc => ?_⟩
  · rw [Key.contains_iff_trunc ho ho]; exact ⟨le_rfl, ho.trunc_self⟩
  · exact ((Key.contains_iff_trunc (hdb.octants f hf) ho).1 hc).1

end Db

namespace VMQuery
variable {K : Type} [Field K] [LinearOrder K]

theorem levelFor_iff {q : VMQuery K} {g : Geom K} {n : Nat} : levelFor q g = .ok n ↔ LookupLevel q g n := by
  unfold levelFor LookupLevel
  cases q.queryFn with
  | MAXRES => simp [eq_comm]
  | WAVERES => simp [eq_comm]
  | FIXEDRES =>
    dsimp only
    cases g.level (g.vertExag * q.queryRes) with
    | exc m => simp
    | ub => simp
    | ok i =>
      simp only [Outcome.bind_ok, Outcome.ok.injEq]
      by_cases hi : i < 0
      · simp only [if_pos hi]; constructor
        · intro h; cases h
        · intro h; omega
      · simp only [if_neg hi, Outcome.ok.injEq]; omega

theorem lookupLevel_unique {q : VMQuery K} {g : Geom K} {m n : Nat} (h : LookupLevel q g m)
    (h' : LookupLevel q g n) : m = n := by
  rw [← levelFor_iff] at h h'; rw [h] at h'; cases h'; rfl

/-- One database, types of query without a walk. -/
theorem ansP_fromFinest {q : VMQuery K} (hq : q.queryFn ≠ .WAVERES) (g : Geom K) {db : Db K} (hdb : db.Good)
    {a : Addr} (ha : a.toKey.Aligned) :
    FromFinest (Acceptable q g a.level) a.toKey db (ansP q g db a) := by
  unfold ansP
  cases hs : db.search a.toKey with
  | none =>
    right
    exact ⟨fun e he => absurd he.2.1 ((Db.search_none_iff hdb.octants ha).1 hs e he.1), rfl⟩
  | some e =>
    have he := Db.search_finest hdb.octants ha hs
    have hu : ∀ f, db.Finest a.toKey f → f = e := fun f hf => Db.finest_unique hdb ha hf he
    unfold Acceptable
    cases hqf : q.queryFn with
    | WAVERES => exact absurd hqf hq
    | MAXRES =>
      by_cases ht : e.addr.type = .interior
      · right; refine ⟨fun f hf => ?_, by simp [ht]⟩
        rw [hu f hf]; simp [ht]
      · left; refine ⟨e, he, Or.inl ?_, by simp [ht]⟩
        cases h : e.addr.type with
        | leaf => rfl
        | interior => exact absurd h ht
    | FIXEDRES =>
      by_cases ht : e.addr.type = .interior ∧ a.level > e.addr.level
      · right; refine ⟨fun f hf => ?_, by simp [ht]⟩
        rw [hu f hf]; simp [ht]
      · left; refine ⟨e, he, ?_, by simp only [if_neg ht]⟩
        cases h : e.addr.type with
        | leaf => exact Or.inl h
        | interior =>
          right; by_contra hc; exact ht ⟨h, by simpa using hc⟩

theorem quotGt_iff (rd : Rd K) (len v m : K) : quotGt rd len v m = true ↔ ¬ (v ≠ 0 ∧ rd.double (len / v) ≤ m) := by
  unfold quotGt
  split
  · rename_i h; simp [h]
  · rename_i h; simp [h]

/-- If no octant is acceptable the answer of one database is the no-data payload. -/
theorem ansP_noData {q : VMQuery K} (g : Geom K) {db : Db K} (hdb : db.Octants) {a : Addr}
    (ha : a.toKey.Aligned) (h : ∀ e, db.Finest a.toKey e → ¬ Acceptable q g a.level e) :
    ansP q g db a = noDataPayload ∧ orphanOf q g db a = none := by
  unfold ansP orphanOf
  cases hs : db.search a.toKey with
  | none => cases q.queryFn <;> exact ⟨rfl, rfl⟩
  | some e =>
    have he := h e (Db.search_finest hdb ha hs)
    unfold Acceptable at he
    rw [not_or] at he
    have ht : e.addr.type = .interior := by
      cases h : e.addr.type with
      | leaf => exact absurd h he.1
      | interior => rfl
    cases hqf : q.queryFn with
    | MAXRES => simp [ht]
    | FIXEDRES =>
      rw [hqf] at he
      have h2 : a.level > e.addr.level := by simpa using he.2
      simp only [if_pos (And.intro ht h2)]; simp
    | WAVERES =>
      rw [hqf] at he
      have h2 := (quotGt_iff _ _ _ _).2 he.2
      simp [ht, h2]

theorem ansP_outside (q : VMQuery K) (g : Geom K) {db : Db K} (hdb : db.Octants) {a : Addr}
    (ha : 2 ^ 31 ≤ a.x.toNat) : ansP q g db a = noDataPayload ∧ orphanOf q g db a = none := by
  unfold ansP orphanOf
  rw [Db.search_outside hdb ha]
  cases q.queryFn <;> exact ⟨rfl, rfl⟩

theorem waveAverage_mean {rd : Rd K} (h : rd.Exact) (c l : Payload K) : MeanPayload c l (waveAverage rd c l) := by
  have h' : ∀ x, rd.single x = x := fun x => (h x).1
  have h'' : ∀ x, rd.double x = x := fun x => (h x).2
  unfold MeanPayload waveAverage waveMean
  simp only [h', h'']
  refine ⟨?_, ?_, ?_, ?_, ?_, ?_, trivial, trivial⟩ <;> ring

/-- The criterion of the walk, as computed. -/
def ShortBy (rd : Rd K) (g : Geom K) (T : K) (e : Entry K) : Prop :=
  e.payload.vs > 0 ∧ rd.double (g.edgeLen e.addr.level / e.payload.vs) < T ∧ e.addr.level > 0

section
variable [IsStrictOrderedRing K]

theorem wave_cond {rd : Rd K} (h : rd.Exact) (g : Geom K) (T : K) (e : Entry K) : ShortBy rd g T e ↔ ShorterThanWave g T e := by
  have h'' : ∀ x, rd.double x = x := fun x => (h x).2
  unfold ShorterThanWave ShortBy
  rw [h'']
  constructor
  · rintro ⟨h1, h2, h3⟩
    rw [div_lt_iff₀ h1] at h2
    exact ⟨h1, by linarith [mul_comm T e.payload.vs], h3⟩
  · rintro ⟨h1, h2, h3⟩
    refine ⟨h1, ?_, h3⟩
    rw [div_lt_iff₀ h1]; linarith [mul_comm T e.payload.vs]

/-- More rounds than the level of the starting octant change nothing: the walk ends by itself. -/
theorem waveLoop_fuel (rd : Rd K) (g : Geom K) (db : Db K) (T : K) (n : Nat) :
    ∀ (child : Payload K) (e : Entry K) (fuel : Nat), e.addr.level ≤ n → n ≤ fuel →
      waveLoop rd g db T fuel child e = waveLoop rd g db T n child e := by
  induction n with
  | zero =>
    intro child e fuel he _
    cases fuel with
    | zero => rfl
    | succ m => unfold waveLoop; rw [if_neg (by omega)]
  | succ n ih =>
    intro child e fuel he hf
    obtain ⟨m, rfl⟩ : ∃ m, fuel = m + 1 := ⟨fuel - 1, by omega⟩
    unfold waveLoop
    split
    · rename_i hc
      cases hp : findAncestor e.addr ((e.addr.level : Int) - 1) with
      | exc m => rfl
      | ub => rfl
      | ok p =>
        dsimp only
        cases hs : db.search p.toKey with
        | none => rfl
        | some f =>
          have h1 := (Db.search_level hs).2.1
          have h2 : p.level = e.addr.level - 1 := by
            unfold findAncestor at hp
            rw [if_pos (by omega)] at hp
            cases hp; simp
          exact ih _ _ _ (by omega) (by omega)
    · rfl

/-- The walk in an ancestor-closed database. -/
theorem waveLoop_walk (rd : Rd K) (g : Geom K) {db : Db K} (hdb : db.Good) (hanc : db.AncestorClosed) (T : K) (k : Key)
    (n : Nat) : ∀ (child : Payload K) (e : Entry K), e ∈ db.entries → e.addr.toKey.Contains k → e.addr.level = n →
      ∃ (c : Payload K) (last : Entry K), waveLoop rd g db T n child e = .ok (.reached c last.payload) ∧
        last ∈ db.entries ∧ last.addr.toKey.Contains k ∧ ¬ ShortBy rd g T last ∧ last.addr.level ≤ n ∧
        (∀ f ∈ db.entries, f.addr.toKey.Contains k → last.addr.level < f.addr.level → f.addr.level ≤ n →
          ShortBy rd g T f) ∧
        ((last = e ∧ c = child) ∨ ∃ d ∈ db.entries, d.addr.toKey.Contains k ∧
          d.addr.level = last.addr.level + 1 ∧ c = d.payload) := by
  induction n with
  | zero =>
    intro child e he hc hl
    refine ⟨child, e, rfl, he, hc, ?_, by omega, ?_, Or.inl ⟨rfl, rfl⟩⟩
    · intro h; exact absurd h.2.2 (by omega)
    · intro f _ _ h1 h2; omega
  | succ n ih =>
    intro child e he hc hl
    have same : ∀ f ∈ db.entries, f.addr.toKey.Contains k → f.addr.level = n + 1 → f = e := by
      intro f hf hfc hfl
      apply Db.sorted_unique hdb.sorted hf he
      -- both are the cell of level n+1 at the corner of k
      have ho := hdb.octants e he
      have hof := hdb.octants f hf
      have hsz : f.addr.toKey.size = e.addr.toKey.size := by unfold Key.size; rw [hfl, hl]
      unfold Key.Contains Key.axisIn at hc hfc
      have hs0 : 0 < e.addr.toKey.size := by unfold Key.size; positivity
      have hk0 : 0 < k.size := by unfold Key.size; positivity
      have key : ∀ u v : BitVec 32, e.addr.toKey.size ∣ u.toNat → f.addr.toKey.size ∣ v.toNat →
          ∀ w, u.toNat ≤ w → w + k.size ≤ u.toNat + e.addr.toKey.size → v.toNat ≤ w →
            w + k.size ≤ v.toNat + f.addr.toKey.size → v = u := by
        intro u v hu hv w h1 h2 h3 h4
        rw [hsz] at hv h4
        obtain ⟨i, hi⟩ := hu
        obtain ⟨j, hj⟩ := hv
        have hij : i = j := by
          rcases Nat.lt_trichotomy i j with h | h | h
          · have : e.addr.toKey.size * (i + 1) ≤ e.addr.toKey.size * j := Nat.mul_le_mul_left _ h
            rw [Nat.mul_add] at this; omega
          · exact h
          · have : e.addr.toKey.size * (j + 1) ≤ e.addr.toKey.size * i := Nat.mul_le_mul_left _ h
            rw [Nat.mul_add] at this; omega
        apply BitVec.eq_of_toNat_eq; rw [hi, hj, hij]
      apply Key.ext'
      · exact key _ _ ho.x_dvd hof.x_dvd _ hc.1.1 hc.1.2 hfc.1.1 hfc.1.2
      · exact key _ _ ho.y_dvd hof.y_dvd _ hc.2.1.1 hc.2.1.2 hfc.2.1.1 hfc.2.1.2
      · exact key _ _ ho.z_dvd hof.z_dvd _ hc.2.2.1 hc.2.2.2 hfc.2.2.1 hfc.2.2.2
      · rw [hfl, hl]
    unfold waveLoop
    by_cases hw : ShortBy rd g T e
    · have hw' := hw
      unfold ShortBy at hw'
      rw [if_pos hw']
      obtain ⟨f, hf, hfl, hfc⟩ := hanc e he (by omega)
      have ho := hdb.octants e he
      have hanc' : findAncestor e.addr ((e.addr.level : Int) - 1) =
          .ok { toKey := e.addr.toKey.trunc (e.addr.level - 1), type := .interior } := by
        have := findAncestor_eq (a := e.addr) (n := e.addr.level - 1) (by omega) (by have := ho.level_le; omega)
        rw [← this]; congr 1; omega
      rw [hanc']
      have hft : f.addr.toKey = e.addr.toKey.trunc (e.addr.level - 1) := by
        have := ((Key.contains_iff_trunc (hdb.octants f hf) ho).1 hfc).2
        rw [← this]; congr 1; omega
      dsimp only
      rw [← hft, Db.search_self hdb hf]
      dsimp only
      obtain ⟨c, last, h1, h2, h3, h4, h5, h6, h7⟩ := ih e.payload f hf (Key.contains_trans hfc hc) (by omega)
      refine ⟨c, last, h1, h2, h3, h4, by omega, ?_, ?_⟩
      · intro d hd hdc hdl hdn
        rcases Nat.lt_or_ge n d.addr.level with h | h
        · rw [same d hd hdc (by omega)]; exact hw
        · exact h6 d hd hdc hdl h
      · rcases h7 with ⟨rfl, rfl⟩ | h
        · exact Or.inr ⟨e, he, hc, by omega, rfl⟩
        · exact Or.inr h
    · have hw' := hw
      unfold ShortBy at hw'
      rw [if_neg hw']
      refine ⟨child, e, rfl, he, hc, hw, by omega, ?_, Or.inl ⟨rfl, rfl⟩⟩
      intro f _ _ h1 h2; omega

/-- The mean of a payload with itself is that payload. -/
def Rd.KeepsSame (rd : Rd K) (db : Db K) : Prop := ∀ e ∈ db.entries, waveAverage rd e.payload e.payload = e.payload

theorem keepsSame {rd : Rd K} (h : rd.Exact) (db : Db K) : Rd.KeepsSame rd db := by
  have h' : ∀ x, rd.single x = x := fun x => (h x).1
  have h'' : ∀ x, rd.double x = x := fun x => (h x).2
  intro e _
  cases hp : e.payload
  simp [waveAverage, waveMean, h', h'', ← two_mul]

/-- WAVERES on one ancestor-closed database. -/
theorem ansP_walk {q : VMQuery K} (hq : q.queryFn = .WAVERES) (g : Geom K) {db : Db K} (hdb : db.Good)
    (hanc : db.AncestorClosed) {a : Addr} (ha : a.toKey.Aligned) :
    orphanOf q g db a = none ∧
    (((∀ e, db.Finest a.toKey e → ¬ Acceptable q g a.level e) ∧ ansP q g db a = noDataPayload) ∨
      (∃ e, db.Finest a.toKey e ∧ Acceptable q g a.level e) ∧
        (Rd.KeepsSame q.rd db → WalkUp (ShortBy q.rd g (g.vertExag * q.queryRes)) (fun e => ¬ ShortBy q.rd g (g.vertExag * q.queryRes) e)
          (fun c l p => p = waveAverage q.rd c l) db a.toKey (ansP q g db a))) := by
  by_cases hacc : ∃ e, db.Finest a.toKey e ∧ Acceptable q g a.level e
  · obtain ⟨e, he, hA⟩ := hacc
    have hs := (Db.search_iff hdb ha).2 he
    obtain ⟨c, last, h1, h2, h3, h4, h5, h6, h7⟩ := waveLoop_walk q.rd g hdb hanc (g.vertExag * q.queryRes) a.toKey
      e.addr.level e.payload e he.1 he.2.1 rfl
    have hno : ¬ (e.addr.type = .interior ∧
        quotGt q.rd (g.edgeLen e.addr.level) e.payload.vs (g.vertExag * q.queryRes) = true) := by
      rintro ⟨t1, t2⟩
      rw [quotGt_iff] at t2
      unfold Acceptable at hA
      rw [hq, t1] at hA
      rcases hA with hA | hA
      · cases hA
      · exact t2 hA
    have hP : ansP q g db a = waveAverage q.rd c last.payload := by
      unfold ansP; simp only [hs, hq, if_neg hno, h1]
    refine ⟨by unfold orphanOf; simp only [hs, hq, if_neg hno, h1], Or.inr ⟨⟨e, he, hA⟩, fun hsame => ?_⟩⟩
    rw [hP]
    refine ⟨e, last, he, h2, h3, h4, fun f hf hfc hfl => h6 f hf hfc hfl (he.2.2 f hf hfc), ?_⟩
    rcases h7 with ⟨rfl, rfl⟩ | ⟨d, hd, hdc, hdl, rfl⟩
    · left; exact ⟨rfl, hsame _ h2⟩
    · right; exact ⟨d, hd, hdc, hdl, rfl⟩
  · have hacc' : ∀ e, db.Finest a.toKey e → ¬ Acceptable q g a.level e := fun e he h => hacc ⟨e, he, h⟩
    obtain ⟨h1, h2⟩ := ansP_noData (q := q) g hdb.octants ha hacc'
    exact ⟨h2, Or.inl ⟨hacc', h1⟩⟩

/-- A walk as long as the criteria and the means agree. -/
theorem walkUp_imp {short short' long long' : Entry K → Prop} {mean mean' : Payload K → Payload K → Payload K → Prop} {db : Db K} {a : Key}
    {p : Payload K} (h : WalkUp short long mean db a p) (h1 : ∀ e ∈ db.entries, short e → short' e) (h2 : ∀ e ∈ db.entries, long e → long' e)
    (h3 : ∀ c ∈ db.entries, ∀ l ∈ db.entries, ∀ p, mean c.payload l.payload p → mean' c.payload l.payload p) :
    WalkUp short' long' mean' db a p := by
  obtain ⟨first, last, a1, a2, a3, a4, a5, a6⟩ := h
  refine ⟨first, last, a1, a2, a3, h2 _ a2 a4, fun e he hc hl => h1 e he (a5 e he hc hl), ?_⟩
  rcases a6 with a6 | ⟨c, b1, b2, b3, b4⟩
  · exact Or.inl a6
  · exact Or.inr ⟨c, b1, b2, b3, h3 c b1 last a2 _ b4⟩

/-- WAVERES on one ancestor-closed database, without rounding. -/
theorem ansP_wave {q : VMQuery K} (hx : q.rd.Exact) (hq : q.queryFn = .WAVERES) (g : Geom K) {db : Db K} (hdb : db.Good)
    (hanc : db.AncestorClosed) {a : Addr} (ha : a.toKey.Aligned) :
    orphanOf q g db a = none ∧
    (((∀ e, db.Finest a.toKey e → ¬ Acceptable q g a.level e) ∧ ansP q g db a = noDataPayload) ∨
      (∃ e, db.Finest a.toKey e ∧ Acceptable q g a.level e) ∧
        WaveWalk g (g.vertExag * q.queryRes) db a.toKey (ansP q g db a)) := by
  obtain ⟨h1, h2⟩ := ansP_walk hq g hdb hanc ha
  refine ⟨h1, h2.imp id fun ⟨h3, h4⟩ => ⟨h3, ?_⟩⟩
  exact walkUp_imp (h4 (keepsSame hx db)) (fun e _ => (wave_cond hx g _ e).1) (fun e _ h h' => h ((wave_cond hx g _ e).2 h'))
    (fun c _ l _ p h => by rw [h]; exact waveAverage_mean hx _ _)

/-- Queries without squashing, reduced to the converted location. -/
theorem payloadOf_plain {fmt : Fmt K} {q : VMQuery K} {g : Geom K} {db : Db K} {lon lat elev : K} {p : Payload K}
    (hg : g.Lawful) (hgeom : q.geom = some g) (hdb : q.db = some db) (hs : NotSquashed q elev) :
    PayloadOf fmt q lon lat elev p ↔
      ∃ n c, LookupLevel q g n ∧ conv g n lon lat elev = .ok c ∧ bothP q g db c = p := by
  rw [payloadOf_iff]
  simp only [hgeom, hdb, Option.some.injEq]
  constructor
  · rintro ⟨_, _, f, rfl, rfl, hf, rfl⟩
    rw [fetch_plain hg fmt db _ hs] at hf
    cases hn : levelFor q g with
    | exc m => rw [hn] at hf; cases hf
    | ub => rw [hn] at hf; cases hf
    | ok n =>
      rw [hn, Outcome.bind_ok] at hf
      cases hc : conv g n lon lat elev with
      | exc m => rw [hc] at hf; cases hf
      | ub => rw [hc] at hf; cases hf
      | ok c =>
        rw [hc] at hf; cases hf
        exact ⟨n, c, levelFor_iff.1 hn, hc, rfl⟩
  · rintro ⟨n, c, hn, hc, rfl⟩
    refine ⟨g, db, ⟨0, bothP q g db c, c.1, bothH fmt q g db c lon lat elev⟩, rfl, rfl, ?_, ?_⟩
    · rw [fetch_plain hg fmt db _ hs, levelFor_iff.2 hn, Outcome.bind_ok, hc]; rfl
    · rfl

end

/-- What both models together answer inside the model, from what each answers. -/
theorem bothP_combined {q : VMQuery K} {g : Geom K} {db : Db K} {a : Addr} {S : Db K → Payload K → Prop}
    (h1 : S db (ansP q g db a)) (h2 : ∀ x, q.dbExt = some x → S x (ansP q g x a)) :
    Combined S db q.dbExt (bothP q g db (a, 0)) := by
  have hd : detP q g db (a, 0) = ansP q g db a := by simp [detP]
  unfold bothP
  rw [hd]
  split
  · rename_i hfb
    cases hx : q.dbExt with
    | none => exact Or.inl ⟨h1, Or.inr rfl⟩
    | some x => exact Or.inr ⟨_, x, h1, hfb, rfl, h2 x hx⟩
  · rename_i hfb; exact Or.inl ⟨h1, Or.inl hfb⟩

theorem bothP_outside {q : VMQuery K} {g : Geom K} {db : Db K} {c : Addr × Int} (hc : c.2 ≠ 0)
    (hx : 2 ^ 31 ≤ c.1.x.toNat) (hext : ∀ x, q.dbExt = some x → x.Octants) :
    bothP q g db c = noDataPayload := by
  unfold bothP detP
  simp only [if_pos hc]
  cases he : q.dbExt with
  | none => simp
  | some x => simp [(ansP_outside q g (hext x he) hx).1]

theorem conv_cases {g : Geom K} (hg : g.Lawful) {n : Nat} {lon lat elev : K} {c : Addr × Int}
    (h : conv g n lon lat elev = .ok c) :
    (c.2 = 0 ∧ CellOf g n lon lat elev c.1 ∧ c.1.toKey.Aligned ∧ c.1.level = n ∧ c.1.type = .leaf) ∨
      (c.2 ≠ 0 ∧ OutsideOf g n lon lat elev ∧ 2 ^ 31 ≤ c.1.x.toNat) := by
  obtain ⟨a, code⟩ := c
  by_cases hc : code = 0
  · subst hc
    left
    exact ⟨rfl, h, hg.aligned _ _ _ _ _ h, (hg.keeps _ _ _ _ _ _ h).1, (hg.keeps _ _ _ _ _ _ h).2⟩
  · right
    exact ⟨hc, ⟨a, code, h, hc⟩, hg.outside _ _ _ _ _ _ h hc⟩

end VMQuery
end CenCalVM
