/-
Queries on an averaged database.
-/
import Verif.Lemmas.AvgFacts
import Verif.Lemmas.QueryEffects

set_option linter.unusedSectionVars false

namespace CenCalVM
variable {K : Type} [Field K] [LinearOrder K]

/-- The leaf found for a cell, if a leaf is found. -/
def Db.leafFor (db : Db K) (k : Key) : Option (Entry K) := (db.search k).filter fun e => decide (e.addr.type = .leaf)

theorem Db.leafFor_iff {db : Db K} (hdb : db.Good) {k : Key} (hk : k.Aligned) {e : Entry K} :
    db.leafFor k = some e ↔ db.Finest k e ∧ e.addr.type = .leaf := by
  unfold Db.leafFor
  rw [Option.filter_eq_some_iff, Db.search_iff hdb hk, decide_eq_true_eq]

namespace AvgEngine
variable [IsStrictOrderedRing K]

/-- Averaging does not change which leaf is found. -/
theorem Tree.leafFor {rd : K → K} {db out : Db K} {g : Seg K} (h : Tree rd db out g) (hdb : db.Good) {k : Key}
    (hk : k.Aligned ∨ 2 ^ 31 ≤ k.x.toNat) : out.leafFor k = db.leafFor k := by
  rcases hk with hk | hk
  · apply Option.ext
    intro e
    have h1 := Db.leafFor_iff hdb hk (e := e)
    have h2 := Db.leafFor_iff h.good hk (e := e)
    simp only [h1, h2]
    constructor
    · rintro ⟨⟨he, hc, hmax⟩, ht⟩
      rcases h.entries he with hin | ⟨hti, -⟩
      · exact ⟨⟨hin, hc, fun f hf => hmax f (h.keeps f hf)⟩, ht⟩
      · rw [hti] at ht; cases ht
    · rintro ⟨⟨he, hc, hmax⟩, ht⟩
      refine ⟨⟨h.keeps e he, hc, fun f hf hfc => ?_⟩, ht⟩
      by_contra hlt
      have heo := hdb.octants e he
      have hfo := h.octants f hf
      have e1 := (Key.contains_iff_trunc' heo.aligned hk).1 hc
      have e2 := (Key.contains_iff_trunc' hfo.aligned hk).1 hfc
      have hlt' : e.addr.level ≤ f.addr.level := by omega
      have hef : e.addr.toKey.Contains f.addr.toKey := by
        rw [Key.contains_iff_trunc' heo.aligned hfo.aligned]
        refine ⟨hlt', ?_⟩
        rw [← e2.2, Key.trunc_trunc _ hlt']
        exact e1.2
      rcases h.entries hf with hin | ⟨-, -, d, hd, hfd, hne⟩
      · rw [h.nonOverlapping e he f hin hef] at hlt; omega
      · have := h.nonOverlapping e he d hd (Key.contains_trans hef hfd)
        subst this
        have h3 := (Key.contains_iff_trunc hfo heo).1 hfd
        have h3' := h3.1
        have h4 := h3.2
        have hle : f.addr.level = e.addr.level := by omega
        rw [hle, heo.trunc_self] at h4
        exact hne h4.symm
  · unfold Db.leafFor
    rw [Db.search_outside h.octants hk, Db.search_outside hdb.octants hk]

end AvgEngine

namespace VMQuery

/-- Two databases give the same leaves. -/
def SameLeaves (db out : Db K) : Prop := ∀ k : Key, k.Aligned ∨ 2 ^ 31 ≤ k.x.toNat → out.leafFor k = db.leafFor k

theorem leaf_match {α : Type} (db : Db K) (k : Key) (A : α) (B : Entry K → α) :
    (match db.search k with
      | none => A
      | some e => if e.addr.type = .interior then A else B e) = (db.leafFor k).elim A B := by
  unfold Db.leafFor
  cases db.search k with
  | none => rfl
  | some e =>
    dsimp only
    rw [Option.filter_some]
    cases h : e.addr.type <;> simp

theorem cell_ok {g : Geom K} (hg : g.Lawful) {a b : Addr} {code : Int} {lon lat elev : K}
    (h : g.lonLatElevToAddr a lon lat elev = .ok (b, code)) : b.toKey.Aligned ∨ 2 ^ 31 ≤ b.toKey.x.toNat := by
  by_cases hc : code = 0
  · subst hc; exact Or.inl (hg.aligned _ _ _ _ _ h)
  · exact Or.inr (hg.outside _ _ _ _ _ _ h hc)

theorem queryMax_same {g : Geom K} (hg : g.Lawful) {db out : Db K} (h : SameLeaves db out) (a : Addr)
    (lon lat elev : K) : queryMax g a out lon lat elev false = queryMax g a db lon lat elev false := by
  unfold queryMax
  simp only [Bool.false_eq_true, if_false]
  cases hr : g.lonLatElevToAddr (leafAt a ETREE_MAXLEVEL) lon lat elev with
  | exc m => rfl
  | ub => rfl
  | ok r =>
    simp only [Outcome.bind_ok]
    split
    · rfl
    · have := h r.1.toKey (cell_ok hg hr)
      refine Eq.trans (b := (out.leafFor r.1.toKey).elim (Outcome.ok (noDataPayload, r.1))
        fun e : Entry K => .ok (e.payload, r.1)) ?_ ?_
      · rw [← leaf_match]; cases out.search r.1.toKey <;> rfl
      · rw [this, ← leaf_match]; cases db.search r.1.toKey <;> rfl

theorem elevOctant_leaf (db : Db K) (ext : Option (Db K)) (k : Key) :
    elevOctant db ext k = (db.leafFor k).elim (elevOctantExt ext k) fun e => some (e, db) := by
  rw [← leaf_match]; unfold elevOctant
  cases db.search k <;> rfl

theorem groundMissing_leaf (db : Db K) (k : Key) :
    groundMissing db k = (db.leafFor k).elim true fun e => decide (e.payload.vs = NODATAVAL) := by
  rw [← leaf_match]; unfold groundMissing
  cases db.search k with
  | none => rfl
  | some e => dsimp only; cases h : e.addr.type <;> simp

theorem queryElev_same {rd : Rd K} {g : Geom K} (hg : g.Lawful) {db out : Db K} (h : SameLeaves db out) (ext : Option (Db K))
    (a : Addr) (lon lat elev : K) (adj : Bool) :
    queryElev rd g out ext a lon lat elev adj = queryElev rd g db ext a lon lat elev adj := by
  unfold queryElev
  cases hr : g.lonLatElevToAddr (leafAt a ETREE_MAXLEVEL) lon lat elev with
  | exc m => rfl
  | ub => rfl
  | ok r =>
    simp only [Outcome.bind_ok]
    rw [elevOctant_leaf, elevOctant_leaf, h r.1.toKey (cell_ok hg hr)]
    cases db.leafFor r.1.toKey with
    | none => rfl
    | some e =>
      simp only [Option.elim_some]
      cases g.addrToLonLatElev e.addr with
      | exc m => rfl
      | ub => rfl
      | ok c =>
        simp only [Outcome.bind_ok]
        cases hr2 : g.lonLatElevToAddr r.1 lon lat (rd.double (c.2.2 + e.payload.depth)) with
        | exc m => rfl
        | ub => rfl
        | ok r2 =>
          simp only [Outcome.bind_ok]
          rw [groundMissing_leaf, groundMissing_leaf, h r2.1.toKey (cell_ok hg hr2)]

theorem fetch_same {fmt : Fmt K} {g : Geom K} (hg : g.Lawful) {db out : Db K} (h : SameLeaves db out) {q : VMQuery K}
    (hq : q.queryFn = .MAXRES) (d : Option (Db K)) (a : Addr) (lon lat elev : K) :
    fetch fmt { q with db := d } g out a lon lat elev = fetch fmt q g db a lon lat elev := by
  have hs : squashElev { q with db := d } g out a lon lat elev = squashElev q g db a lon lat elev := by
    unfold squashElev; rw [queryElev_same hg h]
  have hr : ∀ e' a' z, runQueryFn fmt { q with db := d } g e' a' out lon lat z false =
      runQueryFn fmt q g e' a' db lon lat z false := by
    intro e' a' z
    unfold runQueryFn
    simp only [hq, queryMax_same hg h]
  unfold fetch
  rw [hs]
  simp only [hr]
  rfl

theorem copyValues_same {g : Geom K} (hg : g.Lawful) {db out : Db K} (h : SameLeaves db out) {q : VMQuery K}
    (d : Option (Db K)) (lon lat elev : K) (p : Payload K) (s : CopyState K) (vs : List (Option Nat)) :
    copyValues { q with db := d } g out lon lat elev p s vs = copyValues q g db lon lat elev p s vs := by
  induction vs generalizing s with
  | nil => rfl
  | cons v vs ih =>
    have hc : copyValue { q with db := d } g out lon lat elev p s v = copyValue q g db lon lat elev p s v := by
      unfold copyValue
      simp only [queryElev_same hg h]
    simp only [copyValues, hc, ih]

/-- A MAXRES query sees a database only through its leaves. -/
theorem query_same {fmt : Fmt K} {g : Geom K} (hg : g.Lawful) {db out : Db K} (h : SameLeaves db out) {q q' : VMQuery K}
    (hgeom : q.geom = some g) (hdb : q.db = some db) (hq : q.queryFn = .MAXRES) {fs fs' : Files} {n : Int}
    {lon lat elev : K} {vals : List K} (hr : query fmt q fs n lon lat elev = .ok (q', fs', vals)) :
    query fmt { q with db := some out } fs n lon lat elev = .ok ({ q' with db := some out }, fs', vals) := by
  obtain ⟨hn, g1, db1, f, s, h1, h2, h3, h4, h5, h6⟩ := query_ok hr
  rw [hgeom] at h1; cases h1
  rw [hdb] at h2; cases h2
  unfold query
  rw [if_neg (by simp [hn])]
  simp only [hgeom]
  have e1 := fetch_same (fmt := fmt) hg h hq (some out) scratch lon lat elev
  rw [h3] at e1
  unfold scratch at e1
  rw [hgeom] at e1
  rw [e1]
  simp only [decide_eq_true_eq]
  unfold NODATABLOCK
  have e2 := copyValues_same (q := q) hg h (some out) lon lat elev f.payload
    ⟨f.elevRef, f.addr, if f.payload.faultBlock = 0 then f.err.warning (noDataWarning fmt lon lat elev) else f.err⟩
    q.queryVals
  rw [h5, hgeom] at e2
  rw [e2]
  subst h4 h6
  simp only [hgeom]

end VMQuery
end CenCalVM
