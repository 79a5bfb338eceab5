/-
Extraction of a grid of points.
-/
import Verif.Spec.Grade
import Verif.Lemmas.GradeVolume
import Verif.Lemmas.QueryEffects

set_option linter.unusedSectionVars false

namespace CenCalVM
namespace VsGrader

section loops
variable {σ α : Type}

/-- Running a body over a list. -/
def each (body : α → σ → Run σ Unit) : List α → σ → Run σ Unit
  | [], s => .ok s ()
  | a :: l, s => (body a s).bind fun s _ => each body l s

theorem Run.bind_assoc' {β γ : Type} (r : Run σ α) (f : σ → α → Run σ β) (g : σ → β → Run σ γ) :
    (r.bind f).bind g = r.bind fun s a => (f s a).bind g := by
  cases r <;> rfl

theorem each_append (body : α → σ → Run σ Unit) (l l' : List α) (s : σ) :
    each body (l ++ l') s = (each body l s).bind fun s _ => each body l' s := by
  induction l generalizing s with
  | nil => rfl
  | cons a l ih =>
    simp only [List.cons_append, each, Run.bind_assoc']
    congr 1
    funext s' _
    exact ih s'

theorem loop_eq_each (body : Nat → σ → Run σ Unit) (n : Nat) (s : σ) : loop body n s = each body (List.range n) s := by
  induction n with
  | zero => rfl
  | succ n ih =>
    rw [List.range_succ, each_append, ← ih]
    show (loop body n s).bind _ = _
    congr 1
    funext s' _
    cases h : body n s' <;> simp [each, h]

theorem each_map {β : Type} (body : α → σ → Run σ Unit) (f : β → α) (l : List β) (s : σ) :
    each body (l.map f) s = each (fun b => body (f b)) l s := by
  induction l generalizing s with
  | nil => rfl
  | cons b l ih =>
    simp only [List.map_cons, each]
    congr 1
    funext s' _
    exact ih s'

theorem each_flatMap {β : Type} (body : α → σ → Run σ Unit) (f : β → List α) (l : List β) (s : σ) :
    each body (l.flatMap f) s = each (fun b => each body (f b)) l s := by
  induction l generalizing s with
  | nil => rfl
  | cons b l ih =>
    rw [List.flatMap_cons, each_append]
    simp only [each]
    congr 1
    funext s' _
    exact ih s'

theorem loops_eq_each (body : Nat × Nat × Nat → σ → Run σ Unit) (nL nW nH : Nat) (s : σ) :
    loop (fun l s => loop (fun w s => loop (fun h s => body (l, w, h) s) nH s) nW s) nL s = each body (points nL nW nH) s := by
  unfold points
  rw [each_flatMap, loop_eq_each]
  congr 1
  funext l s
  rw [each_flatMap, loop_eq_each]
  congr 1
  funext w s
  rw [each_map, loop_eq_each]

end loops

variable {K : Type} [Field K] [LinearOrder K] [IsStrictOrderedRing K] [FloorRing K]

theorem loc_pointAt {s : Grid K} {l w h : Nat} {r : K × K × K} (hr : s.loc l w h = .ok r) :
    PointAt s l w h r.1 r.2.1 r.2.2 := by
  unfold Grid.loc at hr
  cases hl : s.lonLat l w with
  | exc m => rw [hl] at hr; cases hr
  | ub => rw [hl] at hr; cases hr
  | ok x =>
    rw [hl] at hr
    cases hr
    exact ⟨hl, rfl⟩

theorem loc_of_pointAt {s : Grid K} {l w h : Nat} {lon lat elev : K} (hp : PointAt s l w h lon lat elev) :
    s.loc l w h = .ok (lon, lat, elev) := by
  obtain ⟨h1, rfl⟩ := hp
  have h2 : s.lonLat l w = .ok (lon, lat) := h1
  unfold Grid.loc
  rw [h2]
  rfl

theorem trunc_int (n : Int) : trunc (n : K) = n := by
  unfold trunc
  split <;> simp

theorem extractPayload_ok {rd : Rd K} {minVs : K} {p r : Payload K} (h : extractPayload rd minVs ((List.range 8).map (pick p)) = .ok r) :
    ExtractedFrom rd minVs p r := by
  have e : (List.range 8).map (pick p) = [p.vp, p.vs, p.density, p.qp, p.qs, p.depth, (p.faultBlock : K), (p.zone : K)] := rfl
  rw [e] at h
  unfold extractPayload toInt16 at h
  simp only [trunc_int] at h
  split at h
  · rename_i b z hb hz
    split at hb <;> cases hb
    split at hz <;> cases hz
    split at h
    · rename_i hlt
      cases h
      refine Or.inl ⟨hlt, ?_⟩
      simp only [markPayload, noDataVal]
      norm_num
    · rename_i hge
      cases h
      refine Or.inr ⟨not_lt.1 hge, _, ?_, rfl⟩
      split
      · rename_i h; exact Or.inr ⟨h, rfl⟩
      · rename_i h; exact Or.inl ⟨not_lt.1 h, rfl⟩
  · cases h

/-- What is extracted without rounding. -/
theorem ExtractedFrom.exact {rd : Rd K} (hx : rd.Exact) {minVs : K} {p r : Payload K} (h : ExtractedFrom rd minVs p r) :
    (p.vs < 0 ∧ r = ⟨10 ^ 10, 10 ^ 10, 10 ^ 10, 10 ^ 10, 10 ^ 10, 10 ^ 10, 999, 999⟩) ∨ (0 ≤ p.vs ∧ r = { p with vs := max p.vs minVs }) := by
  rw [hx.eq] at h
  rcases h with h | ⟨h0, v, hv, hr⟩
  · exact Or.inl h
  · refine Or.inr ⟨h0, hr.trans ?_⟩
    have e : v = max p.vs minVs := by
      rcases hv with ⟨h1, h2⟩ | ⟨h1, h2⟩
      · exact h2.trans (max_eq_left h1).symm
      · exact h2.trans (max_eq_right (le_of_lt h1)).symm
    rw [e]
    rfl

theorem extractPayload_total {rd : Rd K} {minVs : K} {p : Payload K} (h1 : -32768 ≤ p.faultBlock ∧ p.faultBlock < 32768)
    (h2 : -32768 ≤ p.zone ∧ p.zone < 32768) : ∃ r, extractPayload rd minVs ((List.range 8).map (pick p)) = .ok r := by
  have e : (List.range 8).map (pick p) = [p.vp, p.vs, p.density, p.qp, p.qs, p.depth, (p.faultBlock : K), (p.zone : K)] := rfl
  rw [e]
  unfold extractPayload toInt16
  simp only [trunc_int]
  rw [if_pos h1, if_pos h2]
  simp only
  split <;> exact ⟨_, rfl⟩

/-- The answer does not depend on the error handler. -/
theorem payloadOf_err {fmt : Fmt K} {q : VMQuery K} {g : Geom K} {db : Db K} (hg : g.Lawful) (hgeom : q.geom = some g)
    (hdb : q.db = some db) (hs : q.squashTopo = false) (e : ErrorHandler) {lon lat elev : K} {p : Payload K} :
    PayloadOf fmt { q with err := e } lon lat elev p ↔ PayloadOf fmt q lon lat elev p := by
  rw [VMQuery.payloadOf_plain (q := { q with err := e }) hg hgeom hdb (Or.inl hs),
    VMQuery.payloadOf_plain hg hgeom hdb (Or.inl hs)]
  exact Iff.rfl

/-- A query for the eight values of a payload. -/
theorem query_eight {fmt : Fmt K} {q q' : VMQuery K} {fs fs' : Files} {lon lat elev : K} {vals : List K}
    (hv : q.queryVals = (List.range 8).map some) (h : VMQuery.query fmt q fs 8 lon lat elev = .ok (q', fs', vals)) :
    ∃ p, PayloadOf fmt q lon lat elev p ∧ vals = (List.range 8).map (pick p) ∧ ∃ e, q' = { q with err := e } := by
  obtain ⟨-, g, db, f, s, hg, hdb, hf, -, hc, hq⟩ := VMQuery.query_ok h
  rw [hv, VMQuery.copyValues_picks _ _ _ _ _ _ _ _ _ (by simp)] at hc
  simp only [Outcome.ok.injEq, Prod.mk.injEq] at hc
  exact ⟨f.payload, VMQuery.payloadOf_iff.2 ⟨g, db, f, hg, hdb, hf, rfl⟩, hc.1.symm, _, hq⟩

/-- The query object as it is during the extraction: only the error handler changes. -/
def Alike (q q' : VMQuery K) : Prop := ∃ e, q' = { q with err := e }

theorem extractPoint_ok {fmt : Fmt K} {env : EtreeEnv} {s : Grid K} {n : Nat} (hlv : s.geom.level s.resHoriz = .ok (n : Int))
    {q : VMQuery K} {g : Geom K} {db0 : Db K} (hg : g.Lawful) (hgeom : q.geom = some g) (hdb : q.db = some db0)
    (hsq : q.squashTopo = false) (hv : q.queryVals = (List.range 8).map some) {w w' : Work K} (hw : Alike q w.q)
    {name : String} {f : EtreeFile K} (hc : w.c.pDB = some (name, f)) {pt : Nat × Nat × Nat}
    (h : extractPoint fmt env s pt.1 pt.2.1 pt.2.2 w = .ok w' ()) :
    ∃ e db, ExtractedAt fmt q s n pt e ∧ f.db.insert e = some db ∧ Alike q w'.q ∧
      w'.c = { w.c with pDB := some (name, { f with db := db }) } := by
  unfold extractPoint at h
  split at h <;> try cases h
  rename_i r hr
  split at h <;> try cases h
  rename_i v hq
  obtain ⟨eh, hweq⟩ := hw
  split at h <;> try cases h
  rename_i p hp
  split at h <;> try cases h
  rename_i c u hi
  cases u
  rw [hweq] at hq
  obtain ⟨q1, fs1, vals1⟩ := v
  obtain ⟨p0, a1, a2, e', a3⟩ := query_eight (q := { q with err := eh }) hv hq
  simp only at hp
  rw [a2] at hp
  rw [payloadOf_err hg hgeom hdb hsq] at a1
  obtain ⟨e, db, b1, b2, b3⟩ := VMCreator.insert_ok (d := ⟨p, r.1, r.2.1, r.2.2⟩) hlv hc hi
  obtain ⟨b4, code, b5⟩ := b1
  refine ⟨e, db, ⟨r.1, r.2.1, r.2.2, p0, code, loc_pointAt hr, a1, b5, ?_⟩, b2, ⟨e', by rw [a3]⟩, b3⟩
  rw [b4]
  exact extractPayload_ok hp

/-- What a sequence of extractions stores. -/
theorem extractEach_ok {fmt : Fmt K} {env : EtreeEnv} {s : Grid K} {n : Nat} (hlv : s.geom.level s.resHoriz = .ok (n : Int))
    {q : VMQuery K} {g : Geom K} {db0 : Db K} (hg : g.Lawful) (hgeom : q.geom = some g) (hdb : q.db = some db0)
    (hsq : q.squashTopo = false) (hv : q.queryVals = (List.range 8).map some) {w w' : Work K} (hw : Alike q w.q)
    {name : String} {f : EtreeFile K} (hc : w.c.pDB = some (name, f)) {pts : List (Nat × Nat × Nat)}
    (h : each (fun pt w => extractPoint fmt env s pt.1 pt.2.1 pt.2.2 w) pts w = .ok w' ()) :
    ∃ es db, List.Forall₂ (ExtractedAt fmt q s n) pts es ∧ db.entries.Perm (es ++ f.db.entries) ∧
      (f.db.Sorted → db.Sorted) ∧ VMCreator.DistinctKeys es ∧ (∀ e ∈ es, ∀ x ∈ f.db.entries, x.addr.toKey ≠ e.addr.toKey) ∧
      w'.c = { w.c with pDB := some (name, { f with db := db }) } := by
  induction pts generalizing w f with
  | nil =>
    cases h
    refine ⟨[], f.db, .nil, List.Perm.refl _, id, List.Pairwise.nil, fun e he => by simp at he, ?_⟩
    rw [← hc]
  | cons pt pts ih =>
    unfold each at h
    cases hx : extractPoint fmt env s pt.1 pt.2.1 pt.2.2 w with
    | exc m x => rw [hx] at h; cases h
    | ub => rw [hx] at h; cases h
    | ok w1 u =>
      cases u
      rw [hx, Run.bind_ok] at h
      obtain ⟨e, db, h1, h2, h3, h4⟩ := extractPoint_ok hlv hg hgeom hdb hsq hv hw hc hx
      obtain ⟨i1, i2, i3⟩ := Db.insert_some h2
      obtain ⟨es, db', a1, a2, a4, a5, a6, a3⟩ := ih (f := { f with db := db }) h3 (by rw [h4]) h
      refine ⟨e :: es, db', .cons h1 a1, ?_, fun hs => a4 (i3 hs), ?_, ?_, ?_⟩
      · refine a2.trans ?_
        refine (i2.append_left es).trans ?_
        simp
      · refine List.pairwise_cons.2 ⟨fun x hx => ?_, a5⟩
        exact a6 x hx e (i2.symm.subset List.mem_cons_self)
      · intro x hx y hy
        rcases List.mem_cons.1 hx with rfl | hx
        · exact i1 y hy
        · exact a6 x hx y (i2.symm.subset (List.mem_cons_of_mem _ hy))
      · rw [a3, h4]

theorem mem_points {nL nW nH l w h : Nat} : (l, w, h) ∈ points nL nW nH ↔ l < nL ∧ w < nW ∧ h < nH := by
  unfold points
  simp

theorem points_nodup (nL nW nH : Nat) : (points nL nW nH).Nodup := by
  unfold points
  rw [List.nodup_flatMap]
  refine ⟨fun l _ => ?_, ?_⟩
  · rw [List.nodup_flatMap]
    refine ⟨fun w _ => ?_, ?_⟩
    · exact List.nodup_range.map fun a b h => by simpa using h
    · refine List.nodup_range.imp fun {a b} hab => ?_
      intro x hx hy
      simp only [List.mem_map] at hx hy
      obtain ⟨c, -, rfl⟩ := hx
      obtain ⟨d, -, hd⟩ := hy
      simp only [Prod.mk.injEq, true_and] at hd
      exact hab hd.1.symm
  · refine List.nodup_range.imp fun {a b} hab => ?_
    intro x hx hy
    simp only [List.mem_flatMap, List.mem_map] at hx hy
    obtain ⟨c, -, c', -, rfl⟩ := hx
    obtain ⟨d, -, d', -, hd⟩ := hy
    simp only [Prod.mk.injEq] at hd
    exact hab hd.1.symm

end VsGrader
end CenCalVM
