/-
Ingesting grids in another order.
-/
import Verif.Props.Create
import Mathlib.Data.List.Perm.Basic

set_option linter.unusedSectionVars false

namespace CenCalVM
namespace GridIngester
open VMCreator
variable {K : Type} [Field K] [LinearOrder K] [IsStrictOrderedRing K]

theorem placed_unique {g : Geom K} {n : Nat} {ds : List (Datum K)} {es es' : List (Entry K)} (h : List.Forall₂ (Placed g n) ds es)
    (h' : List.Forall₂ (Placed g n) ds es') : es = es' := by
  induction h generalizing es' with
  | nil => cases h'; rfl
  | @cons d e ds es h1 h2 ih =>
    cases h' with
    | @cons _ e' _ es' h1' h2' =>
      obtain ⟨a1, c, a2⟩ := h1
      obtain ⟨b1, c', b2⟩ := h1'
      have he : e.addr = e'.addr := congrArg Prod.fst (Outcome.ok.inj (a2.symm.trans b2))
      have : e = e' := by
        cases e; cases e'
        simp only at he a1 b1
        rw [he, a1, b1]
      rw [this, ih h2']

/-- No octant of the first list has the key of one of the second. -/
def KeysApart (es fs : List (Entry K)) : Prop := ∀ e ∈ es, ∀ x ∈ fs, x.addr.toKey ≠ e.addr.toKey

/-- What ingesting a grid file adds, whatever is in the database: it succeeds exactly if the octants have no key twice and none that is
stored. -/
def Content (env : EtreeEnv) (nf : NumFmt K) (junk : Payload K) (g : Geom K) (files : String → Option (List Char)) (filename : String)
    (es : List (Entry K)) : Prop :=
  ∀ (c : Creator K) (name : String) (f : EtreeFile K), c.pDB = some (name, f) → DistinctKeys es → KeysApart es f.db.entries →
    ∃ m db, addGrid env nf junk (some g) files c filename = .ok { c with pDB := some (name, { f with db := db }) } m ∧
      db.entries.Perm (es ++ f.db.entries) ∧ (f.db.Sorted → db.Sorted)

theorem addGrid_indep {env : EtreeEnv} {nf : NumFmt K} {junk : Payload K} {g : Geom K} {files : String → Option (List Char)}
    {c c' : Creator K} {filename : String} {m : Counts} (h : addGrid env nf junk (some g) files c filename = .ok c' m) :
    ∃ (res : K) (k n : Nat) (s : Stream), g.level res = .ok (n : Int) ∧
      ∀ c₂, addGrid env nf junk (some g) files c₂ filename = pointLoop env nf junk g res k s ⟨0, 0⟩ c₂ := by
  unfold addGrid at h
  simp only at h
  cases hf : files filename with
  | none => rw [hf] at h; cases h
  | some text =>
    rw [hf] at h
    simp only at h
    split at h
    · cases h
    · rename_i hra
      cases hl : g.level (nf.rd.double ((readHeader nf (Stream.ofText text)).2.resHoriz * 1000)) with
      | exc m => rw [hl] at h; cases h
      | ub => rw [hl] at h; cases h
      | ok n =>
        rw [hl] at h
        simp only at h
        split at h
        · cases h
        · rename_i hn
          split at h
          · cases h
          · rename_i hq
            refine ⟨_, (readHeader nf (Stream.ofText text)).2.numTotal.toNat, n.toNat, (readHeader nf (Stream.ofText text)).1,
              by rw [Int.toNat_of_nonneg (by omega)]; exact hl, fun c₂ => ?_⟩
            unfold addGrid
            simp only [hf, hl]
            rw [if_neg hra, if_neg hn, if_neg hq]

theorem pointLoop_good {env : EtreeEnv} {nf : NumFmt K} {junk : Payload K} {g : Geom K} {res : K} {k : Nat} {s : Stream} {n m : Counts}
    {c c' : Creator K} (h : pointLoop env nf junk g res (k + 1) s n c = .ok c' m) : s.good = true := by
  unfold pointLoop at h
  dsimp only at h
  cases hg : (readPoint nf junk s).1.good with
  | false => rw [hg] at h; cases h
  | true =>
    rcases hr : readPoint nf junk s with ⟨s', p⟩
    rw [hr] at hg
    dsimp only at hg
    rw [good_eq hg] at hr
    exact (readPoint_iff.2 hr).1

theorem addGrid_content {env : EtreeEnv} (he : env.Reliable) {nf : NumFmt K} {junk : Payload K} {g : Geom K}
    {files : String → Option (List Char)} {c c' : Creator K} {name : String} {f : EtreeFile K} (hc : c.pDB = some (name, f))
    {filename : String} {m : Counts} (h : addGrid env nf junk (some g) files c filename = .ok c' m) :
    ∃ es db, Content env nf junk g files filename es ∧ c' = { c with pDB := some (name, { f with db := db }) } ∧
      db.entries.Perm (es ++ f.db.entries) ∧ (f.db.Sorted → db.Sorted) ∧ DistinctKeys es ∧ KeysApart es f.db.entries := by
  obtain ⟨res, k, n, s, hlv, hind⟩ := addGrid_indep h
  rw [hind] at h
  obtain ⟨pts, t', h1, h2, h3, h4, h5⟩ := pointLoop_ok h
  obtain ⟨es, db, a1, a2, a3, a4, a5, a6⟩ := insertAll_ok hlv hc h5
  refine ⟨es, db, ?_, a3, a2, a4, a5, a6⟩
  intro c₂ name₂ f₂ hc₂ hd ha
  have hs : s.good = true ∨ pts = [] := by
    cases pts with
    | nil => exact Or.inr rfl
    | cons p pts =>
      rw [← h2] at h
      exact Or.inl (pointLoop_good h)
  obtain ⟨c₂', hi⟩ := insertAll_run he hlv a1 hc₂ hd ha
  obtain ⟨es', db', b1, b2, b3, b4, -, -⟩ := insertAll_ok hlv hc₂ hi
  rw [placed_unique b1 a1] at b2
  have hr := pointLoop_eq (env := env) (g := g) (junk := junk) (n := ⟨0, 0⟩) (c := c₂) (res := res) hs h1
  rw [hi, Run.bind_ok, b3, h2, ← hind c₂] at hr
  exact ⟨_, db', hr, b2, b4⟩

theorem KeysApart.perm {es es' fs fs' : List (Entry K)} (h : KeysApart es fs) (h1 : es'.Perm es) (h2 : fs'.Perm fs) : KeysApart es' fs' :=
  fun e he x hx => h e (h1.subset he) x (h2.subset hx)

theorem addGrids_content {env : EtreeEnv} (he : env.Reliable) {nf : NumFmt K} {junk : Payload K} {g : Geom K}
    {files : String → Option (List Char)} {names : List String} {c c' : Creator K} {name : String} {f : EtreeFile K}
    (hc : c.pDB = some (name, f)) (h : addGrids env nf junk (some g) files names c = .ok c' ()) :
    ∃ grids db, List.Forall₂ (Content env nf junk g files) names grids ∧ c' = { c with pDB := some (name, { f with db := db }) } ∧
      db.entries.Perm (grids.flatten ++ f.db.entries) ∧ (f.db.Sorted → db.Sorted) ∧ DistinctKeys grids.flatten ∧
      KeysApart grids.flatten f.db.entries := by
  induction names generalizing c f with
  | nil =>
    cases h
    refine ⟨[], f.db, .nil, ?_, List.Perm.refl _, id, List.Pairwise.nil, fun e he => by simp at he⟩
    cases c'; cases f; cases hc; rfl
  | cons a names ih =>
    unfold addGrids at h
    cases hi : addGrid env nf junk (some g) files c a with
    | ub => rw [hi] at h; cases h
    | exc m cx => rw [hi] at h; cases h
    | ok cx m =>
      rw [hi, Run.bind_ok] at h
      obtain ⟨es, db, b1, rfl, b3, b4, b5, b6⟩ := addGrid_content he hc hi
      obtain ⟨grids, db', d1, d2, d3, d4, d5, d6⟩ := ih (f := { f with db := db }) rfl h
      have d7 : KeysApart grids.flatten (es ++ f.db.entries) := d6.perm (List.Perm.refl _) b3.symm
      refine ⟨es :: grids, db', .cons b1 d1, d2, ?_, fun hs => d4 (b4 hs), ?_, ?_⟩
      · refine d3.trans ((b3.append_left _).trans ?_)
        simp only [List.flatten_cons]
        rw [← List.append_assoc]
        exact List.perm_append_comm.append_right _
      · rw [List.flatten_cons]
        refine List.pairwise_append.2 ⟨b5, d5, fun x hx y hy => ?_⟩
        exact d7 y hy x (List.mem_append_left _ hx)
      · rw [List.flatten_cons]
        intro e he x hx
        rcases List.mem_append.1 he with he | he
        · exact b6 e he x hx
        · exact d7 e he x (List.mem_append_right _ hx)

theorem addGrids_of_content {env : EtreeEnv} {nf : NumFmt K} {junk : Payload K} {g : Geom K}
    {files : String → Option (List Char)} {names : List String} {grids : List (List (Entry K))}
    (hg : List.Forall₂ (Content env nf junk g files) names grids) (hd : DistinctKeys grids.flatten)
    {c : Creator K} {name : String} {f : EtreeFile K} (hc : c.pDB = some (name, f)) (ha : KeysApart grids.flatten f.db.entries) :
    ∃ db, addGrids env nf junk (some g) files names c = .ok { c with pDB := some (name, { f with db := db }) } () ∧
      db.entries.Perm (grids.flatten ++ f.db.entries) ∧ (f.db.Sorted → db.Sorted) := by
  induction hg generalizing c f with
  | nil =>
    refine ⟨f.db, ?_, List.Perm.refl _, id⟩
    cases c; cases f; cases hc; rfl
  | @cons a es names grids h1 h2 ih =>
    rw [List.flatten_cons] at hd ha
    obtain ⟨d1, d2, d3⟩ := List.pairwise_append.1 hd
    obtain ⟨m, db, e1, e2, e3⟩ := h1 c name f hc d1 fun e he x hx => ha e (List.mem_append_left _ he) x hx
    obtain ⟨db', e4, e5, e6⟩ := ih d2 (c := { c with pDB := some (name, { f with db := db }) }) (f := { f with db := db }) rfl (by
      intro e he x hx
      rcases List.mem_append.1 (e2.subset hx) with hx | hx
      · exact d3 x hx e he
      · exact ha e (List.mem_append_right _ he) x hx)
    refine ⟨db', ?_, ?_, fun hs => e6 (e3 hs)⟩
    · unfold addGrids
      rw [e1, Run.bind_ok]
      exact e4
    · refine e5.trans ((e2.append_left _).trans ?_)
      simp only [List.flatten_cons]
      rw [← List.append_assoc]
      exact List.perm_append_comm.append_right _

theorem sorted_eq {db db' : Db K} (h : db.Sorted) (h' : db'.Sorted) (hp : db.entries.Perm db'.entries) : db = db' := by
  have : db.entries = db'.entries :=
    List.Perm.eq_of_pairwise (fun a b _ _ h1 h2 => absurd h1 (lt_asymm h2)) h h' hp
  cases db; cases db'
  simp only at this
  rw [this]

/-- Ingesting the same grids in another order gives the same database. -/
theorem addGrids_perm {env : EtreeEnv} (he : env.Reliable) {nf : NumFmt K} {junk : Payload K} {g : Geom K}
    {files : String → Option (List Char)} {names names' : List String} (hp : names'.Perm names) {c c' : Creator K} {name : String}
    {f : EtreeFile K} (hc : c.pDB = some (name, f)) (hs : f.db.Sorted) (h : addGrids env nf junk (some g) files names c = .ok c' ()) :
    addGrids env nf junk (some g) files names' c = .ok c' () := by
  obtain ⟨grids, db, a1, rfl, a3, a4, a5, a6⟩ := addGrids_content he hc h
  obtain ⟨grids', b1, b2⟩ := List.perm_comp_forall₂ hp a1
  have hfl : grids'.flatten.Perm grids.flatten := b2.flatten
  obtain ⟨db', d1, d2, d3⟩ := addGrids_of_content b1 (hfl.symm.pairwise a5 fun {x y} hxy => Ne.symm hxy) hc (a6.perm hfl (List.Perm.refl _))
  rw [d1, sorted_eq (d3 hs) (a4 hs) (d2.trans ((hfl.append_right _).trans a3.symm))]

end GridIngester
end CenCalVM
