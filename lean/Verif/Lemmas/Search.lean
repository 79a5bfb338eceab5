/-
What etree_search finds.
-/
import Verif.Lemmas.Octree
import Verif.Spec.Query

namespace CenCalVM
namespace Db
variable {K : Type}

theorem lookup_some {db : Db K} {k : Key} {e : Entry K} (h : db.lookup k = some e) :
    e ∈ db.entries ∧ e.addr.toKey = k := by
  unfold lookup at h
  exact ⟨List.mem_of_find?_eq_some h, by simpa using List.find?_some h⟩

theorem lookup_none {db : Db K} {k : Key} (h : db.lookup k = none) :
    ∀ e ∈ db.entries, e.addr.toKey ≠ k := by
  unfold lookup at h
  rw [List.find?_eq_none] at h
  intro e he; simpa using h e he

theorem lookup_isSome {db : Db K} {e : Entry K} (h : e ∈ db.entries) :
    ∃ f, db.lookup e.addr.toKey = some f := by
  cases hl : db.lookup e.addr.toKey with
  | some f => exact ⟨f, rfl⟩
  | none => exact absurd rfl (lookup_none hl e h)

theorem searchFrom_some {db : Db K} {k : Key} {e : Entry K} {n : Nat} (h : db.searchFrom k n = some e) :
    e ∈ db.entries ∧ e.addr.level ≤ n ∧ e.addr.toKey = k.trunc e.addr.level ∧
      ∀ m, e.addr.level < m → m ≤ n → ∀ f ∈ db.entries, f.addr.toKey ≠ k.trunc m := by
  induction n with
  | zero =>
    obtain ⟨h1, h2⟩ := lookup_some h
    have hl : e.addr.level = 0 := by rw [h2]; rfl
    refine ⟨h1, by omega, by rw [hl, h2], fun m hm hm' => by omega⟩
  | succ n ih =>
    unfold searchFrom at h
    cases hl : db.lookup (k.trunc (n + 1)) with
    | some f =>
      rw [hl] at h; cases h
      obtain ⟨h1, h2⟩ := lookup_some hl
      have hl : e.addr.level = n + 1 := by rw [h2]; rfl
      exact ⟨h1, by omega, by rw [hl, h2], fun m hm hm' => by omega⟩
    | none =>
      rw [hl] at h
      obtain ⟨h1, h2, h3, h4⟩ := ih h
      refine ⟨h1, by omega, h3, fun m hm hm' f hf => ?_⟩
      rcases Nat.lt_or_ge n m with hlt | hge
      · have : m = n + 1 := by omega
        subst this; exact lookup_none hl f hf
      · exact h4 m hm hge f hf

theorem searchFrom_none {db : Db K} {k : Key} {n : Nat} (h : db.searchFrom k n = none) :
    ∀ m ≤ n, ∀ f ∈ db.entries, f.addr.toKey ≠ k.trunc m := by
  induction n with
  | zero =>
    intro m hm f hf
    obtain rfl : m = 0 := by omega
    exact lookup_none h f hf
  | succ n ih =>
    unfold searchFrom at h
    cases hl : db.lookup (k.trunc (n + 1)) with
    | some f => rw [hl] at h; cases h
    | none =>
      rw [hl] at h
      intro m hm f hf
      rcases Nat.lt_or_ge n m with hlt | hge
      · obtain rfl : m = n + 1 := by omega
        exact lookup_none hl f hf
      · exact ih h m hge f hf

theorem search_level {db : Db K} {k : Key} {e : Entry K} (h : db.search k = some e) :
    e ∈ db.entries ∧ e.addr.level ≤ k.level ∧ e.addr.toKey = k.trunc e.addr.level :=
  let ⟨a, b, c, _⟩ := searchFrom_some h
  ⟨a, b, c⟩

/-- A successful search returns the smallest stored octant containing the cell. -/
theorem search_finest {db : Db K} (hdb : db.Octants) {k : Key} (hk : k.Aligned) {e : Entry K}
    (h : db.search k = some e) : db.Finest k e := by
  obtain ⟨h1, h2, h3, h4⟩ := searchFrom_some h
  refine ⟨h1, (Key.contains_iff_trunc' (hdb e h1).aligned hk).2 ⟨h2, h3.symm⟩, fun f hf hc => ?_⟩
  obtain ⟨c1, c2⟩ := (Key.contains_iff_trunc' (hdb f hf).aligned hk).1 hc
  by_contra hcon
  exact h4 _ (by omega) c1 f hf c2.symm

theorem search_none_iff {db : Db K} (hdb : db.Octants) {k : Key} (hk : k.Aligned) :
    db.search k = none ↔ ∀ e ∈ db.entries, ¬ e.addr.toKey.Contains k := by
  constructor
  · intro h e he hc
    obtain ⟨c1, c2⟩ := (Key.contains_iff_trunc' (hdb e he).aligned hk).1 hc
    exact searchFrom_none h _ c1 e he c2.symm
  · intro h
    cases hs : db.search k with
    | none => rfl
    | some e => exact absurd (search_finest hdb hk hs).2.1 (h e (search_finest hdb hk hs).1)

theorem sorted_unique {db : Db K} (h : db.Sorted) {e f : Entry K} (he : e ∈ db.entries) (hf : f ∈ db.entries)
    (hk : e.addr.toKey = f.addr.toKey) : e = f := by
  unfold Sorted at h
  revert h he hf
  induction db.entries with
  | nil => intro _ he; simp at he
  | cons a l ih =>
    intro h he hf
    rw [List.pairwise_cons] at h
    rcases List.mem_cons.1 he with rfl | he'
    · rcases List.mem_cons.1 hf with rfl | hf'
      · rfl
      · have := h.1 f hf'; rw [hk] at this; exact absurd this (lt_irrefl _)
    · rcases List.mem_cons.1 hf with rfl | hf'
      · have := h.1 e he'; rw [hk] at this; exact absurd this (lt_irrefl _)
      · exact ih h.2 he' hf'

theorem finest_unique {db : Db K} (hdb : db.Good) {k : Key} (hk : k.Aligned) {e f : Entry K}
    (he : db.Finest k e) (hf : db.Finest k f) : e = f := by
  obtain ⟨e1, e2, e3⟩ := he
  obtain ⟨f1, f2, f3⟩ := hf
  have hl : e.addr.level = f.addr.level := Nat.le_antisymm (f3 e e1 e2) (e3 f f1 f2)
  apply sorted_unique hdb.sorted e1 f1
  obtain ⟨-, c1⟩ := (Key.contains_iff_trunc' (hdb.octants e e1).aligned hk).1 e2
  obtain ⟨-, c2⟩ := (Key.contains_iff_trunc' (hdb.octants f f1).aligned hk).1 f2
  rw [← c1, ← c2, hl]

theorem search_iff {db : Db K} (hdb : db.Good) {k : Key} (hk : k.Aligned) {e : Entry K} :
    db.search k = some e ↔ db.Finest k e := by
  constructor
  · exact search_finest hdb.octants hk
  · intro h
    cases hs : db.search k with
    | none => exact absurd h.2.1 ((search_none_iff hdb.octants hk).1 hs e h.1)
    | some f => rw [finest_unique hdb hk h (search_finest hdb.octants hk hs)]

/-- Nothing is found for a cell outside the root cube. -/
theorem search_outside {db : Db K} (hdb : db.Octants) {k : Key} (hk : 2 ^ 31 ≤ k.x.toNat) :
    db.search k = none := by
  cases hs : db.search k with
  | none => rfl
  | some e =>
    obtain ⟨h1, h2, h3⟩ := search_level hs
    have h4 := (hdb e h1).x_lt
    have h5 : e.addr.x = Key.truncTick k.x e.addr.level := congrArg Key.x h3
    rw [Key.lt_pow31_iff, h5, Key.truncTick_getLsbD] at h4
    have h6 : k.x.getLsbD 31 = true := by
      by_contra hcon
      have := (Key.lt_pow31_iff k.x).2 (by simpa using hcon)
      omega
    rw [h6] at h4
    simp at h4

end Db
end CenCalVM
