import Verif.Spec.Heap

/-! Invariants of dynamic memory. -/

namespace CenCalVM
namespace Mem
set_option linter.unusedSectionVars false

theorem nat_lt {i n : Nat} (h : i < n) : (0 : Int) ≤ (i : Int) ∧ (i : Int) < (n : Int) := by omega
theorem one_lt : (0 : Int) ≤ 0 ∧ (0 : Int) < ((1 : Nat) : Int) := by omega

theorem proper_nil : Proper [] := by
  intro pre post e heq; simp at heq

theorem proper_snoc {log : List Event} {e : Event} (hp : Proper log)
    (ha : ∀ p i, e = .access p i → ∃ b, b.id = p ∧ Live log b ∧ 0 ≤ i ∧ i < b.size)
    (hd : ∀ p arr, e = .delete p arr → ∃ b, b.id = p ∧ Live log b ∧ b.arr = arr) : Proper (log ++ [e]) := by
  intro pre post e' heq
  rcases List.append_eq_append_iff.1 heq with ⟨t, rfl, ht⟩ | ⟨t, rfl, ht⟩
  · cases t with
    | nil =>
      simp only [List.nil_append, List.cons.injEq] at ht
      obtain ⟨rfl, -⟩ := ht
      rw [List.append_nil]
      exact ⟨ha, hd⟩
    | cons x t =>
      simp at ht
  · cases t with
    | nil =>
      simp only [List.nil_append, List.cons.injEq] at ht
      obtain ⟨rfl, -⟩ := ht
      rw [List.append_nil] at ha hd
      exact ⟨ha, hd⟩
    | cons x t =>
      simp only [List.cons_append, List.cons.injEq] at ht
      obtain ⟨rfl, -⟩ := ht
      exact hp pre t _ rfl

/-- The blocks `own` are there and different; all blocks are below `next`. -/
structure Inv (h : Heap) (own : List Block) : Prop where
  proper : Proper h.log
  live : ∀ b ∈ own, Live h.log b
  nodup : (own.map Block.id).Nodup
  lt : ∀ p, (∃ b, Event.new b ∈ h.log ∧ b.id = p) ∨ (∃ arr, Event.delete p arr ∈ h.log) → p < h.next

/-- Every block that is there is one of `own`. -/
def Kept (h : Heap) (own : List Block) : Prop := ∀ b, Live h.log b → b ∈ own

/-- Both. -/
structure Has (h : Heap) (own : List Block) : Prop where
  inv : Inv h own
  kept : Kept h own

theorem Has.init : Has Heap.init [] :=
  ⟨⟨proper_nil, by simp, List.nodup_nil, by simp [Heap.init]⟩, fun b hb => by
    obtain ⟨hn, -⟩ := hb; simp [Heap.init] at hn⟩

theorem Inv.own_lt {h : Heap} {own : List Block} (hi : Inv h own) {b : Block} (hb : b ∈ own) : b.id < h.next :=
  hi.lt b.id (Or.inl ⟨b, (hi.live b hb).1, rfl⟩)

theorem Inv.new {h : Heap} {own : List Block} (hi : Inv h own) (n : Nat) (arr : Bool) :
    Inv ⟨h.next + 1, h.log ++ [.new ⟨h.next, n, arr⟩]⟩ (⟨h.next, n, arr⟩ :: own) := by
  refine ⟨proper_snoc hi.proper (by simp) (by simp), ?_, ?_, ?_⟩
  · intro b hb
    rcases List.mem_cons.1 hb with rfl | hb
    · refine ⟨by simp, fun a hc => ?_⟩
      simp only [List.mem_append, List.mem_singleton, reduceCtorEq, or_false] at hc
      exact absurd (hi.lt _ (Or.inr ⟨a, hc⟩)) (lt_irrefl _)
    · obtain ⟨h1, h2⟩ := hi.live b hb
      exact ⟨by simp [h1], by simpa using h2⟩
  · rw [List.map_cons, List.nodup_cons]
    refine ⟨fun hm => ?_, hi.nodup⟩
    obtain ⟨b, hb, he⟩ := List.mem_map.1 hm
    exact absurd (hi.own_lt hb) (by rw [he]; exact lt_irrefl _)
  · intro p hp
    show p < h.next + 1
    simp only [List.mem_append, List.mem_singleton, reduceCtorEq, or_false] at hp
    rcases hp with ⟨b, hb | hb, rfl⟩ | hp
    · exact Nat.lt_succ_of_lt (hi.lt _ (Or.inl ⟨b, hb, rfl⟩))
    · cases hb; exact Nat.lt_succ_self _
    · exact Nat.lt_succ_of_lt (hi.lt p (Or.inr hp))

theorem Has.new {h : Heap} {own : List Block} (hh : Has h own) (n : Nat) (arr : Bool) :
    Has ⟨h.next + 1, h.log ++ [.new ⟨h.next, n, arr⟩]⟩ (⟨h.next, n, arr⟩ :: own) := by
  refine ⟨hh.inv.new n arr, ?_⟩
  rintro b ⟨h1, h2⟩
  simp only [List.mem_append, List.mem_singleton, reduceCtorEq, or_false] at h1 h2
  rcases h1 with h1 | h1
  · exact List.mem_cons_of_mem _ (hh.kept b ⟨h1, h2⟩)
  · cases h1; exact List.mem_cons_self

theorem Has.one {h : Heap} {own : List Block} (hh : Has h own) : Has h.one (⟨h.next, 1, false⟩ :: own) := hh.new 1 false
theorem Has.array {h : Heap} {own : List Block} (hh : Has h own) (n : Nat) : Has (h.array n) (⟨h.next, n, true⟩ :: own) :=
  hh.new n true
theorem Inv.one {h : Heap} {own : List Block} (hi : Inv h own) : Inv h.one (⟨h.next, 1, false⟩ :: own) := hi.new 1 false
theorem Inv.array {h : Heap} {own : List Block} (hi : Inv h own) (n : Nat) : Inv (h.array n) (⟨h.next, n, true⟩ :: own) :=
  hi.new n true

theorem Inv.access {h : Heap} {own : List Block} (hi : Inv h own) {b : Block} (hb : b ∈ own) {i : Int} (hlt : 0 ≤ i ∧ i < b.size) :
    Inv (h.access b.id i) own := by
  refine ⟨proper_snoc hi.proper ?_ (by simp), ?_, hi.nodup, ?_⟩
  · intro p j he
    cases he
    exact ⟨b, rfl, hi.live b hb, hlt⟩
  · intro c hc
    obtain ⟨h1, h2⟩ := hi.live c hc
    exact ⟨by simp [Heap.access, h1], by simpa [Heap.access] using h2⟩
  · intro p hp
    simp only [Heap.access, List.mem_append, List.mem_singleton, reduceCtorEq, or_false] at hp
    exact hi.lt p hp

theorem Kept.access {h : Heap} {own : List Block} (hk : Kept h own) (p : Nat) (i : Int) : Kept (h.access p i) own := by
  rintro b ⟨h1, h2⟩
  simp only [Heap.access, List.mem_append, List.mem_singleton, reduceCtorEq, or_false] at h1 h2
  exact hk b ⟨h1, h2⟩

theorem Has.access {h : Heap} {own : List Block} (hh : Has h own) {b : Block} (hb : b ∈ own) {i : Int} (hlt : 0 ≤ i ∧ i < b.size) :
    Has (h.access b.id i) own := ⟨hh.inv.access hb hlt, hh.kept.access _ _⟩

theorem Has.accesses {own : List Block} {b : Block} (hb : b ∈ own) : ∀ {is : List Nat} {h : Heap}, Has h own →
    (∀ i ∈ is, i < b.size) → Has (h.accesses b.id is) own := by
  intro is
  induction is with
  | nil => intro h hh _; exact hh
  | cons i is ih =>
    intro h hh hlt
    exact ih (hh.access hb (nat_lt (hlt i List.mem_cons_self))) fun j hj => hlt j (List.mem_cons_of_mem _ hj)

theorem Inv.accesses {own : List Block} {b : Block} (hb : b ∈ own) : ∀ {is : List Nat} {h : Heap}, Inv h own →
    (∀ i ∈ is, i < b.size) → Inv (h.accesses b.id is) own := by
  intro is
  induction is with
  | nil => intro h hh _; exact hh
  | cons i is ih =>
    intro h hh hlt
    exact ih (hh.access hb (nat_lt (hlt i List.mem_cons_self))) fun j hj => hlt j (List.mem_cons_of_mem _ hj)

theorem accesses_next (p : Nat) : ∀ (is : List Nat) (h : Heap), (h.accesses p is).next = h.next
  | [], _ => rfl
  | i :: is, h => accesses_next p is (h.access p i)

theorem Inv.deleted {h : Heap} {own : List Block} {b : Block} (hi : Inv h (b :: own)) :
    Inv { h with log := h.log ++ [.delete b.id b.arr] } own := by
  have hb := hi.live b List.mem_cons_self
  have hn := hi.nodup
  rw [List.map_cons, List.nodup_cons] at hn
  refine ⟨proper_snoc hi.proper (by simp) ?_, ?_, hn.2, ?_⟩
  · intro p arr he
    cases he
    exact ⟨b, rfl, hb, rfl⟩
  · intro c hc
    obtain ⟨h1, h2⟩ := hi.live c (List.mem_cons_of_mem _ hc)
    refine ⟨by simp [h1], fun a hm => ?_⟩
    simp only [List.mem_append, List.mem_singleton] at hm
    rcases hm with hm | hm
    · exact h2 a hm
    · injection hm with e1 e2
      exact hn.1 (e1 ▸ List.mem_map_of_mem hc)
  · intro p hp
    simp only [List.mem_append, List.mem_singleton, reduceCtorEq, or_false] at hp
    rcases hp with h1 | ⟨arr, h1 | h1⟩
    · exact hi.lt p (Or.inl h1)
    · exact hi.lt p (Or.inr ⟨arr, h1⟩)
    · injection h1 with e1 e2
      rw [e1]
      exact hi.own_lt List.mem_cons_self

theorem Has.deleted {h : Heap} {own : List Block} {b : Block} (hh : Has h (b :: own)) :
    Has { h with log := h.log ++ [.delete b.id b.arr] } own := by
  refine ⟨hh.inv.deleted, ?_⟩
  rintro c ⟨h1, h2⟩
  simp only [List.mem_append, List.mem_singleton, reduceCtorEq, or_false] at h1 h2
  rcases List.mem_cons.1 (hh.kept c ⟨h1, fun a ha => h2 a (Or.inl ha)⟩) with rfl | hm
  · exact absurd (Or.inr rfl) (h2 c.arr)
  · exact hm

theorem Has.delete {h : Heap} {own : List Block} {p n : Nat} (hh : Has h (⟨p, n, false⟩ :: own)) : Has (h.delete p) own :=
  hh.deleted
theorem Has.deleteArray {h : Heap} {own : List Block} {p n : Nat} (hh : Has h (⟨p, n, true⟩ :: own)) :
    Has (h.deleteArray p) own := hh.deleted
theorem Inv.delete {h : Heap} {own : List Block} {p n : Nat} (hh : Inv h (⟨p, n, false⟩ :: own)) : Inv (h.delete p) own :=
  hh.deleted

theorem Has.perm {h : Heap} {own own' : List Block} (hh : Has h own) (hs : own.Perm own') : Has h own' :=
  ⟨⟨hh.inv.proper, fun b hb => hh.inv.live b (hs.symm.subset hb), ((hs.map Block.id).nodup_iff).1 hh.inv.nodup, hh.inv.lt⟩,
    fun b hb => hs.subset (hh.kept b hb)⟩

theorem Inv.sub {h : Heap} {own own' : List Block} (hi : Inv h own) (hs : own'.Sublist own) : Inv h own' :=
  ⟨hi.proper, fun b hb => hi.live b (hs.subset hb), hi.nodup.sublist (hs.map _), hi.lt⟩

theorem Has.allDeleted {h : Heap} (hh : Has h []) : AllDeleted h.log := by
  intro b hb
  by_contra hc
  exact List.not_mem_nil (hh.kept b ⟨hb, fun a ha => hc ⟨a, ha⟩⟩)

/-- The blocks of a geometry. -/
def geomBlocks : Option GeomPtr → List Block
  | none => []
  | some p => [⟨p.self, 1, false⟩, ⟨p.proj, 1, false⟩]

theorem Has.newGeom {h : Heap} {own : List Block} (hh : Has h own) : Has h.newGeom (geomBlocks (some h.geomPtr) ++ own) := by
  have h1 : Has (h.one.one) (⟨h.next + 1, 1, false⟩ :: ⟨h.next, 1, false⟩ :: own) := hh.one.one
  have h2 := h1.perm (List.Perm.swap _ _ own)
  exact h2.access (b := ⟨h.next, 1, false⟩) List.mem_cons_self one_lt

theorem Has.deleteGeomOpt {h : Heap} {own : List Block} {p : Option GeomPtr} (hh : Has h (geomBlocks p ++ own)) :
    Has (h.deleteGeomOpt p) own := by
  cases p with
  | none => exact hh
  | some p =>
    have h1 := hh.access (b := ⟨p.self, 1, false⟩) List.mem_cons_self one_lt
    have h2 : Has _ (⟨p.proj, 1, false⟩ :: ⟨p.self, 1, false⟩ :: own) := h1.perm (List.Perm.swap _ _ own)
    exact h2.delete.delete

/-- The array of values of a query object. -/
def valBlocks (n : Nat) : Option Nat → List Block
  | none => []
  | some v => [⟨v, n, true⟩]

theorem Has.deleteArrayOpt {h : Heap} {own : List Block} {n : Nat} {p : Option Nat} (hh : Has h (valBlocks n p ++ own)) :
    Has (h.deleteArrayOpt p) own := by
  cases p with
  | none => exact hh
  | some p => exact Has.deleteArray (n := n) hh

theorem Has.useGeom {h : Heap} {own : List Block} {p : Option GeomPtr} (hh : Has h own) (hs : geomBlocks p ⊆ own) :
    Has (useGeom h p) own := by
  cases p with
  | none => exact hh
  | some p =>
    have h1 := hh.access (b := ⟨p.self, 1, false⟩) (hs (by simp [geomBlocks])) one_lt
    exact h1.access (b := ⟨p.proj, 1, false⟩) (hs (by simp [geomBlocks])) one_lt

theorem Has.useVals {h : Heap} {own : List Block} {n : Nat} {p : Option Nat} (hh : Has h own) (hs : valBlocks n p ⊆ own) :
    Has (useVals h n p) own := by
  cases p with
  | none => exact hh
  | some p =>
    exact Has.accesses (b := ⟨p, n, true⟩) (hs (by simp [valBlocks])) hh fun i hi => List.mem_range.1 hi

section
variable {K : Type} [Field K] [LinearOrder K]

/-- The blocks of a query object. -/
def Query.blocks (o : Query K) : List Block :=
  valBlocks o.s.q.queryVals.length o.vals ++ (geomBlocks o.geom ++ [⟨o.log, 1, false⟩, ⟨o.err, 1, false⟩])

theorem Has.useErr {o : Query K} {h : Heap} {own : List Block} (hh : Has h own)
    (h1 : (⟨o.err, 1, false⟩ : Block) ∈ own) (h2 : (⟨o.log, 1, false⟩ : Block) ∈ own) : Has (useErr o h) own :=
  (hh.access (b := ⟨o.err, 1, false⟩) h1 one_lt).access (b := ⟨o.log, 1, false⟩) h2 one_lt

end
end Mem
end CenCalVM
