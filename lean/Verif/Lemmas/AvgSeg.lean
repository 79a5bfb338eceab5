/-
Ghost description of the averaging: finished subtrees (`Seg`) and the stack of unfinished octants (`Frame`).
-/
import Verif.Lemmas.Octant
import Verif.Model.AvgEngine
import Mathlib.Data.List.Induction

set_option linter.unusedSectionVars false

namespace CenCalVM

/-! ### Lexicographic order and prefixes -/

theorem prefix_not_lt {p b : List Nat} (h : p <+: b) : ¬ b < p := by
  obtain ⟨t, rfl⟩ := h
  induction p with
  | nil => exact List.not_lt_nil _
  | cons d p ih =>
    rw [List.cons_append, List.cons_lt_cons_iff]
    rintro (h | ⟨-, h⟩)
    · omega
    · exact ih h

theorem prefix_convex {p a b c : List Nat} (ha : p <+: a) (hc : p <+: c) (h1 : ¬ b < a) (h2 : ¬ c < b) :
    p <+: b := by
  induction p generalizing a b c with
  | nil => exact List.nil_prefix
  | cons d p ih =>
    obtain ⟨a', rfl⟩ := ha
    obtain ⟨c', rfl⟩ := hc
    cases b with
    | nil => exact absurd (List.nil_lt_cons _ _) h1
    | cons e b =>
      simp only [List.cons_append, List.cons_lt_cons_iff, not_or, not_and] at h1 h2
      have hde : d = e := by omega
      subst hde
      have := ih (List.prefix_append p a') (List.prefix_append p c') (h1.2 rfl) (h2.2 rfl)
      simpa using this

/-- An octant between an ancestor of `b` and `b` in the order lies below that ancestor. -/
theorem prefix_between {t x b : List Nat} (h : t <+: b) (h1 : ¬ x < t) (h2 : x < b) : t <+: x :=
  prefix_convex List.prefix_rfl h h1 (not_lt_of_gt h2)

theorem prefix_total {p q x : List Nat} (hp : p <+: x) (hq : q <+: x) (hl : p.length ≤ q.length) : p <+: q :=
  List.prefix_of_prefix_length_le hp hq hl

namespace AvgEngine
variable {K : Type} [Field K] [LinearOrder K]

/-- Octant digits of the address of an entry. -/
def pathOf (e : Entry K) : List Nat := e.addr.toKey.path

/-- Position of an octant within its parent. -/
def lastDigit (a : Addr) : Nat := a.toKey.digit (31 - a.level)

theorem lastDigit_lt (a : Addr) : lastDigit a < 8 := octDigit_lt _ _ _

/-- `c` is a child octant of `a`. -/
def ChildOf (a : Addr) (c : Addr) : Prop := c.toKey.Octant ∧ c.level = a.level + 1 ∧ c.toKey.trunc a.level = a.toKey

theorem ChildOf.path {a c : Addr} (h : ChildOf a c) : c.toKey.path = a.toKey.path ++ [lastDigit c] := by
  have := path_last (k := c.toKey) (by have := h.2.1; omega) h.1.level_le
  rw [this]
  have hl : c.level - 1 = a.level := by have := h.2.1; omega
  rw [hl, h.2.2]; rfl

/-! ### Child bits -/

/-- Bits of a list of children. -/
def maskOf (es : List (Entry K)) : BitVec 8 := es.foldl (fun m e => m ||| childOctantBit e.addr) 0

theorem childBit_getLsbD {a : Addr} (h : a.level < 32) {d : Nat} (hd : d < 8) :
    (childOctantBit a).getLsbD d = decide (lastDigit a = d) := by
  rw [childOctantBit_eq a h]
  have h8 := lastDigit_lt a
  unfold lastDigit at *
  generalize a.toKey.digit (31 - a.level) = n at *
  have hp : 2 ^ n < 2 ^ 8 := Nat.pow_lt_pow_right (by omega) h8
  rw [BitVec.getLsbD_ofNat, Nat.testBit_two_pow]
  simp [hd]

theorem maskOf_append (es : List (Entry K)) (e : Entry K) :
    maskOf (es ++ [e]) = maskOf es ||| childOctantBit e.addr := by simp [maskOf]

theorem maskOf_getLsbD {es : List (Entry K)} (h : ∀ e ∈ es, e.addr.level < 32) {d : Nat} (hd : d < 8) :
    (maskOf es).getLsbD d = true ↔ ∃ e ∈ es, lastDigit e.addr = d := by
  induction es using List.reverseRecOn with
  | nil => simp [maskOf]
  | append_singleton es e ih =>
    rw [maskOf_append, BitVec.getLsbD_or, childBit_getLsbD (h e (by simp)) hd, Bool.or_eq_true,
      ih (fun e he => h e (by simp [he]))]
    constructor
    · rintro (⟨x, hx, hxd⟩ | hx)
      · exact ⟨x, by simp [hx], hxd⟩
      · exact ⟨e, by simp, by simpa using hx⟩
    · rintro ⟨x, hx, hxd⟩
      simp only [List.mem_append, List.mem_singleton] at hx
      rcases hx with hx | rfl
      · exact Or.inl ⟨x, hx, hxd⟩
      · exact Or.inr (by simpa using hxd)

theorem maskOf_full {es : List (Entry K)} (h : ∀ e ∈ es, e.addr.level < 32) :
    maskOf es = 0xFF ↔ ∀ d < 8, ∃ e ∈ es, lastDigit e.addr = d := by
  constructor
  · intro hm d hd
    rw [← maskOf_getLsbD h hd, hm]
    have : d = 0 ∨ d = 1 ∨ d = 2 ∨ d = 3 ∨ d = 4 ∨ d = 5 ∨ d = 6 ∨ d = 7 := by omega
    rcases this with h | h | h | h | h | h | h | h <;> subst h <;> rfl
  · intro hd
    apply BitVec.eq_of_getLsbD_eq
    intro i hi
    rw [(maskOf_getLsbD h hi).2 (hd i hi)]
    have : i = 0 ∨ i = 1 ∨ i = 2 ∨ i = 3 ∨ i = 4 ∨ i = 5 ∨ i = 6 ∨ i = 7 := by omega
    rcases this with h | h | h | h | h | h | h | h <;> subst h <;> rfl

theorem maskOf_and {es : List (Entry K)} (h : ∀ e ∈ es, e.addr.level < 32) {a : Addr} (ha : a.level < 32) :
    maskOf es &&& childOctantBit a ≠ 0 ↔ ∃ e ∈ es, lastDigit e.addr = lastDigit a := by
  rw [← maskOf_getLsbD h (lastDigit_lt a)]
  constructor
  · intro hne
    by_contra hf
    apply hne
    apply BitVec.eq_of_getLsbD_eq
    intro i hi
    rw [BitVec.getLsbD_and, childBit_getLsbD ha hi]
    by_cases hd : lastDigit a = i
    · subst hd; simp at hf; simp [hf]
    · simp [hd]
  · intro ht hz
    have := congrArg (fun b => b.getLsbD (lastDigit a)) hz
    simp only [BitVec.getLsbD_and, childBit_getLsbD ha (lastDigit_lt a), ht] at this
    simp at this

/-! ### Finished subtrees -/

/-- Sum and number of contributing children after adding a list of children. -/
def fold (rd : K → K) (es : List (Entry K)) : Payload K × Nat :=
  es.foldl (fun acc e => accumulate rd acc e.payload) ((newPending ⟨⟨0, 0, 0, 0⟩, .leaf⟩).sum, 0)

/-- Payload of an octant with the given children. -/
def meanOf (rd : K → K) (es : List (Entry K)) : Payload K := finalPayload rd (fold rd es).1 (fold rd es).2

theorem fold_append (rd : K → K) (es : List (Entry K)) (e : Entry K) :
    fold rd (es ++ [e]) = accumulate rd (fold rd es) e.payload := by
  simp [fold]

theorem meanOf_congr {rd : K → K} {es es' : List (Entry K)} (h : es.map Entry.payload = es'.map Entry.payload) :
    meanOf rd es = meanOf rd es' := by
  have hf : ∀ l : List (Entry K), fold rd l =
      (l.map Entry.payload).foldl (accumulate rd) ((newPending ⟨⟨0, 0, 0, 0⟩, .leaf⟩).sum, 0) := by
    intro l; rw [List.foldl_map]; rfl
  unfold meanOf
  rw [hf es, hf es', h]

/-- A finished subtree: its root, the interior octants with their children, the input octants in it, and everything
written to the output database for it. -/
structure Seg (K : Type) where
  root : Entry K
  nodes : List (Entry K × List (Entry K))
  leaves : List (Entry K)
  all : List (Entry K)

/-- An input octant. -/
def Seg.leaf (e : Entry K) : Seg K := ⟨e, [], [e], [e]⟩

/-- An interior octant with finished subtrees as children. -/
def Seg.node (rd : K → K) (a : Addr) (cs : List (Seg K)) : Seg K :=
  let r : Entry K := ⟨a, meanOf rd (cs.map Seg.root)⟩
  ⟨r, (r, cs.map Seg.root) :: cs.flatMap Seg.nodes, cs.flatMap Seg.leaves, r :: cs.flatMap Seg.all⟩

/-- Well-formed finished subtrees. -/
inductive Built (rd : K → K) : Seg K → Prop
  | leaf (e : Entry K) (ho : e.addr.toKey.Octant) (hl : 0 < e.addr.level) : Built rd (Seg.leaf e)
  | node (a : Addr) (cs : List (Seg K)) (ho : a.toKey.Octant) (ht : a.type = .interior) (hne : cs ≠ [])
      (hcs : ∀ c ∈ cs, Built rd c) (hch : ∀ c ∈ cs, ChildOf a c.root.addr) : Built rd (Seg.node rd a cs)

/-- An octant whose children are not finished, with the finished ones. -/
structure Frame (K : Type) where
  addr : Addr
  done : List (Seg K)

/-- Output for a stack of unfinished octants, innermost first. -/
def flat (junk : Payload K) : List (Frame K) → List (Entry K)
  | [] => []
  | f :: fs => flat junk fs ++ ⟨f.addr, junk⟩ :: f.done.flatMap Seg.all

/-- Input octants below a stack of unfinished octants. -/
def flatLeaves : List (Frame K) → List (Entry K)
  | [] => []
  | f :: fs => flatLeaves fs ++ f.done.flatMap Seg.leaves

/-- Interior octants finished below a stack of unfinished octants. -/
def flatNodes : List (Frame K) → List (Entry K × List (Entry K))
  | [] => []
  | f :: fs => flatNodes fs ++ f.done.flatMap Seg.nodes

theorem Built.root_mem {rd : K → K} {g : Seg K} (h : Built rd g) : g.root ∈ g.all := by
  cases h <;> simp [Seg.leaf, Seg.node]

theorem Built.octant {rd : K → K} {g : Seg K} (h : Built rd g) : ∀ e ∈ g.all, e.addr.toKey.Octant := by
  induction h with
  | leaf e ho hl => simpa [Seg.leaf] using ho
  | node a cs ho ht hne hcs hch ih =>
    intro e he
    simp only [Seg.node, List.mem_cons, List.mem_flatMap] at he
    rcases he with rfl | ⟨c, hc, he⟩
    · exact ho
    · exact ih c hc e he

theorem Built.root_prefix {rd : K → K} {g : Seg K} (h : Built rd g) : ∀ e ∈ g.all, pathOf g.root <+: pathOf e := by
  induction h with
  | leaf e ho hl => simp [Seg.leaf]
  | node a cs ho ht hne hcs hch ih =>
    intro e he
    simp only [Seg.node, List.mem_cons, List.mem_flatMap] at he
    rcases he with rfl | ⟨c, hc, he⟩
    · exact List.prefix_rfl
    · refine List.IsPrefix.trans ?_ (ih c hc e he)
      have := (hch c hc).path
      unfold pathOf Seg.node
      rw [this]; exact List.prefix_append _ _

theorem Built.leaves_mem {rd : K → K} {g : Seg K} (h : Built rd g) : ∀ e ∈ g.leaves, e ∈ g.all := by
  induction h with
  | leaf e ho hl => simp [Seg.leaf]
  | node a cs ho ht hne hcs hch ih =>
    intro e he
    simp only [Seg.node, List.mem_flatMap] at he
    obtain ⟨c, hc, he⟩ := he
    simp only [Seg.node, List.mem_cons, List.mem_flatMap]
    exact Or.inr ⟨c, hc, ih c hc e he⟩

theorem Built.leaves_ne {rd : K → K} {g : Seg K} (h : Built rd g) : g.leaves ≠ [] := by
  induction h with
  | leaf e ho hl => simp [Seg.leaf]
  | node a cs ho ht hne hcs hch ih =>
    obtain ⟨c, hc⟩ := List.exists_mem_of_ne_nil _ hne
    intro h0
    simp only [Seg.node, List.flatMap_eq_nil_iff] at h0
    exact ih c hc (h0 c hc)

/-- Entries of a finished subtree are the input octants and the interior octants. -/
theorem Built.all_iff {rd : K → K} {g : Seg K} (h : Built rd g) (e : Entry K) :
    e ∈ g.all ↔ e ∈ g.leaves ∨ ∃ n ∈ g.nodes, n.1 = e := by
  induction h with
  | leaf e ho hl => simp [Seg.leaf]
  | node a cs ho ht hne hcs hch ih =>
    simp only [Seg.node, List.mem_cons, List.mem_flatMap]
    constructor
    · rintro (rfl | ⟨c, hc, he⟩)
      · exact Or.inr ⟨_, Or.inl rfl, rfl⟩
      · rcases (ih c hc).1 he with h | ⟨n, hn, rfl⟩
        · exact Or.inl ⟨c, hc, h⟩
        · exact Or.inr ⟨n, Or.inr ⟨c, hc, hn⟩, rfl⟩
    · rintro (⟨c, hc, he⟩ | ⟨n, rfl | ⟨c, hc, hn⟩, rfl⟩)
      · exact Or.inr ⟨c, hc, (ih c hc).2 (Or.inl he)⟩
      · exact Or.inl rfl
      · exact Or.inr ⟨c, hc, (ih c hc).2 (Or.inr ⟨n, hn, rfl⟩)⟩

theorem Built.all_length {rd : K → K} {g : Seg K} (h : Built rd g) : g.all.length = g.leaves.length + g.nodes.length := by
  induction h with
  | leaf e ho hl => simp [Seg.leaf]
  | node a cs ho ht hne hcs hch ih =>
    simp only [Seg.node, List.length_cons, List.length_flatMap]
    have : (cs.map fun c => c.all.length).sum =
        (cs.map fun c => c.leaves.length).sum + (cs.map fun c => c.nodes.length).sum := by
      clear hne hch hcs
      induction cs with
      | nil => rfl
      | cons c cs ih2 =>
        simp only [List.map_cons, List.sum_cons]
        rw [ih c (by simp), ih2 (fun c hc => ih c (by simp [hc]))]; omega
    omega

end AvgEngine
end CenCalVM
