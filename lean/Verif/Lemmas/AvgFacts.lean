/-
What the finished tree says about the averaged database.
-/
import Verif.Lemmas.AvgMean
import Verif.Lemmas.Search
import Mathlib.Data.List.Nodup

set_option linter.unusedSectionVars false

namespace CenCalVM
namespace AvgEngine
variable {K : Type} [Field K] [LinearOrder K] [IsStrictOrderedRing K]

/-- The finished tree of an averaged database. -/
structure Tree (rd : K → K) (db out : Db K) (g : Seg K) : Prop where
  built : Built rd g
  level : g.root.addr.level = 0
  all : g.all = out.entries
  leaves : g.leaves = db.entries
  sorted : out.Sorted
  nonOverlapping : db.NonOverlapping

namespace Tree
variable {rd : K → K} {db out : Db K} {g : Seg K}

theorem octants (h : Tree rd db out g) : out.Octants := by
  intro e he; rw [← h.all] at he; exact h.built.octant e he

theorem good (h : Tree rd db out g) : out.Good := ⟨h.octants, h.sorted⟩

theorem keeps (h : Tree rd db out g) : ∀ e ∈ db.entries, e ∈ out.entries := by
  intro e he; rw [← h.leaves] at he; rw [← h.all]; exact h.built.leaves_mem e he

theorem nodup (h : Tree rd db out g) : (g.all.map fun e => e.addr.toKey).Nodup := by
  rw [h.all]; exact sorted_nodup h.sorted

theorem inOctants (h : Tree rd db out g) : db.Octants := fun e he => h.octants e (h.keeps e he)

theorem root_path (h : Tree rd db out g) (k : Key) : pathOf g.root <+: k.path := by
  have : pathOf g.root = [] := List.length_eq_zero_iff.1 (by unfold pathOf; rw [Key.path_length]; exact h.level)
  rw [this]; exact List.nil_prefix

theorem node_ancestor (h : Tree rd db out g) {n : Entry K × List (Entry K)} (hn : n ∈ g.nodes) :
    db.ProperAncestor n.1.addr.toKey := by
  obtain ⟨-, ho, -, -, e, he, hp, hl⟩ := h.built.node_spec n hn
  rw [h.leaves] at he
  refine ⟨ho, e, he, (Key.contains_iff_prefix ho (h.inOctants e he)).2 hp, fun hk => ?_⟩
  have : n.1.addr.level = e.addr.level := congrArg Key.level hk
  omega

theorem not_both (h : Tree rd db out g) {e : Entry K} (he : e ∈ db.entries) : ¬ db.ProperAncestor e.addr.toKey := by
  rintro ⟨-, f, hf, hc, hne⟩
  exact hne (by rw [h.nonOverlapping e he f hf hc])

theorem ancestor_node (h : Tree rd db out g) {x : Entry K} (hx : x ∈ out.entries)
    (ha : db.ProperAncestor x.addr.toKey) : ∃ n ∈ g.nodes, n.1 = x := by
  rw [← h.all] at hx
  rcases (h.built.all_iff x).1 hx with hl | hn
  · rw [h.leaves] at hl; exact absurd ha (h.not_both hl)
  · exact hn

theorem entries (h : Tree rd db out g) {x : Entry K} (hx : x ∈ out.entries) :
    x ∈ db.entries ∨ (x.addr.type = .interior ∧ db.ProperAncestor x.addr.toKey) := by
  rw [← h.all] at hx
  rcases (h.built.all_iff x).1 hx with hl | ⟨n, hn, rfl⟩
  · rw [h.leaves] at hl; exact Or.inl hl
  · exact Or.inr ⟨(h.built.node_spec n hn).1, h.node_ancestor hn⟩

theorem ancestors (h : Tree rd db out g) {k : Key} (hk : db.ProperAncestor k) : ∃ x ∈ out.entries, x.addr.toKey = k := by
  obtain ⟨ho, e, he, hc, -⟩ := hk
  have hp := (Key.contains_iff_prefix ho (h.inOctants e he)).1 hc
  rw [← h.leaves] at he
  rw [← h.all]
  exact h.built.ancestors e he k ho (h.root_path k) hp

theorem children_mem (h : Tree rd db out g) {n : Entry K × List (Entry K)} (hn : n ∈ g.nodes) (c : Entry K) :
    c ∈ n.2 ↔ c ∈ out.entries ∧ n.1.addr.toKey.IsChild c.addr.toKey := by
  have ho := (h.built.node_spec n hn).2.1
  constructor
  · intro hc
    have hm := (h.built.children_sublist n hn).mem hc
    have hch := h.built.children_child n hn c hc
    rw [← h.all]
    refine ⟨hm, hch.2.1, ?_⟩
    rw [Key.contains_iff_prefix ho hch.1, hch.path]
    exact List.prefix_append _ _
  · rintro ⟨hm, hl, hc⟩
    have hco := h.octants c hm
    rw [← h.all] at hm
    exact h.built.children_all h.nodup n hn c hm hl ((Key.contains_iff_prefix ho hco).1 hc)

theorem children_perm (h : Tree rd db out g) {n : Entry K × List (Entry K)} (hn : n ∈ g.nodes) :
    n.2.Perm (out.childrenOf n.1.addr.toKey) := by
  have hnd : g.all.Nodup := h.nodup.of_map
  have h1 : n.2.Nodup := hnd.sublist (h.built.children_sublist n hn)
  have h2 : (out.childrenOf n.1.addr.toKey).Nodup := by
    unfold Db.childrenOf; rw [← h.all]; exact hnd.filter _
  rw [List.perm_ext_iff_of_nodup h1 h2]
  intro c
  rw [h.children_mem hn, Db.childrenOf, List.mem_filter, decide_eq_true_eq]

theorem children_eq (h : Tree rd db out g) {n : Entry K × List (Entry K)} (hn : n ∈ g.nodes) :
    n.2 = out.childrenOf n.1.addr.toKey := by
  have h1 : out.entries.Pairwise fun a b => a.addr.toKey.zkey < b.addr.toKey.zkey := h.sorted
  refine List.Perm.eq_of_pairwise (fun a b _ _ h1 h2 => absurd h1 (lt_asymm h2)) (h1.sublist ?_) (h1.filter _)
    (h.children_perm hn)
  rw [← h.all]
  exact h.built.children_sublist n hn

theorem mean_eq (h : Tree rd db out g) {x : Entry K} (hx : x ∈ out.entries) (ha : db.ProperAncestor x.addr.toKey) :
    x.payload = meanOf rd (out.childrenOf x.addr.toKey) := by
  obtain ⟨n, hn, rfl⟩ := h.ancestor_node hx ha
  rw [(h.built.node_spec n hn).2.2.2.1, h.children_eq hn]

theorem block (h : Tree rd db out g) {x : Entry K} (hx : x ∈ out.entries) (ha : db.ProperAncestor x.addr.toKey) :
    x.payload.faultBlock = -999 ∧ x.payload.zone = -999 := by
  obtain ⟨n, hn, rfl⟩ := h.ancestor_node hx ha
  rw [(h.built.node_spec n hn).2.2.2.1]
  exact finalPayload_block _ _ _

theorem mean (h : Tree rd db out g) (hrd : ∀ x, rd x = x) {x : Entry K} (hx : x ∈ out.entries) (ha : db.ProperAncestor x.addr.toKey) :
    SolidPrecedence ((out.childrenOf x.addr.toKey).map Entry.payload) x.payload := by
  obtain ⟨n, hn, rfl⟩ := h.ancestor_node hx ha
  rw [(h.built.node_spec n hn).2.2.2.1]
  exact SolidPrecedence.perm ((h.children_perm hn).map _) (meanOf_spec hrd n.2)

end Tree

/-- Input octants of a subtree of the tree are input octants. -/
theorem Built.subtree_leaves {rd : K → K} {g : Seg K} (h : Built rd g) (hnd : (g.all.map fun e => e.addr.toKey).Nodup) :
    ∀ n ∈ g.nodes, ∃ t, Built rd t ∧ t.root = n.1 ∧ t.nodes ≠ [] ∧
      ∀ e, e ∈ t.leaves ↔ e ∈ g.leaves ∧ pathOf n.1 <+: pathOf e := by
  induction h with
  | leaf e ho hl => simp [Seg.leaf]
  | node a cs ho ht hne hcs hch ih =>
    have hb := Built.node a cs ho ht hne hcs hch
    have hnd2 : ((cs.flatMap Seg.all).map fun e => e.addr.toKey).Nodup := by
      simp only [Seg.node, List.map_cons, List.nodup_cons] at hnd; exact hnd.2
    intro n hn
    simp only [Seg.node, List.mem_cons, List.mem_flatMap] at hn
    rcases hn with rfl | ⟨c, hc, hn⟩
    · refine ⟨Seg.node rd a cs, hb, rfl, by simp [Seg.node], fun e => ⟨fun he => ⟨he, ?_⟩, fun he => he.1⟩⟩
      exact hb.root_prefix e (hb.leaves_mem e he)
    · obtain ⟨t, h1, h2, h3, h4⟩ := ih c hc (nodup_child hnd2 hc) n hn
      have hns := (hcs c hc).node_spec n hn
      refine ⟨t, h1, h2, h3, fun e => ?_⟩
      rw [h4 e]
      constructor
      · rintro ⟨he, hp⟩; exact ⟨List.mem_flatMap.2 ⟨c, hc, he⟩, hp⟩
      · rintro ⟨he, hpre⟩
        refine ⟨?_, hpre⟩
        obtain ⟨d, hd, he⟩ := List.mem_flatMap.1 he
        have hp1 := hns.2.2.1.trans hpre
        have hp2 := (hcs d hd).root_prefix e ((hcs d hd).leaves_mem e he)
        have hl1 : c.root.addr.level = a.level + 1 := (hch c hc).2.1
        have hl2 : d.root.addr.level = a.level + 1 := (hch d hd).2.1
        have hpe : pathOf c.root = pathOf d.root :=
          (prefix_total hp1 hp2 (by unfold pathOf; simp; omega)).eq_of_length_le (by unfold pathOf; simp; omega)
        have hk : c.root.addr.toKey = d.root.addr.toKey :=
          Key.path_inj ((hcs c hc).octant _ (hcs c hc).root_mem) ((hcs d hd).octant _ (hcs d hd).root_mem) hpe
        rw [seg_disjoint hnd2 hc hd (hcs c hc).root_mem (hcs d hd).root_mem hk]
        exact he

theorem Built.nodes_sublist {rd : K → K} {g : Seg K} (h : Built rd g) : (g.nodes.map Prod.fst).Sublist g.all := by
  induction h with
  | leaf e ho hl => simp [Seg.leaf]
  | node a cs ho ht hne hcs hch ih =>
    simp only [Seg.node, List.map_cons, List.map_flatMap]
    refine List.Sublist.cons_cons _ ?_
    clear hne hcs hch
    induction cs with
    | nil => simp
    | cons c cs ih2 =>
      rw [List.flatMap_cons, List.flatMap_cons]
      exact (ih c (by simp)).append (ih2 (fun c hc => ih c (by simp [hc])))

namespace Tree
variable {rd : K → K} {db out : Db K} {g : Seg K}

theorem ranges (h : Tree rd db out g) (hrd : ∀ x, rd x = x) {x : Entry K} (hx : x ∈ out.entries) (ha : db.ProperAncestor x.addr.toKey) :
    ∃ t, Ranges t ∧ t.root = x ∧ t.nodes ≠ [] ∧
      ∀ e, e ∈ t.leaves ↔ e ∈ db.entries ∧ x.addr.toKey.Contains e.addr.toKey := by
  obtain ⟨n, hn, rfl⟩ := h.ancestor_node hx ha
  obtain ⟨t, h1, h2, h3, h4⟩ := h.built.subtree_leaves h.nodup n hn
  refine ⟨t, h1.ranges hrd, h2, h3, fun e => ?_⟩
  rw [h4 e, h.leaves]
  constructor
  · rintro ⟨he, hp⟩
    exact ⟨he, (Key.contains_iff_prefix (h.built.node_spec n hn).2.1 (h.inOctants e he)).2 hp⟩
  · rintro ⟨he, hp⟩
    exact ⟨he, (Key.contains_iff_prefix (h.built.node_spec n hn).2.1 (h.inOctants e he)).1 hp⟩

/-- Keys of the interior octants. -/
theorem nodeKeys (h : Tree rd db out g) : (g.nodes.map fun n => n.1.addr.toKey).Nodup ∧
    ∀ k, k ∈ (g.nodes.map fun n => n.1.addr.toKey) ↔ db.ProperAncestor k := by
  constructor
  · have := h.nodup.sublist (h.built.nodes_sublist.map fun e => e.addr.toKey)
    rwa [List.map_map] at this
  · intro k
    rw [List.mem_map]
    constructor
    · rintro ⟨n, hn, rfl⟩; exact h.node_ancestor hn
    · intro hk
      obtain ⟨x, hx, rfl⟩ := h.ancestors hk
      obtain ⟨n, hn, rfl⟩ := h.ancestor_node hx hk
      exact ⟨n, hn, rfl⟩

theorem mask_iff (h : Tree rd db out g) {n : Entry K × List (Entry K)} (hn : n ∈ g.nodes) {m : BitVec 8} {D : List Nat}
    (hD : ∀ d < 8, d ∈ D ↔ m.getLsbD d = true) :
    maskOf n.2 = m ↔ out.ChildrenAt n.1.addr.toKey D := by
  have hlv : ∀ e ∈ n.2, e.addr.level < 32 := by
    intro e he
    have := (h.octants e ((h.children_mem hn e).1 he).1).level_le
    omega
  unfold Db.ChildrenAt
  constructor
  · rintro rfl d hd
    rw [hD d hd, maskOf_getLsbD hlv hd]
    constructor
    · rintro ⟨e, he, hl⟩
      obtain ⟨h1, h2⟩ := (h.children_mem hn e).1 he
      exact ⟨e, h1, h2, hl⟩
    · rintro ⟨e, h1, h2, hl⟩; exact ⟨e, (h.children_mem hn e).2 ⟨h1, h2⟩, hl⟩
  · intro hc
    apply BitVec.eq_of_getLsbD_eq
    intro d hd
    rw [Bool.eq_iff_iff, maskOf_getLsbD hlv hd, ← hD d hd, hc d hd]
    constructor
    · rintro ⟨e, he, hl⟩
      obtain ⟨h1, h2⟩ := (h.children_mem hn e).1 he
      exact ⟨e, h1, h2, hl⟩
    · rintro ⟨e, h1, h2, hl⟩; exact ⟨e, (h.children_mem hn e).2 ⟨h1, h2⟩, hl⟩

theorem count_iff (h : Tree rd db out g) {m : BitVec 8} {D : List Nat} (hD : ∀ d < 8, d ∈ D ↔ m.getLsbD d = true) :
    (g.nodes.map fun n => maskOf n.2).countP (fun m' => decide (m' = m)) =
      (g.nodes.map fun n => n.1.addr.toKey).countP fun k => decide (out.ChildrenAt k D) := by
  rw [List.countP_map, List.countP_map]
  apply List.countP_congr
  intro n hn
  simp only [Function.comp_apply, decide_eq_true_eq]
  exact h.mask_iff hn hD

end Tree

/-- Averaging a proper input succeeds and gives a finished tree. -/
theorem average_tree' {env : Env K} (he : env.Reliable) {db : Db K} (hdb : db.Good) (hne : db.entries ≠ [])
    (hno : db.NonOverlapping) (hroot : db.BelowRoot) :
    ∃ s g, average env db = .ok s () ∧ Tree env.rd db s.out g ∧
      s.cnt = tally g.leaves.length g.all.length g.nodes.length (g.nodes.map fun n => maskOf n.2) := by
  obtain ⟨s, g, h1, h2, h3, h4, h5, h6, h7⟩ := average_tree he hdb.octants hdb.sorted hne hno hroot
  exact ⟨s, g, h1, ⟨h2, h3, h4, h5, h6, hno⟩, h7⟩

/-- The first octant lying inside an earlier one. -/
theorem first_bad {α : Type} {R : α → α → Prop} {l : List α} (h : ¬ l.Pairwise R) :
    ∃ pre b post, l = pre ++ b :: post ∧ pre.Pairwise R ∧ ∃ a ∈ pre, ¬ R a b := by
  induction l using List.reverseRecOn with
  | nil => exact absurd List.Pairwise.nil h
  | append_singleton l b ih =>
    by_cases hl : l.Pairwise R
    · rw [List.pairwise_append] at h
      simp only [List.pairwise_cons, List.not_mem_nil, List.mem_singleton, forall_eq, hl, true_and,
        List.Pairwise.nil, and_true] at h
      push Not at h
      obtain ⟨a, ha, hR⟩ := h (fun _ => False.elim)
      exact ⟨l, b, [], rfl, hl, a, ha, hR⟩
    · obtain ⟨pre, c, post, rfl, h1, h2⟩ := ih hl
      exact ⟨pre, c, post ++ [b], by simp, h1, h2⟩

end AvgEngine
end CenCalVM
