/-
The result of averaging is one finished tree.
-/
import Verif.Lemmas.AvgMain
import Verif.Spec.Average

set_option linter.unusedSectionVars false

namespace CenCalVM
namespace AvgEngine
variable {K : Type} [Field K] [LinearOrder K]

theorem sorted_nodup {l : List (Entry K)} (h : Db.Sorted ⟨l⟩) : (l.map fun e => e.addr.toKey).Nodup := by
  rw [List.Nodup, List.pairwise_map]
  unfold Db.Sorted at h
  exact h.imp (fun {a b} hab he => by rw [he] at hab; exact lt_irrefl _ hab)

/-- Two different subtrees in a list with distinct keys have different keys. -/
theorem seg_disjoint {cs : List (Seg K)} (h : ((cs.flatMap Seg.all).map fun e => e.addr.toKey).Nodup)
    {c d : Seg K} (hc : c ∈ cs) (hd : d ∈ cs) {x y : Entry K} (hx : x ∈ c.all) (hy : y ∈ d.all)
    (hk : x.addr.toKey = y.addr.toKey) : c = d := by
  induction cs with
  | nil => simp at hc
  | cons a cs ih =>
    rw [List.flatMap_cons, List.map_append, List.nodup_append'] at h
    obtain ⟨-, h2, h3⟩ := h
    have hin : ∀ z : Seg K, z ∈ cs → ∀ w ∈ z.all, ∀ v ∈ a.all, w.addr.toKey ≠ v.addr.toKey := by
      intro z hz w hw v hv he
      exact h3 (a := v.addr.toKey) (List.mem_map.2 ⟨v, hv, rfl⟩)
        (List.mem_map.2 ⟨w, List.mem_flatMap.2 ⟨z, hz, hw⟩, he⟩)
    simp only [List.mem_cons] at hc hd
    rcases hc with rfl | hc
    · rcases hd with rfl | hd
      · rfl
      · exact absurd hk.symm (hin d hd y hy x hx)
    · rcases hd with rfl | hd
      · exact absurd hk (hin c hc x hx y hy)
      · exact ih h2 hc hd

theorem nodup_child {cs : List (Seg K)} (h : ((cs.flatMap Seg.all).map fun e => e.addr.toKey).Nodup) {c : Seg K}
    (hc : c ∈ cs) : (c.all.map fun e => e.addr.toKey).Nodup := by
  induction cs with
  | nil => simp at hc
  | cons a cs ih =>
    rw [List.flatMap_cons, List.map_append, List.nodup_append'] at h
    simp only [List.mem_cons] at hc
    rcases hc with rfl | hc
    · exact h.1
    · exact ih h.2.1 hc

/-- Interior octants have type interior, are octants and contain a smaller input octant. -/
theorem Built.node_spec {rd : K → K} {g : Seg K} (h : Built rd g) : ∀ n ∈ g.nodes, n.1.addr.type = .interior ∧ n.1.addr.toKey.Octant ∧
    pathOf g.root <+: pathOf n.1 ∧ n.1.payload = meanOf rd n.2 ∧
    ∃ e ∈ g.leaves, pathOf n.1 <+: pathOf e ∧ n.1.addr.level < e.addr.level := by
  induction h with
  | leaf e ho hl => simp [Seg.leaf]
  | node a cs ho ht hne hcs hch ih =>
    intro n hn
    simp only [Seg.node, List.mem_cons, List.mem_flatMap] at hn
    rcases hn with rfl | ⟨c, hc, hn⟩
    · refine ⟨ht, ho, List.prefix_rfl, rfl, ?_⟩
      obtain ⟨c, hc⟩ := List.exists_mem_of_ne_nil _ hne
      obtain ⟨e, he⟩ := List.exists_mem_of_ne_nil _ (hcs c hc).leaves_ne
      refine ⟨e, List.mem_flatMap.2 ⟨c, hc, he⟩, ?_⟩
      have h1 := (hcs c hc).root_prefix e ((hcs c hc).leaves_mem e he)
      have h2 : pathOf (⟨a, meanOf rd (cs.map Seg.root)⟩ : Entry K) <+: pathOf c.root := by
        unfold pathOf; rw [(hch c hc).path]; exact List.prefix_append _ _
      refine ⟨h2.trans h1, ?_⟩
      have h3 := h1.length_le
      unfold pathOf at h3
      rw [Key.path_length, Key.path_length, (hch c hc).2.1] at h3
      exact h3
    · obtain ⟨h1, h2, h3, h4, e, he, h5⟩ := ih c hc n hn
      refine ⟨h1, h2, ?_, h4, e, List.mem_flatMap.2 ⟨c, hc, he⟩, h5⟩
      refine List.IsPrefix.trans ?_ h3
      show a.toKey.path <+: c.root.addr.toKey.path
      rw [(hch c hc).path]; exact List.prefix_append _ _

/-- Every octant between the root of the subtree and an input octant is there. -/
theorem Built.ancestors {rd : K → K} {g : Seg K} (h : Built rd g) : ∀ e ∈ g.leaves, ∀ k : Key, k.Octant →
    pathOf g.root <+: k.path → k.path <+: pathOf e → ∃ x ∈ g.all, x.addr.toKey = k := by
  induction h with
  | leaf e ho hl =>
    intro e' he k hk h1 h2
    simp only [Seg.leaf, List.mem_singleton] at he h1 ⊢
    subst he
    refine ⟨e', rfl, Key.path_inj ho hk ?_⟩
    exact h1.eq_of_length_le h2.length_le
  | node a cs ho ht hne hcs hch ih =>
    intro e he k hk h1 h2
    simp only [Seg.node, List.mem_flatMap] at he
    obtain ⟨c, hc, he⟩ := he
    have h1' : a.toKey.path <+: k.path := h1
    by_cases hl : k.level ≤ a.level
    · refine ⟨⟨a, meanOf rd (cs.map Seg.root)⟩, by simp [Seg.node], Key.path_inj ho hk ?_⟩
      exact h1'.eq_of_length_le (by rw [Key.path_length, Key.path_length]; exact hl)
    · have hce := (hcs c hc).root_prefix e ((hcs c hc).leaves_mem e he)
      have hlc : (pathOf c.root).length = a.level + 1 := by
        unfold pathOf; rw [Key.path_length]; exact (hch c hc).2.1
      have hck : pathOf c.root <+: k.path := prefix_total hce h2 (by rw [hlc, Key.path_length]; omega)
      obtain ⟨x, hx, hxk⟩ := ih c hc e he k hk hck h2
      exact ⟨x, by simp only [Seg.node, List.mem_cons, List.mem_flatMap]; exact Or.inr ⟨c, hc, hx⟩, hxk⟩

theorem Built.all_cons {rd : K → K} {g : Seg K} (h : Built rd g) : ∃ t, g.all = g.root :: t := by
  cases h <;> simp [Seg.leaf, Seg.node]

theorem roots_sublist {rd : K → K} {cs : List (Seg K)} (h : ∀ c ∈ cs, Built rd c) : (cs.map Seg.root).Sublist (cs.flatMap Seg.all) := by
  induction cs with
  | nil => simp
  | cons c cs ih =>
    obtain ⟨t, ht⟩ := (h c (by simp)).all_cons
    rw [List.map_cons, List.flatMap_cons, ht, List.cons_append]
    exact (((ih (fun c hc => h c (by simp [hc]))).trans (List.sublist_append_right _ _))).cons_cons _

theorem all_sublist {cs : List (Seg K)} {c : Seg K} (h : c ∈ cs) : c.all.Sublist (cs.flatMap Seg.all) := by
  induction cs with
  | nil => simp at h
  | cons d cs ih =>
    rw [List.flatMap_cons]
    simp only [List.mem_cons] at h
    rcases h with rfl | h
    · exact List.sublist_append_left _ _
    · exact (ih h).trans (List.sublist_append_right _ _)

/-- The children recorded with an interior octant are among the entries. -/
theorem Built.children_sublist {rd : K → K} {g : Seg K} (h : Built rd g) : ∀ n ∈ g.nodes, n.2.Sublist g.all := by
  induction h with
  | leaf e ho hl => simp [Seg.leaf]
  | node a cs ho ht hne hcs hch ih =>
    intro n hn
    simp only [Seg.node, List.mem_cons, List.mem_flatMap] at hn ⊢
    rcases hn with rfl | ⟨c, hc, hn⟩
    · exact (roots_sublist hcs).cons _
    · refine ((ih c hc n hn).trans ?_).cons _
      exact all_sublist hc

theorem Built.children_child {rd : K → K} {g : Seg K} (h : Built rd g) : ∀ n ∈ g.nodes, ∀ c ∈ n.2, ChildOf n.1.addr c.addr := by
  induction h with
  | leaf e ho hl => simp [Seg.leaf]
  | node a cs ho ht hne hcs hch ih =>
    intro n hn c hc
    simp only [Seg.node, List.mem_cons, List.mem_flatMap] at hn
    rcases hn with rfl | ⟨d, hd, hn⟩
    · simp only [List.mem_map] at hc
      obtain ⟨d, hd, rfl⟩ := hc
      exact hch d hd
    · exact ih d hd n hn c hc

/-- Every entry one level below an interior octant and inside it is among its recorded children. -/
theorem Built.children_all {rd : K → K} {g : Seg K} (h : Built rd g) (hnd : (g.all.map fun e => e.addr.toKey).Nodup) :
    ∀ n ∈ g.nodes, ∀ c ∈ g.all, c.addr.level = n.1.addr.level + 1 → pathOf n.1 <+: pathOf c → c ∈ n.2 := by
  induction h with
  | leaf e ho hl => simp [Seg.leaf]
  | node a cs ho ht hne hcs hch ih =>
    have hnd2 : ((cs.flatMap Seg.all).map fun e => e.addr.toKey).Nodup := by
      simp only [Seg.node, List.map_cons, List.nodup_cons] at hnd; exact hnd.2
    intro n hn c hc hl hpre
    simp only [Seg.node, List.mem_cons, List.mem_flatMap] at hn hc
    rcases hn with rfl | ⟨d, hd, hn⟩
    · rcases hc with rfl | ⟨d, hd, hc⟩
      · exfalso; have : a.level = a.level + 1 := hl; omega
      · -- `c` is the root of the child subtree it lies in
        have hcd := (hcs d hd).root_prefix c hc
        have hl1 : d.root.addr.level = a.level + 1 := (hch d hd).2.1
        have hl2 : c.addr.level = a.level + 1 := hl
        have hpe : pathOf d.root = pathOf c := hcd.eq_of_length_le (by unfold pathOf; simp; omega)
        have hoc := (hcs d hd).octant c hc
        have hod := (hcs d hd).octant d.root (hcs d hd).root_mem
        have hk : d.root.addr.toKey = c.addr.toKey := Key.path_inj hod hoc hpe
        have hnd3 := nodup_child hnd2 hd
        have : d.root = c := List.inj_on_of_nodup_map hnd3 (hcs d hd).root_mem hc hk
        exact List.mem_map.2 ⟨d, hd, this⟩
    · have hns := (hcs d hd).node_spec n hn
      rcases hc with rfl | ⟨d', hd', hc⟩
      · exfalso
        have h1 : a.level = n.1.addr.level + 1 := hl
        have h2 := hns.2.2.1.length_le
        unfold pathOf at h2
        rw [Key.path_length, Key.path_length, (hch d hd).2.1] at h2
        omega
      · have hcd := (hcs d' hd').root_prefix c hc
        have hl1 : d.root.addr.level = a.level + 1 := (hch d hd).2.1
        have hl2 : d'.root.addr.level = a.level + 1 := (hch d' hd').2.1
        have hp1 : pathOf d.root <+: pathOf c := hns.2.2.1.trans hpre
        have hpe : pathOf d.root = pathOf d'.root :=
          (prefix_total hp1 hcd (by unfold pathOf; simp; omega)).eq_of_length_le (by unfold pathOf; simp; omega)
        have hk : d.root.addr.toKey = d'.root.addr.toKey :=
          Key.path_inj ((hcs d hd).octant _ (hcs d hd).root_mem) ((hcs d' hd').octant _ (hcs d' hd').root_mem) hpe
        have : d = d' := seg_disjoint hnd2 hd hd' (hcs d hd).root_mem (hcs d' hd').root_mem hk
        subst this
        exact ih d hd (nodup_child hnd2 hd) n hn c hc hl hpre

/-! ### The whole run -/

theorem sorted_paths {db : Db K} (ho : ∀ e ∈ db.entries, e.addr.toKey.Octant) (hs : db.Sorted) :
    db.entries.Pairwise fun a b => pathOf a < pathOf b := by
  unfold Db.Sorted at hs
  refine List.Pairwise.imp_of_mem ?_ hs
  intro a b ha hb hab
  exact (Key.zkey_lt_iff (ho a ha) (ho b hb)).1 hab

theorem fillOctants_begin {env : Env K} (hw : ∀ n, env.writeFault n = false) {db : Db K} (hne : db.entries ≠ []) :
    average env db = (inputLoop env 0 db.entries { init env Db.empty with log := [true] }).bind fun s _ =>
      (finishProcessing env pendingSize s).bind fun s _ =>
      write env s (some s.out) "Error occurred while trying to terminate appending of etree." := by
  unfold average fillOctants
  rw [if_neg hne, write_ok hw _ rfl, Run.bind_ok]
  rfl

theorem average_ok {env : Env K} (he : env.Reliable) {db : Db K} (ho : ∀ e ∈ db.entries, e.addr.toKey.Octant)
    (hs : db.Sorted) (hne : db.entries ≠ [])
    (hfree : (below db.entries).Pairwise fun a b => ¬ pathOf a <+: pathOf b) :
    ∃ s fin, average env db = .ok s () ∧ R env s fin [] ∧ allLeaves fin [] = below db.entries := by
  obtain ⟨hw, hg, hadv⟩ := he
  obtain ⟨s1, fin1, fs1, e1, r1, st1, v1, -⟩ := inputLoop_spec hw hg hadv (es := db.entries) [] (by simpa using ho)
    (by simpa using sorted_paths ho hs) hfree (R.start env [true]) (by simp [Stable])
    (by intro b _ x hx; simp [init, Db.empty] at hx) (by intro c hc; simp [Done] at hc) 0
  have hlen : fs1.length ≤ pendingSize := by
    cases fs1 with
    | nil => simp
    | cons f fs =>
      have h1 : f.addr.level = fs.length := r1.stack.2.1
      have h2 := r1.stack.2.2.2.1.level_le
      simp [pendingSize, ETREE_MAXLEVEL]; omega
  obtain ⟨s2, fin2, e2, p2⟩ := finish_spec hw r1 st1 hlen
  refine ⟨{ s2 with log := s2.log ++ [true] }, fin2, ?_, ?_, ?_⟩
  · rw [fillOctants_begin hw hne]
    have := e1 []
    rw [List.append_nil] at this
    rw [this]
    simp only [inputLoop, Run.bind_ok]
    rw [e2, Run.bind_ok, write_ok hw _ rfl]
  · exact ⟨p2.rel.out, p2.rel.ncur, p2.rel.stack, p2.rel.free, p2.rel.sorted, p2.rel.roots, p2.rel.cnt⟩
  · rw [p2.leaves, v1]; simp [allLeaves, flatLeaves]

theorem average_reject {env : Env K} (he : env.Reliable) {db : Db K} (ho : ∀ e ∈ db.entries, e.addr.toKey.Octant)
    (hs : db.Sorted) {pre post : List (Entry K)} {b a : Entry K} (hsplit : db.entries = pre ++ b :: post)
    (hfree : (below pre).Pairwise fun a b => ¬ pathOf a <+: pathOf b) (ha : a ∈ below pre)
    (hab : pathOf a <+: pathOf b) :
    ∃ s, average env db = .exc "Error occurred while appending new octant to etree." s := by
  obtain ⟨hw, hg, hadv⟩ := he
  have hp := sorted_paths ho hs
  rw [hsplit] at ho hp
  obtain ⟨s1, fin1, fs1, e1, r1, st1, v1, b1⟩ := inputLoop_spec hw hg hadv (es := pre) (b :: post) ho hp
    hfree (R.start env [true]) (by simp [Stable])
    (by intro b _ x hx; simp [init, Db.empty] at hx) (by intro c hc; simp [Done] at hc) 0
  obtain ⟨s2, e2⟩ := averageOctant_reject hw (a := a) (ho b (by simp)) r1 st1 (b1 b (by simp))
    (by rw [v1]; simp [allLeaves, flatLeaves, ha]) hab
  refine ⟨s2, ?_⟩
  rw [fillOctants_begin hw (by rw [hsplit]; simp), hsplit, e1]
  simp only [inputLoop, hg, Bool.false_eq_true, if_false]
  rw [e2, Run.bind_exc, Run.bind_exc]

/-- The result as a single tree. -/
theorem average_tree {env : Env K} (he : env.Reliable) {db : Db K} (ho : ∀ e ∈ db.entries, e.addr.toKey.Octant)
    (hs : db.Sorted) (hne : db.entries ≠ []) (hno : db.NonOverlapping) (hroot : db.BelowRoot) :
    ∃ s g, average env db = .ok s () ∧ Built env.rd g ∧ g.root.addr.level = 0 ∧ g.all = s.out.entries ∧
      g.leaves = db.entries ∧ s.out.Sorted ∧
      s.cnt = tally g.leaves.length g.all.length g.nodes.length (g.nodes.map fun n => maskOf n.2) := by
  have hbe : below db.entries = db.entries := by
    unfold below; rw [List.filter_eq_self]; intro e he; simpa using hroot e he
  have hfree : (below db.entries).Pairwise fun a b => ¬ pathOf a <+: pathOf b := by
    rw [hbe]
    refine List.Pairwise.imp_of_mem ?_ (sorted_paths ho hs)
    intro a b ha hb hab hpre
    have := hno a ha b hb ((Key.contains_iff_prefix (ho a ha) (ho b hb)).2 hpre)
    rw [this] at hab; exact lt_irrefl _ hab
  obtain ⟨s, fin, e1, r1, v1⟩ := average_ok he ho hs hne hfree
  rw [hbe] at v1
  have hout : s.out.entries = fin.flatMap Seg.all := by rw [r1.out]; simp [flat]
  have hnd : ((fin.flatMap Seg.all).map fun e => e.addr.toKey).Nodup := by
    rw [← hout]; exact sorted_nodup r1.sorted
  obtain ⟨g, rfl⟩ : ∃ g, fin = [g] := by
    cases fin with
    | nil => simp [allLeaves, flatLeaves] at v1; exact absurd v1 hne
    | cons g fin =>
      cases fin with
      | nil => exact ⟨g, rfl⟩
      | cons g' fin =>
        exfalso
        have h1 := r1.roots g (by simp)
        have h2 := r1.roots g' (by simp)
        have hk : g.root.addr.toKey = g'.root.addr.toKey := by
          refine Key.path_inj (h1.1.octant _ h1.1.root_mem) (h2.1.octant _ h2.1.root_mem) ?_
          have l1 : g.root.addr.toKey.path = [] := List.length_eq_zero_iff.1 (by rw [Key.path_length]; exact h1.2)
          have l2 : g'.root.addr.toKey.path = [] := List.length_eq_zero_iff.1 (by rw [Key.path_length]; exact h2.2)
          rw [l1, l2]
        rw [List.flatMap_cons, List.map_append, List.nodup_append'] at hnd
        obtain ⟨-, -, hdis⟩ := hnd
        refine hdis (a := g.root.addr.toKey) (List.mem_map.2 ⟨g.root, h1.1.root_mem, rfl⟩)
          (List.mem_map.2 ⟨g'.root, ?_, hk.symm⟩)
        rw [List.flatMap_cons, List.mem_append]
        exact Or.inl h2.1.root_mem
  have hb := r1.roots g (by simp)
  have hc := r1.cnt
  rw [hout] at hc
  simp only [List.flatMap_cons, List.flatMap_nil, List.append_nil, allLeaves, flatLeaves, allNodes, flatNodes,
    List.length_nil, Nat.add_zero] at hc v1 hout
  exact ⟨s, g, e1, hb.1, hb.2, hout.symm, v1, r1.sorted, hc⟩

end AvgEngine
end CenCalVM
