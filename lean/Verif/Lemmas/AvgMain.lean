/-
Averaging as a whole on the ghost description.
-/
import Verif.Lemmas.AvgLoops

set_option linter.unusedSectionVars false

namespace CenCalVM
namespace AvgEngine
variable {K : Type} [Field K] [LinearOrder K]

/-- The innermost unfinished octant contains `b`. -/
def OnPath (fs : List (Frame K)) (b : Entry K) : Prop :=
  ∀ f ∈ fs.head?, f.addr.toKey = b.addr.toKey.trunc f.addr.level

theorem pathOf_trunc {b : Entry K} (hb : b.addr.toKey.Octant) {n : Nat} (hn : n ≤ b.addr.level) :
    (b.addr.toKey.trunc n).path = (pathOf b).take n := Key.path_trunc hn hb.level_le

/-- The next ancestor to be created comes after everything written so far. -/
theorem create_before {env : Env K} {s : Engine K} {fin : List (Seg K)} {fs : List (Frame K)} (h : R env s fin fs)
    {b : Entry K} (hb : b.addr.toKey.Octant) (hbf : Before s b) (hnc : NoCover fin fs [b])
    (hlen : fs.length ≤ b.addr.level) :
    ∀ x ∈ s.out.entries, x.addr.zkey < (b.addr.toKey.trunc fs.length).zkey := by
  intro x hx
  have ho : (b.addr.toKey.trunc fs.length).Octant := hb.trunc (by have := hb.level_le; omega)
  rw [Key.zkey_lt_iff (h.octants hx) ho, pathOf_trunc hb hlen]
  by_contra hcon
  have hpre : (pathOf b).take fs.length <+: pathOf x :=
    prefix_between (List.take_prefix _ _) hcon (hbf x hx)
  have hlb : (pathOf b).length = b.addr.level := Key.path_length _
  have hlt : ((pathOf b).take fs.length).length = fs.length := by simp [hlb, hlen]
  rcases h.mem hx with ⟨f, hf, he⟩ | ⟨c, hc, hxc⟩
  · have h1 := hpre.length_le
    have h2 : (pathOf x).length = f.addr.level := by unfold pathOf; rw [he]; exact Key.path_length _
    have := (h.stack.frame hf).1
    omega
  · obtain ⟨hbu, hl⟩ := h.built hc
    have hr := hbu.root_prefix x hxc
    have hlr : (pathOf c.root).length = c.root.addr.level := Key.path_length _
    have := prefix_total hr hpre (by omega)
    exact hnc c hc b (by simp) (this.trans (List.take_prefix _ _))

theorem createLoop_spec {env : Env K} (hw : ∀ n, env.writeFault n = false) {b : Entry K}
    (hb : b.addr.toKey.Octant) {s : Engine K} {fin : List (Seg K)} {fs : List (Frame K)} (h : R env s fin fs)
    (hbf : Before s b) (hnc : NoCover fin fs [b]) (hon : OnPath fs b) {count : Nat}
    (hlen : fs.length + count = b.addr.level) :
    ∃ s' fs', createLoop env b.addr fs.length count s = .ok s' () ∧ R env s' fin fs' ∧
      fs'.length = b.addr.level ∧ OnPath fs' b ∧ Before s' b ∧ allLeaves fin fs' = allLeaves fin fs ∧
      ∀ c, Done fin fs' c ↔ Done fin fs c := by
  induction count generalizing s fs with
  | zero => exact ⟨s, fs, rfl, h, by omega, hon, hbf, rfl, fun _ => Iff.rfl⟩
  | succ n ih =>
    unfold createLoop
    have hlv := hb.level_le
    rw [findAncestor_eq (by omega) (by omega)]
    dsimp only
    have ho : (b.addr.toKey.trunc fs.length).Octant := hb.trunc (by omega)
    have hcb := create_before h hb hbf hnc (by omega)
    obtain ⟨s1, e1, r1⟩ := createOctant_push hw h (a := { toKey := b.addr.toKey.trunc fs.length, type := .interior })
      rfl ho rfl (by
        intro g hg
        refine ⟨ho, ?_, ?_⟩
        · show fs.length = g.addr.level + 1
          cases fs with
          | nil => simp at hg
          | cons f fs =>
            simp only [List.head?_cons, Option.mem_def, Option.some.injEq] at hg
            subst hg
            rw [h.stack.2.1]; rfl
        · show (b.addr.toKey.trunc fs.length).trunc g.addr.level = g.addr.toKey
          have hgl : g.addr.level < fs.length := (h.stack.frame (List.mem_of_mem_head? hg)).1
          rw [Key.trunc_trunc _ (by omega), ← hon g hg]) hcb
    have hpl : (b.addr.toKey.trunc fs.length).path < pathOf b := by
      rw [pathOf_trunc hb (by omega)]
      have hpre := List.take_prefix fs.length (pathOf b)
      rcases lt_or_eq_of_le (not_lt.1 (prefix_not_lt hpre)) with hlt | heq
      · exact hlt
      · have := congrArg List.length heq
        have hlb : (pathOf b).length = b.addr.level := Key.path_length _
        simp [hlb] at this; omega
    have hd : ∀ c, Done fin (⟨{ toKey := b.addr.toKey.trunc fs.length, type := .interior }, []⟩ :: fs) c ↔
        Done fin fs c := by intro c; simp [Done]
    have hbf1 : Before s1 b := by
      intro x hx
      rw [r1.out] at hx
      simp only [flat, List.flatMap_nil, ← List.append_assoc, List.mem_append (t := [_]), List.mem_singleton] at hx
      rcases hx with hx | rfl
      · exact hbf x (by rw [h.out]; exact hx)
      · exact hpl
    obtain ⟨s2, fs2, e2, r2, l2, o2, b2, v2, d2⟩ := ih r1 hbf1
      (fun c hc => hnc c ((hd c).1 hc))
      (by intro f hf; simp only [List.head?_cons, Option.mem_def, Option.some.injEq] at hf; subst hf; rfl)
      (by simp; omega)
    refine ⟨s2, fs2, ?_, r2, l2, o2, b2, ?_, fun c => (d2 c).trans (hd c)⟩
    · rw [e1, Run.bind_ok]; exact e2
    · rw [v2]; simp [allLeaves, flatLeaves]

/-- A finished subtree containing `b` hangs directly below the innermost unfinished octant. -/
theorem done_level {env : Env K} {s : Engine K} {fin : List (Seg K)} {fs : List (Frame K)} (h : R env s fin fs)
    {b : Entry K} (hb : b.addr.toKey.Octant) (hon : OnPath fs b) (hlen : fs.length ≤ b.addr.level)
    {c : Seg K} (hc : Done fin fs c) (hpre : pathOf c.root <+: pathOf b) : c.root.addr.level = fs.length := by
  have hsort := h.sorted
  have hout := h.out
  have hst := h.stack
  have hroots := h.roots
  have hoct : c.root.addr.toKey.Octant := (h.built hc).1.octant _ (h.built hc).1.root_mem
  rw [show s.out = ⟨fin.flatMap Seg.all ++ flat env.junk fs⟩ by rw [← hout]] at hsort
  have hbc := (h.built hc).1
  clear hout h
  induction fs with
  | nil =>
    rcases hc with hc | ⟨f, hf, _⟩
    · exact (hroots c hc).2
    · simp at hf
  | cons f fs ih =>
    obtain ⟨-, hlev, -, ho, -, hch, hpar, hst'⟩ := hst
    by_cases hcf : c ∈ f.done
    · rw [(hch c hcf).2.1, hlev]; rfl
    · exfalso
      have hc' : Done fin fs c := by
        rcases hc with hc | ⟨g, hg, hgc⟩
        · exact Or.inl hc
        · simp only [List.mem_cons] at hg
          rcases hg with rfl | hg
          · exact absurd hgc hcf
          · exact Or.inr ⟨g, hg, hgc⟩
      have hkey : f.addr.toKey = b.addr.toKey.trunc fs.length := by
        have := hon f (by simp); rwa [hlev] at this
      have hon' : OnPath fs b := by
        intro g hg
        have := (hpar g hg).2.2
        have hgl := (hpar g hg).2.1
        have hle : g.addr.level ≤ fs.length := by rw [← hlev, hgl]; omega
        rw [← this, hkey, Key.trunc_trunc _ hle]
        simp [Key.trunc]
      simp only [flat, ← List.append_assoc] at hsort
      have hsort' : Db.Sorted (⟨fin.flatMap Seg.all ++ flat env.junk fs⟩ : Db K) :=
        (List.pairwise_append.1 hsort).1
      have hl := ih hon' (by simp at hlen; omega) hc' hsort' hst'
      have hck : c.root.addr.toKey = f.addr.toKey := by
        rw [hkey, ← hl]
        have := (Key.contains_iff_trunc hoct hb).1 ((Key.contains_iff_prefix hoct hb).2 hpre)
        exact this.2.symm
      have hmem : c.root ∈ fin.flatMap Seg.all ++ flat env.junk fs := by
        rw [List.mem_append, List.mem_flatMap, mem_flat]
        rcases hc' with hc' | ⟨g, hg, hgc⟩
        · exact Or.inl ⟨c, hc', hbc.root_mem⟩
        · exact Or.inr ⟨g, hg, Or.inr ⟨c, hgc, hbc.root_mem⟩⟩
      have := (List.pairwise_append.1 hsort).2.2 c.root hmem ⟨f.addr, env.junk⟩ (by simp)
      rw [hck] at this; exact lt_irrefl _ this

theorem createLoop_fail {env : Env K} {b : Entry K}
    (hb : b.addr.toKey.Octant) {s : Engine K} {fin : List (Seg K)} {fs : List (Frame K)} (h : R env s fin fs)
    (hon : OnPath fs b) (hlen : fs.length ≤ b.addr.level)
    {c : Seg K} (hc : Done fin fs c) (hpre : pathOf c.root <+: pathOf b) (hlt : c.root.addr.level < b.addr.level) :
    ∃ s', createLoop env b.addr fs.length (b.addr.level - fs.length) s =
      .exc "Error occurred while appending new octant to etree." s' := by
  have hl := done_level h hb hon hlen hc hpre
  obtain ⟨n, hn⟩ : ∃ n, b.addr.level - fs.length = n + 1 := ⟨b.addr.level - fs.length - 1, by omega⟩
  have hbu := (h.built hc).1
  have hoct : c.root.addr.toKey.Octant := hbu.octant _ hbu.root_mem
  have hk : c.root.addr.toKey = b.addr.toKey.trunc fs.length := by
    have := (Key.contains_iff_trunc hoct hb).1 ((Key.contains_iff_prefix hoct hb).2 hpre)
    rw [← hl]; exact this.2.symm
  have hlv := hb.level_le
  obtain ⟨s', e⟩ := createOctant_fail h (a := { toKey := b.addr.toKey.trunc fs.length, type := .interior }) rfl
    (by show fs.length ≤ 31; omega) (h.done_mem hc hbu.root_mem) (by rw [hk]; exact lt_irrefl _)
  refine ⟨s', ?_⟩
  rw [hn]
  unfold createLoop
  rw [findAncestor_eq (by omega) (by omega)]
  dsimp only
  rw [e, Run.bind_exc]

/-! ### One input octant -/

theorem findParent_close {env : Env K} (hw : ∀ n, env.writeFault n = false) {b : Entry K} {rem : List (Entry K)}
    (hb : b.addr.toKey.Octant) (hrem : ∀ b' ∈ rem, ¬ pathOf b' < pathOf b)
    {s : Engine K} {fin : List (Seg K)} {fs : List (Frame K)} (h : R env s fin fs) (hs : Stable fs)
    (hbf : Before s b) :
    ∃ s' fin' fs', findParent env s b.addr =
        ((createLoop env b.addr fs'.length (b.addr.level - fs'.length) s').bind fun t _ =>
          .ok t (max fs'.length b.addr.level)) ∧
      Phase env rem s fin fs s' fin' fs' ∧ fs'.length ≤ b.addr.level ∧ OnPath fs' b := by
  obtain ⟨s1, fin1, fs1, e1, p1, l1⟩ := processDown_spec hw hrem h hs hbf
  obtain ⟨s2, fin2, fs2, e2, p2, l2, t2⟩ := closeLoop_spec hw hb hrem p1.rel p1.stable
    (hbf.of_addrs p1.addrs) l1
  refine ⟨s2, fin2, fs2, ?_, p1.trans p2, l2, t2⟩
  have hsz : decide (b.addr.level ≤ pendingSize) = true := by
    have := hb.level_le; unfold pendingSize ETREE_MAXLEVEL; simp; omega
  unfold findParent
  simp only [Run.assert, hsz, if_true, Run.bind_ok]
  rw [h.ncur, e1, Run.bind_ok, lowestValid_spec p1.rel l1, e2, Run.bind_ok]

theorem averageOctant_spec {env : Env K} (hw : ∀ n, env.writeFault n = false) {b : Entry K} {rem : List (Entry K)}
    (hb : b.addr.toKey.Octant) (hpos : 0 < b.addr.level) (hrem : ∀ b' ∈ rem, pathOf b < pathOf b')
    (hfree : ∀ b' ∈ rem, ¬ pathOf b <+: pathOf b')
    {s : Engine K} {fin : List (Seg K)} {fs : List (Frame K)} (h : R env s fin fs) (hs : Stable fs)
    (hbf : Before s b) (hnc : NoCover fin fs (b :: rem)) :
    ∃ s' fin' fs', averageOctant env s b = .ok s' () ∧ R env s' fin' fs' ∧ Stable fs' ∧
      allLeaves fin' fs' = allLeaves fin fs ++ [b] ∧ (∀ b', pathOf b < pathOf b' → Before s' b') ∧ NoCover fin' fs' rem := by
  have hrem2 : ∀ b' ∈ b :: rem, ¬ pathOf b' < pathOf b := by
    intro b' hb'
    simp only [List.mem_cons] at hb'
    rcases hb' with rfl | hb'
    · exact lt_irrefl _
    · exact not_lt_of_gt (hrem b' hb')
  obtain ⟨s1, fin1, fs1, e1, p1, l1, o1⟩ := findParent_close hw hb hrem2 h hs hbf
  have hnc1 := p1.noCover hnc
  obtain ⟨s2, fs2, e2, r2, l2, o2, b2, v2, d2⟩ := createLoop_spec hw hb p1.rel (hbf.of_addrs p1.addrs)
    (fun c hc b' hb' => hnc1 c hc b' (by simp at hb'; simp [hb'])) o1 (count := b.addr.level - fs1.length) (by omega)
  have hmax : max fs1.length b.addr.level = b.addr.level := by omega
  rw [e2, Run.bind_ok, hmax] at e1
  cases fs2 with
  | nil => simp at l2; omega
  | cons f fs2 =>
    have hflev : f.addr.level = fs2.length := r2.stack.2.1
    simp only [List.length_cons] at l2
    have hchild : ChildOf f.addr b.addr := by
      refine ⟨hb, by omega, ?_⟩
      exact (o2 f (by simp)).symm
    have hlt : ∀ x ∈ s2.out.entries, x.addr.zkey < b.addr.zkey := fun x hx =>
      (Key.zkey_lt_iff (r2.octants hx) hb).2 (b2 x hx)
    obtain ⟨s3, e3, r3⟩ := leaf_push r2 hchild hlt
    have hst3 : Stable (⟨f.addr, f.done ++ [Seg.leaf b]⟩ :: fs2) := by
      intro g hg
      simp only [List.head?_cons, Option.mem_def, Option.some.injEq] at hg
      subst hg; simp
    have hnc3 : NoCover fin1 (⟨f.addr, f.done ++ [Seg.leaf b]⟩ :: fs2) rem := by
      intro c hc b' hb'
      have hcases : Done fin1 (f :: fs2) c ∨ c = Seg.leaf b := by
        rcases hc with hc | ⟨g, hg, hgc⟩
        · exact Or.inl (Or.inl hc)
        · simp only [List.mem_cons] at hg
          rcases hg with rfl | hg
          · simp only [List.mem_append, List.mem_singleton] at hgc
            rcases hgc with hgc | hgc
            · exact Or.inl (Or.inr ⟨f, by simp, hgc⟩)
            · exact Or.inr hgc
          · exact Or.inl (Or.inr ⟨g, by simp [hg], hgc⟩)
      rcases hcases with hc | rfl
      · exact hnc1 c ((d2 c).1 hc) b' (by simp [hb'])
      · exact hfree b' hb'
    have hbf3 : ∀ b', pathOf b < pathOf b' → Before s3 b' := by
      intro b' hb' x hx
      rw [r3.out] at hx
      have hx' : x ∈ s2.out.entries ∨ x = b := by
        rw [r2.out]
        simp only [flat, List.flatMap_append, List.flatMap_cons, List.flatMap_nil, Seg.leaf, List.mem_append,
          List.mem_cons, List.not_mem_nil, or_false] at hx ⊢
        tauto
      rcases hx' with hx' | rfl
      · exact lt_trans (b2 x hx') hb'
      · exact hb'
    obtain ⟨s4, fin4, fs4, e4, p4⟩ := fullLoop_spec hw r3 hst3 (fun b' hb' => hbf3 b' (hrem b' hb'))
    refine ⟨s4, fin4, fs4, ?_, p4.rel, p4.stable, ?_, ?_, p4.noCover hnc3⟩
    · unfold averageOctant
      rw [if_neg (by omega), e1, Run.bind_ok]
      have hnc2 : s2.ncur = fs2.length + 1 := r2.ncur
      have hcond : (decide (b.addr.level = b.addr.level) && decide (b.addr.level ≤ s2.ncur)) = true := by
        rw [hnc2]; simp; omega
      have has : Run.assert s2 (decide (b.addr.level = b.addr.level) && decide (b.addr.level ≤ s2.ncur)) =
          .ok s2 () := by rw [Run.assert, if_pos hcond]
      rw [has, Run.bind_ok]
      rw [write_ok hw s2 (Db.append_ok hlt), Run.bind_ok]
      have hi : b.addr.level - 1 = fs2.length := by omega
      rw [hi]
      dsimp only at e3 ⊢
      rw [e3, Run.bind_ok]
      have hlen3 : b.addr.level = fs2.length + 1 := by omega
      simp only [List.length_cons] at e4
      rw [hlen3, e4, Run.bind_ok]
      simp [Run.assert, p4.rel.ncur]
    · rw [p4.leaves, ← p1.leaves, ← v2]
      simp [allLeaves, flatLeaves, Seg.leaf]
    · intro b' hb'
      exact (hbf3 b' hb').of_addrs p4.addrs

theorem averageOctant_reject {env : Env K} (hw : ∀ n, env.writeFault n = false) {b a : Entry K}
    (hb : b.addr.toKey.Octant)
    {s : Engine K} {fin : List (Seg K)} {fs : List (Frame K)} (h : R env s fin fs) (hs : Stable fs)
    (hbf : Before s b) (ha : a ∈ allLeaves fin fs) (hab : pathOf a <+: pathOf b) :
    ∃ s', averageOctant env s b = .exc "Error occurred while appending new octant to etree." s' := by
  obtain ⟨s1, fin1, fs1, e1, p1, l1, o1⟩ := findParent_close hw (rem := []) hb (by simp) h hs hbf
  have ha1 : a ∈ allLeaves fin1 fs1 := by rw [p1.leaves]; exact ha
  obtain ⟨c, hc, hac⟩ := mem_allLeaves.1 ha1
  have hbu := (p1.rel.built hc).1
  have hpre := hbu.root_prefix a (hbu.leaves_mem a hac)
  have hmem : a ∈ s1.out.entries := p1.rel.done_mem hc (hbu.leaves_mem a hac)
  have hlt := (hbf.of_addrs p1.addrs) a hmem
  have hal : a.addr.level < b.addr.level := by
    have h1 : (pathOf a).length = a.addr.level := Key.path_length _
    have h2 : (pathOf b).length = b.addr.level := Key.path_length _
    have := hab.length_le
    rcases Nat.lt_or_ge a.addr.level b.addr.level with h | h
    · exact h
    · rw [hab.eq_of_length_le (by omega)] at hlt
      exact absurd hlt (lt_irrefl _)
  have hcl : c.root.addr.level < b.addr.level := by
    have h1 : (pathOf c.root).length = c.root.addr.level := Key.path_length _
    have h2 : (pathOf a).length = a.addr.level := Key.path_length _
    have := hpre.length_le
    omega
  obtain ⟨s2, e2⟩ := createLoop_fail hb p1.rel o1 l1 hc (hpre.trans hab) hcl
  refine ⟨s2, ?_⟩
  unfold averageOctant
  rw [if_neg (by omega), e1, e2]
  rfl

/-! ### All input octants -/

theorem R.start (env : Env K) (l : List Bool) : R env { init env Db.empty with log := l } [] [] where
  out := rfl
  ncur := rfl
  stack := trivial
  free := fun _ _ => rfl
  sorted := by simp [init, Db.empty, Db.Sorted]
  roots := by simp
  cnt := rfl

/-- Octants that take part in the averaging. -/
def below (es : List (Entry K)) : List (Entry K) := es.filter fun e => decide (0 < e.addr.level)

theorem inputLoop_spec {env : Env K} (hw : ∀ n, env.writeFault n = false) (hg : ∀ n, env.getFault n = false)
    (hadv : ∀ n, env.advFault n = false) {es : List (Entry K)} (tail : List (Entry K))
    (ho : ∀ e ∈ es ++ tail, e.addr.toKey.Octant) (hsort : (es ++ tail).Pairwise fun a b => pathOf a < pathOf b)
    (hfree : (below es).Pairwise fun a b => ¬ pathOf a <+: pathOf b)
    {s : Engine K} {fin : List (Seg K)} {fs : List (Frame K)} (h : R env s fin fs) (hs : Stable fs)
    (hbf : ∀ b ∈ below es ++ tail, Before s b) (hnc : NoCover fin fs (below es)) (i : Nat) :
    ∃ s' fin' fs', (∀ rest, inputLoop env i (es ++ rest) s = inputLoop env (i + es.length) rest s') ∧
      R env s' fin' fs' ∧ Stable fs' ∧
      allLeaves fin' fs' = allLeaves fin fs ++ below es ∧ ∀ b ∈ tail, Before s' b := by
  induction es generalizing s fin fs i with
  | nil => exact ⟨s, fin, fs, fun rest => rfl, h, hs, by simp [below], fun b hb => hbf b (by simp [hb])⟩
  | cons e es ih =>
    have hstep : ∀ rest, inputLoop env i (e :: es ++ rest) s =
        (averageOctant env s e).bind fun s _ => inputLoop env (i + 1) (es ++ rest) s := by
      intro rest
      simp [inputLoop, hg, hadv]
    rw [List.cons_append, List.pairwise_cons] at hsort
    by_cases hl : e.addr.level = 0
    · have hbe : below (e :: es) = below es := by simp [below, hl]
      rw [hbe] at hfree hbf hnc ⊢
      obtain ⟨s', fin', fs', e', r'⟩ := ih (fun e he => ho e (by simp at he ⊢; tauto)) hsort.2 hfree h hs hbf hnc (i + 1)
      refine ⟨s', fin', fs', ?_, r'⟩
      intro rest
      rw [hstep, averageOctant, if_pos hl, Run.bind_ok, e']
      congr 1; simp; omega
    · have hbe : below (e :: es) = e :: below es := by
        simp only [below, List.filter_cons]
        rw [if_pos (by simp; omega)]
      rw [hbe] at hfree hbf hnc ⊢
      rw [List.pairwise_cons] at hfree
      have hsub : ∀ b ∈ below es ++ tail, b ∈ es ++ tail := by
        intro b hb
        simp only [below, List.mem_append, List.mem_filter] at hb ⊢
        tauto
      obtain ⟨s1, fin1, fs1, e1, r1, st1, v1, b1, n1⟩ := averageOctant_spec hw (rem := below es) (ho e (by simp))
        (by omega) (fun b hb => hsort.1 b (hsub b (by simp [hb]))) hfree.1 h hs (hbf e (by simp)) hnc
      -- what is written comes before the tail as well
      have hb1 : ∀ b ∈ below es ++ tail, Before s1 b := by
        intro b hb
        exact b1 b (hsort.1 b (hsub b hb))
      obtain ⟨s', fin', fs', e', r', st', v', b'⟩ := ih (fun e he => ho e (by simp at he ⊢; tauto)) hsort.2 hfree.2
        r1 st1 hb1 n1 (i + 1)
      refine ⟨s', fin', fs', ?_, r', st', ?_, b'⟩
      · intro rest
        rw [hstep, e1, Run.bind_ok, e']
        congr 1; simp; omega
      · rw [v', v1]; simp

end AvgEngine
end CenCalVM
