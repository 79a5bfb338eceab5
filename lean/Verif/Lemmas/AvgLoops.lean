/-
The loops of the averaging engine on the ghost description.
-/
import Verif.Lemmas.AvgStep

set_option linter.unusedSectionVars false

namespace CenCalVM
namespace AvgEngine
variable {K : Type} [Field K] [LinearOrder K]

/-- The innermost unfinished octant has a finished child. -/
def Stable (fs : List (Frame K)) : Prop := ∀ f ∈ fs.head?, f.done ≠ []

/-- A finished subtree that is not yet part of a larger one. -/
def Done (fin : List (Seg K)) (fs : List (Frame K)) (c : Seg K) : Prop := c ∈ fin ∨ ∃ f ∈ fs, c ∈ f.done

/-- No finished subtree contains one of the octants still to come. -/
def NoCover (fin : List (Seg K)) (fs : List (Frame K)) (rem : List (Entry K)) : Prop :=
  ∀ c, Done fin fs c → ∀ b ∈ rem, ¬ pathOf c.root <+: pathOf b

/-- `s'` is reached from `s` by finishing octants. -/
structure Phase (env : Env K) (rem : List (Entry K)) (s : Engine K) (fin : List (Seg K)) (fs : List (Frame K))
    (s' : Engine K) (fin' : List (Seg K)) (fs' : List (Frame K)) : Prop where
  rel : R env s' fin' fs'
  stable : Stable fs'
  leaves : allLeaves fin' fs' = allLeaves fin fs
  addrs : s'.out.entries.map Entry.addr = s.out.entries.map Entry.addr
  noCover : NoCover fin fs rem → NoCover fin' fs' rem

theorem Phase.refl {env : Env K} {rem : List (Entry K)} {s : Engine K} {fin : List (Seg K)} {fs : List (Frame K)}
    (h : R env s fin fs) (hs : Stable fs) : Phase env rem s fin fs s fin fs := ⟨h, hs, rfl, rfl, id⟩

theorem Phase.trans {env : Env K} {rem : List (Entry K)} {s s' s'' : Engine K} {fin fin' fin'' : List (Seg K)}
    {fs fs' fs'' : List (Frame K)} (h : Phase env rem s fin fs s' fin' fs')
    (h' : Phase env rem s' fin' fs' s'' fin'' fs'') : Phase env rem s fin fs s'' fin'' fs'' :=
  ⟨h'.rel, h'.stable, h'.leaves.trans h.leaves, h'.addrs.trans h.addrs, fun hn => h'.noCover (h.noCover hn)⟩

theorem pop_addrs (rd : K → K) (junk : Payload K) (fin : List (Seg K)) (f : Frame K) (fs : List (Frame K)) :
    ((pop rd fin f fs).1.flatMap Seg.all ++ flat junk (pop rd fin f fs).2).map Entry.addr =
      (fin.flatMap Seg.all ++ flat junk (f :: fs)).map Entry.addr := by
  cases fs <;> simp [pop, flat, Seg.node, List.flatMap_append]

theorem pop_done {rd : K → K} {fin : List (Seg K)} {f : Frame K} {fs : List (Frame K)} {c : Seg K}
    (h : Done (pop rd fin f fs).1 (pop rd fin f fs).2 c) : Done fin (f :: fs) c ∨ c = Seg.node rd f.addr f.done := by
  cases fs with
  | nil =>
    simp only [pop, Done, List.mem_append, List.mem_singleton, List.not_mem_nil, false_and, exists_false,
      or_false] at h
    rcases h with h | h
    · exact Or.inl (Or.inl h)
    · exact Or.inr h
  | cons g fs =>
    simp only [pop, Done, List.mem_cons] at h
    rcases h with h | ⟨x, rfl | hx, hc⟩
    · exact Or.inl (Or.inl h)
    · simp only [List.mem_append, List.mem_singleton] at hc
      rcases hc with hc | hc
      · exact Or.inl (Or.inr ⟨g, by simp, hc⟩)
      · exact Or.inr hc
    · exact Or.inl (Or.inr ⟨x, by simp [hx], hc⟩)

theorem pop_stable (rd : K → K) (fin : List (Seg K)) (f : Frame K) (fs : List (Frame K)) : Stable (pop rd fin f fs).2 := by
  intro g hg
  cases fs with
  | nil => simp [pop] at hg
  | cons x fs => simp [pop] at hg; subst hg; simp

theorem pop_phase {env : Env K} (hw : ∀ n, env.writeFault n = false) (rem : List (Entry K)) {s : Engine K}
    {fin : List (Seg K)} {f : Frame K} {fs : List (Frame K)} (h : R env s fin (f :: fs)) (hs : Stable (f :: fs))
    (hb : NoCover fin (f :: fs) rem → ∀ b ∈ rem, ¬ f.addr.toKey.path <+: pathOf b) :
    ∃ s', processOctant env s fs.length = .ok s' () ∧
      Phase env rem s fin (f :: fs) s' (pop env.rd fin f fs).1 (pop env.rd fin f fs).2 := by
  obtain ⟨s', h1, h2⟩ := processOctant_pop hw h (hs f (by simp))
  refine ⟨s', h1, h2, pop_stable _ _ _ _, pop_leaves _ _ _ _, ?_, ?_⟩
  · rw [h2.out, h.out]; exact pop_addrs _ _ _ _ _
  · intro hn c hc b hbr
    rcases pop_done hc with hc | rfl
    · exact hn c hc b hbr
    · exact hb hn b hbr

/-! ### Members of the output -/

theorem mem_flat {junk : Payload K} {fs : List (Frame K)} {x : Entry K} :
    x ∈ flat junk fs ↔ ∃ f ∈ fs, x = ⟨f.addr, junk⟩ ∨ ∃ c ∈ f.done, x ∈ c.all := by
  induction fs with
  | nil => simp [flat]
  | cons f fs ih =>
    simp only [flat, List.mem_append, ih, List.mem_cons, List.mem_flatMap, exists_eq_or_imp]
    constructor
    · rintro (h | h)
      · exact Or.inr h
      · exact Or.inl h
    · rintro (h | h)
      · exact Or.inr h
      · exact Or.inl h

/-- Facts about every frame of the stack. -/
theorem StackOk.frame {rd : K → K} {p : Nat → Pending K} {fs : List (Frame K)} (h : StackOk rd p fs) {f : Frame K} (hf : f ∈ fs) :
    f.addr.level < fs.length ∧ f.addr.type = .interior ∧ f.addr.toKey.Octant ∧ (∀ c ∈ f.done, Built rd c) ∧
      (∀ c ∈ f.done, ChildOf f.addr c.root.addr) := by
  induction fs with
  | nil => simp at hf
  | cons g fs ih =>
    obtain ⟨-, h2, h3, h4, h5, h6, -, h8⟩ := h
    simp only [List.mem_cons] at hf
    rcases hf with rfl | hf
    · exact ⟨by simp [h2], h3, h4, h5, h6⟩
    · obtain ⟨i1, i2⟩ := ih h8 hf
      exact ⟨by simp; omega, i2⟩

theorem R.mem {env : Env K} {s : Engine K} {fin : List (Seg K)} {fs : List (Frame K)} (h : R env s fin fs)
    {x : Entry K} (hx : x ∈ s.out.entries) :
    (∃ f ∈ fs, x.addr = f.addr) ∨ ∃ c, Done fin fs c ∧ x ∈ c.all := by
  rw [h.out, List.mem_append, List.mem_flatMap, mem_flat] at hx
  rcases hx with ⟨c, hc, hx⟩ | ⟨f, hf, rfl | ⟨c, hc, hx⟩⟩
  · exact Or.inr ⟨c, Or.inl hc, hx⟩
  · exact Or.inl ⟨f, hf, rfl⟩
  · exact Or.inr ⟨c, Or.inr ⟨f, hf, hc⟩, hx⟩

theorem R.built {env : Env K} {s : Engine K} {fin : List (Seg K)} {fs : List (Frame K)} (h : R env s fin fs)
    {c : Seg K} (hc : Done fin fs c) : Built env.rd c ∧ c.root.addr.level ≤ fs.length := by
  rcases hc with hc | ⟨f, hf, hc⟩
  · exact ⟨(h.roots c hc).1, by rw [(h.roots c hc).2]; omega⟩
  · obtain ⟨h1, -, -, h4, h5⟩ := h.stack.frame hf
    exact ⟨h4 c hc, by rw [(h5 c hc).2.1]; omega⟩

theorem R.octants {env : Env K} {s : Engine K} {fin : List (Seg K)} {fs : List (Frame K)} (h : R env s fin fs)
    {x : Entry K} (hx : x ∈ s.out.entries) : x.addr.toKey.Octant := by
  rcases h.mem hx with ⟨f, hf, he⟩ | ⟨c, hc, hx⟩
  · rw [he]; exact (h.stack.frame hf).2.2.1
  · exact (h.built hc).1.octant x hx

theorem R.done_mem {env : Env K} {s : Engine K} {fin : List (Seg K)} {fs : List (Frame K)} (h : R env s fin fs)
    {c : Seg K} (hc : Done fin fs c) {x : Entry K} (hx : x ∈ c.all) : x ∈ s.out.entries := by
  rw [h.out, List.mem_append, List.mem_flatMap, mem_flat]
  rcases hc with hc | ⟨f, hf, hc⟩
  · exact Or.inl ⟨c, hc, hx⟩
  · exact Or.inr ⟨f, hf, Or.inr ⟨c, hc, hx⟩⟩

theorem R.frame_mem {env : Env K} {s : Engine K} {fin : List (Seg K)} {fs : List (Frame K)} (h : R env s fin fs)
    {f : Frame K} (hf : f ∈ fs) : (⟨f.addr, env.junk⟩ : Entry K) ∈ s.out.entries := by
  rw [h.out, List.mem_append, mem_flat]
  exact Or.inr ⟨f, hf, Or.inl rfl⟩

theorem mem_allLeaves {fin : List (Seg K)} {fs : List (Frame K)} {a : Entry K} :
    a ∈ allLeaves fin fs ↔ ∃ c, Done fin fs c ∧ a ∈ c.leaves := by
  have hf : a ∈ flatLeaves fs ↔ ∃ f ∈ fs, ∃ c ∈ f.done, a ∈ c.leaves := by
    induction fs with
    | nil => simp [flatLeaves]
    | cons f fs ih =>
      simp only [flatLeaves, List.mem_append, ih, List.mem_flatMap, List.mem_cons, exists_eq_or_imp]
      exact or_comm
  unfold allLeaves Done
  rw [List.mem_append, hf, List.mem_flatMap]
  constructor
  · rintro (⟨c, hc, h⟩ | ⟨f, hf, c, hc, h⟩)
    · exact ⟨c, Or.inl hc, h⟩
    · exact ⟨c, Or.inr ⟨f, hf, hc⟩, h⟩
  · rintro ⟨c, hc | ⟨f, hf, hc⟩, h⟩
    · exact Or.inl ⟨c, hc, h⟩
    · exact Or.inr ⟨f, hf, c, hc, h⟩

/-- Everything written so far comes before `b`. -/
def Before (s : Engine K) (b : Entry K) : Prop := ∀ x ∈ s.out.entries, pathOf x < pathOf b

theorem Before.of_addrs {s s' : Engine K} {b : Entry K} (h : Before s b)
    (ha : s'.out.entries.map Entry.addr = s.out.entries.map Entry.addr) : Before s' b := by
  intro x hx
  have : x.addr ∈ s'.out.entries.map Entry.addr := List.mem_map.2 ⟨x, hx, rfl⟩
  rw [ha, List.mem_map] at this
  obtain ⟨y, hy, hyx⟩ := this
  have := h y hy
  unfold pathOf at *
  rwa [hyx] at this

theorem Before.frame {env : Env K} {s : Engine K} {fin : List (Seg K)} {fs : List (Frame K)} {b : Entry K}
    (hb : Before s b) (h : R env s fin fs) {f : Frame K} (hf : f ∈ fs) : f.addr.toKey.path < pathOf b := by
  have h1 : pathOf (⟨f.addr, env.junk⟩ : Entry K) < pathOf b := hb ⟨f.addr, env.junk⟩ (h.frame_mem hf)
  have h2 : pathOf (⟨f.addr, env.junk⟩ : Entry K) = f.addr.toKey.path := rfl
  rwa [h2] at h1

/-- An unfinished octant that does not contain `b` contains nothing after `b`. -/
theorem not_prefix_later {p b b' : List Nat} (h : ¬ p <+: b) (hp : p < b) (hb : ¬ b' < b) : ¬ p <+: b' :=
  fun h' => h (prefix_convex List.prefix_rfl h' (not_lt_of_gt hp) hb)

/-- A full unfinished octant contains no octant still to come. -/
theorem not_prefix_full {f : Frame K} {b : Entry K} (hch : ∀ c ∈ f.done, ChildOf f.addr c.root.addr)
    (hfull : maskOf f.roots = 0xFF) (hlt : f.addr.toKey.path < pathOf b)
    (hn : ∀ c ∈ f.done, ¬ pathOf c.root <+: pathOf b) : ¬ f.addr.toKey.path <+: pathOf b := by
  rintro ⟨t, ht⟩
  cases t with
  | nil => rw [List.append_nil] at ht; rw [ht] at hlt; exact lt_irrefl _ hlt
  | cons d t =>
    have hd : d < 8 := by
      apply Key.path_lt_eight b.addr.toKey
      show d ∈ pathOf b
      rw [← ht]; simp
    obtain ⟨e, he, hed⟩ := (maskOf_full (roots_level hch)).1 hfull d hd
    simp only [Frame.roots, List.mem_map] at he
    obtain ⟨c, hc, rfl⟩ := he
    apply hn c hc
    have := (hch c hc).path
    unfold pathOf at *
    rw [this, hed, ← ht]
    exact ⟨t, by simp⟩

/-! ### The loops -/

theorem processDown_spec {env : Env K} (hw : ∀ n, env.writeFault n = false) {b : Entry K} {rem : List (Entry K)}
    (hrem : ∀ b' ∈ rem, ¬ pathOf b' < pathOf b)
    {s : Engine K} {fin : List (Seg K)} {fs : List (Frame K)} (h : R env s fin fs) (hs : Stable fs)
    (hbf : Before s b) :
    ∃ s' fin' fs', processDown env b.addr.level fs.length s = .ok s' () ∧
      Phase env rem s fin fs s' fin' fs' ∧ fs'.length ≤ b.addr.level := by
  obtain ⟨n, hn⟩ : ∃ n, n = fs.length := ⟨_, rfl⟩
  induction n generalizing s fin fs with
  | zero =>
    rw [← hn]
    exact ⟨s, fin, fs, rfl, Phase.refl h hs, by omega⟩
  | succ n ih =>
    cases fs with
    | nil => simp at hn
    | cons f fs =>
      simp only [List.length_cons] at hn ⊢
      have hn' : n = fs.length := by omega
      unfold processDown
      by_cases hle : b.addr.level ≤ fs.length
      · rw [if_pos hle]
        have hp : f.addr.toKey.path < pathOf b := hbf.frame h (f := f) (by simp)
        have hnp : ¬ f.addr.toKey.path <+: pathOf b := by
          intro hpre
          have hl : f.addr.level = fs.length := h.stack.2.1
          have := hpre.eq_of_length_le (by unfold pathOf; simp [hl]; exact hle)
          rw [this] at hp; exact lt_irrefl _ hp
        obtain ⟨s1, e1, p1⟩ := pop_phase hw rem h hs (fun _ b' hb' => not_prefix_later hnp hp (hrem b' hb'))
        obtain ⟨s2, fin2, fs2, e2, p2, l2⟩ := ih p1.rel p1.stable (hbf.of_addrs p1.addrs) (by rw [pop_length]; exact hn')
        rw [pop_length] at e2
        refine ⟨s2, fin2, fs2, ?_, p1.trans p2, l2⟩
        rw [e1, Run.bind_ok, e2]
      · rw [if_neg hle]
        exact ⟨s, fin, f :: fs, rfl, Phase.refl h hs, by simp; omega⟩

theorem lowestValid_spec {env : Env K} {s : Engine K} {fin : List (Seg K)} {fs : List (Frame K)} (h : R env s fin fs)
    {n : Nat} (hn : fs.length ≤ n) : lowestValid s n = fs.length := by
  induction n with
  | zero => simp [lowestValid]; omega
  | succ n ih =>
    unfold lowestValid
    by_cases he : fs.length = n + 1
    · cases fs with
      | nil => simp at he
      | cons f fs =>
        simp only [List.length_cons] at he
        have hl : fs.length = n := by omega
        have := h.stack.1
        rw [hl] at this
        rw [this]; simp [slotOf, hl]
    · rw [h.free n (by omega)]
      simp only [Bool.false_eq_true, if_false]
      exact ih (by omega)

theorem closeLoop_spec {env : Env K} (hw : ∀ n, env.writeFault n = false) {b : Entry K} {rem : List (Entry K)}
    (hb : b.addr.toKey.Octant) (hrem : ∀ b' ∈ rem, ¬ pathOf b' < pathOf b)
    {s : Engine K} {fin : List (Seg K)} {fs : List (Frame K)} (h : R env s fin fs) (hs : Stable fs)
    (hbf : Before s b) (hlen : fs.length ≤ b.addr.level) :
    ∃ s' fin' fs', closeLoop env b.addr fs.length s = .ok s' fs'.length ∧
      Phase env rem s fin fs s' fin' fs' ∧ fs'.length ≤ b.addr.level ∧
      ∀ f ∈ fs'.head?, f.addr.toKey = b.addr.toKey.trunc f.addr.level := by
  obtain ⟨n, hn⟩ : ∃ n, n = fs.length := ⟨_, rfl⟩
  induction n generalizing s fin fs with
  | zero =>
    have : fs = [] := List.length_eq_zero_iff.1 hn.symm
    subst this
    exact ⟨s, fin, [], rfl, Phase.refl h hs, hlen, by simp⟩
  | succ n ih =>
    cases fs with
    | nil => simp at hn
    | cons f fs =>
      simp only [List.length_cons] at hn hlen ⊢
      have hn' : n = fs.length := by omega
      have hlev : f.addr.level = fs.length := h.stack.2.1
      have hslot : s.pending fs.length = slotOf env.rd f := h.stack.1
      have hv : (s.pending fs.length).valid = true := by rw [hslot]; rfl
      have hanc := findAncestor_eq (a := b.addr) (n := fs.length) (by omega) (by have := hb.level_le; omega)
      have hp : f.addr.toKey.path < pathOf b := hbf.frame h (f := f) (by simp)
      unfold closeLoop
      rw [if_pos hv, hanc]
      dsimp only
      by_cases hm : mustClose s fs.length { toKey := b.addr.toKey.trunc fs.length, type := .interior } = true
      · rw [if_pos hm]
        have hok : NoCover fin (f :: fs) rem → ∀ b' ∈ rem, ¬ f.addr.toKey.path <+: pathOf b' := by
          intro hnc b' hb'
          unfold mustClose at hm
          rw [Bool.or_eq_true] at hm
          rcases hm with hm | hm
          · have hne : ¬ f.addr.toKey.path <+: pathOf b := by
              intro hpre
              have : sameAddr { toKey := b.addr.toKey.trunc fs.length, type := .interior }
                  (s.pending fs.length).addr = true := by
                rw [sameAddr_iff, hslot]
                have := (Key.contains_iff_trunc h.stack.2.2.2.1 hb).1
                  ((Key.contains_iff_prefix h.stack.2.2.2.1 hb).2 hpre)
                rw [← hlev]; exact this.2
              rw [this] at hm; simp at hm
            exact not_prefix_later hne hp (hrem b' hb')
          · have hfull : maskOf f.roots = 0xFF := by
              rw [hslot] at hm; exact of_decide_eq_true hm
            refine not_prefix_full h.stack.2.2.2.2.2.1 hfull ?_ ?_
            · rcases lt_or_eq_of_le (not_lt.1 (hrem b' hb')) with hlt | heq
              · exact lt_trans hp hlt
              · rw [← heq]; exact hp
            · intro c hc
              exact hnc c (Or.inr ⟨f, by simp, hc⟩) b' hb'
        obtain ⟨s1, e1, p1⟩ := pop_phase hw rem h hs hok
        obtain ⟨s2, fin2, fs2, e2, p2, l2, t2⟩ := ih p1.rel p1.stable (hbf.of_addrs p1.addrs)
          (by rw [pop_length]; omega) (by rw [pop_length]; exact hn')
        rw [pop_length] at e2
        refine ⟨s2, fin2, fs2, ?_, p1.trans p2, l2, t2⟩
        have hnc : s.ncur = fs.length + 1 := h.ncur
        simp only [Run.assert, hnc, decide_true, if_true, Run.bind_ok]
        rw [e1, Run.bind_ok, e2]
      · rw [if_neg hm]
        refine ⟨s, fin, f :: fs, rfl, Phase.refl h hs, by simpa using hlen, ?_⟩
        intro g hg
        simp only [List.head?_cons, Option.mem_def, Option.some.injEq] at hg
        subst hg
        unfold mustClose at hm
        rw [Bool.or_eq_true, not_or] at hm
        have h1 : sameAddr { toKey := b.addr.toKey.trunc fs.length, type := .interior }
            (s.pending fs.length).addr = true := by
          have := hm.1; simp at this; exact this
        rw [sameAddr_iff, hslot] at h1
        rw [hlev]; exact h1.symm

theorem fullLoop_spec {env : Env K} (hw : ∀ n, env.writeFault n = false) {rem : List (Entry K)}
    {s : Engine K} {fin : List (Seg K)} {fs : List (Frame K)} (h : R env s fin fs) (hs : Stable fs)
    (hbf : ∀ b ∈ rem, Before s b) :
    ∃ s' fin' fs', fullLoop env fs.length s = .ok s' fs'.length ∧ Phase env rem s fin fs s' fin' fs' := by
  obtain ⟨n, hn⟩ : ∃ n, n = fs.length := ⟨_, rfl⟩
  induction n generalizing s fin fs with
  | zero =>
    have : fs = [] := List.length_eq_zero_iff.1 hn.symm
    subst this
    exact ⟨s, fin, [], rfl, Phase.refl h hs⟩
  | succ n ih =>
    cases fs with
    | nil => simp at hn
    | cons f fs =>
      simp only [List.length_cons] at hn ⊢
      have hn' : n = fs.length := by omega
      have hslot : s.pending fs.length = slotOf env.rd f := h.stack.1
      have hv : (s.pending fs.length).valid = true := by rw [hslot]; rfl
      unfold fullLoop
      by_cases hm : (s.pending fs.length).mask = 0xFF
      · rw [if_pos hm]
        have hfull : maskOf f.roots = 0xFF := by rw [hslot] at hm; exact hm
        obtain ⟨s1, e1, p1⟩ := pop_phase hw rem h hs (fun hnc b' hb' =>
          not_prefix_full h.stack.2.2.2.2.2.1 hfull ((hbf b' hb').frame h (f := f) (by simp))
            (fun c hc => hnc c (Or.inr ⟨f, by simp, hc⟩) b' hb'))
        obtain ⟨s2, fin2, fs2, e2, p2⟩ := ih p1.rel p1.stable (fun b' hb' => (hbf b' hb').of_addrs p1.addrs)
          (by rw [pop_length]; exact hn')
        rw [pop_length] at e2
        refine ⟨s2, fin2, fs2, ?_, p1.trans p2⟩
        have hnc : s.ncur = fs.length + 1 := h.ncur
        simp only [Run.assert, hv, hnc, decide_true, if_true, Run.bind_ok]
        rw [e1, Run.bind_ok, e2]
      · rw [if_neg hm]
        exact ⟨s, fin, f :: fs, rfl, Phase.refl h hs⟩

theorem finish_spec {env : Env K} (hw : ∀ n, env.writeFault n = false) {n : Nat}
    {s : Engine K} {fin : List (Seg K)} {fs : List (Frame K)} (h : R env s fin fs) (hs : Stable fs)
    (hn : fs.length ≤ n) :
    ∃ s' fin', finishProcessing env n s = .ok s' () ∧ Phase env [] s fin fs s' fin' [] := by
  induction n generalizing s fin fs with
  | zero =>
    have : fs = [] := List.length_eq_zero_iff.1 (by omega)
    subst this
    exact ⟨s, fin, rfl, Phase.refl h hs⟩
  | succ n ih =>
    unfold finishProcessing
    by_cases he : fs.length = n + 1
    · cases fs with
      | nil => simp at he
      | cons f fs =>
        simp only [List.length_cons] at he
        have hl : fs.length = n := by omega
        subst hl
        have hv : (s.pending fs.length).valid = true := by rw [h.stack.1]; rfl
        rw [if_pos hv]
        obtain ⟨s1, e1, p1⟩ := pop_phase hw [] h hs (fun _ b hb => by simp at hb)
        obtain ⟨s2, fin2, e2, p2⟩ := ih p1.rel p1.stable (by rw [pop_length])
        refine ⟨s2, fin2, ?_, p1.trans p2⟩
        have hnc : s.ncur = fs.length + 1 := h.ncur
        simp only [Run.assert, hnc, decide_true, if_true, Run.bind_ok]
        rw [e1, Run.bind_ok, e2]
    · rw [h.free n (by omega)]
      simp only [Bool.false_eq_true, if_false]
      exact ih h hs (by omega)

end AvgEngine
end CenCalVM
