/-
Properties C26-C34: averaging.
-/
import Verif.Lemmas.AvgFaults
import Verif.Lemmas.AvgQuery
import Verif.Lemmas.AvgRoot
import Verif.Props.Query

set_option linter.unusedSectionVars false

namespace CenCalVM
open AvgEngine

/-! ### Data of the examples -/

/-- An environment in which nothing fails. -/
def exEnv : Env ℚ := ⟨fun _ => false, fun _ => false, fun _ => false, exPay 7 7, fun _ => "", id⟩
theorem exEnv_reliable : exEnv.Reliable := ⟨fun _ => rfl, fun _ => rfl, fun _ => rfl⟩
theorem exEnv_exact : exEnv.Exact := fun _ => rfl

/-- A leaf of level 2 with rock, one with water, both in the first octant of level 1, and a leaf of level 1 with
rock. -/
def exAvgDb : Db ℚ := ⟨[⟨⟨⟨0, 0, 0, 2⟩, .leaf⟩, exPay 2000 1⟩,
  ⟨⟨⟨0x20000000, 0, 0, 2⟩, .leaf⟩, ⟨1500, -999, 1000, -999, -999, 10, 1, 1⟩⟩,
  ⟨⟨⟨0x40000000, 0, 0, 1⟩, .leaf⟩, exPay 1000 3⟩]⟩

theorem exAvgDb_good : exAvgDb.Good := ⟨by unfold Db.Octants; decide +kernel, by unfold Db.Sorted; decide +kernel⟩
theorem exAvgDb_ne : exAvgDb.entries ≠ [] := by simp [exAvgDb]
theorem exAvgDb_nonOverlapping : exAvgDb.NonOverlapping := by unfold Db.NonOverlapping; decide +kernel
theorem exAvgDb_belowRoot : exAvgDb.BelowRoot := by unfold Db.BelowRoot; decide +kernel

/-- The output of a run that ends normally. -/
def outOf {K α : Type} : Run (Engine K) α → Option (List (Entry K))
  | .ok s _ => some s.out.entries
  | _ => none
/-- The operations performed by a run that ends with an exception. -/
def failLog {K α : Type} : Run (Engine K) α → Option (List Bool)
  | .exc _ s => some s.log
  | _ => none

theorem outOf_some {K α : Type} {r : Run (Engine K) α} {l : List (Entry K)} (h : outOf r = some l) :
    ∃ s a, r = .ok s a ∧ s.out.entries = l := by
  cases r with
  | ok s a => cases h; exact ⟨s, a, rfl, rfl⟩
  | exc m s => cases h
  | ub => cases h

theorem failLog_some {K α : Type} {r : Run (Engine K) α} {l : List Bool} (h : failLog r = some l) :
    ∃ m s, r = .exc m s ∧ s.log = l := by
  cases r with
  | exc m s => cases h; exact ⟨m, s, rfl, rfl⟩
  | ok s a => cases h
  | ub => cases h

/-- The averaged example: the root, the first octant of level 1, and the three leaves. -/
def exAvgOut : Db ℚ := ⟨[⟨⟨⟨0, 0, 0, 0⟩, .interior⟩, { exPay 1500 (-999) with zone := -999 }⟩,
  ⟨⟨⟨0, 0, 0, 1⟩, .interior⟩, { exPay 2000 (-999) with zone := -999 }⟩,
  ⟨⟨⟨0, 0, 0, 2⟩, .leaf⟩, exPay 2000 1⟩,
  ⟨⟨⟨0x20000000, 0, 0, 2⟩, .leaf⟩, ⟨1500, -999, 1000, -999, -999, 10, 1, 1⟩⟩,
  ⟨⟨⟨0x40000000, 0, 0, 1⟩, .leaf⟩, exPay 1000 3⟩]⟩

theorem exAvg_out : outOf (average exEnv exAvgDb) = some exAvgOut.entries := by decide +kernel

section
variable {K : Type} [Field K] [LinearOrder K] [IsStrictOrderedRing K]

/-! ### C26 -/

/-- C26 for input octants below the root: averaging ends normally and every input octant is in the result with its
address, type and payload.  Missing from the full statement: an input octant at the root level, see `C26_false`. -/
theorem C26_partial {env : Env K} (he : env.Reliable) {db : Db K} (hdb : db.Good) (hne : db.entries ≠ [])
    (hno : db.NonOverlapping) (hroot : db.BelowRoot) :
    ∃ s, average env db = .ok s () ∧ ∀ e ∈ db.entries, e ∈ s.out.entries := by
  obtain ⟨s, g, h, ht, -⟩ := average_tree' he hdb hne hno hroot
  exact ⟨s, h, ht.keeps⟩

example : exEnv.Reliable ∧ exAvgDb.Good ∧ exAvgDb.entries ≠ [] ∧ exAvgDb.NonOverlapping ∧ exAvgDb.BelowRoot :=
  ⟨exEnv_reliable, exAvgDb_good, exAvgDb_ne, exAvgDb_nonOverlapping, exAvgDb_belowRoot⟩

/-- The full statement of C26 is false of the code: a database holding only the root octant is non-overlapping, and
averaging ends normally without storing it. -/
theorem C26_false : exEnv.Reliable ∧ exDbExt.Good ∧ exDbExt.entries ≠ [] ∧ exDbExt.NonOverlapping ∧
    ∃ s, average exEnv exDbExt = .ok s () ∧ ¬ ∀ e ∈ exDbExt.entries, e ∈ s.out.entries := by
  refine ⟨exEnv_reliable, exDbExt_good, by simp [exDbExt], by unfold Db.NonOverlapping; decide +kernel, ?_⟩
  obtain ⟨s, a, h1, h2⟩ := outOf_some (r := average exEnv exDbExt) (l := []) (by decide +kernel)
  exact ⟨s, h1, by rw [h2]; decide +kernel⟩

/-! ### C27 -/

/-- C27: the result is sorted (so no key occurs twice), its keys are the input keys and all proper ancestors of
input octants, every entry that is not an input octant is a proper ancestor of type interior, and no proper
ancestor is an input octant. -/
theorem C27 {env : Env K} (he : env.Reliable) {db : Db K} (hdb : db.Good) (hne : db.entries ≠ [])
    (hno : db.NonOverlapping) (hroot : db.BelowRoot) :
    ∃ s, average env db = .ok s () ∧ s.out.Good ∧
      (∀ k, (∃ x ∈ s.out.entries, x.addr.toKey = k) ↔ (∃ e ∈ db.entries, e.addr.toKey = k) ∨ db.ProperAncestor k) ∧
      (∀ x ∈ s.out.entries, x ∈ db.entries ∨ (x.addr.type = .interior ∧ db.ProperAncestor x.addr.toKey)) ∧
      ∀ e ∈ db.entries, e ∈ s.out.entries ∧ ¬ db.ProperAncestor e.addr.toKey := by
  obtain ⟨s, g, h, ht, -⟩ := average_tree' he hdb hne hno hroot
  refine ⟨s, h, ht.good, fun k => ⟨?_, ?_⟩, fun x hx => ht.entries hx, fun e he => ⟨ht.keeps e he, ht.not_both he⟩⟩
  · rintro ⟨x, hx, rfl⟩
    rcases ht.entries hx with hin | ⟨-, ha⟩
    · exact Or.inl ⟨x, hin, rfl⟩
    · exact Or.inr ha
  · rintro (⟨e, he, rfl⟩ | ha)
    · exact ⟨e, ht.keeps e he, rfl⟩
    · exact ht.ancestors ha

example : exAvgDb.ProperAncestor ⟨0, 0, 0, 1⟩ :=
  ⟨by decide, ⟨⟨⟨0, 0, 0, 2⟩, .leaf⟩, exPay 2000 1⟩, by simp [exAvgDb], by decide, by decide⟩

/-! ### C28 -/

/-- C28: every interior octant of the result holds the solid-precedence mean of its direct children in the
result. -/
theorem C28 {env : Env K} (he : env.Reliable) (hx : env.Exact) {db : Db K} (hdb : db.Good) (hne : db.entries ≠ [])
    (hno : db.NonOverlapping) :
    ∃ s, average env db = .ok s () ∧ ∀ x ∈ s.out.entries, x ∉ db.entries →
      SolidPrecedence ((s.out.childrenOf x.addr.toKey).map Entry.payload) x.payload := by
  rcases root_cases hdb hno with hroot | ⟨e0, h0, hl0⟩
  swap
  · obtain ⟨s, h, ho, -⟩ := average_root he h0 hl0
    refine ⟨s, h, fun x hx => ?_⟩
    rw [ho] at hx; simp [Db.empty] at hx
  obtain ⟨s, g, h, ht, -⟩ := average_tree' he hdb hne hno hroot
  refine ⟨s, h, fun x hxm hn => ht.mean hx hxm ?_⟩
  rcases ht.entries hxm with hin | ⟨-, ha⟩
  · exact absurd hin hn
  · exact ha

/-- The octants created always have a child in the result, so the mean is over a non-empty set of children. -/
theorem C28_children {env : Env K} (he : env.Reliable) {db : Db K} (hdb : db.Good) (hne : db.entries ≠ [])
    (hno : db.NonOverlapping) :
    ∃ s, average env db = .ok s () ∧ ∀ x ∈ s.out.entries, x ∉ db.entries → s.out.childrenOf x.addr.toKey ≠ [] := by
  rcases root_cases hdb hno with hroot | ⟨e0, h0, hl0⟩
  swap
  · obtain ⟨s, h, ho, -⟩ := average_root he h0 hl0
    refine ⟨s, h, fun x hx => ?_⟩
    rw [ho] at hx; simp [Db.empty] at hx
  obtain ⟨s, g, h, ht, -⟩ := average_tree' he hdb hne hno hroot
  refine ⟨s, h, fun x hx hn hnil => ?_⟩
  rcases ht.entries hx with hin | ⟨-, hxo, e, hein, hc, hk⟩
  · exact hn hin
  -- the octant one level below `x` on the way to `e`
  have heo := hdb.octants e hein
  obtain ⟨hle, htr⟩ := (Key.contains_iff_trunc hxo heo).1 hc
  have hlt : x.addr.level < e.addr.level := by
    rcases Nat.lt_or_eq_of_le hle with h | h
    · exact h
    · exfalso; apply hk
      have h' : x.addr.toKey.level = e.addr.toKey.level := h
      rw [← htr, h', heo.trunc_self]
  have hco : (e.addr.toKey.trunc (x.addr.level + 1)).Octant := heo.trunc (by have : e.addr.level ≤ 31 := heo.level_le; omega)
  have hcx : x.addr.toKey.Contains (e.addr.toKey.trunc (x.addr.level + 1)) := by
    rw [Key.contains_iff_trunc hxo hco]
    refine ⟨by show x.addr.level ≤ x.addr.level + 1; omega, ?_⟩
    rw [Key.trunc_trunc _ (by omega)]; exact htr
  have hce : (e.addr.toKey.trunc (x.addr.level + 1)).Contains e.addr.toKey := by
    rw [Key.contains_iff_trunc hco heo]; exact ⟨hlt, rfl⟩
  have hex : ∃ c ∈ s.out.entries, c.addr.toKey = e.addr.toKey.trunc (x.addr.level + 1) := by
    by_cases heq : e.addr.toKey.trunc (x.addr.level + 1) = e.addr.toKey
    · exact ⟨e, ht.keeps e hein, heq.symm⟩
    · exact ht.ancestors ⟨hco, e, hein, hce, heq⟩
  obtain ⟨c, hcm, hck⟩ := hex
  have : c ∈ s.out.childrenOf x.addr.toKey := by
    unfold Db.childrenOf
    rw [List.mem_filter, decide_eq_true_eq]
    refine ⟨hcm, ?_, ?_⟩
    · rw [hck]; rfl
    · rw [hck]; exact hcx
  rw [hnil] at this; simp at this

example : ∃ s, average exEnv exAvgDb = .ok s () ∧ ∃ x ∈ s.out.entries, x ∉ exAvgDb.entries ∧ x.payload.vs = 1500 := by
  obtain ⟨s, a, h1, h2⟩ := outOf_some exAvg_out
  refine ⟨s, h1, ?_⟩
  rw [h2]; decide +kernel

/-! ### C29 -/

/-- C29: an interior octant is solid exactly if an input octant inside it is solid; each of its real values lies
between any bounds on that value over the contributing input octants inside it; without a contributing octant it
has no data. -/
theorem C29 {env : Env K} (he : env.Reliable) (hex : env.Exact) {db : Db K} (hdb : db.Good) (hne : db.entries ≠ [])
    (hno : db.NonOverlapping) :
    ∃ s, average env db = .ok s () ∧ ∀ x ∈ s.out.entries, x ∉ db.entries →
      (0 < x.payload.vs ↔ ∃ e ∈ db.entries, x.addr.toKey.Contains e.addr.toKey ∧ 0 < e.payload.vs) ∧
      ((∃ e, db.Contributes x.addr.toKey e) → ∀ f ∈ Payload.reals (K := K), ∀ lo hi,
        (∀ e, db.Contributes x.addr.toKey e → lo ≤ f e.payload ∧ f e.payload ≤ hi) →
          lo ≤ f x.payload ∧ f x.payload ≤ hi) ∧
      ((¬ ∃ e, db.Contributes x.addr.toKey e) → ∀ f ∈ Payload.reals (K := K), f x.payload = -999) := by
  rcases root_cases hdb hno with hroot | ⟨e0, h0, hl0⟩
  swap
  · obtain ⟨s, h, ho, -⟩ := average_root he h0 hl0
    refine ⟨s, h, fun x hx => ?_⟩
    rw [ho] at hx; simp [Db.empty] at hx
  obtain ⟨s, g, h, ht, -⟩ := average_tree' he hdb hne hno hroot
  refine ⟨s, h, fun x hx hn => ?_⟩
  have ha : db.ProperAncestor x.addr.toKey := by
    rcases ht.entries hx with hin | ⟨-, ha⟩
    · exact absurd hin hn
    · exact ha
  obtain ⟨t, hr, hroot', htn, hl⟩ := ht.ranges hex hx ha
  have hsol : (∃ e ∈ t.leaves, 0 < e.payload.vs) ↔
      ∃ e ∈ db.entries, x.addr.toKey.Contains e.addr.toKey ∧ 0 < e.payload.vs := by
    constructor
    · rintro ⟨e, he, hv⟩; obtain ⟨h1, h2⟩ := (hl e).1 he; exact ⟨e, h1, h2, hv⟩
    · rintro ⟨e, h1, h2, hv⟩; exact ⟨e, (hl e).2 ⟨h1, h2⟩, hv⟩
  by_cases hS : ∃ e ∈ t.leaves, 0 < e.payload.vs
  · obtain ⟨h1, h2⟩ := hr.solid hS
    rw [hroot'] at h1 h2
    refine ⟨iff_of_true h1 (hsol.1 hS), fun _ f hf lo hi hb => h2 f hf lo hi fun e he hv => ?_, fun hnone => ?_⟩
    · obtain ⟨h3, h4⟩ := (hl e).1 he
      exact hb e ⟨h3, h4, Or.inl hv⟩
    · exfalso
      obtain ⟨e, he, hv⟩ := hS
      obtain ⟨h3, h4⟩ := (hl e).1 he
      exact hnone ⟨e, h3, h4, Or.inl hv⟩
  · have hS' : ∀ e ∈ t.leaves, ¬ 0 < e.payload.vs := fun e he hv => hS ⟨e, he, hv⟩
    have hS2 : ∀ d ∈ db.entries, x.addr.toKey.Contains d.addr.toKey → ¬ 0 < d.payload.vs :=
      fun d hd hc => hS' d ((hl d).2 ⟨hd, hc⟩)
    have h1 := hr.notSolid hS'
    rw [hroot'] at h1
    refine ⟨iff_of_false h1 (fun h => hS (hsol.2 h)), ?_, ?_⟩
    · rintro ⟨e, hec⟩ f hf lo hi hb
      have hvp : 0 < e.payload.vp := by
        rcases hec.2.2 with h | h
        · exact absurd h (hS2 e hec.1 hec.2.1)
        · exact h.1
      obtain ⟨-, h2⟩ := hr.water hS' ⟨e, (hl e).2 ⟨hec.1, hec.2.1⟩, hvp⟩
      rw [hroot'] at h2
      refine h2 f hf lo hi fun e he hv => ?_
      obtain ⟨h3, h4⟩ := (hl e).1 he
      exact hb e ⟨h3, h4, Or.inr ⟨hv, hS2⟩⟩
    · intro hnone
      have hW : ∀ e ∈ t.leaves, ¬ 0 < e.payload.vp := by
        intro e he hv
        obtain ⟨h3, h4⟩ := (hl e).1 he
        exact hnone ⟨e, h3, h4, Or.inr ⟨hv, hS2⟩⟩
      have h2 := (hr.noData hS' hW).2 htn
      rw [hroot'] at h2
      exact h2

example : exAvgDb.Contributes ⟨0, 0, 0, 1⟩ ⟨⟨⟨0, 0, 0, 2⟩, .leaf⟩, exPay 2000 1⟩ ∧
    ¬ exAvgDb.Contributes ⟨0, 0, 0, 1⟩
      ⟨⟨⟨0x20000000, 0, 0, 2⟩, .leaf⟩, ⟨1500, -999, 1000, -999, -999, 10, 1, 1⟩⟩ := by
  unfold Db.Contributes; decide +kernel

/-! ### C30 -/

/-- C30: if a stored octant below the root contains another stored octant, averaging ends with an exception. -/
theorem C30 {env : Env K} (he : env.Reliable) {db : Db K} (hdb : db.Good) {a b : Entry K} (ha : a ∈ db.entries)
    (hb : b ∈ db.entries) (hab : a ≠ b) (hroot : 0 < a.addr.level) (hc : a.addr.toKey.Contains b.addr.toKey) :
    ∃ s, average env db = .exc "Error occurred while appending new octant to etree." s := by
  have hp : ¬ db.entries.Pairwise fun a b => 0 < a.addr.level → ¬ pathOf a <+: pathOf b := by
    intro hp
    have hpre := (Key.contains_iff_prefix (hdb.octants a ha) (hdb.octants b hb)).1 hc
    -- `a` comes before `b`
    have hs := sorted_paths hdb.octants hdb.sorted
    have hboth := hp.and hs
    have hsym : ∀ x ∈ db.entries, ∀ y ∈ db.entries, x ≠ y →
        ((0 < x.addr.level → ¬ pathOf x <+: pathOf y) ∧ pathOf x < pathOf y) ∨
        ((0 < y.addr.level → ¬ pathOf y <+: pathOf x) ∧ pathOf y < pathOf x) := by
      intro x hx y hy hxy
      have : Std.Symm fun x y : Entry K => x ≠ y →
        ((0 < x.addr.level → ¬ pathOf x <+: pathOf y) ∧ pathOf x < pathOf y) ∨
        ((0 < y.addr.level → ¬ pathOf y <+: pathOf x) ∧ pathOf y < pathOf x) :=
        ⟨fun x y h hne => (h hne.symm).symm⟩
      refine List.Pairwise.forall_of_forall (R := fun x y => x ≠ y →
        ((0 < x.addr.level → ¬ pathOf x <+: pathOf y) ∧ pathOf x < pathOf y) ∨
        ((0 < y.addr.level → ¬ pathOf y <+: pathOf x) ∧ pathOf y < pathOf x)) ?_ ?_ hx hy hxy
      · intro x _ h; exact absurd rfl h
      · exact hboth.imp fun {x y} h _ => Or.inl h
    rcases hsym a ha b hb hab with h | h
    · exact h.1 hroot hpre
    · exact prefix_not_lt hpre h.2
  obtain ⟨pre, b', post, hsplit, h1, a', ha', hR⟩ := first_bad hp
  push Not at hR
  exact average_reject he hdb.octants hdb.sorted hsplit (by
    unfold below
    refine List.Pairwise.imp_of_mem ?_ (h1.filter _)
    intro a b ha hb hab
    exact hab (by simpa using (List.mem_filter.1 ha).2)) (a := a')
    (by unfold below; rw [List.mem_filter]; exact ⟨ha', by simpa using hR.1⟩) hR.2

/-- A leaf of level 1 with a leaf of level 2 inside it. -/
def exOverlap : Db ℚ := ⟨[⟨⟨⟨0, 0, 0, 1⟩, .leaf⟩, exPay 2000 1⟩, ⟨⟨⟨0x20000000, 0, 0, 2⟩, .leaf⟩, exPay 1000 1⟩,
  ⟨⟨⟨0x40000000, 0, 0, 1⟩, .leaf⟩, exPay 1000 3⟩]⟩

example : exOverlap.Good ∧ ∃ a ∈ exOverlap.entries, ∃ b ∈ exOverlap.entries, a ≠ b ∧ 0 < a.addr.level ∧
    a.addr.toKey.Contains b.addr.toKey :=
  ⟨⟨by unfold Db.Octants; decide +kernel, by unfold Db.Sorted; decide +kernel⟩, by decide +kernel⟩

/-- An averaged database is itself rejected if averaged again: its interior octants contain its leaves (only a database
whose only interior octant is the root escapes, the root being ignored). -/
theorem C30_averaged {env : Env K} (he : env.Reliable) {db : Db K} (hdb : db.Good) (hne : db.entries ≠ [])
    (hno : db.NonOverlapping) (hroot : db.BelowRoot) {e : Entry K} (hem : e ∈ db.entries) (hl : 2 ≤ e.addr.level) :
    ∃ s, average env db = .ok s () ∧
      ∃ t, average env s.out = .exc "Error occurred while appending new octant to etree." t := by
  obtain ⟨s, g, h, ht, -⟩ := average_tree' he hdb hne hno hroot
  refine ⟨s, h, ?_⟩
  have heo := hdb.octants e hem
  have hao : (e.addr.toKey.trunc 1).Octant := heo.trunc (by omega)
  have hk : e.addr.toKey.trunc 1 ≠ e.addr.toKey := by
    intro hh
    have : (e.addr.toKey.trunc 1).level = e.addr.toKey.level := by rw [hh]
    have h1 : 1 = e.addr.level := this
    omega
  have hc : (e.addr.toKey.trunc 1).Contains e.addr.toKey := by
    rw [Key.contains_iff_trunc hao heo]; exact ⟨by show 1 ≤ e.addr.level; omega, rfl⟩
  obtain ⟨x, hx, hxk⟩ := ht.ancestors ⟨hao, e, hem, hc, hk⟩
  refine C30 he ht.good hx (ht.keeps e hem) (fun hh => hk ?_) ?_ (by rw [hxk]; exact hc)
  · rw [← hxk, hh]
  · have : x.addr.toKey.level = 1 := by rw [hxk]; rfl
    have h1 : x.addr.level = 1 := this
    omega

example : ∃ e ∈ exAvgDb.entries, 2 ≤ e.addr.level := by decide +kernel

/-! ### C31 -/

/-- C31: the counters at the end.  `ks` lists the proper ancestors of the input octants, each once. -/
theorem C31 {env : Env K} (he : env.Reliable) {db : Db K} (hdb : db.Good) (hne : db.entries ≠ [])
    (hno : db.NonOverlapping) :
    ∃ (s : Engine K) (ks : List Key), average env db = .ok s () ∧ ks.Nodup ∧ (∀ k, k ∈ ks ↔ db.ProperAncestor k) ∧
      s.cnt.input = (db.entries.filter fun e => 0 < e.addr.level).length ∧ s.cnt.output = s.out.entries.length ∧ s.cnt.interior = ks.length ∧
      s.cnt.output = s.cnt.input + s.cnt.interior ∧
      s.cnt.incX = ks.countP (fun k => s.out.ChildrenAt k [0, 2, 4, 6]) ∧
      s.cnt.incY = ks.countP (fun k => s.out.ChildrenAt k [0, 1, 4, 5]) ∧
      s.cnt.incZ = ks.countP (fun k => s.out.ChildrenAt k [0, 1, 2, 3]) ∧
      s.cnt.incXY = ks.countP (fun k => s.out.ChildrenAt k [0, 4]) ∧
      s.cnt.incYZ = ks.countP (fun k => s.out.ChildrenAt k [0, 1]) ∧
      s.cnt.incXZ = ks.countP (fun k => s.out.ChildrenAt k [0, 2]) ∧
      s.cnt.incXYZ = ks.countP (fun k => s.out.ChildrenAt k [0]) ∧
      s.cnt.incX + s.cnt.incY + s.cnt.incZ + s.cnt.incXY + s.cnt.incYZ + s.cnt.incXZ + s.cnt.incXYZ +
        s.cnt.incInvalid = ks.countP (fun k => ¬ s.out.ChildrenAt k [0, 1, 2, 3, 4, 5, 6, 7]) := by
  rcases root_cases hdb hno with hroot | ⟨e0, h0, hl0⟩
  swap
  · obtain ⟨s, h, ho, hc⟩ := average_root he h0 hl0
    refine ⟨s, [], h, List.nodup_nil, fun k => iff_of_false (by simp) ?_, ?_⟩
    · rintro ⟨hk, e, he', hc, hne'⟩
      rw [h0] at he'
      obtain rfl : e = e0 := by simpa using he'
      have heo := hdb.octants e (by rw [h0]; simp)
      obtain ⟨h1, h2⟩ := (Key.contains_iff_trunc hk heo).1 hc
      have h3 : k.level = e.addr.toKey.level := by
        have : k.level ≤ e.addr.level := h1
        show k.level = e.addr.level
        omega
      exact hne' (by rw [← h2, h3, heo.trunc_self])
    · rw [hc, ho, h0]; simp [hl0, Db.empty]
  obtain ⟨s, g, h, ht, hcnt⟩ := average_tree' he hdb hne hno hroot
  refine ⟨s, g.nodes.map fun n => n.1.addr.toKey, h, ht.nodeKeys.1, ht.nodeKeys.2, ?_⟩
  have hsum : ∀ ms : List (BitVec 8), ms.countP (· = 0x55) + ms.countP (· = 0x33) + ms.countP (· = 0x0F) +
      ms.countP (· = 0x11) + ms.countP (· = 0x03) + ms.countP (· = 0x05) + ms.countP (· = 0x01) +
      ms.countP (fun m => m ≠ 0xFF ∧ m ≠ 0x55 ∧ m ≠ 0x33 ∧ m ≠ 0x0F ∧ m ≠ 0x11 ∧ m ≠ 0x03 ∧ m ≠ 0x05 ∧ m ≠ 0x01) =
      ms.countP (fun m => ¬ m = 0xFF) := by
    intro ms
    have hind : ∀ m : BitVec 8, ((if decide (m = 0x55) = true then 1 else 0) + (if decide (m = 0x33) = true then 1 else 0) +
        (if decide (m = 0x0F) = true then 1 else 0) + (if decide (m = 0x11) = true then 1 else 0) +
        (if decide (m = 0x03) = true then 1 else 0) + (if decide (m = 0x05) = true then 1 else 0) +
        (if decide (m = 0x01) = true then 1 else 0) + (if decide (m ≠ 0xFF ∧ m ≠ 0x55 ∧ m ≠ 0x33 ∧ m ≠ 0x0F ∧ m ≠ 0x11 ∧
          m ≠ 0x03 ∧ m ≠ 0x05 ∧ m ≠ 0x01) = true then 1 else 0) : Nat) =
        if decide (¬ m = 0xFF) = true then 1 else 0 := by decide +kernel
    induction ms with
    | nil => rfl
    | cons m ms ih =>
      have := hind m
      simp only [List.countP_cons]
      omega
  rw [hcnt]
  simp only [tally]
  refine ⟨by rw [ht.leaves, List.filter_eq_self.2 fun e he' => by simpa using hroot e he'], by rw [ht.all], by simp, ht.built.all_length, ht.count_iff (by decide),
    ht.count_iff (by decide), ht.count_iff (by decide), ht.count_iff (by decide), ht.count_iff (by decide),
    ht.count_iff (by decide), ht.count_iff (by decide), ?_⟩
  refine (hsum _).trans ?_
  rw [List.countP_map, List.countP_map]
  apply List.countP_congr
  intro n hn
  simp only [Function.comp_apply, decide_not, Bool.not_eq_true', decide_eq_false_iff_not]
  exact not_congr (ht.mask_iff hn (by decide))

/-- The counters of the example: three octants in, five out; the root has children 0 and 1 (incomplete in y and z),
and so has the interior octant of level 1. -/
example : (match average exEnv exAvgDb with
    | .ok s _ => some s.cnt
    | _ => none) = some ⟨3, 5, 2, 0, 0, 0, 0, 2, 0, 0, 0⟩ := by decide +kernel

/-! ### C32 -/

/-- C32: averaging an empty database ends with an exception, whatever the environment; nothing was written. -/
theorem C32_empty (env : Env K) : ∃ m s, average env (Db.empty : Db K) = .exc m s ∧ s.log = [] ∧ s.out = Db.empty :=
  ⟨_, _, rfl, rfl, rfl⟩

/-- C32: compare a run with operations on the output database failing at arbitrary points with the run where none of
them fails, which ends (normally or with an exception) having performed the operations `s0.log`: if none of those
fails the runs agree; otherwise the run stops with an exception at the first that fails, having performed the earlier
ones and nothing after it. -/
theorem C32_write (env : Env K) (db : Db K) {s0 : Engine K}
    (h0 : average { env with writeFault := fun _ => false } db = .ok s0 () ∨
      ∃ m, average { env with writeFault := fun _ => false } db = .exc m s0) :
    ((∀ j < s0.log.length, env.writeFault j = false) ∧
      average env db = average { env with writeFault := fun _ => false } db) ∨
    ∃ i < s0.log.length, (∀ j < i, env.writeFault j = false) ∧ env.writeFault i = true ∧
      ∃ m s, average env db = .exc m s ∧ s.log = s0.log.take i ++ [false] := by
  have h := Sim.average env db
  rcases h0 with h0 | ⟨m, h0⟩
  · have h0' : average env.quiet db = .ok s0 () := h0
    rw [h0'] at h
    rw [h0]
    exact h.2 (by intro j hj; simp at hj)
  · have h0' : average env.quiet db = .exc m s0 := h0
    rw [h0'] at h
    rw [h0]
    exact h.2 (by intro j hj; simp at hj)

/-- The example performs 9 operations; with the fifth failing it stops there. -/
example : failLog (average { exEnv with writeFault := fun i => i == 4 } exAvgDb) =
    some [true, true, true, true, false] := by decide +kernel

/-- C32: a run that ends normally had no failing operation. -/
theorem C32_ok (env : Env K) {db : Db K} (hdb : db.Good) {s : Engine K} (h : average env db = .ok s ()) :
    (∀ j < s.log.length, env.writeFault j = false) ∧ average { env with writeFault := fun _ => false } db = .ok s () := by
  have hs := Sim.average env db
  have hq : average env.quiet db ≠ .ub := average_ne_ub _ hdb
  rw [h] at hs
  cases hr : average env.quiet db with
  | ub => exact absurd hr hq
  | ok s0 u =>
    rw [hr] at hs
    rcases hs.2 (by intro j hj; simp at hj) with ⟨h1, h2⟩ | ⟨i, -, -, -, m, s', h1, -⟩
    · cases h2; exact ⟨h1, hr⟩
    · cases h1
  | exc m s0 =>
    rw [hr] at hs
    rcases hs.2 (by intro j hj; simp at hj) with ⟨-, h1⟩ | ⟨i, -, -, -, m, s', h1, -⟩ <;> cases h1

/-- C32: whatever fails, averaging ends normally or with an exception (no failed assertion, no access outside an
array), for every database libetree can hold, overlapping or not. -/
theorem C32_no_ub (env : Env K) {db : Db K} (hdb : db.Good) : average env db ≠ .ub := average_ne_ub env hdb

/-- C32: a failing read of an input octant raises an exception. -/
theorem C32_read (env : Env K) {db : Db K} (hdb : db.Good) {i : Nat} (hi : i < db.entries.length)
    (hf : env.getFault i = true) (hadv : ∀ j < i, env.advFault j = false) : ∃ m s, average env db = .exc m s := by
  have hne : db.entries ≠ [] := by intro h; rw [h] at hi; simp at hi
  have hub := average_ne_ub env hdb
  cases hr : average env db with
  | exc m s => exact ⟨m, s, rfl⟩
  | ub => exact absurd hr hub
  | ok s u =>
    exfalso
    rw [finish_append hne] at hr
    cases hw : write env (init env Db.empty) (some Db.empty)
        "Error occurred while trying to initiate appending of etree." with
    | exc m t => rw [hw] at hr; cases hr
    | ub => rw [hw] at hr; cases hr
    | ok t v =>
      rw [hw, Run.bind_ok] at hr
      cases hl : inputLoop env 0 db.entries t with
      | exc m t => rw [hl] at hr; cases hr
      | ub => rw [hl] at hr; cases hr
      | ok t' v' =>
        exact inputLoop_getFault (Nat.zero_le i) (by simpa using hi) (fun j _ h => hadv j h) hf t t' hl

example : (1 : Nat) < exAvgDb.entries.length := by decide

/-- A failing advance of the input cursor is not noticed: the run is that over the octants up to there. -/
theorem C32_advance (env : Env K) {db : Db K} {i : Nat} (hget : ∀ j ≤ i, env.getFault j = false)
    (hadv : ∀ j < i, env.advFault j = false) (hi : env.advFault i = true) :
    average env db =
      average { env with getFault := fun _ => false, advFault := fun _ => false } ⟨db.entries.take (i + 1)⟩ := by
  show _ = average env.readable _
  by_cases hne : db.entries = []
  · simp [average, fillOctants, hne, init]; rfl
  · rw [finish_append hne, finish_append (by simp [hne])]
    have hw : ∀ (s : Engine K) r m, write env.readable s r m = write env s r m := fun _ _ _ => rfl
    have hinit : init env.readable (Db.empty : Db K) = init env Db.empty := rfl
    have hloop : ∀ s, inputLoop env 0 db.entries s = inputLoop env.readable 0 (db.entries.take (i + 1)) s := fun s =>
      inputLoop_advFault (Nat.zero_le i) (fun j _ h => hget j h) (fun j _ h => hadv j h) hi s
    simp only [hw, hinit, finish_readable, hloop]

/-- So a read error in the middle of the input loses octants while averaging reports success: with the advance after
the first octant failing, the other two input octants are missing. -/
theorem C32_advance_loses : ∃ s, average { exEnv with advFault := fun i => i == 0 } exAvgDb = .ok s () ∧
    ¬ ∀ e ∈ exAvgDb.entries, e ∈ s.out.entries := by
  obtain ⟨s, a, h1, h2⟩ := outOf_some (r := average { exEnv with advFault := fun i => i == 0 } exAvgDb)
    (l := [⟨⟨⟨0, 0, 0, 0⟩, .interior⟩, { exPay 2000 (-999) with zone := -999 }⟩,
      ⟨⟨⟨0, 0, 0, 1⟩, .interior⟩, { exPay 2000 (-999) with zone := -999 }⟩,
      ⟨⟨⟨0, 0, 0, 2⟩, .leaf⟩, exPay 2000 1⟩]) (by decide +kernel)
  exact ⟨s, h1, by rw [h2]; decide +kernel⟩

/-! ### C33 -/

/-- C33 for input octants below the root: a MAXRES query, with any squashing and any requested values, on the averaged
database returns exactly when it does on the input database, with the same values, status and log.  Missing from the
full statement: an input octant at the root level, which averaging drops, see `C33_false`. -/
theorem C33_partial {env : Env K} (he : env.Reliable) {db : Db K} (hdb : db.Good) (hne : db.entries ≠ [])
    (hno : db.NonOverlapping) (hroot : db.BelowRoot) :
    ∃ s, average env db = .ok s () ∧ ∀ {fmt : Fmt K} {q q' : VMQuery K} {g : Geom K}, g.Lawful → q.geom = some g →
      q.queryFn = .MAXRES → ∀ (fs fs' : Files) (n : Int) (lon lat elev : K) (vals : List K),
      (VMQuery.query fmt { q with db := some db } fs n lon lat elev = .ok ({ q' with db := some db }, fs', vals) ↔
        VMQuery.query fmt { q with db := some s.out } fs n lon lat elev =
          .ok ({ q' with db := some s.out }, fs', vals)) := by
  obtain ⟨s, t, h, ht, -⟩ := average_tree' he hdb hne hno hroot
  refine ⟨s, h, fun {fmt q q' g} hg hgeom hq fs fs' n lon lat elev vals => ⟨fun hr => ?_, fun hr => ?_⟩⟩
  · exact VMQuery.query_same (q := { q with db := some db }) (q' := { q' with db := some db }) hg
      (fun k hk => ht.leafFor hdb hk) hgeom rfl hq hr
  · exact VMQuery.query_same (q := { q with db := some s.out }) (q' := { q' with db := some s.out }) hg
      (fun k hk => (ht.leafFor hdb hk).symm) hgeom rfl hq hr

/-- A location in the first leaf, before and after averaging. -/
example : PayloadOf exFmt { VMQuery.init exGeom with db := some exAvgDb } 220 40 (-350000) (exPay 2000 1) ∧
    PayloadOf exFmt { VMQuery.init exGeom with db := some exAvgOut } 220 40 (-350000) (exPay 2000 1) :=
  ⟨payloadOf_of_vals (by decide +kernel), payloadOf_of_vals (by decide +kernel)⟩

/-- The full statement of C33 is false of the code: in the database holding only the root octant a MAXRES query finds
data, in the averaged database it does not. -/
theorem C33_false : exEnv.Reliable ∧ exDbExt.Good ∧ exDbExt.entries ≠ [] ∧ exDbExt.NonOverlapping ∧
    ∃ s, average exEnv exDbExt = .ok s () ∧
      PayloadOf exFmt { VMQuery.init exGeom with db := some exDbExt } 220 40 (-350000) (exPay 3000 2) ∧
      PayloadOf exFmt { VMQuery.init exGeom with db := some s.out } 220 40 (-350000) noDataPayload := by
  refine ⟨exEnv_reliable, exDbExt_good, by simp [exDbExt], by unfold Db.NonOverlapping; decide +kernel, ?_⟩
  obtain ⟨s, h1, h2, -⟩ := average_root exEnv_reliable (db := exDbExt) rfl rfl
  refine ⟨s, h1, payloadOf_of_vals (by decide +kernel), ?_⟩
  rw [h2]
  exact payloadOf_of_vals (by decide +kernel)

/-! ### C34 -/

/-- C34: if a MAXRES query finds data in an averaged database, a FIXEDRES query at the same location, with any
resolution and any extended model, answers from a stored octant containing the location's cell, either at the
requested level or the leaf the MAXRES query found.  `an` and `a31` are the location's cells at the requested and
the finest level. -/
theorem C34 {env : Env K} (he : env.Reliable) {db : Db K} (hdb : db.Good) (hne : db.entries ≠ [])
    (hno : db.NonOverlapping) :
    ∃ s, average env db = .ok s () ∧ ∀ {fmt : Fmt K} {q : VMQuery K} {g : Geom K}, q.Open g s.out →
      ∀ {n : Nat}, n ≤ 31 → g.level (g.vertExag * q.queryRes) = .ok (n : Int) →
      ∀ {lon lat elev : K}, NotSquashed q elev → ∀ {an a31 : Addr}, CellOf g n lon lat elev an →
      CellOf g 31 lon lat elev a31 → an.toKey.Contains a31.toKey → ∀ {p : Payload K},
      PayloadOf fmt { q with queryFn := .MAXRES, dbExt := none } lon lat elev p → p.faultBlock ≠ 0 →
      ∃ p', PayloadOf fmt { q with queryFn := .FIXEDRES } lon lat elev p' ∧ p'.faultBlock ≠ 0 ∧
        ∃ x ∈ s.out.entries, x.addr.toKey.Contains an.toKey ∧ p' = x.payload ∧
          (x.addr.level = n ∨ (x.addr.type = .leaf ∧ p' = p)) := by
  obtain ⟨s, h, hcase⟩ : ∃ s, average env db = .ok s () ∧ (s.out.entries = [] ∨ ∃ t, Tree env.rd db s.out t) := by
    rcases root_cases hdb hno with hroot | ⟨e0, h0, hl0⟩
    · obtain ⟨s, t, h, ht, -⟩ := average_tree' he hdb hne hno hroot
      exact ⟨s, h, Or.inr ⟨t, ht⟩⟩
    · obtain ⟨s, h, ho, -⟩ := average_root he h0 hl0
      exact ⟨s, h, Or.inl (by rw [ho]; rfl)⟩
  refine ⟨s, h, ?_⟩
  intro fmt q g ho n hn31 hlv lon lat elev hns an a31 hcn hc31 hnest p hp hdata
  have hal := ho.lawful.aligned _ _ _ _ _ hcn
  have hal31 := ho.lawful.aligned _ _ _ _ _ hc31
  have hanl : an.level = n := (ho.lawful.keeps _ _ _ _ _ _ hcn).1
  have ha31l : a31.level = 31 := (ho.lawful.keeps _ _ _ _ _ _ hc31).1
  -- the leaf found by MAXRES
  have hoM : VMQuery.Open { q with queryFn := .MAXRES, dbExt := none } g s.out :=
    ⟨ho.geom_eq, ho.db_eq, ho.lawful, ho.good, fun x hx => by cases hx⟩
  obtain ⟨e, hef, het, hpe⟩ : ∃ e, s.out.Finest a31.toKey e ∧ e.addr.type = .leaf ∧ p = e.payload := by
    rcases C10 hoM rfl hns hp with ⟨a, hca, hC⟩ | ⟨-, hnd⟩
    · have haa : a = a31 := by
        have h1 : g.lonLatElevToAddr _ lon lat elev = .ok (a, 0) := hca
        have h2 : g.lonLatElevToAddr _ lon lat elev = .ok (a31, 0) := hc31
        rw [h1] at h2; cases h2; rfl
      subst haa
      rcases hC with ⟨hF, -⟩ | ⟨p0, x, -, -, hx, -⟩
      · rcases hF with ⟨e, h1, h2, h3⟩ | ⟨-, hnd⟩
        · exact ⟨e, h1, h2, h3⟩
        · rw [hnd] at hdata; exact absurd rfl hdata
      · cases hx
    · rw [hnd] at hdata; exact absurd rfl hdata
  rcases hcase with h0 | ⟨t, ht⟩
  · have := hef.1; rw [h0] at this; simp at this
  have hedb : e ∈ db.entries := by
    rcases ht.entries hef.1 with h | ⟨h, -⟩
    · exact h
    · rw [h] at het; cases het
  have heo := hdb.octants e hedb
  obtain ⟨hel, hetr⟩ := (Key.contains_iff_trunc' heo.aligned hal31).1 hef.2.1
  obtain ⟨hnl, hntr⟩ := (Key.contains_iff_trunc' hal hal31).1 hnest
  -- the smallest stored octant containing the cell at the requested level
  have hx : ∃ x, s.out.Finest an.toKey x ∧ x.payload.faultBlock ≠ 0 ∧
      (x.addr.level = n ∨ (x.addr.type = .leaf ∧ x.payload = p)) := by
    by_cases hle : e.addr.level ≤ n
    · refine ⟨e, ⟨hef.1, ?_, fun f hf hfc => hef.2.2 f hf (Key.contains_trans hfc hnest)⟩, by rw [← hpe]; exact hdata,
        Or.inr ⟨het, hpe.symm⟩⟩
      rw [Key.contains_iff_trunc' heo.aligned hal]
      refine ⟨by rw [hanl]; exact hle, ?_⟩
      rw [← hntr, Key.trunc_trunc _ (by rw [hanl]; exact hle)]
      exact hetr
    · push Not at hle
      have hkey : e.addr.toKey.trunc n = an.toKey := by
        rw [← hetr, Key.trunc_trunc _ hle.le, ← hanl]; exact hntr
      have hao : an.toKey.Octant := by rw [← hkey]; exact heo.trunc (by have := heo.level_le; omega)
      have hce : an.toKey.Contains e.addr.toKey := by
        rw [Key.contains_iff_trunc hao heo, hanl]; exact ⟨hle.le, hkey⟩
      have hanc : db.ProperAncestor an.toKey := ⟨hao, e, hedb, hce, fun hh => by
        have : an.level = e.addr.level := congrArg Key.level hh
        omega⟩
      obtain ⟨x, hxm, hxk⟩ := ht.ancestors hanc
      refine ⟨x, ⟨hxm, by rw [hxk, Key.contains_iff_trunc hao hao]; exact ⟨le_rfl, hao.trunc_self⟩,
        fun f hf hfc => ?_⟩, ?_, Or.inl ?_⟩
      · have h1 := ((Key.contains_iff_trunc' (ht.octants f hf).aligned hal).1 hfc).1
        have h2 : x.addr.level = an.level := congrArg Key.level hxk
        omega
      · have := (ht.block hxm (by rw [hxk]; exact hanc)).1
        rw [this]; decide
      · have h2 : x.addr.level = an.level := congrArg Key.level hxk
        omega
  obtain ⟨x, hxf, hxb, hxl⟩ := hx
  have hoF : VMQuery.Open { q with queryFn := .FIXEDRES } g s.out :=
    ⟨ho.geom_eq, ho.db_eq, ho.lawful, ho.good, ho.goodExt⟩
  refine ⟨VMQuery.bothP { q with queryFn := .FIXEDRES } g s.out (an, 0), ?_⟩
  have hpF : PayloadOf fmt { q with queryFn := .FIXEDRES } lon lat elev
      (VMQuery.bothP { q with queryFn := .FIXEDRES } g s.out (an, 0)) :=
    (VMQuery.payloadOf_plain hoF.lawful hoF.geom_eq hoF.db_eq hns).2 ⟨n, (an, 0), hlv, hcn, rfl⟩
  refine ⟨hpF, ?_⟩
  have huniq : ∀ p0, FromFinest (fun e => e.addr.level ≤ n ∧ (e.addr.level = n ∨ e.addr.type = .leaf)) an.toKey
      s.out p0 → p0 = x.payload := by
    rintro p0 (⟨y, hy, -, rfl⟩ | ⟨hno', -⟩)
    · rw [Db.finest_unique ht.good hal hy hxf]
    · exfalso
      refine hno' x hxf ⟨?_, ?_⟩
      · have h1 := ((Key.contains_iff_trunc' (ht.octants x hxf.1).aligned hal).1 hxf.2.1).1
        rw [hanl] at h1; exact h1
      · rcases hxl with h | h
        · exact Or.inl h
        · exact Or.inr h.1
  have hres : VMQuery.bothP { q with queryFn := .FIXEDRES } g s.out (an, 0) = x.payload := by
    rcases C11 hoF rfl hlv hns hpF with ⟨a, hca, -, hC⟩ | ⟨⟨a, code, hca, hcode⟩, -⟩
    · have haa : a = an := by
        have h1 : g.lonLatElevToAddr _ lon lat elev = .ok (a, 0) := hca
        have h2 : g.lonLatElevToAddr _ lon lat elev = .ok (an, 0) := hcn
        rw [h1] at h2; cases h2; rfl
      subst haa
      rcases hC with ⟨hF, -⟩ | ⟨p0, y, hF, hp0, -, -⟩
      · exact huniq _ hF
      · exfalso; rw [huniq p0 hF] at hp0; exact hxb hp0
    · exfalso
      have h2 : g.lonLatElevToAddr _ lon lat elev = .ok (an, 0) := hcn
      rw [hca] at h2; cases h2; exact hcode rfl
  rw [hres]
  refine ⟨hxb, x, hxf.1, hxf.2.1, rfl, ?_⟩
  rcases hxl with h | h
  · exact Or.inl h
  · exact Or.inr h

/-- Before averaging a FIXEDRES query at level 1 finds nothing at the location; afterwards the interior octant. -/
example : PayloadOf exFmt { VMQuery.init exGeom with db := some exAvgOut, dbExt := none } 220 40 (-350000) (exPay 2000 1) ∧
    (exPay 2000 1).faultBlock ≠ 0 ∧ CellOf exGeom 1 220 40 (-350000) ⟨⟨0, 0, 0, 1⟩, .leaf⟩ ∧
    PayloadOf exFmt { VMQuery.init exGeom with db := some exAvgDb, queryFn := .FIXEDRES } 220 40 (-350000) noDataPayload ∧
    PayloadOf exFmt { VMQuery.init exGeom with db := some exAvgOut, queryFn := .FIXEDRES } 220 40 (-350000)
      { exPay 2000 (-999) with zone := -999 } :=
  ⟨payloadOf_of_vals (by decide +kernel), by decide, by unfold CellOf; decide +kernel,
    payloadOf_of_vals (by decide +kernel), payloadOf_of_vals (by decide +kernel)⟩

/-- C34 for the central California geometry and a location in the model: no assumption on the cells is needed. -/
theorem C34_location [FloorRing K] {env : Env K} (he : env.Reliable) {db : Db K} (hdb : db.Good) (hne : db.entries ≠ [])
    (hno : db.NonOverlapping) :
    ∃ s, average env db = .ok s () ∧ ∀ {fmt : Fmt K} {q : VMQuery K} {fr : CenCalVM.Frame K}, fr.Rigid →
      ∀ {proj : Projector K} {lv : K → Outcome Int}, q.Open (GeomCenCA.geom fr proj lv) s.out →
      ∀ {n : Nat}, n ≤ 31 → lv (GeomCenCA.VERTEXAG * q.queryRes) = .ok (n : Int) →
      ∀ {lon lat elev u v w : K}, NotSquashed q elev → AtRootCoords fr proj lon lat elev u v w →
      inHalfOpen u → inHalfOpen v → inHalfOpen w → ∀ {p : Payload K},
      PayloadOf fmt { q with queryFn := .MAXRES, dbExt := none } lon lat elev p → p.faultBlock ≠ 0 →
      ∃ p', PayloadOf fmt { q with queryFn := .FIXEDRES } lon lat elev p' ∧ p'.faultBlock ≠ 0 ∧
        ∃ x ∈ s.out.entries, x.addr.toKey.HasPoint u v w ∧ p' = x.payload ∧
          (x.addr.level = n ∨ (x.addr.type = .leaf ∧ p' = p)) := by
  obtain ⟨s, h, hC⟩ := C34 he hdb hne hno
  refine ⟨s, h, ?_⟩
  intro fmt q fr hf proj lv ho n hn hlv lon lat elev u v w hns hloc hu hv hw p hp hdata
  obtain ⟨a31, h31, -, -, -, -⟩ := C01_partial hf hloc hu hv hw ⟨⟨0, 0, 0, 31⟩, .leaf⟩ (by decide)
  obtain ⟨an, hcn, -, -, -, hpt⟩ := C01_partial hf hloc hu hv hw ⟨⟨0, 0, 0, n⟩, .leaf⟩ hn
  have hnest := C04_contains hf hloc hu hv hw ⟨⟨0, 0, 0, 31⟩, .leaf⟩ ⟨⟨0, 0, 0, n⟩, .leaf⟩ a31 an hn (by decide) h31 hcn
  obtain ⟨p', h1, h2, x, h3, h4, h5, h6⟩ := hC (fmt := fmt) ho hn hlv hns hcn h31 hnest hp hdata
  exact ⟨p', h1, h2, x, h3, Key.contains_hasPoint h4 hpt, h5, h6⟩

end

end CenCalVM
