import Verif.Spec.Handles

/-! Invariants of the handles. -/

namespace CenCalVM
namespace Handles

theorem proper_nil : Proper [] := by
  intro pre post e h heq; simp at heq

theorem proper_snoc {log : List Event} {e : Event} (hp : Proper log)
    (he : ∀ h, e = .used h ∨ e = .closed h → Live log h) : Proper (log ++ [e]) := by
  intro pre post e' h heq hu
  rcases List.append_eq_append_iff.1 heq with ⟨t, rfl, ht⟩ | ⟨t, rfl, ht⟩
  · cases t with
    | nil =>
      simp only [List.nil_append, List.cons.injEq] at ht
      obtain ⟨rfl, -⟩ := ht
      simpa [Live] using he h hu
    | cons x t =>
      simp at ht
  · cases t with
    | nil =>
      simp only [List.nil_append, List.cons.injEq] at ht
      obtain ⟨rfl, -⟩ := ht
      simpa [Live] using he h hu
    | cons x t =>
      simp only [List.cons_append, List.cons.injEq] at ht
      obtain ⟨rfl, -⟩ := ht
      exact hp pre t _ h rfl hu

/-- The handles `own` are open and different, the others of the list `lost` are whatever; all handles are below
`next`. -/
structure Inv (l : Lib) (own : List Nat) : Prop where
  proper : Proper l.log
  live : ∀ h ∈ own, Live l.log h
  nodup : own.Nodup
  lt : ∀ h, (∃ name, Event.opened h name ∈ l.log) ∨ Event.closed h ∈ l.log → h < l.next

/-- Every open handle is one of `own`. -/
def Kept (l : Lib) (own : List Nat) : Prop := ∀ h, Live l.log h → h ∈ own

theorem inv_init : Inv Lib.init [] :=
  ⟨proper_nil, by simp, List.nodup_nil, by simp [Lib.init]⟩
theorem kept_init : Kept Lib.init [] := by
  intro h hl; obtain ⟨⟨n, hn⟩, -⟩ := hl; simp [Lib.init] at hn

theorem Inv.own_lt {l : Lib} {own : List Nat} (hi : Inv l own) {h : Nat} (hh : h ∈ own) : h < l.next :=
  hi.lt h (Or.inl (hi.live h hh).1)

theorem Inv.open {l : Lib} {own : List Nat} (hi : Inv l own) (name : String) :
    Inv (l.open name) (l.next :: own) := by
  refine ⟨proper_snoc hi.proper (by simp), ?_, ?_, ?_⟩
  · intro h hh
    rcases List.mem_cons.1 hh with rfl | hh
    · refine ⟨⟨name, by simp [Lib.open]⟩, ?_⟩
      intro hc
      simp only [Lib.open, List.mem_append, List.mem_singleton] at hc
      rcases hc with hc | hc
      · exact absurd (hi.lt _ (Or.inr hc)) (lt_irrefl _)
      · cases hc
    · obtain ⟨⟨n, h1⟩, h2⟩ := hi.live h hh
      exact ⟨⟨n, by simp [Lib.open, h1]⟩, by simp [Lib.open, h2]⟩
  · rw [List.nodup_cons]
    exact ⟨fun h => absurd (hi.own_lt h) (lt_irrefl _), hi.nodup⟩
  · intro h hh
    show h < l.next + 1
    simp only [Lib.open, List.mem_append, List.mem_singleton] at hh
    rcases hh with ⟨n, hh | hh⟩ | hh | hh
    · exact Nat.lt_succ_of_lt (hi.lt h (Or.inl ⟨n, hh⟩))
    · cases hh; exact Nat.lt_succ_self _
    · exact Nat.lt_succ_of_lt (hi.lt h (Or.inr hh))
    · cases hh

theorem Kept.open {l : Lib} {own : List Nat} (hk : Kept l own) (name : String) :
    Kept (l.open name) (l.next :: own) := by
  rintro h ⟨⟨n, h1⟩, h2⟩
  simp only [Lib.open, List.mem_append, List.mem_singleton] at h1 h2
  rw [not_or] at h2
  rcases h1 with h1 | h1
  · exact List.mem_cons_of_mem _ (hk h ⟨⟨n, h1⟩, h2.1⟩)
  · cases h1; exact List.mem_cons_self

theorem Inv.use {l : Lib} {own : List Nat} (hi : Inv l own) {h : Nat} (hh : h ∈ own) : Inv (l.use h) own := by
  refine ⟨proper_snoc hi.proper ?_, ?_, hi.nodup, ?_⟩
  · rintro h' (h' | h') <;> cases h'
    exact hi.live h hh
  · intro h' hh'
    obtain ⟨⟨n, h1⟩, h2⟩ := hi.live h' hh'
    exact ⟨⟨n, by simp [Lib.use, h1]⟩, by simp [Lib.use, h2]⟩
  · intro h' hh'
    simp only [Lib.use, List.mem_append, List.mem_singleton, reduceCtorEq, or_false] at hh'
    exact hi.lt h' hh'

theorem Kept.use {l : Lib} {own : List Nat} (hk : Kept l own) (h : Nat) : Kept (l.use h) own := by
  rintro h' ⟨⟨n, h1⟩, h2⟩
  simp only [Lib.use, List.mem_append, List.mem_singleton, reduceCtorEq, or_false] at h1 h2
  exact hk h' ⟨⟨n, h1⟩, h2⟩

theorem Inv.close {l : Lib} {own : List Nat} (hi : Inv l own) {h : Nat} (hh : h ∈ own) :
    Inv (l.close h) (own.erase h) := by
  refine ⟨proper_snoc hi.proper ?_, ?_, hi.nodup.erase h, ?_⟩
  · rintro h' (h' | h') <;> cases h'
    exact hi.live h hh
  · intro h' hh'
    obtain ⟨hne, hm⟩ := (hi.nodup.mem_erase_iff).1 hh'
    obtain ⟨⟨n, h1⟩, h2⟩ := hi.live h' hm
    refine ⟨⟨n, by simp [Lib.close, h1]⟩, ?_⟩
    simp only [Lib.close, List.mem_append, List.mem_singleton, Event.closed.injEq, not_or]
    exact ⟨h2, hne⟩
  · intro h' hh'
    simp only [Lib.close, List.mem_append, List.mem_singleton, reduceCtorEq, or_false, Event.closed.injEq] at hh'
    rcases hh' with h1 | h1 | rfl
    · exact hi.lt h' (Or.inl h1)
    · exact hi.lt h' (Or.inr h1)
    · exact hi.own_lt hh

theorem Kept.close {l : Lib} {own : List Nat} (hk : Kept l own) (h : Nat) : Kept (l.close h) (own.erase h) := by
  rintro h' ⟨⟨n, h1⟩, h2⟩
  simp only [Lib.close, List.mem_append, List.mem_singleton, reduceCtorEq, or_false, Event.closed.injEq, not_or] at h1 h2
  have := hk h' ⟨⟨n, h1⟩, h2.1⟩
  rw [List.mem_erase_of_ne h2.2]
  exact this

theorem Inv.sub {l : Lib} {own own' : List Nat} (hi : Inv l own) (hs : own'.Sublist own) : Inv l own' :=
  ⟨hi.proper, fun h hh => hi.live h (hs.subset hh), hi.nodup.sublist hs, hi.lt⟩

theorem Inv.perm {l : Lib} {own own' : List Nat} (hi : Inv l own) (hs : own.Perm own') : Inv l own' :=
  ⟨hi.proper, fun h hh => hi.live h (hs.symm.subset hh), hs.nodup_iff.1 hi.nodup, hi.lt⟩

theorem Kept.perm {l : Lib} {own own' : List Nat} (hk : Kept l own) (hs : own.Perm own') : Kept l own' :=
  fun h hh => hs.subset (hk h hh)

theorem Kept.allClosed {l : Lib} (hk : Kept l []) : AllClosed l.log := by
  intro h n ho
  by_contra hc
  exact List.not_mem_nil (hk h ⟨⟨n, ho⟩, hc⟩)

theorem Inv.useOpt {l : Lib} {own : List Nat} (hi : Inv l own) {o : Option Nat} (ho : ∀ h ∈ o, h ∈ own) :
    Inv (l.useOpt o) own := by
  cases o with
  | none => exact hi
  | some h => exact hi.use (ho h rfl)

theorem Kept.useOpt {l : Lib} {own : List Nat} (hk : Kept l own) (o : Option Nat) : Kept (l.useOpt o) own := by
  cases o with
  | none => exact hk
  | some h => exact hk.use h

theorem Inv.closeHead {l : Lib} {o : Option Nat} {own : List Nat} (hi : Inv l (o.toList ++ own)) :
    Inv (l.closeOpt o) own := by
  cases o with
  | none => exact hi
  | some h => simpa [Lib.closeOpt] using hi.close (h := h) (by simp)

theorem Kept.closeHead {l : Lib} {o : Option Nat} {own : List Nat} (hk : Kept l (o.toList ++ own)) :
    Kept (l.closeOpt o) own := by
  cases o with
  | none => exact hk
  | some h => simpa [Lib.closeOpt] using hk.close h

set_option linter.unusedSectionVars false
set_option linter.unnecessarySeqFocus false

section
variable {K : Type} [Field K] [LinearOrder K]

/-! ### Query objects -/

/-- The pointers of the object. -/
def Query.own (o : Query K) : List Nat := o.db.toList ++ o.dbExt.toList

theorem openMain_inv {disk : String → Option (Db K)} {o o' : Query K} (h : openMain disk o = .ok o')
    (hi : Inv o.lib o.own) (hk : Kept o.lib o.own) : Inv o'.lib o'.own ∧ Kept o'.lib o'.own := by
  unfold openMain at h
  cases hdb : o.db with
  | some x => rw [hdb] at h; cases h; exact ⟨hi, hk⟩
  | none =>
    rw [hdb] at h
    dsimp only at h
    by_cases hc : o.s.q.cacheSize > 0
    · rw [if_pos hc] at h
      unfold Query.own at hi hk
      rw [hdb] at hi hk
      cases hd : disk o.s.q.filename with
      | some d => rw [hd] at h; cases h; exact ⟨hi.open _, hk.open _⟩
      | none => rw [hd] at h; cases h; exact ⟨hi, hk⟩
    · rw [if_neg hc] at h; cases h

theorem openExt_inv {disk : String → Option (Db K)} {o o' : Query K} (h : openExt disk o = .ok o')
    (hi : Inv o.lib o.own) (hk : Kept o.lib o.own) : Inv o'.lib o'.own ∧ Kept o'.lib o'.own := by
  unfold openExt at h
  by_cases hn : o.s.q.filenameExt ≠ ""
  · rw [if_pos hn] at h
    cases hdb : o.dbExt with
    | some x => rw [hdb] at h; cases h; exact ⟨hi, hk⟩
    | none =>
      rw [hdb] at h
      dsimp only at h
      by_cases hc : o.s.q.cacheSizeExt > 0
      · rw [if_pos hc] at h
        cases hd : disk o.s.q.filenameExt with
        | some d =>
          rw [hd] at h; cases h
          unfold Query.own at hi hk
          rw [hdb] at hi hk
          simp only [Option.toList_none, List.append_nil] at hi hk
          have hp : (o.lib.next :: o.db.toList).Perm (o.db.toList ++ [o.lib.next]) :=
            (List.perm_append_singleton _ _).symm
          exact ⟨(hi.open _).perm hp, (hk.open _).perm hp⟩
        | none => rw [hd] at h; cases h; unfold Query.own at hi hk; rw [hdb] at hi hk; exact ⟨hi, hk⟩
      · rw [if_neg hc] at h; cases h
  · rw [if_neg hn] at h; cases h; exact ⟨hi, hk⟩

theorem close_inv {o : Query K} (hi : Inv o.lib o.own) (hk : Kept o.lib o.own) :
    Inv ((o.lib.closeOpt o.db).closeOpt o.dbExt) [] ∧ Kept ((o.lib.closeOpt o.db).closeOpt o.dbExt) [] := by
  unfold Query.own at hi hk
  have h1 := hi.closeHead
  have h2 := hk.closeHead
  exact ⟨Inv.closeHead (own := []) (by simpa using h1), Kept.closeHead (own := []) (by simpa using h2)⟩

theorem other_inv {fmt : Fmt K} {canOpen : String → Bool} {o o' : Query K} {c : VMQuery.Call K}
    (h : (do let s ← VMQuery.call fmt canOpen o.s c; Outcome.ok { o with s := s }) = .ok o')
    (hi : Inv o.lib o.own) (hk : Kept o.lib o.own) : Inv o'.lib o'.own ∧ Kept o'.lib o'.own := by
  cases hc : VMQuery.call fmt canOpen o.s c with
  | ok s => rw [hc] at h; cases h; exact ⟨hi, hk⟩
  | exc m => rw [hc] at h; cases h
  | ub => rw [hc] at h; cases h

theorem call_inv {fmt : Fmt K} {canOpen : String → Bool} {o o' : Query K} {c : VMQuery.Call K}
    (h : call fmt canOpen o c = .ok o') (hi : Inv o.lib o.own) (hk : Kept o.lib o.own) :
    Inv o'.lib o'.own ∧ Kept o'.lib o'.own := by
  cases c with
  | «open» disk =>
    simp only [call] at h
    cases hm : openMain disk o with
    | ok o1 =>
      rw [hm] at h
      obtain ⟨h1, h2⟩ := openMain_inv hm hi hk
      exact openExt_inv h h1 h2
    | exc m => rw [hm] at h; cases h
    | ub => rw [hm] at h; cases h
  | close f fx =>
    cases h
    exact close_inv hi hk
  | query n lon lat elev =>
    simp only [call] at h
    cases hc : VMQuery.call fmt canOpen o.s (.query n lon lat elev) with
    | ok s =>
      rw [hc] at h; cases h
      refine ⟨?_, ?_⟩
      · exact (hi.useOpt (by intro h hh; unfold Query.own; simp_all)).useOpt
          (by intro h hh; unfold Query.own; simp_all)
      · exact (hk.useOpt _).useOpt _
    | exc m => rw [hc] at h; cases h
    | ub => rw [hc] at h; cases h
  | geometry _ => exact other_inv h hi hk
  | queryType _ => exact other_inv h hi hk
  | queryVals _ _ => exact other_inv h hi hk
  | queryRes _ => exact other_inv h hi hk
  | filename _ => exact other_inv h hi hk
  | filenameExt _ => exact other_inv h hi hk
  | cacheSize _ => exact other_inv h hi hk
  | cacheSizeExt _ => exact other_inv h hi hk
  | squash _ _ => exact other_inv h hi hk
  | handler _ => exact other_inv h hi hk

theorem run_inv {fmt : Fmt K} {canOpen : String → Bool} (cs : List (VMQuery.Call K)) : ∀ {o o' : Query K},
    run fmt canOpen o cs = .ok o' → Inv o.lib o.own → Kept o.lib o.own → Inv o'.lib o'.own ∧ Kept o'.lib o'.own := by
  induction cs with
  | nil => intro o o' h hi hk; cases h; exact ⟨hi, hk⟩
  | cons c cs ih =>
    intro o o' h hi hk
    simp only [run] at h
    cases hc : call fmt canOpen o c with
    | ok o1 =>
      rw [hc] at h
      obtain ⟨h1, h2⟩ := call_inv hc hi hk
      exact ih h h1 h2
    | exc m => rw [hc] at h; cases h
    | ub => rw [hc] at h; cases h

theorem destroy_ok {f fx : Bool} {o : Query K} {l : Lib} (h : destroy f fx o = .ok l) :
    l = (o.lib.closeOpt o.db).closeOpt o.dbExt := by
  unfold destroy at h
  cases hd : VMQuery.destroy f fx o.s.q with
  | ok _ => rw [hd] at h; cases h; rfl
  | exc m => rw [hd] at h; cases h
  | ub => rw [hd] at h; cases h

/-! ### Creators -/

theorem openDB_inv {env : EtreeEnv} {s s' : Creator K} {f d t : String}
    (h : openDB env s f d t = .ok s' () ∨ ∃ m, openDB env s f d t = .exc m s') {own : List Nat} :
    (Inv s.lib own → Inv s'.lib (s'.pDB.toList ++ own)) ∧ (Kept s.lib own → Kept s'.lib (s'.pDB.toList ++ own)) := by
  unfold openDB at h
  by_cases h1 : env.create f
  · rw [if_pos h1] at h
    rcases h with h | ⟨m, h⟩ <;> cases h
    exact ⟨id, id⟩
  · rw [if_neg h1] at h
    have key : (Inv s.lib own → Inv ((s.lib.open f).use s.lib.next) (s.lib.next :: own)) ∧
        (Kept s.lib own → Kept ((s.lib.open f).use s.lib.next) (s.lib.next :: own)) :=
      ⟨fun hi => (hi.open f).use List.mem_cons_self, fun hk => (hk.open f).use _⟩
    dsimp only at h
    by_cases h2 : env.schema
    · rw [if_pos h2] at h
      rcases h with h | ⟨m, h⟩ <;> cases h
      exact key
    · rw [if_neg h2] at h
      by_cases h3 : env.setMeta
      · rw [if_pos h3] at h
        rcases h with h | ⟨m, h⟩ <;> cases h
        exact key
      · rw [if_neg h3] at h
        rcases h with h | ⟨m, h⟩ <;> cases h
        exact key

theorem insert_lib {env : EtreeEnv} {s s' : Creator K} {p : Payload K} {lon lat elev res : K} {g : Option (Geom K)}
    (h : insert env s p lon lat elev res g = .ok s' () ∨ ∃ m, insert env s p lon lat elev res g = .exc m s') :
    s'.lib = s.lib.useOpt s.pDB ∧ s'.pDB = s.pDB := by
  unfold insert at h
  cases hc : VMCreator.insert env s.c p lon lat elev res g with
  | ok c a => rw [hc] at h; rcases h with h | ⟨m, h⟩ <;> cases h; exact ⟨rfl, rfl⟩
  | exc m c => rw [hc] at h; rcases h with h | ⟨m, h⟩ <;> cases h; exact ⟨rfl, rfl⟩
  | ub => rw [hc] at h; rcases h with h | ⟨m, h⟩ <;> cases h

/-- The handles of `packDB`. -/
theorem packDB_lib {env : EtreeEnv} {disk : EtreeDisk K} {l : Lib} {p u : String} {r : EtreeDisk K × Lib} :
    (∀ a, packDB env disk l p u = .ok r a → r.2 = (((((((l.open u).open p).use (l.next + 1)).use l.next).use (l.next + 1)).close
        l.next).close (l.next + 1))) ∧
    (∀ m, packDB env disk l p u = .exc m r → env.closeIn = false → env.closeOut = false →
      (r.2 = l ∧ disk u = none) ∨ r.2 = l.open u ∨ r.2 = ((l.open u).open p).use (l.next + 1) ∨
      r.2 = ((((l.open u).open p).use (l.next + 1)).use l.next).use (l.next + 1)) := by
  cases hd : disk u with
  | none =>
    refine ⟨?_, ?_⟩ <;> intro a h <;> simp only [packDB, hd] at h <;> cases h
    exact fun _ _ => Or.inl ⟨rfl, rfl⟩
  | some f =>
    have hn : (l.open u).next = l.next + 1 := rfl
    refine ⟨?_, ?_⟩
    · intro a h
      cases hl : VMCreator.packLoop env 0 f.db.entries Db.empty <;> simp only [packDB, hd, hn, hl] at h <;>
        split_ifs at h <;> (cases h; rfl)
    · intro m h hci hco
      right
      simp only [packDB, hd, hn] at h
      by_cases h1 : env.create p
      · rw [if_pos h1] at h; cases h; exact Or.inl rfl
      rw [if_neg h1] at h
      by_cases h2 : p = u
      · rw [if_pos h2] at h; cases h
      rw [if_neg h2] at h
      by_cases h3 : env.schema
      · rw [if_pos h3] at h; cases h; exact Or.inr (Or.inl rfl)
      rw [if_neg h3] at h
      right; right
      cases hl : VMCreator.packLoop env 0 f.db.entries Db.empty <;>
        simp only [hl, hci, hco, Bool.false_eq_true, if_false] at h <;>
        split_ifs at h <;> (cases h; rfl)

theorem pack_inv {l : Lib} {own : List Nat} (hi : Inv l own) (u p : String) :
    Inv (((((l.open u).open p).use (l.next + 1)).use l.next).use (l.next + 1)) ((l.next + 1) :: l.next :: own) :=
  ((((hi.open u).open p).use (by simp [Lib.open])).use (by simp)).use (by simp [Lib.open])
theorem pack_kept {l : Lib} {own : List Nat} (hk : Kept l own) (u p : String) :
    Kept (((((l.open u).open p).use (l.next + 1)).use l.next).use (l.next + 1)) ((l.next + 1) :: l.next :: own) :=
  ((((hk.open u).open p).use _).use _).use _

theorem erase_second (n : Nat) (own : List Nat) : ((n + 1) :: n :: own).erase n = (n + 1) :: own := by
  rw [List.erase_cons_tail (by simp), List.erase_cons_head]

theorem packDB_ok {env : EtreeEnv} {disk : EtreeDisk K} {l : Lib} {p u : String} {r : EtreeDisk K × Lib} {a : Unit}
    (h : packDB env disk l p u = .ok r a) {own : List Nat} :
    (Inv l own → Inv r.2 own) ∧ (Kept l own → Kept r.2 own) := by
  rw [packDB_lib.1 a h]
  refine ⟨fun hi => ?_, fun hk => ?_⟩
  · have h3 := (pack_inv hi u p).close (h := l.next) (by simp)
    rw [erase_second] at h3
    have h5 := h3.close (h := l.next + 1) (by simp)
    rw [List.erase_cons_head] at h5
    exact h5
  · have h4 := (pack_kept hk u p).close l.next
    rw [erase_second] at h4
    have h6 := h4.close (l.next + 1)
    rw [List.erase_cons_head] at h6
    exact h6

theorem packDB_exc {env : EtreeEnv} {disk : EtreeDisk K} {l : Lib} {p u : String} {r : EtreeDisk K × Lib} {m : String}
    (h : packDB env disk l p u = .exc m r) (hci : env.closeIn = false) (hco : env.closeOut = false) {own : List Nat}
    (hi : Inv l own) : Inv r.2 own := by
  rcases packDB_lib.2 m h hci hco with ⟨h, -⟩ | h | h | h <;> rw [h]
  · exact hi
  · exact (hi.open u).sub (List.sublist_cons_self _ _)
  · exact (((hi.open u).open p).use (by simp [Lib.open])).sub
      ((List.sublist_cons_self _ _).trans (List.sublist_cons_self _ _))
  · exact (pack_inv hi u p).sub ((List.sublist_cons_self _ _).trans (List.sublist_cons_self _ _))

theorem packDB_missing {env : EtreeEnv} {disk : EtreeDisk K} {l : Lib} {p u : String} {r : EtreeDisk K × Lib} {m : String}
    (hd : disk u = none) (h : packDB env disk l p u = .exc m r) : r.2 = l := by
  unfold packDB at h; rw [hd] at h; cases h; rfl

theorem packDB_out {env : EtreeEnv} {s s' : Creator K} {p u : String}
    (h : creatorCall s (.packDB env p u) = .ok s' () ∨ ∃ m, creatorCall s (.packDB env p u) = .exc m s') :
    s'.pDB = s.pDB ∧ ((∃ r, packDB env s.c.disk s.lib p u = .ok r () ∧ s'.lib = r.2) ∨
      ∃ m r, packDB env s.c.disk s.lib p u = .exc m r ∧ s'.lib = r.2) := by
  simp only [creatorCall] at h
  cases hc : packDB env s.c.disk s.lib p u with
  | ok r a => rw [hc] at h; rcases h with h | ⟨m, h⟩ <;> cases h; exact ⟨rfl, Or.inl ⟨r, rfl, rfl⟩⟩
  | exc m r => rw [hc] at h; rcases h with h | ⟨m, h⟩ <;> cases h; exact ⟨rfl, Or.inr ⟨m, r, rfl, rfl⟩⟩
  | ub => rw [hc] at h; rcases h with h | ⟨m, h⟩ <;> cases h

theorem creatorRun_cons {s s' : Creator K} {c : CreatorCall K} {cs : List (CreatorCall K)}
    (h : creatorRun s (c :: cs) = .ok s') : ∃ s1, After s c s1 ∧ creatorRun s1 cs = .ok s' := by
  simp only [creatorRun] at h
  cases hc : creatorCall s c with
  | ok s1 a => rw [hc] at h; exact ⟨s1, Or.inl hc, h⟩
  | exc m s1 => rw [hc] at h; exact ⟨s1, Or.inr ⟨m, hc⟩, h⟩
  | ub => rw [hc] at h; cases h

theorem after_inv {s s' : Creator K} {c : CreatorCall K} (h : After s c s') (hw : CloseWorks c)
    (hi : Inv s.lib s.pDB.toList) : Inv s'.lib s'.pDB.toList := by
  cases c with
  | openDB env f d t =>
    have := (openDB_inv h (own := [])).1 (hi.sub (List.nil_sublist _))
    simpa using this
  | closeDB =>
    rcases h with h | ⟨m, h⟩ <;> cases h
    exact Inv.closeHead (own := []) (by simpa using hi)
  | packDB env p u =>
    obtain ⟨h1, ⟨r, h2, h3⟩ | ⟨m, r, h2, h3⟩⟩ := packDB_out h
    · rw [h1, h3]; exact (packDB_ok h2).1 hi
    · rw [h1, h3]
      obtain ⟨hci, hco⟩ := hw env p u rfl
      exact packDB_exc h2 hci hco hi
  | insert env p lon lat elev res g =>
    obtain ⟨h1, h2⟩ := insert_lib h
    rw [h1, h2]
    exact hi.useOpt (by intro h hh; simp_all)

theorem after_kept {s s' : Creator K} {c : CreatorCall K} (h : After s c s') (ho : Orderly s c)
    (hi : Kept s.lib s.pDB.toList) : Kept s'.lib s'.pDB.toList := by
  cases c with
  | openDB env f d t =>
    rw [ho.1 env f d t rfl] at hi
    have := (openDB_inv h (own := [])).2 hi
    simpa using this
  | closeDB =>
    rcases h with h | ⟨m, h⟩ <;> cases h
    exact Kept.closeHead (own := []) (by simpa using hi)
  | packDB env p u =>
    obtain ⟨h1, ⟨r, h2, h3⟩ | ⟨m, r, h2, h3⟩⟩ := packDB_out h
    · rw [h1, h3]; exact (packDB_ok h2).2 hi
    · rw [h1, h3]
      rcases ho.2 env p u rfl with hd | ⟨s1, h4⟩
      · rw [packDB_missing hd h2]; exact hi
      · simp only [creatorCall, h2] at h4; cases h4
  | insert env p lon lat elev res g =>
    obtain ⟨h1, h2⟩ := insert_lib h
    rw [h1, h2]
    exact hi.useOpt _

theorem creatorRun_inv (cs : List (CreatorCall K)) : ∀ {s s' : Creator K}, creatorRun s cs = .ok s' →
    (∀ c ∈ cs, CloseWorks c) → Inv s.lib s.pDB.toList → Inv s'.lib s'.pDB.toList := by
  induction cs with
  | nil => intro s s' h _ hi; cases h; exact hi
  | cons c cs ih =>
    intro s s' h hw hi
    obtain ⟨s1, h1, h2⟩ := creatorRun_cons h
    exact ih h2 (fun c hc => hw c (List.mem_cons_of_mem _ hc)) (after_inv h1 (hw c List.mem_cons_self) hi)

theorem creatorRun_kept (cs : List (CreatorCall K)) : ∀ {s s' : Creator K}, creatorRun s cs = .ok s' →
    OrderlyRun s cs → Kept s.lib s.pDB.toList → Kept s'.lib s'.pDB.toList := by
  induction cs with
  | nil => intro s s' h _ hi; cases h; exact hi
  | cons c cs ih =>
    intro s s' h hw hi
    obtain ⟨s1, h1, h2⟩ := creatorRun_cons h
    exact ih h2 (hw.2 s1 h1) (after_kept h1 hw.1 hi)

/-! ### Averagers -/

/-- The pointers of the averager. -/
def Averager.own (s : Averager K) : List Nat := s.dbIn.toList ++ s.dbAvg.toList

/-- The handles of `average`. -/
theorem average_lib {env : Averager.Env K} {s s' : Averager K} {fi fo st : String}
    (h : average env s fi fo st = .ok s' () ∨ ∃ m, average env s fi fo st = .exc m s') :
    (s'.dbIn = none ∧ s'.dbAvg = s.dbAvg ∧ s'.lib = s.lib) ∨
    (s'.dbIn = some s.lib.next ∧ (s'.dbAvg = s.dbAvg ∨ s'.dbAvg = none) ∧ s'.lib = (s.lib.open fi).use s.lib.next) ∨
    (s'.dbIn = some s.lib.next ∧ s'.dbAvg = some (s.lib.next + 1) ∧
      s'.lib = ((((s.lib.open fi).use s.lib.next).open fo).use (s.lib.next + 1)).use s.lib.next) ∨
    (s'.dbIn = none ∧ s'.dbAvg = none ∧
      s'.lib = ((((((s.lib.open fi).use s.lib.next).open fo).use (s.lib.next + 1)).use s.lib.next).close s.lib.next).close
        (s.lib.next + 1)) := by
  have hn : ((s.lib.open fi).use s.lib.next).next = s.lib.next + 1 := rfl
  cases hd : s.disk fi with
  | none =>
    simp only [average, hd] at h
    rcases h with h | ⟨m, h⟩ <;> cases h
    exact Or.inl ⟨rfl, rfl, rfl⟩
  | some f =>
    right
    simp only [average, hd, hn] at h
    by_cases h1 : env.otherSize fi
    · simp only [if_pos h1] at h
      rcases h with h | ⟨m, h⟩ <;> cases h
      exact Or.inl ⟨rfl, Or.inl rfl, rfl⟩
    simp only [if_neg h1] at h
    cases hs : f.schema with
    | none => simp only [hs] at h; rcases h with h | ⟨m, h⟩ <;> cases h
    | some sc =>
      simp only [hs] at h
      by_cases h2 : sc ≠ SCHEMA
      · simp only [if_pos h2] at h
        rcases h with h | ⟨m, h⟩ <;> cases h
        exact Or.inl ⟨rfl, Or.inl rfl, rfl⟩
      simp only [if_neg h2] at h
      by_cases h3 : env.create fo
      · simp only [if_pos h3] at h
        rcases h with h | ⟨m, h⟩ <;> cases h
        exact Or.inl ⟨rfl, Or.inr rfl, rfl⟩
      simp only [if_neg h3] at h
      by_cases h4 : fo = fi
      · simp only [if_pos h4] at h; rcases h with h | ⟨m, h⟩ <;> cases h
      simp only [if_neg h4] at h
      right
      by_cases h5 : env.schema
      · simp only [if_pos h5] at h
        rcases h with h | ⟨m, h⟩ <;> cases h
        exact Or.inl ⟨rfl, rfl, rfl⟩
      simp only [if_neg h5] at h
      by_cases h6 : (f.appmeta.isSome && env.setMeta) = true
      · simp only [if_pos h6] at h
        rcases h with h | ⟨m, h⟩ <;> cases h
        exact Or.inl ⟨rfl, rfl, rfl⟩
      simp only [if_neg h6] at h
      cases he : AvgEngine.average env.engine f.db with
      | ub => simp only [he] at h; rcases h with h | ⟨m, h⟩ <;> cases h
      | exc m e =>
        simp only [he] at h
        rcases h with h | ⟨m, h⟩ <;> cases h
        exact Or.inl ⟨rfl, rfl, rfl⟩
      | ok e a =>
        simp only [he] at h
        rcases h with h | ⟨m, h⟩ <;> cases h
        exact Or.inr ⟨rfl, rfl, rfl⟩

theorem average_inv {env : Averager.Env K} {s s' : Averager K} {fi fo st : String}
    (h : average env s fi fo st = .ok s' () ∨ ∃ m, average env s fi fo st = .exc m s') (hi : Inv s.lib s.own) :
    Inv s'.lib s'.own := by
  have h0 : Inv s.lib s.dbAvg.toList := hi.sub (List.sublist_append_right _ _)
  have h1 := (h0.open fi).use List.mem_cons_self
  have h2 := ((((hi.sub (List.nil_sublist _)).open fi).use List.mem_cons_self).open fo)
  have h3 := (h2.use List.mem_cons_self).use (List.mem_cons_of_mem _ List.mem_cons_self)
  rcases average_lib h with ⟨e1, e2, e3⟩ | ⟨e1, e2, e3⟩ | ⟨e1, e2, e3⟩ | ⟨e1, e2, e3⟩
  · unfold Averager.own; rw [e1, e2, e3]; exact h0
  · unfold Averager.own; rw [e1, e3]
    rcases e2 with e2 | e2 <;> rw [e2]
    · exact h1
    · exact h1.sub (by simp)
  · unfold Averager.own; rw [e1, e2, e3]
    exact h3.perm (List.Perm.swap _ _ _)
  · unfold Averager.own; rw [e1, e2, e3]
    have h4 := h3.close (h := s.lib.next) (by simp)
    have e : ([s.lib.next + 1, s.lib.next] : List Nat).erase s.lib.next = [s.lib.next + 1] := by
      rw [List.erase_cons_tail (by simp), List.erase_cons_head]
    change Inv _ (([s.lib.next + 1, s.lib.next] : List Nat).erase s.lib.next) at h4
    rw [e] at h4
    have h5 := h4.close (h := s.lib.next + 1) (by simp)
    rw [List.erase_cons_head] at h5
    exact h5

theorem average_kept {env : Averager.Env K} {s s' : Averager K} {fi fo st : String}
    (h : average env s fi fo st = .ok s' () ∨ ∃ m, average env s fi fo st = .exc m s') (hk : Kept s.lib []) (ha : s.dbAvg = none) :
    Kept s'.lib s'.own := by
  have h1 := (hk.open fi).use s.lib.next
  have h3 := ((h1.open fo).use (s.lib.next + 1)).use s.lib.next
  change Kept _ ([s.lib.next + 1, s.lib.next] : List Nat) at h3
  rcases average_lib h with ⟨e1, e2, e3⟩ | ⟨e1, e2, e3⟩ | ⟨e1, e2, e3⟩ | ⟨e1, e2, e3⟩
  · unfold Averager.own; rw [e1, e2, e3, ha]; exact hk
  · unfold Averager.own; rw [e1, e3]
    have e2' : s'.dbAvg = none := by rcases e2 with e2 | e2 <;> simp [e2, ha]
    rw [e2']; exact h1
  · unfold Averager.own; rw [e1, e2, e3]
    exact h3.perm (List.Perm.swap _ _ _)
  · unfold Averager.own; rw [e1, e2, e3]
    have h4 := h3.close s.lib.next
    have e : ([s.lib.next + 1, s.lib.next] : List Nat).erase s.lib.next = [s.lib.next + 1] := by
      rw [List.erase_cons_tail (by simp), List.erase_cons_head]
    rw [e] at h4
    have h5 := h4.close (s.lib.next + 1)
    rw [List.erase_cons_head] at h5
    exact h5

theorem averagerRun_cons {s s' : Averager K} {c : AverageCall K} {cs : List (AverageCall K)}
    (h : averagerRun s (c :: cs) = .ok s') : ∃ s1, (average c.env s c.fileIn c.fileOut c.stamp = .ok s1 () ∨
      ∃ m, average c.env s c.fileIn c.fileOut c.stamp = .exc m s1) ∧ averagerRun s1 cs = .ok s' := by
  simp only [averagerRun] at h
  cases hc : average c.env s c.fileIn c.fileOut c.stamp with
  | ok s1 a => rw [hc] at h; exact ⟨s1, Or.inl rfl, h⟩
  | exc m s1 => rw [hc] at h; exact ⟨s1, Or.inr ⟨m, rfl⟩, h⟩
  | ub => rw [hc] at h; cases h

theorem averagerRun_inv (cs : List (AverageCall K)) : ∀ {s s' : Averager K}, averagerRun s cs = .ok s' →
    Inv s.lib s.own → Inv s'.lib s'.own := by
  induction cs with
  | nil => intro s s' h hi; cases h; exact hi
  | cons c cs ih =>
    intro s s' h hi
    obtain ⟨s1, h1, h2⟩ := averagerRun_cons h
    exact ih h2 (average_inv h1 hi)

theorem average_ok_null {env : Averager.Env K} {s s' : Averager K} {fi fo st : String}
    (h : average env s fi fo st = .ok s' ()) : s'.dbIn = none ∧ s'.dbAvg = none := by
  unfold average at h
  cases hd : s.disk fi with
  | none => simp only [hd] at h; cases h
  | some f =>
    cases hs : f.schema with
    | none => simp only [hd, hs] at h; split_ifs at h
    | some sc =>
      cases he : AvgEngine.average env.engine f.db with
      | ub => simp only [hd, hs, he] at h; split_ifs at h
      | exc m e => simp only [hd, hs, he] at h; split_ifs at h
      | ok e a => simp only [hd, hs, he] at h; split_ifs at h; cases h; exact ⟨rfl, rfl⟩

theorem averagerRun_kept (cs : List (AverageCall K)) : ∀ {s s' : Averager K}, averagerRun s cs = .ok s' →
    OnlyLastFails s cs → Kept s.lib s.own → s.dbIn = none → s.dbAvg = none → Kept s'.lib s'.own := by
  induction cs with
  | nil => intro s s' h _ hk _ _; cases h; exact hk
  | cons c cs ih =>
    intro s s' h ho hk hin ha
    obtain ⟨s1, h1, h2⟩ := averagerRun_cons h
    have hk0 : Kept s.lib [] := by unfold Averager.own at hk; rw [hin, ha] at hk; exact hk
    have hk1 := average_kept h1 hk0 ha
    rcases ho with rfl | ⟨s2, h3, h4⟩
    · cases h2; exact hk1
    · have : s1 = s2 := by
        rcases h1 with h1 | ⟨m, h1⟩ <;> rw [h3] at h1 <;> cases h1
        rfl
      subst this
      obtain ⟨h5, h6⟩ := average_ok_null h3
      exact ih h2 h4 hk1 h5 h6

end
end Handles
end CenCalVM
