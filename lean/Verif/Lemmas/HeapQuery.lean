import Verif.Lemmas.Heap
import Verif.Props.Lifecycle

/-! The memory of a query object over a history of calls. -/

namespace CenCalVM
namespace Mem

set_option linter.unusedSectionVars false
set_option linter.unusedSimpArgs false

section
variable {K : Type} [Field K] [LinearOrder K] [IsStrictOrderedRing K]

/-- The pointer to the geometry is null exactly if the query object has none. -/
def Agree (o : Query K) : Prop := o.geom.isSome = o.s.q.geom.isSome

theorem openDb_keeps {disk : String → Option (Db K)} {q q' : VMQuery K} (h : VMQuery.openDb disk q = .ok q') :
    q'.queryVals = q.queryVals ∧ q'.geom = q.geom := by
  unfold VMQuery.openDb at h
  cases hm : VMQuery.openMain disk q with
  | ok q1 =>
    rw [hm] at h
    replace h : VMQuery.openExt disk q1 = .ok q' := h
    have e1 : q1.queryVals = q.queryVals ∧ q1.geom = q.geom := by
      unfold VMQuery.openMain at hm
      split at hm
      · cases hm; exact ⟨rfl, rfl⟩
      · by_cases hc : q.cacheSize > 0
        · rw [if_pos hc] at hm
          split at hm <;> cases hm <;> exact ⟨rfl, rfl⟩
        · rw [if_neg hc] at hm; cases hm
    have e2 : q'.queryVals = q1.queryVals ∧ q'.geom = q1.geom := by
      unfold VMQuery.openExt at h
      by_cases hn : q1.filenameExt ≠ ""
      · rw [if_pos hn] at h
        split at h
        · cases h; exact ⟨rfl, rfl⟩
        · by_cases hc : q1.cacheSizeExt > 0
          · rw [if_pos hc] at h
            split at h <;> cases h <;> exact ⟨rfl, rfl⟩
          · rw [if_neg hc] at h; cases h
      · rw [if_neg hn] at h; cases h; exact ⟨rfl, rfl⟩
    exact ⟨e2.1.trans e1.1, e2.2.trans e1.2⟩
  | exc m => rw [hm] at h; cases h
  | ub => rw [hm] at h; cases h

/-- The calls other than `geometry` and `queryVals` keep both. -/
theorem call_keeps {fmt : Fmt K} {canOpen : String → Bool} {s s' : VMQuery.Session K} {c : VMQuery.Call K}
    (h1 : ∀ g, c ≠ .geometry g) (h2 : ∀ names n, c ≠ .queryVals names n) (h : VMQuery.call fmt canOpen s c = .ok s') :
    s'.q.queryVals = s.q.queryVals ∧ s'.q.geom = s.q.geom := by
  cases c with
  | geometry g => exact absurd rfl (h1 g)
  | queryVals names n => exact absurd rfl (h2 names n)
  | «open» disk =>
    simp only [VMQuery.call] at h
    cases hq : VMQuery.openDb disk s.q with
    | ok r => rw [hq] at h; cases h; exact openDb_keeps hq
    | exc m => rw [hq] at h; cases h
    | ub => rw [hq] at h; cases h
  | close f fx => cases h; exact ⟨rfl, rfl⟩
  | query n lon lat elev =>
    simp only [VMQuery.call] at h
    cases hq : VMQuery.query fmt s.q s.fs n lon lat elev with
    | ok r => rw [hq] at h; cases h; obtain ⟨e, he⟩ := query_keeps hq; rw [he]; exact ⟨rfl, rfl⟩
    | exc m => rw [hq] at h; cases h
    | ub => rw [hq] at h; cases h
  | queryType n => cases h; unfold VMQuery.queryType; dsimp only; split_ifs <;> exact ⟨rfl, rfl⟩
  | queryRes x => cases h; unfold VMQuery.setQueryRes; dsimp only; split_ifs <;> exact ⟨rfl, rfl⟩
  | filename _ => cases h; exact ⟨rfl, rfl⟩
  | filenameExt _ => cases h; exact ⟨rfl, rfl⟩
  | cacheSize x => cases h; unfold VMQuery.setCacheSize; dsimp only; split_ifs <;> exact ⟨rfl, rfl⟩
  | cacheSizeExt x => cases h; unfold VMQuery.setCacheSizeExt; dsimp only; split_ifs <;> exact ⟨rfl, rfl⟩
  | squash _ _ => cases h; exact ⟨rfl, rfl⟩
  | handler _ => cases h; exact ⟨rfl, rfl⟩

theorem err_mem (o : Query K) : (⟨o.err, 1, false⟩ : Block) ∈ o.blocks := by simp [Query.blocks]
theorem log_mem (o : Query K) : (⟨o.log, 1, false⟩ : Block) ∈ o.blocks := by simp [Query.blocks]

theorem newQuery_has (g : Geom K) (fs : Files) : Has (newQuery g fs).heap (newQuery g fs).blocks ∧ Agree (newQuery g fs) := by
  refine ⟨?_, rfl⟩
  have h1 := Has.init.newGeom
  have h2 := h1.one.one
  have h3 := h2.access (b := ⟨Heap.init.newGeom.next, 1, false⟩) (List.mem_cons_of_mem _ List.mem_cons_self) one_lt
  have h4 := h3.array 9
  have h5 := Has.accesses (is := List.range 9) List.mem_cons_self h4 fun i hi => List.mem_range.1 hi
  refine h5.perm ?_
  refine List.Perm.cons _ ?_
  show List.Perm [(⟨3, 1, false⟩ : Block), ⟨2, 1, false⟩, ⟨0, 1, false⟩, ⟨1, 1, false⟩]
    [⟨0, 1, false⟩, ⟨1, 1, false⟩, ⟨3, 1, false⟩, ⟨2, 1, false⟩]
  decide

theorem call_has {fmt : Fmt K} {canOpen : String → Bool} {o o' : Query K} {c : VMQuery.Call K} (hh : Has o.heap o.blocks)
    (ha : Agree o) (h : call fmt canOpen o c = .ok o') : Has o'.heap o'.blocks ∧ Agree o' := by
  have other : ∀ c', (∀ g, c' ≠ .geometry g) → (∀ names n, c' ≠ .queryVals names n) → ∀ hp : Heap, Has hp o.blocks →
      (do
        let s ← VMQuery.call fmt canOpen o.s c'
        Outcome.ok { o with s := s, heap := hp }) = .ok o' → Has o'.heap o'.blocks ∧ Agree o' := by
    intro c' n1 n2 hp hhp he
    cases hc : VMQuery.call fmt canOpen o.s c' with
    | ok s =>
      rw [hc] at he
      obtain ⟨k1, k2⟩ := call_keeps n1 n2 hc
      cases he
      refine ⟨?_, ?_⟩
      · unfold Query.blocks
        dsimp only
        rw [k1]
        exact hhp
      · show o.geom.isSome = s.q.geom.isSome
        rw [k2]; exact ha
    | exc m => rw [hc] at he; cases he
    | ub => rw [hc] at he; cases he
  have he := hh.useErr (err_mem o) (log_mem o)
  cases c with
  | geometry g =>
    simp only [call, geometry] at h
    cases hg : o.geom with
    | none =>
      rw [hg] at h
      cases h
      refine ⟨?_, rfl⟩
      unfold Query.blocks at hh
      rw [hg] at hh
      exact hh
    | some p =>
      rw [hg] at h
      cases g with
      | none => cases h
      | some g =>
        cases h
        refine ⟨?_, rfl⟩
        have h1 : Has o.heap (geomBlocks (some p) ++ (valBlocks o.s.q.queryVals.length o.vals ++
            [⟨o.log, 1, false⟩, ⟨o.err, 1, false⟩])) := by
          refine hh.perm ?_
          unfold Query.blocks
          rw [hg, ← List.append_assoc, ← List.append_assoc]
          exact List.Perm.append_right _ List.perm_append_comm
        refine (h1.deleteGeomOpt.newGeom).perm ?_
        unfold Query.blocks
        dsimp only
        rw [← List.append_assoc, ← List.append_assoc]
        exact List.Perm.append_right _ List.perm_append_comm
  | queryVals names n =>
    simp only [call, queryVals] at h
    cases hq : VMQuery.setQueryVals o.s.q names n with
    | ok q =>
      rw [hq] at h
      unfold VMQuery.setQueryVals at hq
      by_cases hn : n > 0
      · rw [if_pos hn] at hq
        by_cases hl : n.toNat ≤ names.length
        · rw [if_pos hl] at hq
          replace h : (if n > 0 then _ else _ : Outcome (Query K)) = .ok o' := h
          rw [if_pos hn] at h
          cases hq
          cases h
          refine ⟨?_, ha⟩
          have h1 := Has.deleteArrayOpt hh
          have h2 := h1.array n.toNat
          have h3 := Has.accesses (is := List.range n.toNat) List.mem_cons_self h2 fun i hi => List.mem_range.1 hi
          have h4 := h3.useErr (o := o) (by simp) (by simp)
          unfold Query.blocks
          dsimp only [valBlocks]
          rw [List.length_map, List.length_take, min_eq_left hl]
          exact h4
        · rw [if_neg hl] at hq; cases hq
      · rw [if_neg hn] at hq
        replace h : (if n > 0 then _ else _ : Outcome (Query K)) = .ok o' := h
        rw [if_neg hn] at h
        cases hq
        cases h
        exact ⟨hh, ha⟩
    | exc m => rw [hq] at h; cases h
    | ub => rw [hq] at h; cases h
  | query n lon lat elev =>
    refine other (.query n lon lat elev) (by simp) (by simp) _ ?_ h
    refine Has.useVals ?_ ?_
    · refine Has.useErr ?_ (err_mem o) (log_mem o)
      refine hh.useGeom ?_
      unfold Query.blocks
      exact fun b hb => List.mem_append_right _ (List.mem_append_left _ hb)
    · unfold Query.blocks
      exact fun b hb => List.mem_append_left _ hb
  | «open» _ => exact other (.open _) (by simp) (by simp) _ he h
  | close _ _ => exact other (.close _ _) (by simp) (by simp) _ he h
  | queryType _ => exact other (.queryType _) (by simp) (by simp) _ he h
  | queryRes _ => exact other (.queryRes _) (by simp) (by simp) _ he h
  | filename _ => exact other (.filename _) (by simp) (by simp) _ he h
  | filenameExt _ => exact other (.filenameExt _) (by simp) (by simp) _ he h
  | cacheSize _ => exact other (.cacheSize _) (by simp) (by simp) _ he h
  | cacheSizeExt _ => exact other (.cacheSizeExt _) (by simp) (by simp) _ he h
  | squash _ _ => exact other (.squash _ _) (by simp) (by simp) _ he h
  | handler _ => exact other (.handler _) (by simp) (by simp) _ he h

theorem run_has {fmt : Fmt K} {canOpen : String → Bool} (cs : List (VMQuery.Call K)) : ∀ {o o' : Query K},
    Has o.heap o.blocks → Agree o → run fmt canOpen o cs = .ok o' → Has o'.heap o'.blocks ∧ Agree o' := by
  induction cs with
  | nil => intro o o' hh ha h; cases h; exact ⟨hh, ha⟩
  | cons c cs ih =>
    intro o o' hh ha h
    simp only [run] at h
    cases hc : call fmt canOpen o c with
    | ok o1 =>
      rw [hc] at h
      obtain ⟨h1, h2⟩ := call_has hh ha hc
      exact ih h1 h2 h
    | exc m => rw [hc] at h; cases h
    | ub => rw [hc] at h; cases h

theorem destroy_has {fail failExt : Bool} {o : Query K} {h : Heap} (hh : Has o.heap o.blocks)
    (hd : destroy fail failExt o = .ok h) : Has h [] := by
  unfold destroy at hd
  cases hq : VMQuery.destroy fail failExt o.s.q with
  | ok u =>
    rw [hq] at hd
    cases hd
    have h1 := (Has.deleteArrayOpt hh).deleteGeomOpt
    have h2 := h1.access (b := ⟨o.err, 1, false⟩) (by simp) one_lt
    exact h2.delete.delete
  | exc m => rw [hq] at hd; cases hd
  | ub => rw [hq] at hd; cases hd

/-- The functions with memory do what the functions without do. -/
theorem call_same {fmt : Fmt K} {canOpen : String → Bool} {o : Query K} (ha : Agree o) (c : VMQuery.Call K) :
    VMQuery.call fmt canOpen o.s c = (call fmt canOpen o c >>= fun o' => .ok o'.s) := by
  have other : ∀ c' (hp : Heap), VMQuery.call fmt canOpen o.s c' = ((do
        let s ← VMQuery.call fmt canOpen o.s c'
        Outcome.ok { o with s := s, heap := hp }) >>= fun o' => .ok o'.s) := by
    intro c' hp
    cases VMQuery.call fmt canOpen o.s c' <;> rfl
  cases c with
  | geometry g =>
    simp only [VMQuery.call, call, geometry, VMQuery.geometry]
    unfold Agree at ha
    cases hg : o.geom <;> cases hq : o.s.q.geom <;> rw [hg, hq] at ha <;> simp only [Option.isSome_none, Option.isSome_some,
      Bool.false_eq_true, reduceCtorEq] at ha
    · rfl
    · cases g <;> rfl
  | queryVals names n =>
    simp only [VMQuery.call, call, queryVals]
    cases VMQuery.setQueryVals o.s.q names n with
    | ok q =>
      show _ = ((if n > 0 then _ else _ : Outcome (Query K)) >>= fun o' => .ok o'.s)
      split_ifs <;> rfl
    | exc m => rfl
    | ub => rfl
  | query n lon lat elev => exact other (.query n lon lat elev) _
  | «open» _ => exact other (.open _) _
  | close _ _ => exact other (.close _ _) _
  | queryType _ => exact other (.queryType _) _
  | queryRes _ => exact other (.queryRes _) _
  | filename _ => exact other (.filename _) _
  | filenameExt _ => exact other (.filenameExt _) _
  | cacheSize _ => exact other (.cacheSize _) _
  | cacheSizeExt _ => exact other (.cacheSizeExt _) _
  | squash _ _ => exact other (.squash _ _) _
  | handler _ => exact other (.handler _) _

theorem run_same {fmt : Fmt K} {canOpen : String → Bool} (cs : List (VMQuery.Call K)) : ∀ {o : Query K},
    Has o.heap o.blocks → Agree o → VMQuery.run fmt canOpen o.s cs = (run fmt canOpen o cs >>= fun o' => .ok o'.s) := by
  induction cs with
  | nil => intro o _ _; rfl
  | cons c cs ih =>
    intro o hh ha
    simp only [run, VMQuery.run]
    rw [call_same ha c]
    cases hc : call fmt canOpen o c with
    | ok o1 =>
      obtain ⟨h1, h2⟩ := call_has hh ha hc
      exact ih h1 h2
    | exc m => rfl
    | ub => rfl

end
end Mem
end CenCalVM
