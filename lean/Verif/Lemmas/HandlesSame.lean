import Verif.Model.Handles
import Verif.Props.Lifecycle

/-! The functions with handles do what the functions without do. -/

namespace CenCalVM
namespace Handles

set_option linter.unusedSectionVars false
set_option linter.unusedSimpArgs false

section
variable {K : Type} [Field K] [LinearOrder K] [IsStrictOrderedRing K]

/-- The pointers agree with the databases of the query object. -/
def Agree (o : Query K) : Prop := o.db.isSome = o.s.q.db.isSome ∧ o.dbExt.isSome = o.s.q.dbExt.isSome

theorem openMain_same {disk : String → Option (Db K)} {o : Query K} (ha : Agree o) :
    VMQuery.openMain disk o.s.q = (openMain disk o >>= fun o' => .ok o'.s.q) ∧
      ∀ o', openMain disk o = .ok o' → Agree o' ∧ o'.s.fs = o.s.fs ∧ o'.s.outs = o.s.outs := by
  obtain ⟨h1, h2⟩ := ha
  unfold openMain VMQuery.openMain
  cases hd : o.db <;> cases hq : o.s.q.db <;> simp only [hd, hq, Option.isSome_none, Option.isSome_some,
    Bool.false_eq_true, reduceCtorEq] at h1 ⊢
  · by_cases hc : o.s.q.cacheSize > 0
    · rw [if_pos hc, if_pos hc]
      cases hk : disk o.s.q.filename <;> dsimp only <;> refine ⟨rfl, ?_⟩ <;> intro o' h <;> cases h
      · exact ⟨⟨by simp [hq], h2⟩, rfl, rfl⟩
      · exact ⟨⟨rfl, h2⟩, rfl, rfl⟩
    · rw [if_neg hc, if_neg hc]
      exact ⟨rfl, fun o' h => by cases h⟩
  · exact ⟨rfl, fun o' h => by cases h; exact ⟨⟨by simp [hd, hq], h2⟩, rfl, rfl⟩⟩

theorem openExt_same {disk : String → Option (Db K)} {o : Query K} (ha : Agree o) :
    VMQuery.openExt disk o.s.q = (openExt disk o >>= fun o' => .ok o'.s.q) ∧
      ∀ o', openExt disk o = .ok o' → Agree o' ∧ o'.s.fs = o.s.fs ∧ o'.s.outs = o.s.outs := by
  obtain ⟨h1, h2⟩ := ha
  unfold openExt VMQuery.openExt
  by_cases hn : o.s.q.filenameExt ≠ ""
  · rw [if_pos hn, if_pos hn]
    cases hd : o.dbExt <;> cases hq : o.s.q.dbExt <;> simp only [hd, hq, Option.isSome_none, Option.isSome_some,
      Bool.false_eq_true, reduceCtorEq] at h2 ⊢
    · by_cases hc : o.s.q.cacheSizeExt > 0
      · rw [if_pos hc, if_pos hc]
        cases hk : disk o.s.q.filenameExt <;> dsimp only <;> refine ⟨rfl, ?_⟩ <;> intro o' h <;> cases h
        · exact ⟨⟨h1, by simp [hq]⟩, rfl, rfl⟩
        · exact ⟨⟨h1, rfl⟩, rfl, rfl⟩
      · rw [if_neg hc, if_neg hc]
        exact ⟨rfl, fun o' h => by cases h⟩
    · exact ⟨rfl, fun o' h => by cases h; exact ⟨⟨h1, by simp [hd, hq]⟩, rfl, rfl⟩⟩
  · rw [if_neg hn, if_neg hn]
    exact ⟨rfl, fun o' h => by cases h; exact ⟨⟨h1, h2⟩, rfl, rfl⟩⟩

theorem call_same {fmt : Fmt K} {canOpen : String → Bool} {o : Query K} (ha : Agree o) (c : VMQuery.Call K) :
    VMQuery.call fmt canOpen o.s c = (call fmt canOpen o c >>= fun o' => .ok o'.s) ∧
      ∀ o', call fmt canOpen o c = .ok o' → Agree o' := by
  have other : ∀ c', (∀ s', VMQuery.call fmt canOpen o.s c' = .ok s' → s'.q.db = o.s.q.db ∧ s'.q.dbExt = o.s.q.dbExt) →
      ∀ lib, VMQuery.call fmt canOpen o.s c' = ((do
        let s ← VMQuery.call fmt canOpen o.s c'
        Outcome.ok { o with s := s, lib := lib }) >>= fun o' => .ok o'.s) ∧
      ∀ o', (do
        let s ← VMQuery.call fmt canOpen o.s c'
        Outcome.ok { o with s := s, lib := lib }) = .ok o' → Agree o' := by
    intro c' hq lib
    cases hc : VMQuery.call fmt canOpen o.s c' with
    | ok s =>
      obtain ⟨h1, h2⟩ := hq s hc
      refine ⟨rfl, fun o' h => ?_⟩
      cases h
      exact ⟨by rw [ha.1, h1], by rw [ha.2, h2]⟩
    | exc m => exact ⟨rfl, fun o' h => by cases h⟩
    | ub => exact ⟨rfl, fun o' h => by cases h⟩
  cases c with
  | «open» disk =>
    simp only [call, VMQuery.call, VMQuery.openDb]
    obtain ⟨h1, h2⟩ := openMain_same (disk := disk) ha
    rw [h1]
    cases hm : openMain disk o with
    | ok o1 =>
      obtain ⟨h3, h4, h5⟩ := h2 o1 hm
      obtain ⟨h6, h7⟩ := openExt_same (disk := disk) h3
      refine ⟨?_, fun o' h => (h7 o' h).1⟩
      show (VMQuery.openExt disk o1.s.q >>= fun q => Outcome.ok { o.s with q := q }) = (openExt disk o1 >>= fun o' => .ok o'.s)
      rw [h6]
      cases he : openExt disk o1 with
      | ok o2 =>
        obtain ⟨-, h8, h9⟩ := h7 o2 he
        show Outcome.ok (⟨o2.s.q, o.s.fs, o.s.outs⟩ : VMQuery.Session K) = Outcome.ok o2.s
        rw [← h4, ← h5, ← h8, ← h9]
      | exc m => rfl
      | ub => rfl
    | exc m => exact ⟨rfl, fun o' h => by cases h⟩
    | ub => exact ⟨rfl, fun o' h => by cases h⟩
  | close f fx => exact ⟨rfl, fun o' h => by cases h; exact ⟨rfl, rfl⟩⟩
  | query n lon lat elev =>
    refine other (.query n lon lat elev) (fun s' h => ?_) _
    simp only [VMQuery.call] at h
    cases hq : VMQuery.query fmt o.s.q o.s.fs n lon lat elev with
    | ok r => rw [hq] at h; cases h; obtain ⟨e, he⟩ := query_keeps hq; rw [he]; exact ⟨rfl, rfl⟩
    | exc m => rw [hq] at h; cases h
    | ub => rw [hq] at h; cases h
  | geometry g =>
    refine other (.geometry g) (fun s' h => ?_) _
    simp only [VMQuery.call] at h
    cases hq : VMQuery.geometry o.s.q g with
    | ok r =>
      rw [hq] at h; cases h
      unfold VMQuery.geometry at hq
      split at hq <;> cases hq <;> exact ⟨rfl, rfl⟩
    | exc m => rw [hq] at h; cases h
    | ub => rw [hq] at h; cases h
  | queryVals names n =>
    refine other (.queryVals names n) (fun s' h => ?_) _
    simp only [VMQuery.call] at h
    cases hq : VMQuery.setQueryVals o.s.q names n with
    | ok r =>
      rw [hq] at h; cases h
      unfold VMQuery.setQueryVals at hq
      split_ifs at hq <;> cases hq <;> exact ⟨rfl, rfl⟩
    | exc m => rw [hq] at h; cases h
    | ub => rw [hq] at h; cases h
  | queryType n =>
    refine other (.queryType n) (fun s' h => ?_) _
    cases h
    unfold VMQuery.queryType
    dsimp only
    split_ifs <;> exact ⟨rfl, rfl⟩
  | queryRes x =>
    refine other (.queryRes x) (fun s' h => ?_) _
    cases h
    unfold VMQuery.setQueryRes
    dsimp only
    split_ifs <;> exact ⟨rfl, rfl⟩
  | filename _ => exact other (.filename _) (fun s' h => by cases h; exact ⟨rfl, rfl⟩) _
  | filenameExt _ => exact other (.filenameExt _) (fun s' h => by cases h; exact ⟨rfl, rfl⟩) _
  | cacheSize x =>
    refine other (.cacheSize x) (fun s' h => ?_) _
    cases h
    unfold VMQuery.setCacheSize
    dsimp only
    split_ifs <;> exact ⟨rfl, rfl⟩
  | cacheSizeExt x =>
    refine other (.cacheSizeExt x) (fun s' h => ?_) _
    cases h
    unfold VMQuery.setCacheSizeExt
    dsimp only
    split_ifs <;> exact ⟨rfl, rfl⟩
  | squash _ _ => exact other (.squash _ _) (fun s' h => by cases h; exact ⟨rfl, rfl⟩) _
  | handler _ => exact other (.handler _) (fun s' h => by cases h; exact ⟨rfl, rfl⟩) _

theorem run_same {fmt : Fmt K} {canOpen : String → Bool} (cs : List (VMQuery.Call K)) : ∀ {o : Query K}, Agree o →
    VMQuery.run fmt canOpen o.s cs = (run fmt canOpen o cs >>= fun o' => .ok o'.s) := by
  induction cs with
  | nil => intro o _; rfl
  | cons c cs ih =>
    intro o ha
    obtain ⟨h1, h2⟩ := call_same (fmt := fmt) (canOpen := canOpen) ha c
    simp only [run, VMQuery.run]
    rw [h1]
    cases hc : call fmt canOpen o c with
    | ok o1 => exact ih (h2 o1 hc)
    | exc m => rfl
    | ub => rfl

theorem openDB_same (env : EtreeEnv) (s : Creator K) (f d t : String) :
    VMCreator.openDB env s.c f d t = match openDB env s f d t with
      | .ok s' _ => .ok s'.c ()
      | .exc m s' => .exc m s'.c
      | .ub => .ub := by
  unfold openDB VMCreator.openDB
  split_ifs <;> rfl

theorem packDB_same (env : EtreeEnv) (disk : EtreeDisk K) (l : Lib) (p u : String) :
    VMCreator.packDB env disk p u = match packDB env disk l p u with
      | .ok r _ => .ok r.1 ()
      | .exc m r => .exc m r.1
      | .ub => .ub := by
  unfold packDB VMCreator.packDB
  cases hd : disk u with
  | none => rfl
  | some f =>
    dsimp only
    by_cases h1 : env.create p = true
    · simp only [if_pos h1]
    by_cases h2 : p = u
    · simp only [if_neg h1, if_pos h2]
    by_cases h3 : env.schema = true
    · simp only [if_neg h1, if_neg h2, if_pos h3]
    by_cases h4 : (f.appmeta.isSome && env.setMeta) = true
    · simp only [if_neg h1, if_neg h2, if_neg h3, if_pos h4]
    by_cases h5 : f.db.entries = []
    · simp only [if_neg h1, if_neg h2, if_neg h3, if_neg h4, if_pos h5]
    by_cases h6 : env.beginAppend = true
    · simp only [if_neg h1, if_neg h2, if_neg h3, if_neg h4, if_neg h5, if_pos h6]
    simp only [if_neg h1, if_neg h2, if_neg h3, if_neg h4, if_neg h5, if_neg h6]
    cases hl : VMCreator.packLoop env 0 f.db.entries Db.empty with
    | ub => rfl
    | exc m out => rfl
    | ok out a =>
      dsimp only
      cases env.endAppend <;> cases env.closeIn <;> cases env.closeOut <;> rfl

theorem average_same (env : Averager.Env K) (s : Averager K) (fi fo st : String) :
    Averager.average env s.disk fi fo st = match average env s fi fo st with
      | .ok s' _ => .ok s'.disk ()
      | .exc m s' => .exc m s'.disk
      | .ub => .ub := by
  unfold average Averager.average
  cases hd : s.disk fi with
  | none => rfl
  | some f =>
    dsimp only
    by_cases h1 : env.otherSize fi = true
    · simp only [if_pos h1]
    simp only [if_neg h1]
    cases hs : f.schema with
    | none => rfl
    | some sc =>
      dsimp only
      by_cases h2 : sc ≠ SCHEMA
      · simp only [if_pos h2]
      by_cases h3 : env.create fo = true
      · simp only [if_neg h2, if_pos h3]
      by_cases h4 : fo = fi
      · simp only [if_neg h2, if_neg h3, if_pos h4]
      by_cases h5 : env.schema = true
      · simp only [if_neg h2, if_neg h3, if_neg h4, if_pos h5]
      by_cases h6 : (f.appmeta.isSome && env.setMeta) = true
      · simp only [if_neg h2, if_neg h3, if_neg h4, if_neg h5, if_pos h6]
      simp only [if_neg h2, if_neg h3, if_neg h4, if_neg h5, if_neg h6]
      cases he : AvgEngine.average env.engine f.db <;> rfl

end
end Handles
end CenCalVM
