/-
C77: where the data fills an octant with material of one kind, its average is the volume-weighted mean.
-/
import Verif.Lemmas.AvgVolume
import Verif.Props.AvgLocal

set_option linter.unusedSectionVars false

namespace CenCalVM
open AvgEngine FileApps Key
variable {K : Type} [Field K] [LinearOrder K] [IsStrictOrderedRing K]

/-- C77: if an octant of the averaged database is filled completely with input octants of any sizes that are all solid, or all water,
each real value times the volume of the octant is the sum of the values of the input octants inside times their volumes. -/
theorem C77 {env : Env K} (he : env.Reliable) (hex : env.Exact) {db : Db K} (hdb : db.Good) (hne : db.entries ≠ []) (hno : db.NonOverlapping)
    (hroot : db.BelowRoot) :
    ∃ s, average env db = .ok s () ∧ ∀ x ∈ s.out.entries, db.Covers x.addr.toKey →
      ∀ solid, (∀ e ∈ db.entries, x.addr.toKey.Contains e.addr.toKey → OfKind solid e.payload) →
      OfKind solid x.payload ∧
        ∀ r ∈ Payload.reals (K := K), r x.payload * (x.addr.toKey.size : K) ^ 3 = db.volumeSum r x.addr.toKey := by
  obtain ⟨s, h, hs⟩ := averageOf he hex hdb hne hno hroot
  exact ⟨s, h, fun x hx hcov solid hk => hs.volume hdb hno solid 32 _ (by omega) hcov hk x hx rfl⟩

/-- C77: the volumes of the input octants in an octant that they fill add up to its volume, so the sum above is a weighted mean. -/
theorem C77_volumes {env : Env K} (he : env.Reliable) (hex : env.Exact) {db : Db K} (hdb : db.Good) (hne : db.entries ≠ []) (hno : db.NonOverlapping)
    (hroot : db.BelowRoot) :
    ∃ s, average env db = .ok s () ∧ ∀ x ∈ s.out.entries, db.Covers x.addr.toKey →
      db.volumeSum (fun _ => 1) x.addr.toKey = (x.addr.toKey.size : K) ^ 3 := by
  obtain ⟨s, h, hs⟩ := averageOf he hex hdb hne hno hroot
  refine ⟨s, h, fun x hx hcov => ?_⟩
  let one : Payload K := ⟨1, 1, 1, 1, 1, 1, 1, 1⟩
  let db1 : Db K := ⟨db.entries.map fun e => ⟨e.addr, one⟩⟩
  have hg1 : db1.Good := by
    refine ⟨fun e he => ?_, ?_⟩
    · obtain ⟨e', h', rfl⟩ := List.mem_map.1 he
      exact hdb.octants e' h'
    · unfold Db.Sorted
      exact List.pairwise_map.2 hdb.sorted
  have hn1 : db1.NonOverlapping := by
    intro a ha b hb hc
    obtain ⟨a', ha', rfl⟩ := List.mem_map.1 ha
    obtain ⟨b', hb', rfl⟩ := List.mem_map.1 hb
    rw [hno a' ha' b' hb' hc]
  have hr1 : db1.BelowRoot := by
    intro e he
    obtain ⟨e', h', rfl⟩ := List.mem_map.1 he
    exact hroot e' h'
  obtain ⟨s1, -, hs1⟩ := averageOf he hex hg1 (by simpa [db1] using hne) hn1 hr1
  have hanc : ∀ k, db1.ProperAncestor k ↔ db.ProperAncestor k := by
    intro k
    unfold Db.ProperAncestor
    simp [db1]
  have hkeys : ∀ k, (∃ y ∈ db1.entries, y.addr.toKey = k) ↔ ∃ y ∈ db.entries, y.addr.toKey = k := by
    intro k; simp [db1]
  obtain ⟨x1, hx1, hk1⟩ := (hs1.keys x.addr.toKey).2 (by rw [hkeys, hanc]; exact (hs.keys _).1 ⟨x, hx, rfl⟩)
  have hcov1 : db1.Covers x1.addr.toKey := by
    intro j a1 a2 a3
    rw [hk1] at a3
    obtain ⟨e, e1, e2⟩ := hcov j a1 a2 a3
    exact ⟨⟨e.addr, one⟩, List.mem_map.2 ⟨e, e1, rfl⟩, e2⟩
  have hall : ∀ e ∈ db1.entries, x1.addr.toKey.Contains e.addr.toKey → OfKind true e.payload := by
    intro e he _
    obtain ⟨e', h', rfl⟩ := List.mem_map.1 he
    show (0 : K) < 1
    exact one_pos
  have h1 := (hs1.volume hg1 hn1 true 32 _ (by omega) hcov1 hall x1 hx1 rfl).2 Payload.vs (by simp [Payload.reals])
  have hvs : x1.payload.vs = 1 := by
    by_cases hin : x1 ∈ db1.entries
    · obtain ⟨e', h', rfl⟩ := List.mem_map.1 hin
      rfl
    · obtain ⟨s2, hs2, hr⟩ := C29 he hex hg1 (by simpa [db1] using hne) hn1
      obtain ⟨s3, hs3, hu⟩ := C75_unique he hex hg1 (by simpa [db1] using hne) hn1 hr1
      have hse : s1.out = s2.out := by
        rw [hs2] at hs3; cases hs3
        exact (hu _).1 hs1
      rw [hse] at hx1
      have hpa : ∃ e, db1.Contributes x1.addr.toKey e := by
        have := (hs1.others x1 (by rw [hse]; exact hx1) hin).2.1
        obtain ⟨-, e, e1, e2, -⟩ := this
        refine ⟨e, e1, e2, Or.inl (hall e e1 e2)⟩
      have := (hr x1 hx1 hin).2.1 hpa Payload.vs (by simp [Payload.reals]) 1 1 (by
        rintro e ⟨e1, -⟩
        obtain ⟨e', h', rfl⟩ := List.mem_map.1 e1
        exact ⟨le_rfl, le_rfl⟩)
      exact le_antisymm this.2 this.1
  rw [hvs, one_mul, hk1] at h1
  rw [h1]
  unfold Db.volumeSum
  rw [show db1.entries = db.entries.map fun e => ⟨e.addr, one⟩ from rfl, List.filter_map, List.map_map]
  rfl

/-- A block of rock: seven octants of level 1 and eight of level 2 in place of the first. -/
def exFull : Db ℚ := ⟨((kids ⟨0, 0, 0, 1⟩).map fun k => ⟨⟨k, .leaf⟩, exPay 1000 1⟩) ++
  (kids ⟨0, 0, 0, 0⟩).tail.map fun k => ⟨⟨k, .leaf⟩, exPay 3000 2⟩⟩

theorem exFull_covers : exFull.Covers ⟨0, 0, 0, 0⟩ := by
  refine Db.covers_kids (by decide +kernel) (by decide) fun j hj => ?_
  rcases List.mem_cons.1 hj with rfl | hj
  · refine Db.covers_kids (by decide +kernel) (by decide) fun i hi => ?_
    exact Db.covers_self (e := ⟨⟨i, .leaf⟩, exPay 1000 1⟩) (List.mem_append_left _ (List.mem_map.2 ⟨i, hi, rfl⟩)) rfl
  · exact Db.covers_self (e := ⟨⟨j, .leaf⟩, exPay 3000 2⟩) (List.mem_append_right _ (List.mem_map.2 ⟨j, hj, rfl⟩)) rfl

/-- The average at the root has 1/8 of 1000 and 7/8 of 3000. -/
example : exEnv.Reliable ∧ exEnv.Exact ∧ exFull.Good ∧ exFull.entries ≠ [] ∧ exFull.NonOverlapping ∧ exFull.BelowRoot ∧
    exFull.Covers ⟨0, 0, 0, 0⟩ ∧ (∀ e ∈ exFull.entries, OfKind true e.payload) ∧
    ((outOf (average exEnv exFull)).map fun l => l.take 1) =
      some [⟨⟨⟨0, 0, 0, 0⟩, .interior⟩, { exPay 2750 (-999) with zone := -999 }⟩] := by
  refine ⟨exEnv_reliable, exEnv_exact, ⟨by unfold Db.Octants; decide +kernel, by unfold Db.Sorted; decide +kernel⟩, by simp [exFull, kids],
    by unfold Db.NonOverlapping; decide +kernel, by unfold Db.BelowRoot; decide +kernel, exFull_covers, ?_, by decide +kernel⟩
  intro e he
  show 0 < e.payload.vs
  revert e
  decide +kernel

end CenCalVM
