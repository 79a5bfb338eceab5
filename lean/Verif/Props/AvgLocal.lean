/-
C75: averaging is determined octant by octant by the data inside.
-/
import Verif.Lemmas.AvgLocal
import Verif.Props.FileApps

set_option linter.unusedSectionVars false

namespace CenCalVM
open AvgEngine FileApps
variable {K : Type} [Field K] [LinearOrder K] [IsStrictOrderedRing K]

/-- C75: averaging without rounding computes the database described by `AverageOf`, and there is only one. -/
theorem C75_unique {env : Env K} (he : env.Reliable) (hx : env.Exact) {db : Db K} (hdb : db.Good) (hne : db.entries ≠ []) (hno : db.NonOverlapping)
    (hroot : db.BelowRoot) : ∃ s, average env db = .ok s () ∧ ∀ out, AverageOf db out ↔ out = s.out := by
  obtain ⟨s, h, hs⟩ := averageOf he hx hdb hne hno hroot
  refine ⟨s, h, fun out => ⟨fun ho => ?_, fun e => by rw [e]; exact hs⟩⟩
  have := sorted_eq_of_mem ho.good.sorted hs.good.sorted fun x =>
    ⟨ho.agree hno hno hs 32 x.addr.toKey (by omega) (fun _ _ => Iff.rfl) x rfl,
      hs.agree hno hno ho 32 x.addr.toKey (by omega) (fun _ _ => Iff.rfl) x rfl⟩
  cases out
  simp only at this
  rw [this]

example : exEnv.Reliable ∧ exEnv.Exact ∧ exAvgDb.Good ∧ exAvgDb.entries ≠ [] ∧ exAvgDb.NonOverlapping ∧ exAvgDb.BelowRoot :=
  ⟨exEnv_reliable, exEnv_exact, exAvgDb_good, exAvgDb_ne, exAvgDb_nonOverlapping, exAvgDb_belowRoot⟩

/-- The value is that of the running sums of octants with the given values. -/
def IsFold (rd : K → K) (ps : List (Payload K)) (p : Payload K) : Prop :=
  ∃ es : List (Entry K), es.map Entry.payload = ps ∧ p = meanOf rd es

theorem averageFn {env : Env K} (he : env.Reliable) {db : Db K} (hdb : db.Good) (hne : db.entries ≠ []) (hno : db.NonOverlapping)
    (hroot : db.BelowRoot) : ∃ s, average env db = .ok s () ∧ AverageBy (IsFold env.rd) db s.out := by
  obtain ⟨s, g, h, ht, -⟩ := average_tree' he hdb hne hno hroot
  refine averageBy he hdb hne hno hroot ⟨s, h, fun x hx hn => ⟨_, rfl, ht.mean_eq hx ?_⟩⟩
  rcases ht.entries hx with hin | ⟨-, ha⟩
  · exact absurd hin hn
  · exact ha

/-- C75: two input databases that hold the same octants inside `k` have averages that hold the same octants inside `k`, with the same
values, also if sums and quotients are rounded: what lies outside an octant has no influence on it. -/
theorem C75 {env env' : Env K} (he : env.Reliable) (he' : env'.Reliable) (hrd : env'.rd = env.rd) {db db' : Db K} (hdb : db.Good) (hdb' : db'.Good)
    (hne : db.entries ≠ []) (hne' : db'.entries ≠ []) (hno : db.NonOverlapping) (hno' : db'.NonOverlapping) (hroot : db.BelowRoot)
    (hroot' : db'.BelowRoot) :
    ∃ s s', average env db = .ok s () ∧ average env' db' = .ok s' () ∧
      ∀ k : Key, (∀ e, k.Contains e.addr.toKey → (e ∈ db.entries ↔ e ∈ db'.entries)) →
        ∀ x, k.Contains x.addr.toKey → (x ∈ s.out.entries ↔ x ∈ s'.out.entries) := by
  obtain ⟨s, h, a⟩ := averageFn he hdb hne hno hroot
  obtain ⟨s', h', a'⟩ := averageFn he' hdb' hne' hno' hroot'
  rw [hrd] at a'
  have hu : ∀ (ps : List (Payload K)) p p', IsFold env.rd ps p → IsFold env.rd ps p' → p = p' := by
    rintro ps p p' ⟨es, h1, rfl⟩ ⟨es', h2, rfl⟩
    exact meanOf_congr (h1.trans h2.symm)
  refine ⟨s, s', h, h', fun k hk x hx => ⟨?_, ?_⟩⟩
  · exact a.agree hu hno hno' a' 32 x.addr.toKey (by omega) (fun y hy => hk y (Key.contains_trans hx hy)) x rfl
  · exact a'.agree hu hno' hno a 32 x.addr.toKey (by omega) (fun y hy => (hk y (Key.contains_trans hx hy)).symm) x rfl

/-- `exAvgDb` with other rock in the last octant. -/
def exAvgDb2 : Db ℚ := ⟨[⟨⟨⟨0, 0, 0, 2⟩, .leaf⟩, exPay 2000 1⟩,
  ⟨⟨⟨0x20000000, 0, 0, 2⟩, .leaf⟩, ⟨1500, -999, 1000, -999, -999, 10, 1, 1⟩⟩,
  ⟨⟨⟨0x40000000, 0, 0, 1⟩, .leaf⟩, exPay 3000 3⟩]⟩

/-- The averages agree in the first octant of level 1 and differ at the root. -/
example : exEnv.Reliable ∧ exAvgDb2.Good ∧ exAvgDb2.entries ≠ [] ∧ exAvgDb2.NonOverlapping ∧ exAvgDb2.BelowRoot ∧
    (∀ e, (⟨0, 0, 0, 1⟩ : Key).Contains e.addr.toKey → (e ∈ exAvgDb.entries ↔ e ∈ exAvgDb2.entries)) ∧
    ((outOf (average exEnv exAvgDb)).map fun l => l.take 2) =
      some [⟨⟨⟨0, 0, 0, 0⟩, .interior⟩, { exPay 1500 (-999) with zone := -999 }⟩,
        ⟨⟨⟨0, 0, 0, 1⟩, .interior⟩, { exPay 2000 (-999) with zone := -999 }⟩] ∧
    ((outOf (average exEnv exAvgDb2)).map fun l => l.take 2) =
      some [⟨⟨⟨0, 0, 0, 0⟩, .interior⟩, { exPay 2500 (-999) with zone := -999 }⟩,
        ⟨⟨⟨0, 0, 0, 1⟩, .interior⟩, { exPay 2000 (-999) with zone := -999 }⟩] := by
  refine ⟨exEnv_reliable, ⟨by unfold Db.Octants; decide +kernel, by unfold Db.Sorted; decide +kernel⟩, by simp [exAvgDb2],
    by unfold Db.NonOverlapping; decide +kernel, by unfold Db.BelowRoot; decide +kernel, ?_, by decide +kernel, by decide +kernel⟩
  intro e he
  constructor <;> intro h <;> simp only [exAvgDb, exAvgDb2, List.mem_cons, List.not_mem_nil, or_false] at h ⊢
  all_goals
    rcases h with h | h | h
    · exact Or.inl h
    · exact Or.inr (Or.inl h)
    · subst h; revert he; decide +kernel

end CenCalVM
