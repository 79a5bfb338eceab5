/-
A non-overlapping database that holds the root holds nothing else, and averaging it stores nothing.
-/
import Verif.Lemmas.AvgFacts

set_option linter.unusedSectionVars false

namespace CenCalVM
namespace AvgEngine
variable {K : Type} [Field K] [LinearOrder K] [IsStrictOrderedRing K]

theorem root_contains {a b : Key} (ha : a.Octant) (hb : b.Octant) (h0 : a.level = 0) : a.Contains b := by
  rw [Key.contains_iff_prefix ha hb]
  have : a.path = [] := by simp [Key.path, h0]
  rw [this]; exact List.nil_prefix

/-- A non-overlapping database lies below the root or is the root alone. -/
theorem root_cases {db : Db K} (hdb : db.Good) (hno : db.NonOverlapping) :
    db.BelowRoot ∨ ∃ e, db.entries = [e] ∧ e.addr.level = 0 := by
  by_cases h : db.BelowRoot
  · exact Or.inl h
  · right
    unfold Db.BelowRoot at h
    push Not at h
    obtain ⟨e, he, h0⟩ := h
    have h0' : e.addr.level = 0 := by omega
    have hall : ∀ b ∈ db.entries, b = e := fun b hb =>
      (hno e he b hb (root_contains (hdb.octants e he) (hdb.octants b hb) h0')).symm
    refine ⟨e, ?_, h0'⟩
    have hs : db.entries.Pairwise fun a b => a.addr.zkey < b.addr.zkey := hdb.sorted
    match hl : db.entries with
    | [] => rw [hl] at he; simp at he
    | [b] => rw [hall b (by rw [hl]; simp)]
    | b :: c :: r =>
      exfalso
      rw [hl] at hs
      have hb := hall b (by rw [hl]; simp)
      have hc := hall c (by rw [hl]; simp)
      have := (List.pairwise_cons.1 hs).1 c (by simp)
      rw [hb, hc] at this
      exact lt_irrefl _ this

theorem finish_none (env : Env K) (n : Nat) (s : Engine K) (h : ∀ i, (s.pending i).valid = false) :
    finishProcessing env n s = .ok s () := by
  induction n with
  | zero => rfl
  | succ n ih => simp only [finishProcessing, h n, Bool.false_eq_true, if_false]; exact ih

/-- The root alone is read and dropped. -/
theorem average_root {env : Env K} (he : env.Reliable) {db : Db K} {e : Entry K} (h : db.entries = [e])
    (h0 : e.addr.level = 0) :
    ∃ s, average env db = .ok s () ∧ s.out = Db.empty ∧ s.cnt = ⟨0, 0, 0, 0, 0, 0, 0, 0, 0, 0, 0⟩ := by
  refine ⟨{ init env Db.empty with log := [true, true] }, ?_, rfl, rfl⟩
  unfold average fillOctants
  rw [if_neg (by rw [h]; simp), h]
  simp only [write, he.1, Bool.false_eq_true, if_false, Run.bind_ok, inputLoop, he.2.1, averageOctant, h0, if_true,
    he.2.2]
  rw [finish_none _ _ _ (fun _ => rfl)]
  rfl

end AvgEngine
end CenCalVM
