/-
Properties of the arrays of cencalvmisosurface.
-/
import Verif.Lemmas.IsoHeap
import Verif.Props.IsoApp

set_option linter.unusedSectionVars false

namespace CenCalVM
namespace IsoApp
open QueryApp (Env exEnv)
open Mem (Heap Block Has Live Proper AllDeleted)
variable {K : Type} [Field K] [LinearOrder K]

/-! ### C148 -/

/-- The program with its arrays is the program of C61. -/
theorem C148_same (ar : Arith K) (env : Env K) (o : Options K) :
    (∀ r, runMem ar env o = .ok r → run ar env o = .ok r.1) ∧ (∀ x, run ar env o = .ok x → ∃ h, runMem ar env o = .ok (x, h)) := by
  have h := drop_run ar env o
  rw [← h]
  cases runMem ar env o with
  | ub => exact ⟨fun _ h => (by cases h), fun _ h => (by cases h)⟩
  | exc m => exact ⟨fun _ h => (by cases h), fun _ h => (by cases h)⟩
  | ok r =>
    refine ⟨fun _ h => (by cases h; rfl), fun x h => ?_⟩
    cases h
    exact ⟨r.2, rfl⟩

/-- What is there at the end. -/
theorem run_has {ar : Arith K} {env : Env K} {o : Options K} {r : Result K × Heap} (h : runMem ar env o = .ok r) :
    ∃ bs, Has r.2 bs ∧ (∀ b ∈ bs, b.size = 1 ∧ b.arr = true) ∧ bs.length ≤ r.1.lines.length + 2 ∧
      (r.1.lines ≠ [] → r.1.lines.length + 1 ≤ bs.length) ∧ (r.1.ending = .ret 0 → bs.length = r.1.lines.length + 1) := by
  unfold runMem at h
  obtain ⟨q, -, h⟩ := Print.bind_eq_ok h
  have none : ∀ {q : VMQuery K}, leaveMem env q 1 [] Heap.init = .ok r → _ := fun {q} h =>
    show ∃ bs, Has r.2 bs ∧ (∀ b ∈ bs, b.size = 1 ∧ b.arr = true) ∧ bs.length ≤ r.1.lines.length + 2 ∧
      (r.1.lines ≠ [] → r.1.lines.length + 1 ≤ bs.length) ∧ (r.1.ending = .ret 0 → bs.length = r.1.lines.length + 1) by
    rw [leaveMem_eq h]
    exact ⟨[], Has.init, by simp, by simp, by simp, by simp⟩
  split at h
  · exact none h
  · split at h
    · obtain ⟨more, h1, h2, h3, h4, h5⟩ := loop_has (Has.init.array 1) (by simp) h
      refine ⟨_, h1, ?_, ?_, ?_, ?_⟩
      · intro b hb
        rcases List.mem_append.1 hb with hb | hb
        · exact h2 b hb
        · rw [List.mem_singleton] at hb; subst hb; exact ⟨rfl, rfl⟩
      all_goals simp only [List.length_append, List.length_singleton, List.length_nil] at *
      · omega
      · intro _; omega
      · intro h0; have := h5 h0; omega
    · exact none h

/-- C148: in every run of cencalvmisosurface, however it ends, every access to one of its arrays is to an element of an array that
is there, and every deletion is of an array that is there and has the form of its allocation (if an exception ends the program, up to
the location where it is raised). -/
theorem C148 {ar : Arith K} {env : Env K} {o : Options K} {r : Result K × Heap} (h : runMem ar env o = .ok r) : Proper r.2.log := by
  obtain ⟨bs, h1, -⟩ := run_has h
  exact h1.inv.proper

/-- The run of two locations, and how many times each thing is done: five allocations, two deletions. -/
def counted (r : Outcome (Result ℚ × Heap)) : Option (Ending × Nat × Nat × Nat × Nat) :=
  match r with
  | .ok (r, h) => some (r.ending, r.lines.length, (h.log.filter fun e => match e with | .new _ => true | _ => false).length,
      (h.log.filter fun e => match e with | .delete _ _ => true | _ => false).length,
      (h.log.filter fun e => match e with | .access _ _ => true | _ => false).length)
  | _ => none
example : counted (runMem .exact (exEnv "220 40\n221 40\n") exOpts) = some (.ret 0, 2, 5, 2, 164) := by decide +kernel

/-! ### C149 -/

/-- C149 is false: whenever cencalvmisosurface succeeds, arrays are left. -/
theorem C149_false {ar : Arith K} {env : Env K} {o : Options K} {r : Result K × Heap} (h : runMem ar env o = .ok r)
    (h0 : r.1.ending = .ret 0) : ¬ AllDeleted r.2.log := by
  obtain ⟨bs, h1, -, -, -, h5⟩ := run_has h
  have hl : 0 < bs.length := by rw [h5 h0]; omega
  obtain ⟨b, hb⟩ := List.exists_mem_of_length_pos hl
  obtain ⟨hn, hd⟩ := h1.inv.live b hb
  intro hall
  obtain ⟨a, ha⟩ := hall b hn
  exact hd a ha

/-- C149, what holds: the arrays left when cencalvmisosurface succeeds are one of `main` and one for every location answered, each
of one element; and however it ends there are at most two more than there are lines.  Missing: that there are none
(`C149_false`), or that their number does not depend on that of the locations. -/
theorem C149_partial {ar : Arith K} {env : Env K} {o : Options K} {r : Result K × Heap} (h : runMem ar env o = .ok r) :
    ∃ bs : List Block, bs.Nodup ∧ (∀ b, Live r.2.log b ↔ b ∈ bs) ∧ (∀ b ∈ bs, b.size = 1) ∧ bs.length ≤ r.1.lines.length + 2 ∧
      (r.1.lines ≠ [] → r.1.lines.length + 1 ≤ bs.length) ∧ (r.1.ending = .ret 0 → bs.length = r.1.lines.length + 1) := by
  obtain ⟨bs, h1, h2, h3, h4, h5⟩ := run_has h
  exact ⟨bs, List.Nodup.of_map _ h1.inv.nodup, fun b => ⟨h1.kept b, h1.inv.live b⟩, fun b hb => (h2 b hb).1, h3, h4, h5⟩

/-- Three arrays are left after two locations (above); two are left if the program gives up at the first. -/
example : counted (runMem .exact (exEnv "220 40\n221 40\n") { exOpts with vs := 3500 }) = some (.exit, 0, 3, 1, 10) := by decide +kernel

end IsoApp
end CenCalVM
