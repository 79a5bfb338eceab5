/-
Properties of the help texts of the example in C++.
-/
import Verif.Model.CppArgs
import Verif.Props.QueryArgs
import Verif.Props.CppExample

set_option linter.unusedSectionVars false

namespace CenCalVM
namespace CppExample
open QueryApp (Options Conv times times_snoc exConv exUnknown)
variable {K : Type} [Field K] [LinearOrder K]

theorem setOpt_query (cv : Conv K) (o : Options K) (c : Char) (v : String) : setOpt cv o c v = QueryApp.setOpt cv o c v := rfl

theorem loops_said (cv : Conv K) (os : List Opt) (o : Options K) (n k : Nat) :
    ∃ x j, parseLoopSaid cv os o n (times usage k) = (x, times usage j) ∧
      QueryApp.parseLoopSaid cv os o n (times QueryApp.usage k) = (x, times QueryApp.usage j) ∧ (x = none → 0 < j) := by
  induction os generalizing o n k with
  | nil => exact ⟨some (o, n), k, rfl, rfl, fun h => (by cases h)⟩
  | cons x os ih =>
    cases x with
    | arg c v => exact ih (QueryApp.setOpt cv o c v) (n + 2) k
    | flag c =>
      exact ⟨none, k + 1, congrArg (none, ·) (times_snoc usage k), congrArg (none, ·) (times_snoc QueryApp.usage k),
        fun _ => Nat.succ_pos k⟩
    | unknown =>
      obtain ⟨x, j, h1, h2, h3⟩ := ih o n (k + 1)
      refine ⟨x, j, ?_, ?_, h3⟩
      · exact (congrArg (parseLoopSaid cv os o n) (times_snoc usage k)).trans h1
      · exact (congrArg (QueryApp.parseLoopSaid cv os o n) (times_snoc QueryApp.usage k)).trans h2

/-! ### C156 -/

/-- Without standard error, this is the command line of C140. -/
theorem C156_same (cv : Conv K) (argv : List (List Char)) : (parseArgsSaid cv argv).1 = parseArgs cv argv := by
  have key : ∀ (os : List Opt) (o : Options K) (n : Nat) (t : String), (parseLoopSaid cv os o n t).1 = parseLoop cv os o n := by
    intro os
    induction os with
    | nil => intro o n t; rfl
    | cons x os ih =>
      intro o n t
      cases x with
      | arg c v => exact ih _ _ _
      | flag c => rfl
      | unknown => exact ih _ _ _
  have h := key (spec.getopt argv) defaults 1 ""
  unfold parseArgsSaid parseArgs
  generalize parseLoopSaid cv (spec.getopt argv) defaults 1 "" = z at h
  obtain ⟨z, t⟩ := z
  dsimp only at h
  subst h
  cases parseLoop cv (spec.getopt argv) defaults 1 with
  | none => rfl
  | some x =>
    obtain ⟨o, n⟩ := x
    dsimp only
    split <;> rfl

/-- C156: for every command line the example in C++ and cencalvmquery come to the same settings or exit code, and write their help
texts the same number of times, which is not zero if the command line is refused. -/
theorem C156 (cv : Conv K) (argv : List (List Char)) : ∃ x k,
    parseArgsSaid cv argv = (x, times usage k) ∧ QueryApp.parseArgsSaid cv argv = (x, times QueryApp.usage k) ∧
      (∀ c, x = .error c → 0 < k) := by
  obtain ⟨x, j, h1, h2, hne⟩ := loops_said cv (spec.getopt argv) defaults 1 0
  rw [show times usage 0 = "" from rfl] at h1
  rw [show times QueryApp.usage 0 = "" from rfl] at h2
  unfold parseArgsSaid QueryApp.parseArgsSaid
  rw [h1, show QueryApp.parseLoopSaid cv (QueryApp.spec.getopt argv) QueryApp.defaults 1 "" = (x, times QueryApp.usage j) from h2]
  cases x with
  | none => exact ⟨.error 0, j, rfl, rfl, fun _ _ => hne rfl⟩
  | some x =>
    obtain ⟨o, n⟩ := x
    dsimp only
    by_cases hc : n ≠ argv.length + 1 ∨ o.filenameIn.length = 0 ∨ o.filenameOut.length = 0 ∨ o.filenameDB.length = 0
    · rw [if_pos hc, if_pos hc, times_snoc, times_snoc]
      exact ⟨.error 1, j + 1, rfl, rfl, fun _ _ => Nat.succ_pos _⟩
    · rw [if_neg hc, if_neg hc]
      exact ⟨.ok o, j, rfl, rfl, fun _ h => (by cases h)⟩

/-- The command line that is accepted by cencalvmquery after three help texts is so by the example, and one is refused. -/
example : QueryApp.refused (parseArgs exConv exUnknown) = none ∧ (spec.getopt exUnknown).count .unknown = 3 ∧
    QueryApp.refused (parseArgs exConv (["-i", "a", "-d", "m"].map String.toList)) = some 1 := by decide +kernel

end CppExample
end CenCalVM
