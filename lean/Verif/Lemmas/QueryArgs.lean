/-
Lemmas for the command line of cencalvmquery with its help texts.
-/
import Verif.Model.QueryArgs
import Verif.Lemmas.QueryConsole

set_option linter.unusedSectionVars false

namespace CenCalVM
namespace QueryApp
variable {K : Type} [Field K] [LinearOrder K]

/-- A text so many times. -/
def times (u : String) : Nat → String
  | 0 => ""
  | n + 1 => u ++ times u n

theorem parseLoop_said (cv : Conv K) (os : List Opt) (o : Options K) (n : Nat) (t : String) :
    (parseLoopSaid cv os o n t).1 = parseLoop cv os o n ∧
      ((parseLoop cv os o n).isSome = true → (parseLoopSaid cv os o n t).2 = t ++ times usage (os.count .unknown)) ∧
      (parseLoop cv os o n = none → ∃ k, (parseLoopSaid cv os o n t).2 = t ++ times usage (k + 1)) := by
  induction os generalizing o n t with
  | nil =>
    refine ⟨rfl, fun _ => ?_, fun h => (by cases h)⟩
    simp [parseLoopSaid, times]
  | cons x os ih =>
    cases x with
    | arg c v =>
      obtain ⟨h1, h2, h3⟩ := ih (setOpt cv o c v) (n + 2) t
      refine ⟨h1, fun h => (h2 h).trans ?_, h3⟩
      rw [List.count_cons_of_ne (by simp)]
    | flag c =>
      refine ⟨rfl, fun h => (by cases h), fun _ => ⟨0, ?_⟩⟩
      show t ++ usage = t ++ (usage ++ "")
      generalize usage = u
      simp
    | unknown =>
      obtain ⟨h1, h2, h3⟩ := ih o n (t ++ usage)
      refine ⟨h1, fun h => (h2 h).trans ?_, fun h => ?_⟩
      · rw [List.count_cons_self, String.append_assoc]
        rfl
      · obtain ⟨k, hk⟩ := h3 h
        refine ⟨k + 1, hk.trans ?_⟩
        rw [String.append_assoc]
        rfl

theorem times_snoc (u : String) (n : Nat) : times u n ++ u = times u (n + 1) := by
  induction n with
  | zero => simp [times]
  | succ n ih =>
    show u ++ times u n ++ u = u ++ times u (n + 1)
    rw [String.append_assoc, ih]

theorem parseArgs_said (cv : Conv K) (argv : List (List Char)) :
    (parseArgsSaid cv argv).1 = parseArgs cv argv ∧
      (∀ o, parseArgs cv argv = .ok o → (parseArgsSaid cv argv).2 = times usage ((spec.getopt argv).count .unknown)) ∧
      (parseArgs cv argv = .error 1 → (parseArgsSaid cv argv).2 = times usage ((spec.getopt argv).count .unknown + 1)) ∧
      (∀ c, parseArgs cv argv = .error c → ∃ k, (parseArgsSaid cv argv).2 = times usage (k + 1)) := by
  have h := parseLoop_said cv (spec.getopt argv) defaults 1 ""
  unfold parseArgsSaid parseArgs
  cases hp : parseLoop cv (spec.getopt argv) defaults 1 with
  | none =>
    rw [hp] at h
    obtain ⟨h1, -, h3⟩ := h
    obtain ⟨k, h3⟩ := h3 rfl
    rw [String.empty_append] at h3
    generalize parseLoopSaid cv (spec.getopt argv) defaults 1 "" = z at h1 h3
    obtain ⟨z1, z2⟩ := z
    subst h1
    refine ⟨rfl, fun _ h => (by cases h), fun h => (by cases h), fun c _ => ⟨k, h3⟩⟩
  | some x =>
    rw [hp] at h
    obtain ⟨h1, h2, -⟩ := h
    have h2 := h2 rfl
    rw [String.empty_append] at h2
    generalize parseLoopSaid cv (spec.getopt argv) defaults 1 "" = z at h1 h2
    obtain ⟨z1, z2⟩ := z
    obtain ⟨o, n⟩ := x
    dsimp only at h1 h2
    subst h1
    dsimp only
    split
    · have h4 := (congrArg (· ++ usage) h2).trans (times_snoc usage _)
      exact ⟨rfl, fun _ h => (by cases h), fun _ => h4, fun _ _ => ⟨_, h4⟩⟩
    · exact ⟨rfl, fun _ _ => h2, fun h => (by cases h), fun _ h => (by cases h)⟩

end QueryApp
end CenCalVM
