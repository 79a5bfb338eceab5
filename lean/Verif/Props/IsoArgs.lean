/-
Properties of the help text of cencalvmisosurface.
-/
import Verif.Lemmas.IsoArgs
import Verif.Props.IsoConsole

set_option linter.unusedSectionVars false

namespace CenCalVM
namespace IsoApp
open QueryApp (Env Conv exEnv)
variable {K : Type} [Field K] [LinearOrder K]

/-! ### C155 -/

/-- Without standard error, this is the program of C61. -/
theorem C155_same [IsStrictOrderedRing K] (ar : Arith K) (env : Env K) (cv : Conv K) (argv : List (List Char)) :
    (do let r ← mainSaid ar env cv argv; Outcome.ok r.result) = main ar env cv argv := by
  unfold mainSaid main
  rw [parseArgs_said]
  cases parseArgs cv argv with
  | error c => rfl
  | ok o =>
    dsimp only
    rw [← C134_same ar env o]
    cases runSaid ar env o <;> rfl

/-- C155: a command line that is refused, or asks for help, brings forth the help text once on standard error and nothing else, and no
output; of a command line that is accepted standard error is that of C134. -/
theorem C155 (ar : Arith K) (env : Env K) (cv : Conv K) (argv : List (List Char)) :
    (∀ c, parseArgs cv argv = .error c → mainSaid ar env cv argv = .ok ⟨⟨.ret c, []⟩, usage⟩) ∧
    (∀ o, parseArgs cv argv = .ok o → mainSaid ar env cv argv = runSaid ar env o) := by
  unfold mainSaid
  rw [parseArgs_said]
  refine ⟨fun c h => ?_, fun o h => ?_⟩
  · rw [h]
  · rw [h]
    dsimp only
    cases runSaid ar env o with
    | ub => rfl
    | exc m => rfl
    | ok r => show Outcome.ok (Report.mk r.result ("" ++ r.err)) = _; rw [String.empty_append]

/-- C155, the exit code: it is 0 exactly if `-h` comes before everything that `getopt` does not know. -/
theorem C155_code (cv : Conv K) (argv : List (List Char)) : parseArgs cv argv = .error 0 ↔
    ∃ pre c post, spec.getopt argv = pre ++ .flag c :: post ∧ ∀ x ∈ pre, ∃ d v, x = .arg d v := by
  have key : ∀ (os : List Opt) (o : Options K) (n : Nat), parseLoop cv os o n = .error 0 ↔
      ∃ pre c post, os = pre ++ .flag c :: post ∧ ∀ x ∈ pre, ∃ d v, x = .arg d v := by
    intro os
    induction os with
    | nil => intro o n; exact ⟨fun h => (by cases h), fun ⟨pre, c, post, h, _⟩ => (by simp at h)⟩
    | cons x os ih =>
      intro o n
      cases x with
      | arg d v =>
        refine (ih (setOpt cv o d v) (n + 2)).trans ⟨?_, ?_⟩
        · rintro ⟨pre, c, post, rfl, h⟩
          refine ⟨.arg d v :: pre, c, post, rfl, fun x hx => ?_⟩
          rcases List.mem_cons.1 hx with rfl | hx
          · exact ⟨d, v, rfl⟩
          · exact h x hx
        · rintro ⟨pre, c, post, he, h⟩
          cases pre with
          | nil => cases he
          | cons y pre =>
            injection he with _ he
            exact ⟨pre, c, post, he, fun x hx => h x (List.mem_cons_of_mem _ hx)⟩
      | flag c => exact ⟨fun _ => ⟨[], c, os, rfl, by simp⟩, fun _ => rfl⟩
      | unknown =>
        refine ⟨fun h => ?_, ?_⟩
        · change Except.error (1 : Int) = Except.error 0 at h
          simp at h
        · rintro ⟨pre, c, post, he, h⟩
          cases pre with
          | nil => cases he
          | cons y pre =>
            injection he with he _
            obtain ⟨d, v, e⟩ := h y List.mem_cons_self
            rw [← he] at e
            cases e
  refine Iff.trans ?_ (key _ defaults 1)
  unfold parseArgs
  cases parseLoop cv (spec.getopt argv) defaults 1 with
  | error c => exact ⟨fun h => (by injection h with h; rw [h]), fun h => (by injection h with h; rw [h])⟩
  | ok x =>
    obtain ⟨o, n⟩ := x
    dsimp only
    refine ⟨fun h => ?_, fun h => by cases h⟩
    split at h
    · simp at h
    · cases h

/-- A command line that asks for help, one with an unknown option, one without a speed, and a complete one. -/
example : refusal (parseArgs QueryApp.exConv (["-i", "a", "-h"].map String.toList)) = some 0 ∧
  refusal (parseArgs QueryApp.exConv (["-i", "a", "-x", "-h"].map String.toList)) = some 1 ∧
  refusal (parseArgs QueryApp.exConv (["-i", "a", "-o", "b", "-d", "m"].map String.toList)) = some 1 ∧
  refusal (parseArgs QueryApp.exConv (["-i", "a", "-o", "b", "-d", "m", "-v", "9"].map String.toList)) = none := by decide +kernel

end IsoApp
end CenCalVM
