/-
Properties of the help texts of cencalvmquery.
-/
import Verif.Lemmas.QueryArgs
import Verif.Props.QueryConsole

set_option linter.unusedSectionVars false

namespace CenCalVM
namespace QueryApp
variable {K : Type} [Field K] [LinearOrder K]

/-! ### C154 -/

/-- Without standard error, this is the program of C43. -/
theorem C154_same [IsStrictOrderedRing K] (env : Env K) (cv : Conv K) (argv : List (List Char)) (fs : Files) :
    (do let r ← mainSaid env cv argv fs; Outcome.ok (r.1, r.2.1)) = main env cv argv fs := by
  obtain ⟨h1, -⟩ := parseArgs_said cv argv
  unfold mainSaid main
  generalize parseArgsSaid cv argv = z at h1
  obtain ⟨z1, t⟩ := z
  dsimp only at h1
  rw [← h1]
  cases z1 with
  | error c => rfl
  | ok o =>
    dsimp only
    rw [← bare_run env o fs]
    cases runSaid env o fs <;> rfl

/-- C154, what holds: a command line that is refused, or asks for help, brings forth the help text on standard error and nothing else,
once or several times, and no output; of a command line that is accepted standard error is that of C130, if `getopt` knows all its
options.  Missing: the last condition (`C154_false`). -/
theorem C154_partial (env : Env K) (cv : Conv K) (argv : List (List Char)) (fs : Files) :
    (∀ c, parseArgs cv argv = .error c → ∃ k, mainSaid env cv argv fs = .ok (c, [], times usage (k + 1))) ∧
    (∀ o, parseArgs cv argv = .ok o → Opt.unknown ∉ spec.getopt argv →
      mainSaid env cv argv fs = do let r ← runSaid env o fs; Outcome.ok (r.result.code, r.result.lines, r.err)) := by
  obtain ⟨h1, h2, -, h4⟩ := parseArgs_said cv argv
  unfold mainSaid
  generalize parseArgsSaid cv argv = z at h1 h2 h4
  obtain ⟨z1, t⟩ := z
  dsimp only at h1 h2 h4
  refine ⟨fun c h => ?_, fun o h hn => ?_⟩
  · obtain ⟨k, hk⟩ := h4 c h
    rw [h] at h1
    subst h1
    exact ⟨k, by rw [hk]⟩
  · have h3 := h2 o h
    rw [List.count_eq_zero_of_not_mem hn] at h3
    change t = "" at h3
    rw [h] at h1
    subst h1 h3
    dsimp only
    cases runSaid env o fs with
    | ub => rfl
    | exc m => rfl
    | ok r => show Outcome.ok (r.result.code, r.result.lines, "" ++ r.err) = _; rw [String.empty_append]; rfl

/-- How many times it is written: for a refused command line once and once more for everything `getopt` does not know, for an
accepted one as many times as there are such things. -/
theorem C154_count (env : Env K) (cv : Conv K) (argv : List (List Char)) (fs : Files) :
    (parseArgs cv argv = .error 1 →
      mainSaid env cv argv fs = .ok (1, [], times usage ((spec.getopt argv).count .unknown + 1))) ∧
    (∀ o r, parseArgs cv argv = .ok o → runSaid env o fs = .ok r →
      mainSaid env cv argv fs = .ok (r.result.code, r.result.lines, times usage ((spec.getopt argv).count .unknown) ++ r.err)) := by
  obtain ⟨h1, h2, h3, -⟩ := parseArgs_said cv argv
  unfold mainSaid
  generalize parseArgsSaid cv argv = z at h1 h2 h3
  obtain ⟨z1, t⟩ := z
  dsimp only at h1 h2 h3
  refine ⟨fun h => ?_, fun o r h hr => ?_⟩
  · have h4 := h3 h
    rw [h] at h1
    subst h1
    rw [h4]
  · have h4 := h2 o h
    rw [h] at h1
    subst h1
    dsimp only
    rw [hr, h4]
    rfl

/-- The words of the witness: three options with their arguments attached, each counted as two words, and three unknown ones. -/
def exUnknown : List (List Char) := ["-ia", "-ob", "-dm", "-x", "-y", "-z"].map String.toList
/-- Refused command lines. -/
def refused (r : Except Int (Options ℚ)) : Option Int := match r with | .error c => some c | .ok _ => none

/-- C154 is false: this command line is accepted, and still brings forth the help text, whatever follows. -/
theorem C154_false {env : Env ℚ} {fs : Files} {r : Report ℚ}
    (hr : runSaid env { defaults with filenameIn := "a", filenameOut := "b", filenameDB := "m" } fs = .ok r) :
    mainSaid env exConv exUnknown fs = .ok (r.result.code, r.result.lines, times usage 3 ++ r.err) := by
  have h1 : parseArgs exConv exUnknown = .ok { defaults with filenameIn := "a", filenameOut := "b", filenameDB := "m" } := by
    have h2 : parseLoop exConv (spec.getopt exUnknown) defaults 1 =
        some ({ defaults with filenameIn := "a", filenameOut := "b", filenameDB := "m" }, 7) := by
      rw [show spec.getopt exUnknown = [.arg 'i' "a", .arg 'o' "b", .arg 'd' "m", .unknown, .unknown, .unknown] by decide +kernel]
      rfl
    unfold parseArgs
    rw [h2]
    exact if_neg (by decide)
  have h3 : (spec.getopt exUnknown).count .unknown = 3 := by decide +kernel
  have h4 := (C154_count env exConv exUnknown fs).2 _ r h1 hr
  rw [h3] at h4
  exact h4

/-- `-h` first, a missing file, an unknown option. -/
example : refused (parseArgs exConv (["-i", "a", "-h"].map String.toList)) = some 0 ∧
    refused (parseArgs exConv (["-i", "a", "-d", "m"].map String.toList)) = some 1 ∧
    refused (parseArgs exConv (["-i", "a", "-o", "b", "-d", "m", "-x"].map String.toList)) = some 1 := by decide +kernel
example : refused (parseArgs exConv (["-i", "a", "-o", "b", "-d", "m"].map String.toList)) = none ∧
    Opt.unknown ∉ spec.getopt (["-i", "a", "-o", "b", "-d", "m"].map String.toList) := by decide +kernel

end QueryApp
end CenCalVM
