/-
Lemmas for the command line of cencalvmisosurface with its help text.
-/
import Verif.Model.IsoArgs
import Verif.Lemmas.IsoConsole

set_option linter.unusedSectionVars false

namespace CenCalVM
namespace IsoApp
open QueryApp (Env Conv)
variable {K : Type} [Field K] [LinearOrder K]

theorem parseLoop_said (cv : Conv K) (os : List Opt) (o : Options K) (n : Nat) (t : String) :
    parseLoopSaid cv os o n t =
      (parseLoop cv os o n, match parseLoop cv os o n with | .error _ => t ++ usage | .ok _ => t) := by
  induction os generalizing o n t with
  | nil => rfl
  | cons x os ih =>
    cases x with
    | arg c v => exact ih _ _ _
    | flag c => rfl
    | unknown => rfl

theorem parseArgs_said (cv : Conv K) (argv : List (List Char)) :
    parseArgsSaid cv argv = (parseArgs cv argv, match parseArgs cv argv with | .error _ => usage | .ok _ => "") := by
  unfold parseArgsSaid parseArgs
  rw [parseLoop_said]
  cases parseLoop cv (spec.getopt argv) defaults 1 with
  | error c =>
    show (_, "" ++ usage) = (_, usage)
    rw [String.empty_append]
  | ok x =>
    obtain ⟨o, n⟩ := x
    dsimp only
    split
    · show (_, "" ++ usage) = (_, usage)
      rw [String.empty_append]
    · rfl

end IsoApp
end CenCalVM
