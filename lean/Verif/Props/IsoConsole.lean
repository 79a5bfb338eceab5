/-
Properties C134 and C135: what cencalvmisosurface writes to standard error.
-/
import Verif.Lemmas.IsoConsole
import Verif.Props.IsoApp
import Verif.Props.QueryConsole

set_option linter.unusedSectionVars false

namespace CenCalVM
namespace IsoApp
open QueryApp (Env Speaks exEnv exEnvErr append_eq_empty append_ne_empty join_eq_empty)
variable {K : Type} [Field K] [LinearOrder K] [IsStrictOrderedRing K]

/-- C134: the program that keeps its text on standard error is the program of C61 and C62. -/
theorem C134_same (ar : Arith K) (env : Env K) (o : Options K) : (do let r ← runSaid ar env o; Outcome.ok r.result) = run ar env o :=
  bare_run ar env o

/-- C134: if the databases can be opened, standard error holds, in order, for each line of the output nothing or a warning that
names its location and an elevation without data; then, if the program ends with 0, nothing; with 1, the name of the file that
cannot be opened, the message of the error in the elevation of the ground, or the failure to close; with `exit(1)`, the target and
three elevations, each with the speed there, all below the target.  If they cannot be opened, no line is written and the
reason comes first.  Missing: the reason is then written a second time, or followed by another message; the failure to close
names the database also if it is the extended one (`C134_false`). -/
theorem C134_partial {ar : Arith K} {env : Env K} {o : Options K} {r : Report K} (h : runSaid ar env o = .ok r) :
    (∃ q, Configured env o q ∧ ∃ ts tail, r.err = String.join ts ++ tail ∧ List.Forall₂ (LineSaid env.fmt q) r.result.lines ts ∧
      Final env o q r.result.ending tail) ∨
    ∃ m, Unopened env o m ∧ r.result.lines = [] ∧ ((r.result.ending = .abort ∧ r.err = m ++ m) ∨
      (r.result.ending = .ret 1 ∧ (r.err = m ++ m ∨ (∃ t, NoFile env o t ∧ r.err = m ++ t) ∨
        r.err = m ++ ("Could not close the etree database '" ++ o.filenameDB ++ "'.")))) := run_said h

/-- Ending, number of lines and standard error, to compare. -/
def endSaid : Outcome (Report ℚ) → Option (Ending × Nat × String)
  | .ok r => some (r.result.ending, r.result.lines.length, r.err)
  | _ => none

/-- An environment that prints whole numbers. -/
def exEnvSaid (text : String) : Env ℚ :=
  { exEnv text with fmt := { exFmt with
      sci := fun x => String.ofList (Print.intText x.num)
      gen := fun x => String.ofList (Print.intText x.num) } }

/-- Two locations. -/
example : endSaid (runSaid .exact (exEnvSaid "220 40\n221 40\n") exOpts) = some (.ret 0, 2, "") := by decide +kernel
/-- Without the extended model there is no data at the lower limit. -/
example : endSaid (runSaid .exact (exEnvSaid "220 40\n221 40\n") { exOpts with filenameDBExt := "" }) =
    some (.ret 0, 2, "WARNING: No data for 220, 40, -100000.\nWARNING: No data for 221, 40, -100000.\n") := by decide +kernel
/-- A target that is not reached. -/
example : endSaid (runSaid .exact (exEnvSaid "220 40\n221 40\n") { exOpts with vs := 3500 }) =
    some (.exit, 0, "Invalid search range!\nTarget vs: 3500\nLocation: (220, 40)\nUpper Vs(z=-38370): 2000\nLower Vs(z=-100000): 3000\nMiddle Vs(z=-69185): 2000\n") := by
  decide +kernel
/-- An error in the elevation of the ground. -/
example : endSaid (runSaid .exact { exEnvSaid "220 40\n" with geom := (exEnvErr "").geom } exOpts) = some (.ret 1, 0, "inverse") := by
  decide +kernel
/-- A file that is not there. -/
example : endSaid (runSaid .exact (exEnvSaid "220 40\n") { exOpts with filenameIn := "missing" }) =
    some (.ret 1, 0, "Could not open file 'missing' to read query locations.\n") := by decide +kernel

/-- C134 is false: a database that cannot be opened is reported twice; the message about the extended database `ext` that could
not be closed names the database `det`, which was closed. -/
theorem C134_false :
    endSaid (runSaid .exact (exEnvSaid "220 40\n") { exOpts with filenameDB := "missing" }) =
      some (.abort, 0, "Could not open the etree database 'missing' for querying.Could not open the etree database 'missing' for querying.") ∧
    endSaid (runSaid .exact { exEnvSaid "220 40\n" with closeFailExt := true } exOpts) =
      some (.ret 1, 1, "Could not close the etree database 'det'.") := ⟨by decide +kernel, by decide +kernel⟩

/-- C135: if nothing is written to standard error then the program ends with 0.  The messages of the exceptions of the geometry
are taken not to be empty. -/
theorem C135 {ar : Arith K} {env : Env K} {o : Options K} {r : Report K} (hg : Speaks env.geom) (h : runSaid ar env o = .ok r)
    (he : r.err = "") : r.result.ending = .ret 0 := by
  rcases C134_partial h with ⟨q, hq, ts, tail, h1, -, h3⟩ | ⟨m, hm, -, h1⟩
  · rw [he] at h1
    obtain ⟨-, h5⟩ := append_eq_empty h1.symm
    cases hr : r.result.ending with
    | ret c =>
      rw [hr] at h3
      rcases h3 with ⟨rfl, -⟩ | ⟨-, (⟨-, h6⟩ | ⟨-, h6⟩) | ⟨lon, lat, h6⟩ | ⟨-, h6⟩⟩
      · rfl
      · rw [h5] at h6; exact absurd h6.symm (append_ne_empty (append_ne_empty (by decide)))
      · rw [h5] at h6; exact absurd h6.symm (append_ne_empty (append_ne_empty (by decide)))
      · exact absurd h5 (failed_speaks hg hq h6)
      · rw [h5] at h6; exact absurd h6.symm (append_ne_empty (append_ne_empty (by decide)))
    | exit =>
      rw [hr] at h3
      obtain ⟨lon, lat, u, l, m, vU, vL, vM, -, -, -, -, -, -, -, h6⟩ := h3
      rw [h5] at h6
      have := congrArg String.toList h6
      simp at this
    | abort =>
      rw [hr] at h3
      exact h3.elim
  · have hne : m ≠ "" := by
      rcases hm with ⟨-, -, rfl⟩ | ⟨-, rfl⟩ <;> exact append_ne_empty (append_ne_empty (by decide))
    exfalso
    rcases h1 with ⟨-, h1⟩ | ⟨-, h1 | ⟨t, -, h1⟩ | h1⟩ <;> rw [he] at h1 <;> exact append_ne_empty hne h1.symm

/-- C135: if the program ends with 0 and something was written, then a query at some elevation at the location of a line ended
with a warning. -/
theorem C135_warned {ar : Arith K} {env : Env K} {o : Options K} {r : Report K} (h : runSaid ar env o = .ok r)
    (hr : r.result.ending = .ret 0) (he : r.err ≠ "") : ∃ q, Configured env o q ∧ ∃ l ∈ r.result.lines, ∃ z, Warns env.fmt q l.lon l.lat z := by
  by_contra hn
  have hw : ∀ q, Configured env o q → ∀ l ∈ r.result.lines, ∀ z, ¬ Warns env.fmt q l.lon l.lat z :=
    fun q hq l hl z hz => hn ⟨q, hq, l, hl, z, hz⟩
  refine he ?_
  rcases C134_partial h with ⟨q, hq, ts, tail, h1, h2, h3⟩ | ⟨m, hm, -, h1⟩
  · rw [hr] at h3
    rcases h3 with ⟨-, rfl⟩ | ⟨h3, -⟩
    · have : ∀ t ∈ ts, t = "" := by
        replace hw := hw q hq
        clear h1
        generalize r.result.lines = ls at h2 hw
        induction h2 with
        | nil => intro t ht; cases ht
        | cons ha hb ih =>
          intro t ht
          rcases List.mem_cons.1 ht with rfl | ht
          · rcases ha with ha | ⟨z, ha, -⟩
            · exact ha
            · exact absurd ha (hw _ (List.mem_cons_self ..) z)
          · exact ih (fun l hl => hw l (List.mem_cons_of_mem _ hl)) t ht
      rw [h1, join_eq_empty.2 this]
      rfl
    · exact absurd h3 (by decide)
  · exfalso
    rw [hr] at h1
    rcases h1 with ⟨h1, -⟩ | ⟨h1, -⟩ <;> cases h1

/-- Something is written, with 0. -/
example : endSaid (runSaid .exact (exEnvSaid "220 40\n") { exOpts with filenameDBExt := "" }) =
    some (.ret 0, 1, "WARNING: No data for 220, 40, -100000.\n") := by decide +kernel
example (text : String) : Speaks (exEnvSaid text).geom := by
  constructor
  · intro a lon lat elev m h
    exfalso
    change GeomCenCA.lonLatElevToAddr exFrame exProj a lon lat elev = .exc m at h
    unfold GeomCenCA.lonLatElevToAddr exProj at h
    dsimp only at h
    split_ifs at h
  · intro a m h
    exfalso
    change GeomCenCA.addrToLonLatElev exFrame exProj a = .exc m at h
    unfold GeomCenCA.addrToLonLatElev exProj at h
    dsimp only at h
    split_ifs at h

end IsoApp
end CenCalVM
