/-
Properties C130 and C131: what cencalvmquery writes to standard error.
-/
import Verif.Lemmas.QueryConsole
import Verif.Props.QueryApp

set_option linter.unusedSectionVars false

namespace CenCalVM
namespace QueryApp
variable {K : Type} [Field K] [LinearOrder K] [IsStrictOrderedRing K]

/-- C130: the program that keeps its text on standard error is the program of C43, C59, C60 and C97. -/
theorem C130_same (env : Env K) (o : Options K) (fs : Files) : (do let r ← runSaid env o fs; Outcome.ok r.result) = run env o fs :=
  bare_run env o fs

/-- C130: standard error holds, in order, what is to be written for each line of the output: a warning with the location if there
was no data, else nothing, or with WAVERES perhaps a warning about a missing octant.  After that nothing follows if the program
ends with 0; if it ends with 1 the reason follows, and it is true.  Missing: the message about an extended database that cannot
be closed names the other database (`C130_false`). -/
theorem C130_partial {env : Env K} {o : Options K} {fs : Files} {r : Report K} (h : runSaid env o fs = .ok r) :
    ∃ ts tail, r.err = String.join ts ++ tail ∧ List.Forall₂ (LineSaid env.fmt o) r.result.lines ts ∧
      (r.result.code = 0 ∧ tail = "" ∨ r.result.code = 1 ∧ Reason env o tail) := run_said h

/-- Exit code and standard error, to compare. -/
def codeSaid : Outcome (Report ℚ) → Option (Int × String)
  | .ok r => some (r.result.code, r.err)
  | _ => none

/-- An environment that prints whole numbers. -/
def exEnvSaid (text : String) : Env ℚ := { exEnv text with fmt := { exFmt with sci := fun x => String.ofList (Print.intText x.num) } }

/-- One location with data, one without. -/
example : codeSaid (runSaid (exEnvSaid "220 40 -100\n220 40 -200000\n") exOpts fun _ => "") =
    some (0, "WARNING: No data for 220, 40, -200000.\n") := by decide +kernel
/-- The second location ends with an error. -/
example : codeSaid (runSaid { exEnvSaid "220 40 -200000\n220 40 -100\n220 40 -200000\n" with
      geom := (exEnvErr "").geom } exOpts fun _ => "") =
    some (1, "WARNING: No data for 220, 40, -200000.\ninverse") := by decide +kernel
/-- A database that is not there. -/
example : codeSaid (runSaid (exEnvSaid exText) { exOpts with filenameDB := "missing" } fun _ => "") =
    some (1, "Could not open the etree database 'missing' for querying.") := by decide +kernel

/-- C130 is false: the message about the extended database `ext` that could not be closed names the database `det`, which was
closed. -/
theorem C130_false : codeSaid (runSaid { exEnvSaid "220 40 -100\n" with closeFailExt := true } { exOpts with filenameDBExt := "ext" } fun _ => "") =
    some (1, "Could not close the etree database 'det'.") := by decide +kernel

theorem append_eq_empty {a b : String} (h : a ++ b = "") : a = "" ∧ b = "" := by
  have := congrArg String.toList h
  rw [String.toList_append] at this
  obtain ⟨h1, h2⟩ := List.append_eq_nil_iff.1 this
  exact ⟨String.toList_injective h1, String.toList_injective h2⟩

theorem join_eq_empty {ts : List String} : String.join ts = "" ↔ ∀ t ∈ ts, t = "" := by
  induction ts with
  | nil => simp [String.join]
  | cons t ts ih =>
    rw [String.join_cons]
    constructor
    · intro h
      obtain ⟨h1, h2⟩ := append_eq_empty h
      intro u hu
      rcases List.mem_cons.1 hu with rfl | hu
      · exact h1
      · exact ih.1 h2 u hu
    · intro h
      rw [h t (List.mem_cons_self ..), ih.2 fun u hu => h u (List.mem_cons_of_mem _ hu)]
      rfl

theorem append_ne_empty {a b : String} (h : a ≠ "") : a ++ b ≠ "" := fun h' => h (append_eq_empty h').1

/-- If nothing is written for the lines, there was data for all of them. -/
theorem quiet_lines {fmt : Fmt K} {o : Options K} {ls : List (Line K)} {ts : List String} (h : List.Forall₂ (LineSaid fmt o) ls ts)
    (he : String.join ts = "") : ∀ l ∈ ls, l.vals[6]? ≠ some 0 := by
  intro l hl h6
  rw [join_eq_empty] at he
  obtain ⟨t, ht, h7⟩ : ∃ t ∈ ts, LineSaid fmt o l t := by
    clear he
    induction h with
    | nil => cases hl
    | cons ha hb ih =>
      rcases List.mem_cons.1 hl with rfl | hl
      · exact ⟨_, List.mem_cons_self .., ha⟩
      · obtain ⟨t, h1, h2⟩ := ih hl
        exact ⟨t, List.mem_cons_of_mem _ h1, h2⟩
  rw [he t ht] at h7
  rw [LineSaid, if_pos h6] at h7
  exact append_ne_empty (append_ne_empty (append_ne_empty (append_ne_empty (append_ne_empty (append_ne_empty (by decide)))))) h7.symm

/-- Unless the type of query is WAVERES, nothing is written for lines with data. -/
theorem lines_quiet {fmt : Fmt K} {o : Options K} (hw : ∀ res, ¬ TypeNamed o .WAVERES res) {ls : List (Line K)} {ts : List String}
    (h : List.Forall₂ (LineSaid fmt o) ls ts) (hl : ∀ l ∈ ls, l.vals[6]? ≠ some 0) : String.join ts = "" := by
  rw [join_eq_empty]
  induction h with
  | nil => intro t ht; cases ht
  | cons ha hb ih =>
    intro t ht
    rcases List.mem_cons.1 ht with rfl | ht
    · rw [LineSaid, if_neg (hl _ (List.mem_cons_self ..))] at ha
      rcases ha with ha | ⟨⟨res, ha⟩, -⟩
      · exact ha
      · exact absurd ha (hw res)
    · exact ih (fun l hl' => hl l (List.mem_cons_of_mem _ hl')) t ht

/-- C131: if nothing is written to standard error then the program ends with 0 and there was data for every location.  The
messages of the exceptions of the geometry are taken not to be empty. -/
theorem C131 {env : Env K} {o : Options K} {fs : Files} {r : Report K}
    (hg : Speaks env.geom)
    (h : runSaid env o fs = .ok r) (he : r.err = "") : r.result.code = 0 ∧ ∀ l ∈ r.result.lines, l.vals[6]? ≠ some 0 := by
  obtain ⟨ts, tail, h1, h2, h3⟩ := C130_partial h
  rw [he] at h1
  obtain ⟨h4, h5⟩ := append_eq_empty h1.symm
  constructor
  · rcases h3 with ⟨h3, -⟩ | ⟨-, h3⟩
    · exact h3
    · exfalso
      cases h3 with
      | openExt => exact append_ne_empty (append_ne_empty (by decide)) h5
      | openDb => exact append_ne_empty (append_ne_empty (by decide)) h5
      | resolution => exact append_ne_empty (by decide) h5
      | queryType => exact append_ne_empty (append_ne_empty (append_ne_empty (by decide))) h5
      | input => exact append_ne_empty (append_ne_empty (by decide)) h5
      | output => exact append_ne_empty (append_ne_empty (by decide)) h5
      | query hq h he => exact query_error hg hq h he h5
      | close => exact append_ne_empty (append_ne_empty (by decide)) h5
  · exact quiet_lines h2 h4

/-- Two locations with data; the geometry of the examples has no exceptions. -/
example : codeSaid (runSaid (exEnvSaid "220 40 -100\n220 40 -150\n") exOpts fun _ => "") = some (0, "") := by decide +kernel
example (text : String) : Speaks (exEnvSaid text).geom := by
  constructor
  · intro a lon lat elev m h
    exfalso
    change GeomCenCA.lonLatElevToAddr exFrame exProj a lon lat elev = .exc m at h
    unfold GeomCenCA.lonLatElevToAddr exProj at h
    dsimp only at h
    split_ifs at h
  · intro a m h
    exfalso
    change GeomCenCA.addrToLonLatElev exFrame exProj a = .exc m at h
    unfold GeomCenCA.addrToLonLatElev exProj at h
    dsimp only at h
    split_ifs at h

/-- C131: unless the type of query is WAVERES, nothing is written if the program ends with 0 and there was data for every
location. -/
theorem C131_quiet {env : Env K} {o : Options K} {fs : Files} {r : Report K} (hw : ∀ res, ¬ TypeNamed o .WAVERES res)
    (h : runSaid env o fs = .ok r) (hc : r.result.code = 0) (hl : ∀ l ∈ r.result.lines, l.vals[6]? ≠ some 0) : r.err = "" := by
  obtain ⟨ts, tail, h1, h2, h3⟩ := C130_partial h
  rcases h3 with ⟨-, rfl⟩ | ⟨h3, -⟩
  · rw [h1, lines_quiet hw h2 hl]
    rfl
  · rw [h3] at hc; exact absurd hc (by decide)


/-- The options of the examples ask for MAXRES. -/
theorem exOpts_notWave (res : ℚ) : ¬ TypeNamed exOpts .WAVERES res := by
  rintro (⟨-, h, -⟩ | ⟨-, -, h, -⟩ | ⟨h, -⟩)
  · cases h
  · cases h
  · exact absurd h (by decide)
example (res : ℚ) : ¬ TypeNamed exOpts .WAVERES res := exOpts_notWave res

end QueryApp
end CenCalVM
