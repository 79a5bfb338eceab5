/-
Properties C138 and C139: what the example program in Fortran writes to standard output.
-/
import Verif.Lemmas.FExampleConsole
import Verif.Props.FExample
import Verif.Props.QueryConsole

set_option linter.unusedSectionVars false

namespace CenCalVM
namespace FExample
open QueryApp (Env Line LineSaid Speaks TypeNamed Configured exEnv exEnvErr exEnvSaid)
open Fortran (Holds)
variable {K : Type} [Field K] [LinearOrder K] [IsStrictOrderedRing K]

/-- C138: the program that keeps what it writes is the program of C95. -/
theorem C138_same (env : Env K) (v : Vars K) (input : Option (List (Option (K × K × K)))) (fresh : Bool) (fs : Files) :
    (do let r ← runSaid env v input fresh fs; Outcome.ok r.result) = run env v input fresh fs := bare_run env v input fresh fs

/-- C138, what holds: if the names of the log file and of the database are terminated as C strings and the program ends, it has
written, in order, for each line of the output nothing or one field of 256 characters: the warning that cencalvmquery writes, or
the message of the error its query ended with.  After that nothing follows unless the program ends with ERROR, and then the true
reason comes before ERROR.  Missing: the fields are filled with terminating characters instead of blanks and cut after 256
characters (`C138_false`); an error of a query does not end the program (`C95_false_error`). -/
theorem C138_partial {env : Env K} {v : Vars K} {log db : String} (hlog : Holds v.log log) (hdb : Holds v.db db)
    {input : Option (List (Option (K × K × K)))} {fresh : Bool} {fs : Files} {r : Report K} (h : runSaid env v input fresh fs = .ok r) :
    ∃ ts tail, r.out = ts.flatten ++ tail ∧ List.Forall₂ (OutFor env log db v) r.result.lines ts ∧
      (r.result.ending ≠ .error ∧ tail = [] ∨ r.result.ending = .error ∧ ∃ m, tail = [m, "ERROR".toList] ∧ Reason env db v m) :=
  runSaid_at hlog hdb h

/-- Ending, number of lines and what was written, without the terminating characters at the end, to compare. -/
def endSaid : Outcome (Report ℚ) → Option (Ending × Nat × List String)
  | .ok r => some (r.result.ending, r.result.lines.length, r.out.map fun t => String.ofList (t.takeWhile (· ≠ Fortran.NUL)))
  | _ => none
/-- One location with data, one without. -/
example : endSaid (runSaid (exEnvSaid "") exVars (some [some (220, 40, -100), some (220, 40, -200000)]) true fun _ => "") =
    some (.done, 2, ["WARNING: No data for 220, 40, -200000.\n"]) := by decide +kernel
/-- The second location ends with an error. -/
example : endSaid (runSaid { exEnvSaid "" with geom := (exEnvErr "").geom } exVars
      (some [some (220, 40, -200000), some (220, 40, -100), none]) true fun _ => "") =
    some (.stopped, 2, ["WARNING: No data for 220, 40, -200000.\n", "inverse"]) := by decide +kernel
/-- A database that is not there, and one that cannot be closed. -/
example : endSaid (runSaid (exEnvSaid "") { exVars with db := "none".toList ++ [Fortran.NUL] } (some []) true fun _ => "") =
    some (.error, 0, ["Could not open the etree database 'none' for querying.", "ERROR"]) ∧
    endSaid (runSaid { exEnvSaid "" with closeFail := true } exVars (some [some (220, 40, -100)]) true fun _ => "") =
    some (.error, 1, ["Could not close the etree database 'det'.", "ERROR"]) := by decide +kernel
/-- A type of query that does not exist, and a negative resolution. -/
example : endSaid (runSaid (exEnvSaid "") { exVars with queryType := padded 64 "best" } (some []) true fun _ => "") =
    some (.error, 0, ["Could not parse query resolution string.", "ERROR"]) ∧
    endSaid (runSaid (exEnvSaid "") { exVars with queryType := padded 64 "best", queryRes := -1 } (some []) true fun _ => "") =
    some (.error, 0, ["Query resolution must be a positive value.", "ERROR"]) := by decide +kernel

/-- C138 is false as to the form: what is written for a location is not the warning with blanks after it, as a program in
Fortran would have it, but the warning with terminating characters after it. -/
theorem C138_false : ∃ r, runSaid (exEnvSaid "") exVars (some [some (220, 40, -200000)]) true (fun _ => "") = .ok r ∧
    r.out ≠ [padded 256 "WARNING: No data for 220, 40, -200000.\n"] ∧ ∀ t ∈ r.out, t.getLast? = some Fortran.NUL := by
  have h : (match runSaid (exEnvSaid "") exVars (some [some (220, 40, -200000)]) true (fun _ => "") with
    | .ok r => decide (r.out ≠ [padded 256 "WARNING: No data for 220, 40, -200000.\n"]) && r.out.all fun t => t.getLast? == some Fortran.NUL
    | _ => false) = true := by decide +kernel
  cases hr : runSaid (exEnvSaid "") exVars (some [some (220, 40, -200000)]) true (fun _ => "") with
  | ub => rw [hr] at h; cases h
  | exc m => rw [hr] at h; cases h
  | ok r =>
    rw [hr] at h
    simp only [Bool.and_eq_true, decide_eq_true_eq, List.all_eq_true, beq_iff_eq] at h
    exact ⟨r, rfl, h.1, h.2⟩

/-- C139: if the program ends and has written nothing then it has come to its end or was stopped by the run-time system of
Fortran, no query ended with an error, and there was data for every line of the output. -/
theorem C139 {env : Env K} {v : Vars K} {log db : String} (hlog : Holds v.log log) (hdb : Holds v.db db)
    {input : Option (List (Option (K × K × K)))} {fresh : Bool} {fs : Files} {r : Report K} (h : runSaid env v input fresh fs = .ok r)
    (he : r.out = []) : r.result.ending ≠ .error ∧ ∀ l ∈ r.result.lines, l.vals[6]? ≠ some 0 ∧
      ∃ name q q' fs', Names v.queryType name ∧ Configured env (options log db name v.queryRes) q ∧
        VMQuery.query env.fmt q (fun _ => "") 9 l.lon l.lat l.elev = .ok (q', fs', l.vals) ∧ q'.err.status ≠ .ERROR := by
  obtain ⟨ts, tail, h1, h2, h3⟩ := C138_partial hlog hdb h
  rw [he] at h1
  obtain ⟨h4, h5⟩ := List.append_eq_nil_iff.1 h1.symm
  refine ⟨?_, ?_⟩
  · rcases h3 with ⟨h3, -⟩ | ⟨-, m, h3, -⟩
    · exact h3
    · rw [h3] at h5; cases h5
  · rw [List.flatten_eq_nil_iff] at h4
    intro l hl
    have key : ∀ {ls : List (Line K)} {ts : List (List (List Char))}, List.Forall₂ (OutFor env log db v) ls ts → (∀ t ∈ ts, t = []) →
        l ∈ ls → OutFor env log db v l [] := by
      intro ls ts h
      induction h with
      | nil => intro _ hl; cases hl
      | @cons l' t ls ts h6 h7 ih =>
        intro hn hl
        rcases List.mem_cons.1 hl with rfl | hl
        · rw [hn t (by simp)] at h6; exact h6
        · exact ih (fun t ht => hn t (by simp [ht])) hl
    obtain ⟨name, q, q', fs', h6, h7, h8, h9⟩ := key h2 h4 hl
    rcases h9 with ⟨h9, t, h10, h11⟩ | ⟨-, h9⟩
    · refine ⟨?_, name, q, q', fs', h6, h7, h8, h9⟩
      intro h0
      unfold LineSaid at h10
      rw [if_pos h0] at h10
      have key : ∀ l : Line K, QueryApp.noDataSaid env.fmt l ≠ "" := by
        intro l
        unfold QueryApp.noDataSaid
        iterate 6 refine QueryApp.append_ne_empty ?_
        decide
      have : t ≠ "" := fun hx => key l (h10.symm.trans hx)
      rw [if_neg this] at h11
      exact List.cons_ne_nil _ _ h11.symm
    · exact absurd h9.symm (List.cons_ne_nil _ _)

/-- C139: with MAXRES or FIXEDRES nothing is written if the program does not end with ERROR, no query ended with an error and
there was data for every line of the output. -/
theorem C139_quiet {env : Env K} {v : Vars K} {log db : String} (hlog : Holds v.log log) (hdb : Holds v.db db)
    {input : Option (List (Option (K × K × K)))} {fresh : Bool} {fs : Files} {r : Report K} (h : runSaid env v input fresh fs = .ok r)
    (hw : ¬ Names v.queryType "waveres") (hc : r.result.ending ≠ .error) (hl : ∀ l ∈ r.result.lines, l.vals[6]? ≠ some 0)
    (he : ∀ q name, Configured env (options log db name v.queryRes) q → ∀ l ∈ r.result.lines, ¬ QueryApp.ErrorAt env.fmt q (l.lon, l.lat, l.elev)) :
    r.out = [] := by
  obtain ⟨ts, tail, h1, h2, h3⟩ := C138_partial hlog hdb h
  rcases h3 with ⟨-, rfl⟩ | ⟨h3, -⟩
  swap
  · exact absurd h3 hc
  rw [h1, List.append_nil, List.flatten_eq_nil_iff]
  generalize r.result.lines = ls at h2 hl he
  clear h1
  induction h2 with
  | nil => intro t ht; cases ht
  | @cons l t ls ts h6 h7 ih =>
    intro t' ht'
    rcases List.mem_cons.1 ht' with rfl | ht'
    · obtain ⟨name, q, q', fs', h6, h7, h8, h9⟩ := h6
      rcases h9 with ⟨-, t, h10, rfl⟩ | ⟨h9, -⟩
      · unfold LineSaid at h10
        rw [if_neg (hl l (by simp))] at h10
        rcases h10 with rfl | ⟨⟨res, hr⟩, -⟩
        · rw [if_pos rfl]
        · exfalso
          obtain ⟨hm, more, hv⟩ := h6
          simp only [List.mem_cons, List.not_mem_nil, or_false] at hm
          rcases hr with ⟨-, hr, -⟩ | ⟨-, -, hr, -⟩ | ⟨hr, -⟩
          · cases hr
          · cases hr
          · rcases hm with rfl | rfl | rfl
            · exact absurd hr (by show ¬ ("maxres".toList.map Char.toLower = "waveres".toList); decide)
            · exact absurd hr (by show ¬ ("fixedres".toList.map Char.toLower = "waveres".toList); decide)
            · exact hw ⟨by simp, more, hv⟩
      · exact absurd ⟨q', fs', _, h8, h9⟩ (he q name h7 l (by simp))
    · exact ih (fun l hl' => hl l (by simp [hl'])) (fun q name hq l hl' => he q name hq l (by simp [hl'])) t' ht'

/-- Two locations with data. -/
example : endSaid (runSaid (exEnvSaid "") exVars (some [some (220, 40, -100), some (220, 40, -150)]) true fun _ => "") =
    some (.done, 2, []) ∧ ¬ Names exVars.queryType "waveres" := by
  refine ⟨by decide +kernel, ?_⟩
  rintro ⟨-, more, h⟩
  have := congrArg List.head? h
  rw [show ("waveres".toList ++ more).head? = some 'w' from rfl] at this
  revert this
  decide +kernel

end FExample
end CenCalVM
