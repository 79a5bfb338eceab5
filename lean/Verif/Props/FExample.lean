/-
Property C95: the example program cencalvmf77query.
-/
import Verif.Lemmas.FExample
import Verif.Props.QueryApp

set_option linter.unusedSectionVars false

namespace CenCalVM
namespace FExample
open QueryApp (Env Configured CloseFails LineFor ErrorAt exEnv exEnvErr)
open Fortran (Holds)
variable {K : Type} [Field K] [LinearOrder K]

/-! ### C95 -/

/-- With terminated names, databases that open and queries that are defined. -/
theorem run_configured {env : Env K} {v : Vars K} {log db name : String} (hlog : Holds v.log log) (hdb : Holds v.db db)
    (hn : Names v.queryType name) {q : VMQuery K} (hq : Configured env (options log db name v.queryRes) q) {ls : List (K × K × K)}
    (hu : ∀ l ∈ ls, VMQuery.query env.fmt q (fun _ => "") 9 l.1 l.2.1 l.2.2 ≠ .ub) (fs : Files) :
    (∃ r, run env v (some (ls.map some)) true fs = .ok r ∧ List.Forall₂ (AnyLine env.fmt q) ls r.lines ∧
      r.ending = if env.closeFail = true then .error else .done) ∧
    ∀ more, ∃ r, run env v (some (ls.map some ++ none :: more)) true fs = .ok r ∧ List.Forall₂ (AnyLine env.fmt q) ls r.lines ∧
      r.ending = .stopped := by
  rcases prepare_cases env hlog hdb hn fs with ⟨q', w, fs', hq', hm, ha, hp⟩ | ⟨hno, -⟩
  swap
  · exact absurd hq (hno q)
  obtain ⟨h1, h2⟩ := QueryApp.configured_eq hq hq'
  obtain ⟨h1', h2'⟩ := QueryApp.configured_eq hq' hq
  have hok : q'.err.status = .OK := by
    obtain ⟨d, x, fn, res, e, -, -, -, h, rfl⟩ := hq'
    exact h
  have hu' : ∀ l ∈ ls, VMQuery.query env.fmt q' (fun _ => "") 9 l.1 l.2.1 l.2.2 ≠ .ub := by
    intro l hl hx
    rcases QueryApp.query_status (fmt := env.fmt) h1 h2 (n := 9) (l := l) with ⟨h8, -⟩ | ⟨vals, r, r', f, f', -, h8, -⟩
    · exact hu l hl h8
    · rw [hx] at h8; cases h8
  have hconv : ∀ {l line}, AnyLine env.fmt q' l line → AnyLine env.fmt q l line := by
    rintro l line ⟨h3, r0, f0, h4⟩
    rcases QueryApp.query_status (fmt := env.fmt) h1 h2 (n := 9) (l := l) with ⟨-, h8⟩ | ⟨vals, r, r', f, f', h7, h8, -⟩
    · rw [h4] at h8; cases h8
    · rw [h4] at h8; cases h8; exact ⟨h3, r, f, h7⟩
  have hclose : (if (VMQuery.close env.closeFail env.closeFailExt q').err.status = .OK then Ending.done else .error) =
      if env.closeFail = true then .error else .done := by
    obtain ⟨d, x, fn, res, e, -, hx, -, -, rfl⟩ := hq'
    rcases hx with ⟨-, rfl⟩ | ⟨hx, -⟩
    · cases hc : env.closeFail <;> simp [VMQuery.close, VMQuery.closeErr, ErrorHandler.error] at hok ⊢
      exact hok
    · exact absurd rfl hx
  constructor
  · obtain ⟨new, h3, h4⟩ := loop_at hok hm [] ls hu' fs' [] w ha _ (Or.inl ⟨rfl, rfl⟩)
    refine ⟨⟨if env.closeFail = true then .error else .done, new⟩, ?_, h4.imp fun _ _ => hconv, rfl⟩
    rw [hclose] at h3
    unfold run
    rw [hp, Outcome.bind_ok]
    dsimp only
    rw [if_pos rfl]
    simpa using h3
  · intro more
    obtain ⟨new, h3, h4⟩ := loop_at hok hm (none :: more) ls hu' fs' [] w ha .stopped (Or.inr ⟨more, rfl, rfl⟩)
    refine ⟨⟨.stopped, new⟩, ?_, h4.imp fun _ _ => hconv, rfl⟩
    unfold run
    rw [hp, Outcome.bind_ok]
    dsimp only
    rw [if_pos rfl]
    simpa using h3

/-- C95, what holds: if the character variables are terminated as C strings, the database opens, the type of query is known
(and the resolution not negative), the input file can be read, the output file created, and no query is undefined or ends
with an error, the output has a line for each location, in order, with the location and the nine values of the query; the
program ends normally unless the database cannot be closed.  If the database or the type are not so, nothing is written and
the program ends after writing ERROR.  Missing: the variables are not terminated (`C95_false`); a query with an error is not
noticed (`C95_false_error`). -/
theorem C95_partial {env : Env K} {v : Vars K} {log db name : String} (hlog : Holds v.log log) (hdb : Holds v.db db)
    (hn : Names v.queryType name) (fs : Files) :
    (∀ q, Configured env (options log db name v.queryRes) q → ∀ ls : List (K × K × K),
      (∀ l ∈ ls, VMQuery.query env.fmt q (fun _ => "") 9 l.1 l.2.1 l.2.2 ≠ .ub ∧ ¬ ErrorAt env.fmt q l) →
      ∃ r, run env v (some (ls.map some)) true fs = .ok r ∧ List.Forall₂ (LineFor env.fmt q) ls r.lines ∧
        r.ending = if env.closeFail = true then .error else .done) ∧
    ((∀ q, ¬ Configured env (options log db name v.queryRes) q) → ∀ input fresh,
      ∃ r, run env v input fresh fs = .ok r ∧ r.lines = [] ∧ r.ending = .error) := by
  constructor
  · intro q hq ls hls
    obtain ⟨⟨r, h1, h2, h3⟩, -⟩ := run_configured hlog hdb hn hq (fun l hl => (hls l hl).1) fs
    refine ⟨r, h1, ?_, h3⟩
    have : ∀ {ls : List (K × K × K)} {lines}, List.Forall₂ (AnyLine env.fmt q) ls lines → (∀ l ∈ ls, ¬ ErrorAt env.fmt q l) →
        List.Forall₂ (LineFor env.fmt q) ls lines := by
      intro ls lines h
      induction h with
      | nil => intro _; exact .nil
      | cons h4 h5 ih =>
        intro hne
        obtain ⟨h6, q', f, h7⟩ := h4
        exact .cons ⟨h6, q', f, h7, fun he => hne _ (by simp) ⟨q', f, _, h7, he⟩⟩ (ih fun l hl => hne l (by simp [hl]))
    exact this h2 fun l hl => (hls l hl).2
  · intro hno input fresh
    rcases prepare_cases env hlog hdb hn fs with ⟨q', w, fs', hq', -⟩ | ⟨-, hp⟩
    · exact absurd hq' (hno q')
    · refine ⟨⟨.error, []⟩, ?_, rfl, rfl⟩
      unfold run
      rw [hp]
      rfl

/-- The constants of the examples, with terminated names. -/
def exVars : Vars ℚ := ⟨"test.log".toList ++ [Fortran.NUL], "det".toList ++ [Fortran.NUL], padded 64 "maxres", 0⟩
example : Holds exVars.log "test.log" ∧ Holds exVars.db "det" ∧ Names exVars.queryType "maxres" :=
  ⟨⟨[], [], [], by decide +kernel, by decide +kernel, by decide +kernel, by decide +kernel, Or.inl rfl, by decide +kernel⟩,
    ⟨[], [], [], by decide +kernel, by decide +kernel, by decide +kernel, by decide +kernel, Or.inl rfl, by decide +kernel⟩,
    by decide +kernel, _, rfl⟩
example : Configured (exEnv "") (options "test.log" "det" "maxres" exVars.queryRes) { VMQuery.init exGeom with db := some exDb, filename := "det" } :=
  ⟨exDb, none, .MAXRES, 0, ErrorHandler.init, rfl, Or.inl ⟨rfl, rfl⟩, Or.inl ⟨by decide +kernel, rfl, rfl⟩, rfl, rfl⟩
/-- Ending and lines, to compare. -/
def endLines : Outcome (Result ℚ) → Option (Ending × List (QueryApp.Line ℚ))
  | .ok r => some (r.ending, r.lines)
  | _ => none
example : endLines (run (exEnv "") exVars (some [some (220, 40, -100), some (220, 40, -200000)]) true fun _ => "") =
    some (.done, [⟨220, 40, -100, [4000, 2000, 2500, 100, 50, 30, 1, 7, -38370]⟩,
      ⟨220, 40, -200000, [-999, -999, -999, -999, -999, -999, 0, 0, -999]⟩]) := by decide +kernel
example : endLines (run (exEnv "") { exVars with db := "none".toList ++ [Fortran.NUL] } (some [some (220, 40, -100)]) true fun _ => "") =
    some (.error, []) := by decide +kernel

/-- C95, input that is not numbers: the program is stopped there, with the lines for the locations before. -/
theorem C95_input {env : Env K} {v : Vars K} {log db name : String} (hlog : Holds v.log log) (hdb : Holds v.db db)
    (hn : Names v.queryType name) {q : VMQuery K} (hq : Configured env (options log db name v.queryRes) q) {ls : List (K × K × K)}
    (hu : ∀ l ∈ ls, VMQuery.query env.fmt q (fun _ => "") 9 l.1 l.2.1 l.2.2 ≠ .ub) (fs : Files) (more : List (Option (K × K × K))) :
    ∃ r, run env v (some (ls.map some ++ none :: more)) true fs = .ok r ∧ r.lines.length = ls.length ∧ r.ending = .stopped := by
  obtain ⟨-, h⟩ := run_configured hlog hdb hn hq hu fs
  obtain ⟨r, h1, h2, h3⟩ := h more
  exact ⟨r, h1, h2.length_eq.symm, h3⟩
example : endLines (run (exEnv "") exVars (some [some (220, 40, -100), none, some (220, 40, -200000)]) true fun _ => "") =
    some (.stopped, [⟨220, 40, -100, [4000, 2000, 2500, 100, 50, 30, 1, 7, -38370]⟩]) := by decide +kernel

/-- C95 is false of the program as published, or with any other name of the log file that is padded as Fortran does: the
first call reads beyond the end of the variable. -/
theorem C95_false (env : Env K) (v : Vars K) (hv : Fortran.NUL ∉ v.log) (input : Option (List (Option (K × K × K)))) (fresh : Bool) (fs : Files) :
    run env v input fresh fs = .ub := by
  have ha : CExample.At ({ (CApi.World.init fs : CApi.World K).put 1 (some (VMQuery.init env.geom)) with next := 1 } : CApi.World K) 1 (VMQuery.init env.geom) fs :=
    ⟨by simp, CApi.put_same (CApi.World.init fs) 1 (some (VMQuery.init env.geom)), rfl⟩
  obtain ⟨w1, e1, a1⟩ := fcall_at (f := .errorHandler) (env := env) .errorHandler ha rfl
  have hp : prepare env v fs = .ub := by
    unfold prepare CApi.createQuery
    rw [show (CApi.World.init fs : CApi.World K).next = 0 from rfl, Outcome.bind_ok]
    dsimp only
    rw [if_neg (by simp), e1, Outcome.bind_ok]
    dsimp only
    rw [if_neg (by simp)]
    unfold checked999
    rw [(C42_false_read (canOpen := env.canLog) env.fmt w1 1 v.log 0 hv).2.2]
    rfl
  unfold run
  rw [hp]
  rfl
example : Fortran.NUL ∉ (published : Vars ℚ).log := by decide +kernel

/-- C95 is false: the program tests the status after the call for the message has overwritten it, so that a query that ends
with an error does not stop it: with terminated names there is a line for every location, and the program ends normally. -/
theorem C95_false_error {env : Env K} {v : Vars K} {log db name : String} (hlog : Holds v.log log) (hdb : Holds v.db db)
    (hn : Names v.queryType name) {q : VMQuery K} (hq : Configured env (options log db name v.queryRes) q) (hc : env.closeFail = false)
    {ls : List (K × K × K)} (hu : ∀ l ∈ ls, VMQuery.query env.fmt q (fun _ => "") 9 l.1 l.2.1 l.2.2 ≠ .ub) (fs : Files) :
    ∃ r, run env v (some (ls.map some)) true fs = .ok r ∧ r.lines.length = ls.length ∧ r.ending = .done := by
  obtain ⟨⟨r, h1, h2, h3⟩, -⟩ := run_configured hlog hdb hn hq hu fs
  exact ⟨r, h1, h2.length_eq.symm, by rw [h3, hc]; rfl⟩
/-- The second location ends with ERROR (the application stops there, see the example of C43). -/
example : (endLines (run (exEnvErr "") exVars (some [some (220, 40, -200000), some (220, 40, -100), some (220, 40, -200000)]) true fun _ => "")).map
    (fun r => (r.1, r.2.length)) = some (.done, 3) := by decide +kernel

end FExample
end CenCalVM
