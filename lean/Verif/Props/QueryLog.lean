/-
Property C97: the log file of cencalvmquery.
-/
import Verif.Lemmas.QueryLog
import Verif.Props.QueryApp

set_option linter.unusedSectionVars false

namespace CenCalVM
namespace QueryApp
variable {K : Type} [Field K] [LinearOrder K] [IsStrictOrderedRing K]

/-- C97: if a log file is named and can be opened, then after the run it holds, in order, one text for each line of the output
whose fault block is 0 (no data), and nothing else; no other file has changed.  Only if the run stopped at a location whose
query ended with an error, and exited with 1, a text for that location may follow. -/
theorem C97 {env : Env K} {o : Options K} {fs : Files} {r : Result K} (hne : o.filenameLog ≠ "") (hnull : o.filenameLog ≠ NULLFILE)
    (hopen : env.canLog o.filenameLog = true) (h : run env o fs = .ok r) :
    (∀ n, n ≠ o.filenameLog → r.fs n = fs n) ∧
    ∃ extra, r.fs o.filenameLog = String.join (noDataTexts env.fmt r.lines) ++ extra ∧
      (extra = "" ∨ r.code = 1 ∧ ∃ q l, Configured env o q ∧ ErrorAt env.fmt q l ∧ extra = noDataText env.fmt l.1 l.2.1 l.2.2) := by
  obtain ⟨extra, h1, h2⟩ := run_logs h
  have hst : start env o fs = ({ ErrorHandler.init with logFilename := o.filenameLog, sink := some o.filenameLog }, fs.set o.filenameLog "") := by
    unfold start ErrorHandler.setLogFilename
    rw [if_pos (Nat.pos_of_ne_zero fun h0 => hne (String.length_eq_zero_iff.1 h0)), if_pos hopen]
  rw [hst, foldl_log (n := o.filenameLog) rfl hnull] at h1
  rw [h1]
  refine ⟨fun n hn => ?_, String.join extra, ?_, ?_⟩
  · simp only [Files.set, if_neg hnull, if_neg hn]
  · simp only [Files.set, if_neg hnull, if_true, String.empty_append]
    clear h h1 h2
    generalize noDataTexts env.fmt r.lines = ts
    induction ts with
    | nil => simp [String.join]
    | cons t ts ih => rw [List.cons_append, String.join_cons, String.join_cons, ih, String.append_assoc]
  · rcases h2 with rfl | ⟨h2, q, l, h3, h4, rfl⟩
    · exact Or.inl rfl
    · exact Or.inr ⟨h2, q, l, h3, h4, by simp [String.join]⟩

/-- C97: without a log file, or if it cannot be opened, no file but the output changes. -/
theorem C97_none {env : Env K} {o : Options K} {fs : Files} {r : Result K}
    (hno : o.filenameLog = "" ∨ env.canLog o.filenameLog = false) (h : run env o fs = .ok r) : r.fs = fs := by
  obtain ⟨extra, h1, -⟩ := run_logs h
  rw [h1]
  generalize noDataTexts env.fmt r.lines ++ extra = ts
  have hst : (start env o fs).2 = fs ∧ ((start env o fs).1.sink = some NULLFILE ∨ (start env o fs).1.sink = none) := by
    unfold start ErrorHandler.setLogFilename
    rcases hno with h0 | h0
    · rw [h0]; exact ⟨rfl, Or.inl rfl⟩
    · rw [h0]
      split
      · exact ⟨rfl, Or.inr rfl⟩
      · exact ⟨rfl, Or.inl rfl⟩
  obtain ⟨h2, h3⟩ := hst
  rw [h2]
  induction ts with
  | nil => rfl
  | cons t ts ih =>
    rw [List.foldl_cons]
    rw [show (start env o fs).1.log fs t = fs by
      unfold ErrorHandler.log
      rcases h3 with h3 | h3 <;> rw [h3]
      simp [Files.set]]
    exact ih

/-- The log after a run. -/
def logAfter (name : String) : Outcome (Result ℚ) → Option (Int × String)
  | .ok r => some (r.code, r.fs name)
  | _ => none
/-- The second and third locations are below the model. -/
example : logAfter "log" (run { exEnv "220 40 -100\n220 40 -200000\n220 40 -300000\n" with
      fmt := ⟨fun x => if x = 220 then "lon" else if x = 40 then "lat" else "elev", fun _ => "", fun _ => ""⟩ }
      { exOpts with filenameLog := "log" } fun _ => "old") =
    some (0, "lon, lat, elev, No data\nlon, lat, elev, No data\n") := by decide +kernel
example : logAfter "log" (run (exEnv "220 40 -200000\n") exOpts fun _ => "old") = some (0, "old") := by decide +kernel

end QueryApp
end CenCalVM
