/-
Property C94: the example program cencalvmcquery.
-/
import Verif.Lemmas.CExample
import Verif.Props.QueryApp

set_option linter.unusedSectionVars false

namespace CenCalVM
namespace CExample
open QueryApp (Options Env Conv Configured exEnv exOpts exText exConv)
variable {K : Type} [Field K] [LinearOrder K]

/-! ### C94 -/

/-- C94, what holds: with an input file of numbers only (or none that can be read) and an output file that can be written to
the end, if cencalvmquery ends then so does the example program, with the same exit code and the same lines.  Missing: input
with anything else (`C94_false`: the program does not end), long names (`C94_false_long`), and input the application stops
at because the output cannot be written. -/
theorem C94_partial {env : Env K} {o : Options K} (hw : ∀ n, env.outGood n = true)
    (ht : ∀ text, env.input o.filenameIn = some text → ∃ ls, NumbersOnly env.nf text ls) {fs : Files} {r : QueryApp.Result K}
    (h : QueryApp.run env o fs = .ok r) : ∃ n0, ∀ n ≥ n0, run env o fs n = some (.ok ⟨r.code, r.lines⟩) := by
  have hleave : ∀ {q : VMQuery K}, QueryApp.leave env ⟨1, [], q, (QueryApp.start env o fs).2⟩ = .ok r → r.code = 1 ∧ r.lines = [] := by
    intro q hl
    unfold QueryApp.leave at hl
    cases hd : VMQuery.destroy env.closeFail env.closeFailExt q with
    | exc m => rw [hd] at hl; cases hl
    | ub => rw [hd] at hl; cases hl
    | ok u => rw [hd] at hl; cases hl; exact ⟨rfl, rfl⟩
  unfold run
  rcases both_cases env o fs with ⟨q, w, hq, hm, ha, hp, ⟨text, hi, hc, hr⟩ | ⟨hx, hr⟩⟩ | ⟨hn, hp, q, hr⟩
  · rw [hp]
    dsimp only
    rw [hi]
    dsimp only
    simp only [if_pos hc]
    obtain ⟨ls, hls⟩ := ht text hi
    have hok : q.err.status = .OK := by
      obtain ⟨d, x, fn, res, e, -, -, -, h, rfl⟩ := hq
      exact h
    rw [h] at hr
    exact loop_at hw hok hm hls (Stream.ofText text) rfl rfl (0, 0, 0) (text.length + 1) _ [] w r ha hr.symm
  · rw [h] at hr
    obtain ⟨h1, h2⟩ := hleave hr.symm
    refine ⟨0, fun n _ => ?_⟩
    rw [hp, h1, h2]
    dsimp only
    cases hi : env.input o.filenameIn with
    | none => rfl
    | some text =>
      rcases hx with hx | hx
      · rw [hi] at hx; cases hx
      · rw [hx]; rfl
  · rw [h] at hr
    obtain ⟨h1, h2⟩ := hleave hr.symm
    refine ⟨0, fun n _ => ?_⟩
    rw [hp, h1, h2]

/-- Exit code and lines, to compare. -/
def codeLines : Option (Outcome (Result ℚ)) → Option (Int × List (QueryApp.Line ℚ))
  | some (.ok r) => some (r.code, r.lines)
  | _ => none

theorem exText_numbers : NumbersOnly exNumFmt exText.toList [(220, 40, -100), (220, 40, -200000)] := by
  have h1 : QueryApp.readLoc exNumFmt (Stream.ofText exText.toList) (0, 0, 0) = (⟨"\n220 40 -200000\n".toList, false, false⟩, 220, 40, -100) := by
    decide +kernel
  have h2 : QueryApp.readLoc exNumFmt (Stream.ofText "\n220 40 -200000\n".toList) (0, 0, 0) = (⟨"\n".toList, false, false⟩, 220, 40, -200000) := by
    decide +kernel
  have a1 := QueryApp.readLoc_good (nf := exNumFmt) (s := Stream.ofText exText.toList) (old := (0, 0, 0)) (by rw [h1]; rfl)
  have a2 := QueryApp.readLoc_good (nf := exNumFmt) (s := Stream.ofText "\n220 40 -200000\n".toList) (old := (0, 0, 0)) (by rw [h2]; rfl)
  rw [h1] at a1
  rw [h2] at a2
  exact .cons a1.2.1 a1.2.2 (.cons a2.2.1 a2.2.2 (.blank (by decide +kernel)))
example : (∀ n, (exEnv exText).outGood n = true) ∧ ∀ text, (exEnv exText).input exOpts.filenameIn = some text → ∃ ls, NumbersOnly (exEnv exText).nf text ls :=
  ⟨fun _ => rfl, fun text h => by cases h; exact ⟨_, exText_numbers⟩⟩
/-- Three rounds are enough for the two locations, two are not. -/
example : codeLines (run (exEnv exText) exOpts (fun _ => "") 3) =
    some (0, [⟨220, 40, -100, [4000, 2000, 2500, 100, 50, 30, 1, 7, -38370]⟩,
      ⟨220, 40, -200000, [-999, -999, -999, -999, -999, -999, 0, 0, -999]⟩]) := by decide +kernel
example : run (exEnv exText) exOpts (fun _ => "") 2 = none := by
  unfold run; exact Option.isNone_iff_eq_none.1 (by decide +kernel)

/-- C94, the command line: if no text given as argument has 256 or more characters, the settings or the exit code are those of
cencalvmquery. -/
theorem C94_arguments (cv : Conv K) (argv : List (List Char))
    (h : ∀ c v, Opt.arg c v ∈ spec.getopt argv → isText c = true → v.length < 256) :
    parseArgs cv argv = .ok (QueryApp.parseArgs cv argv) := by
  have hloop : ∀ (os : List Opt) (o : Options K) (n : Nat), (∀ c v, Opt.arg c v ∈ os → isText c = true → v.length < 256) →
      parseLoop cv os o n = .ok (QueryApp.parseLoop cv os o n) := by
    intro os
    induction os with
    | nil => intros; rfl
    | cons a os ih =>
      intro o n ha
      have htl : ∀ c v, Opt.arg c v ∈ os → isText c = true → v.length < 256 := fun c v hm => ha c v (List.mem_cons_of_mem _ hm)
      cases a with
      | flag c => rfl
      | unknown => exact ih o n htl
      | arg c v =>
        have hset : setOpt cv o c v = .ok (QueryApp.setOpt cv o c v) := by
          have hv : isText c = true → v.length < 256 := ha c v (by simp)
          unfold setOpt QueryApp.setOpt copied
          split <;> first | rfl | exact if_pos (hv (by decide)) | (split <;> first | rfl | simp_all)
        unfold parseLoop QueryApp.parseLoop
        rw [hset, Outcome.bind_ok, ih _ _ htl]
  unfold parseArgs QueryApp.parseArgs
  rw [hloop _ _ _ h, Outcome.bind_ok]
  show _ = Outcome.ok (match QueryApp.parseLoop cv (spec.getopt argv) QueryApp.defaults 1 with | none => _ | some (o, n) => _)
  rw [show (defaults : Options K) = QueryApp.defaults from rfl]
  cases QueryApp.parseLoop cv (spec.getopt argv) QueryApp.defaults 1 with
  | none => rfl
  | some p =>
    obtain ⟨o, n⟩ := p
    dsimp only
    split <;> rfl

/-- The settings read, to compare. -/
def optsOf : Outcome (Except Int (Options ℚ)) → Option (List String × Int × List ℚ)
  | .ok o => QueryApp.optsOf o
  | _ => none
example : optsOf (parseArgs exConv (["-i", "a", "-d", "-o", "-o", "b", "-d", "m"].map String.toList)) =
    some (["a", "b", "m", "", "", "maxres"], 128, [0, 1000000]) := by decide +kernel
example : (spec.getopt (["-i", "a", "-o", "b", "-d", "m"].map String.toList)).all (fun a => match a with
    | .arg c v => !isText c || v.length < 256 | _ => true) = true := by decide +kernel

/-- C94 is false: with a name of 256 or more characters the program writes beyond an array, whatever follows. -/
theorem C94_false_long (cv : Conv K) (c : Char) (hc : isText c = true) (v : List Char) (hv : 256 ≤ v.length) (more : List (List Char)) :
    parseArgs cv (['-', c] :: v :: more) = .ub := by
  have hg : ∃ os, spec.getopt (['-', c] :: v :: more) = .arg c (String.ofList v) :: os := by
    unfold isText at hc
    simp only [List.mem_cons, List.not_mem_nil, or_false, decide_eq_true_eq] at hc
    rcases hc with rfl | rfl | rfl | rfl | rfl | rfl <;> exact ⟨_, rfl⟩
  obtain ⟨os, hg⟩ := hg
  have hset : setOpt cv (defaults : Options K) c (String.ofList v) = .ub := by
    unfold isText at hc
    simp only [List.mem_cons, List.not_mem_nil, or_false, decide_eq_true_eq] at hc
    have : ¬ (String.ofList v).length < 256 := by simpa using hv
    rcases hc with rfl | rfl | rfl | rfl | rfl | rfl <;> exact if_neg this
  unfold parseArgs
  rw [hg]
  unfold parseLoop
  rw [hset]
  rfl

/-- C94 is false: if after some locations the input goes on with a character no number starts with, such as a `#`, the program
does not end: it answers the last location again and again.  (The application stops there, `C43_false_malformed`.)  Here the
databases open, the type of query is known, the files can be opened, and the queries are neither undefined nor errors. -/
theorem C94_false {env : Env K} {o : Options K} {q : VMQuery K} (hnf : env.nf.real [] = none) (hq : Configured env o q)
    {text rest : List Char} (hi : env.input o.filenameIn = some text) (ho : env.canWrite o.filenameOut = true)
    {ls : List (K × K × K)} (ht : StartsWith env.nf text ls rest) (hs : Stuck env.nf rest)
    (hf : ∀ l, (l ∈ ls ∨ ls = [] ∧ l = (0, 0, 0)) →
      ¬ QueryApp.ErrorAt env.fmt q l ∧ VMQuery.query env.fmt q (fun _ => "") 9 l.1 l.2.1 l.2.2 ≠ .ub) (fs : Files) (n : Nat) :
    run env o fs n = none := by
  unfold run
  rcases both_cases env o fs with ⟨q', w, hq', hm, ha, hp, -⟩ | ⟨hn, -⟩
  · obtain ⟨h1, h2⟩ := QueryApp.configured_eq hq hq'
    have hok : q'.err.status = .OK := by
      obtain ⟨d, x, fn, res, e, -, -, -, h, rfl⟩ := hq'
      exact h
    obtain ⟨h1', h2'⟩ := QueryApp.configured_eq hq' hq
    have hf' : ∀ l, (l ∈ ls ∨ ls = [] ∧ l = (0, 0, 0)) → Fine env q' l := by
      intro l hl
      obtain ⟨g1, g2⟩ := hf l hl
      refine ⟨fun he => g1 (QueryApp.errorAt_congr h1' h2' he), fun hu => ?_⟩
      rcases QueryApp.query_status (fmt := env.fmt) (q := q) (q' := q') h1 h2 (n := 9) (l := l) with ⟨h8, h9⟩ | ⟨vals, r, r', f, f', -, h8, -⟩
      · exact g2 h8
      · rw [hu] at h8; cases h8
    rw [hp]
    dsimp only
    rw [hi]
    dsimp only
    rw [if_pos ho]
    exact loop_hangs hnf hok hm ht hs n (Stream.ofText text) rfl rfl (0, 0, 0) (fun h => hf' _ (Or.inr ⟨h, rfl⟩))
      (fun l hl => hf' l (Or.inl hl)) _ [] w ha
  · exact absurd hq (hn q)

/-- A location and a comment. -/
def exComment : String := "220 40 -100\n# a comment\n"
theorem exComment_starts : StartsWith exNumFmt exComment.toList [(220, 40, -100)] "\n# a comment\n".toList := by
  have h1 : QueryApp.readLoc exNumFmt (Stream.ofText exComment.toList) (0, 0, 0) = (⟨"\n# a comment\n".toList, false, false⟩, 220, 40, -100) := by
    decide +kernel
  have a1 := QueryApp.readLoc_good (nf := exNumFmt) (s := Stream.ofText exComment.toList) (old := (0, 0, 0)) (by rw [h1]; rfl)
  rw [h1] at a1
  exact .cons a1.2.1 .nil
theorem exComment_stuck : Stuck exNumFmt "\n# a comment\n".toList :=
  ⟨"\n".toList, '#', " a comment\n".toList, by decide +kernel, by decide +kernel, by decide +kernel, by decide +kernel⟩
example (n : Nat) : run (exEnv exComment) exOpts (fun _ => "") n = none := by
  refine C94_false (q := { VMQuery.init exGeom with db := some exDb, filename := "det" }) (by decide +kernel)
    ⟨exDb, none, .MAXRES, 0, ErrorHandler.init, rfl, Or.inl ⟨rfl, rfl⟩, Or.inl ⟨by decide +kernel, rfl, rfl⟩, rfl, rfl⟩ rfl (by decide +kernel)
    exComment_starts exComment_stuck ?_ _ n
  intro l hl
  have hl : l = (220, 40, -100) := by simpa using hl
  subst hl
  have hok : (match VMQuery.query exFmt { VMQuery.init exGeom with db := some exDb, filename := "det" } (fun _ => "") 9 (220 : ℚ) 40 (-100) with
    | .ok r => decide (r.1.err.status ≠ .ERROR) | _ => false) = true := by decide +kernel
  constructor
  · rintro ⟨r, f, v, h1, h2⟩
    rw [show VMQuery.query exFmt { VMQuery.init exGeom with db := some exDb, filename := "det" } (fun _ => "") 9 (220 : ℚ) 40 (-100) = _ from h1] at hok
    simp [h2] at hok
  · intro h1
    rw [show VMQuery.query exFmt { VMQuery.init exGeom with db := some exDb, filename := "det" } (fun _ => "") 9 (220 : ℚ) 40 (-100) = _ from h1] at hok
    cases hok

end CExample
end CenCalVM
