/-
Properties C119 and C120: what the grader writes to the console.
-/
import Verif.Lemmas.GradeConsole
import Verif.Props.GradeApp
import Verif.Props.Console

set_option linter.unusedSectionVars false

namespace CenCalVM
namespace GradeConsole
open VsGrader Console
variable {K : Type} [Field K] [LinearOrder K] [IsStrictOrderedRing K] [FloorRing K]

/-! ### C119 -/

/-- C119: writing to the console changes neither the exit code nor the files. -/
theorem C119_silent (fmt : Fmt K) (env : EtreeEnv) (nf : NumFmt K) (atoi : String → Int) (tl : Tools K) (junk : Payload K) (fs : Files)
    (fl : String → Option (List Char)) (argv : List (List Char)) (disk : EtreeDisk K) :
    files (gradeMain fmt env nf atoi tl junk fs fl argv disk) = VsGrader.gradeMain fmt env nf atoi tl junk fs fl argv disk := by
  unfold gradeMain VsGrader.gradeMain
  cases FileApps.parseArgs FileApps.gradeSpec ['i', 'o', 'p', 't'] argv with
  | none => rfl
  | some a => exact finish_drop (by rw [runAll_drop]; exact Same.refl _)

theorem concat_length : ∀ l : List String, (concat l).length = (l.map String.length).sum
  | [] => rfl
  | s :: l => by simp [concat, concat_length l]

theorem allText_take {pf i o t : String} {n : Nat} (hn : n < 14) : allText ((reports pf i o t).take n) ≠ allText (reports pf i o t) := by
  intro h
  have h1 : allText (reports pf i o t) = allText ((reports pf i o t).take n) ++ allText ((reports pf i o t).drop n) := by
    unfold allText
    rw [← concat_append, ← List.map_append, List.take_append_drop]
  have h2 : allText (reports pf i o t) = allText ((reports pf i o t).take 13) ++ "Done grading database.\n" := by
    unfold allText
    simp [reports, concat, String.append_assoc]
  have h3 : allText ((reports pf i o t).drop n) = allText (((reports pf i o t).take 13).drop n) ++ "Done grading database.\n" := by
    have : (reports pf i o t).drop n = ((reports pf i o t).take 13).drop n ++ [(false, "Done grading database.\n")] := by
      have h4 : reports pf i o t = (reports pf i o t).take 13 ++ [(false, "Done grading database.\n")] := rfl
      conv_lhs => rw [h4]
      rw [List.drop_append_of_le_length (by simp [reports]; omega)]
    rw [this]
    unfold allText
    simp [concat_append, concat]
  rw [h, h3] at h1
  have := congrArg String.length h1
  simp only [String.length_append] at this
  have h5 : "Done grading database.\n".length = 23 := rfl
  omega

/-- C119: gradecencalvm returns 0 or 1; 0 just if all fourteen progress reports are on standard output, and nothing on standard
error.  Otherwise the first few reports are there.  Without the report on the temporary database no file has been touched, without
that on packing none but the temporary one; and with that on the first pass the output file exists. -/
theorem C119 {fmt : Fmt K} {env : EtreeEnv} {nf : NumFmt K} {atoi : String → Int} {tl : Tools K} {junk : Payload K} {fs : Files}
    {fl : String → Option (List Char)} {pf i o t : String} (hp : pf ≠ "") (hi : i ≠ "") (ho : o ≠ "") (ht : t ≠ "")
    {disk disk' : EtreeDisk K} {code : Int} {con : Console}
    (h : gradeMain fmt env nf atoi tl junk fs fl (argsGrade pf i o t) disk = .ok (code, disk', con)) :
    (code = 0 ∨ code = 1) ∧ (code = 0 ↔ con.out = allText (reports pf i o t)) ∧ (code = 0 → con.err = "") ∧
    ∃ n, con.out = allText ((reports pf i o t).take n) ∧ (n ≤ 3 → disk' = disk) ∧ (n ≤ 7 → ∀ x, x ≠ t → disk' x = disk x) ∧
      (11 ≤ n → ∃ f, disk' o = some f) := by
  obtain ⟨a, h1, h2, h3, h4, h5, h6⟩ := parse_grade hp hi ho ht
  unfold gradeMain at h
  rw [h1] at h
  simp only [h2, h3, h4, h5, h6] at h
  have hs := runAll_says (fmt := fmt) (env := env) (nf := nf) (tl := tl) (junk := junk) (fs := fs) (files := fl) (old := newParams)
    (pf := pf) (i := i) (o := o) (t := t) (quiet := false) (disk := disk) (con := start)
  cases hr : runAll fmt env nf tl junk fs fl newParams pf i o t false disk start with
  | ub => simp [hr, finish] at h
  | exc m x =>
    simp [hr, finish] at h
    rw [hr] at hs
    obtain ⟨d, c⟩ := x
    obtain ⟨n, a1, a2, a3, a4, a5⟩ := hs
    dsimp only at a2 a3 a4 a5 h
    obtain ⟨rfl, rfl, rfl⟩ := h
    subst a2
    have hout : ((say false start ((reports pf i o t).take n)).cerr m).out = allText ((reports pf i o t).take n) := by
      simp [say, start, Console.cerr]
    refine ⟨Or.inr rfl, ⟨fun h => absurd h (by decide), fun h => ?_⟩, fun h => absurd h (by decide), n, hout, a3, a4, fun h => ?_⟩
    · exact absurd (hout.symm.trans h) (allText_take a1)
    · exact Option.isSome_iff_exists.1 (a5 h)
  | ok x u =>
    simp [hr, finish] at h
    rw [hr] at hs
    obtain ⟨d, c⟩ := x
    obtain ⟨a2, a3, a4, a5⟩ := hs
    dsimp only at a2 a3 a4 a5 h
    obtain ⟨rfl, rfl, rfl⟩ := h
    subst a2
    have hout : (say false start (reports pf i o t)).out = allText (reports pf i o t) := by
      simp [say, start]
    exact ⟨Or.inl rfl, ⟨fun _ => hout, fun _ => rfl⟩, fun _ => rfl, 14, hout, fun h => absurd h (by decide), fun h => absurd h (by decide),
      fun h => Option.isSome_iff_exists.1 (a5 (by show 11 ≤ 14; decide))⟩

/-- The whole program on the example grid, and if libetree fails to begin appending. -/
example :
    (match gradeMain exFmt exEtree exNumFmt (fun _ => 0) exTools (exPay 0 0) (fun _ => "") exParamFiles (argsGrade "p" "in" "out" "tmp") exGradeDisk with
      | .ok (c, _, con) => some (c, con)
      | _ => none) = some (0, ⟨"Reading parameters from 'p'...\nInitializing grader...\nExtracting data from 'in'...\n" ++
        "Opening new etree database 'tmp'.\nFinished preparing database.\nClosing database 'tmp'.\nDone extracting.\n" ++
        "Creating packed etree database 'out' from unpacked etree database 'tmp'.\nDone packing etree database.\n" ++
        "Starting grading of database.\nGrading database in vertical direction.\nGrading database in length direction.\n" ++
        "Grading database in width direction.\nDone grading database.\n", ""⟩) ∧
    (match gradeMain exFmt { exEtree with beginAppend := true } exNumFmt (fun _ => 0) exTools (exPay 0 0) (fun _ => "") exParamFiles
        (argsGrade "p" "in" "out" "tmp") exGradeDisk with
      | .ok (c, _, con) => some (c, con)
      | _ => none) = some (1, ⟨"Reading parameters from 'p'...\nInitializing grader...\nExtracting data from 'in'...\n" ++
        "Opening new etree database 'tmp'.\nFinished preparing database.\nClosing database 'tmp'.\nDone extracting.\n" ++
        "Creating packed etree database 'out' from unpacked etree database 'tmp'.\n", "e"⟩) := by
  decide +kernel

/-! ### C120 -/

/-- C120 is false of the code: told to be quiet, a grader writes reports on the temporary database. -/
theorem C120_false : (match runAll exFmt exEtree exNumFmt exTools (exPay 0 0) (fun _ => "") exParamFiles newParams "p" "in" "out" "tmp" true exGradeDisk start with
      | .ok (_, con) _ => some con
      | _ => none) = some ⟨"Opening new etree database 'tmp'.\nFinished preparing database.\nClosing database 'tmp'.\n", ""⟩ := by
  decide +kernel

/-- C120: told to be quiet, a grader writes nothing but the three reports on the temporary database; if it throws, the first few of
these. -/
theorem C120_partial {fmt : Fmt K} {env : EtreeEnv} {nf : NumFmt K} {tl : Tools K} {junk : Payload K} {fs : Files}
    {fl : String → Option (List Char)} {old : Params K} {pf i o t : String} {disk disk' : EtreeDisk K} {con con' : Console} :
    (runAll fmt env nf tl junk fs fl old pf i o t true disk con = .ok (disk', con') () →
      con' = ⟨con.out ++ (s!"Opening new etree database '{t}'.\n" ++ "Finished preparing database.\n" ++ s!"Closing database '{t}'.\n"), con.err⟩) ∧
    ∀ m, runAll fmt env nf tl junk fs fl old pf i o t true disk con = .exc m (disk', con') →
      ∃ n, con' = ⟨con.out ++ concat ([s!"Opening new etree database '{t}'.\n", "Finished preparing database.\n", s!"Closing database '{t}'.\n"].take n),
        con.err⟩ := by
  have hs := runAll_says (fmt := fmt) (env := env) (nf := nf) (tl := tl) (junk := junk) (fs := fs) (files := fl) (old := old)
    (pf := pf) (i := i) (o := o) (t := t) (quiet := true) (disk := disk) (con := con)
  constructor
  · intro h
    rw [h] at hs
    obtain ⟨a, -⟩ := hs
    have a : con' = _ := a
    rw [a]
    simp [say, dbText, reports, allText, concat, String.append_assoc]
  · intro m h
    rw [h] at hs
    obtain ⟨n, a1, a2, -⟩ := hs
    have a2 : con' = _ := a2
    have a1 : n < 14 := a1
    refine ⟨n - 3, ?_⟩
    rw [a2]
    obtain rfl | rfl | rfl | rfl | rfl | rfl | h : n = 0 ∨ n = 1 ∨ n = 2 ∨ n = 3 ∨ n = 4 ∨ n = 5 ∨ 6 ≤ n := by omega
    · simp [say, dbText, reports, allText, concat]
    · simp [say, dbText, reports, allText, concat]
    · simp [say, dbText, reports, allText, concat]
    · simp [say, dbText, reports, allText, concat]
    · simp [say, dbText, reports, allText, concat]
    · simp [say, dbText, reports, allText, concat]
    · obtain ⟨k, rfl⟩ : ∃ k, n = k + 6 := ⟨n - 6, by omega⟩
      have h3 : ∀ k (l : List (Bool × String)), (∀ x ∈ l, x.1 = false) → (l.take k).filter (·.1) = [] := by
        intro k l hl
        rw [List.filter_eq_nil_iff]
        intro x hx
        simp [hl x (List.mem_of_mem_take hx)]
      have h4 : k + 6 - 3 = k + 3 := by omega
      rw [h4]
      have h5 := h3 k ((reports pf i o t).drop 6) (by simp [reports])
      simp only [say, dbText, reports, List.take_succ_cons, List.filter_cons, allText, concat, if_true, List.map_cons, Bool.false_eq_true, if_false]
      simp only [reports, List.drop_succ_cons, List.drop_zero] at h5
      rw [h5]
      simp [concat]

example : (match runAll exFmt exEtree exNumFmt exTools (exPay 0 0) (fun _ => "") exParamFiles newParams "q" "in" "out" "tmp" true exGradeDisk start with
      | .exc _ (_, con) => some con
      | _ => none) = some start := by
  decide +kernel

end GradeConsole
end CenCalVM
