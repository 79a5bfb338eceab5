/-
Properties C43, C59 and C60: the application cencalvmquery.
-/
import Verif.Lemmas.QueryApp
import Verif.Props.Create
import Verif.Props.Lifecycle

set_option linter.unusedSectionVars false

namespace CenCalVM
namespace QueryApp
variable {K : Type} [Field K] [LinearOrder K]

/-! ### C43 -/

/-- The environment of the examples: database "det", input file "in". -/
def exEnv (text : String) : Env ℚ where
  fmt := exFmt
  nf := exNumFmt
  geom := exGeom
  disk := exDisk
  canLog := fun _ => true
  input := fun n => if n = "in" then some text.toList else none
  canWrite := fun n => n = "out"
  outGood := fun _ => true
  closeFail := false
  closeFailExt := false

/-- Settings of the examples. -/
def exOpts : Options ℚ := { defaults with filenameIn := "in", filenameOut := "out", filenameDB := "det" }

/-- Exit code and lines, to compare. -/
def codeLines : Outcome (Result ℚ) → Option (Int × List (Line ℚ))
  | .ok r => some (r.code, r.lines)
  | _ => none

/-- C43, what holds: if the databases open, the type of query is known, the input can be read and the output written to the
end, then for the locations of the input file that are followed by something: either no query ends with ERROR, the
output has one line per location in input order, with the location and the nine values of the query, and the exit code is 0
unless closing a database fails; or the output has such lines for the locations before the first one whose query ends with
ERROR and the exit code is 1 (unless closing fails then, which is undefined).  Missing: a last location not followed by
anything (`C43_false`), malformed input (`C43_false_malformed`), a failing output file (`C43_false_write`). -/
theorem C43_partial {env : Env K} {o : Options K} {q : VMQuery K} (hnf : env.nf.real [] = none) (hw : ∀ n, env.outGood n = true)
    (hq : Configured env o q) {text : List Char} (hi : env.input o.filenameIn = some text) (ho : env.canWrite o.filenameOut = true)
    {ls : List (K × K × K)} (hl : LocsText env.nf text ls)
    (hd : ∀ l ∈ ls, VMQuery.query env.fmt q (fun _ => "") 9 l.1 l.2.1 l.2.2 ≠ .ub) (fs : Files) :
    ((∀ l ∈ ls, ¬ ErrorAt env.fmt q l) ∧ ∃ r, run env o fs = .ok r ∧ List.Forall₂ (LineFor env.fmt q) ls r.lines ∧
      (r.code = 0 ∨ r.code = 1) ∧ (r.code = 0 ↔ ¬ CloseFails env o)) ∨
    ∃ k l, ls[k]? = some l ∧ ErrorAt env.fmt q l ∧ (∀ l ∈ ls.take k, ¬ ErrorAt env.fmt q l) ∧
      (¬ CloseFails env o → ∃ r, run env o fs = .ok r ∧ r.code = 1 ∧ List.Forall₂ (LineFor env.fmt q) (ls.take k) r.lines) := by
  have hno : ∀ {ls : List (K × K × K)} {lines : List (Line K)}, List.Forall₂ (LineFor env.fmt q) ls lines →
      ∀ l ∈ ls, ¬ ErrorAt env.fmt q l := by
    intro ls lines h
    induction h with
    | nil => intro l hl; cases hl
    | cons h1 h2 ih =>
      intro l hl
      rcases List.mem_cons.1 hl with rfl | hl
      · rintro ⟨r, f, v, h3, h4⟩
        obtain ⟨-, r', f', h5, h6⟩ := h1
        rw [h3] at h5; cases h5
        exact h6 h4
      · exact ih l hl
  rcases run_cases env o fs with ⟨q', hq', ⟨hm, -⟩, ⟨text', hi', -, hr⟩ | ⟨hx, -⟩⟩ | ⟨hx, -⟩
  · rw [hi] at hi'; cases hi'
    obtain ⟨hs, he⟩ := configured_eq hq' hq
    have hs' := hs.symm
    have he' : q' = { q with err := q'.err } := (configured_eq hq hq').2
    have hok : q'.err.status = .OK := by
      obtain ⟨d, x, fn, res, e, -, -, -, h, rfl⟩ := hq'
      exact h
    have hends := loop_ends hnf hw hok hm (text.length + 1) (readLoc env.nf (Stream.ofText text) (0, 0, 0)).1
      (readLoc env.nf (Stream.ofText text) (0, 0, 0)).2 (start env o fs).2 [] ls (pending_readLoc rfl hl) (by omega) (fun hg => by
        have := locText_shorter hnf (readLoc_good hg).2.1
        have h0 : (Stream.ofText text).rest = text := rfl
        rw [h0] at this
        omega)
    rw [← hr] at hends
    have hconv : ∀ {ls : List (K × K × K)} {lines : List (Line K)}, List.Forall₂ (LineFor env.fmt q') ls lines →
        List.Forall₂ (LineFor env.fmt q) ls lines := fun h => h.imp fun _ _ h => lineFor_congr hs he h
    rcases hends with ⟨new, f, h3, h4⟩ | ⟨k, l, new, q'', f, h3, h4, h5, h6, h7⟩ | ⟨k, l, new, h3, h4, h5, h6⟩
    · left
      obtain ⟨r, h8, h9, h10, h11⟩ := finish_eq hq' f ([] ++ new)
      refine ⟨hno (hconv h3), r, h4.trans h8, ?_, h10, h11⟩
      rw [h9]
      exact hconv h3
    · right
      refine ⟨k, l, h3, errorAt_congr hs he h4, hno (hconv h5), fun hc => ?_⟩
      refine ⟨_, h7.trans (leave_eq hq' h6 hc _ _ _), rfl, ?_⟩
      exact hconv h5
    · exfalso
      refine hd l (List.mem_of_getElem? h3) ?_
      rcases query_status (fmt := env.fmt) hs' he' (n := 9) (l := l) with ⟨h8, -⟩ | ⟨vals, r, r', f, f', -, h8, -⟩
      · exact h8
      · rw [h4] at h8; cases h8
  · rcases hx with hx | hx
    · rw [hi] at hx; cases hx
    · rw [ho] at hx; cases hx
  · exact absurd hq (hx q)

/-- The locations of every text are determined. -/
theorem C43_locations (nf : NumFmt K) (hnf : nf.real [] = none) (text : List Char) : ∃! ls, LocsText nf text ls := by
  obtain ⟨ls, h⟩ := exists_locsText nf hnf text
  refine ⟨ls, h, ?_⟩
  intro ls' h'
  induction h generalizing ls' with
  | nil h1 =>
    cases h' with
    | nil h2 => rfl
    | cons h2 h3 h4 => exact absurd (h1 _ _ h2) h3
  | cons h1 h2 h3 ih =>
    cases h' with
    | nil h4 => exact absurd (h4 _ _ h1) h2
    | cons h4 h5 h6 =>
      obtain ⟨rfl, rfl⟩ := locText_unique h1 h4
      rw [ih _ h6]

/-- Two locations, the second without data (a warning, which does not stop the program). -/
def exText : String := "220 40 -100\n220 40 -200000\n"

example : codeLines (run (exEnv exText) exOpts fun _ => "") =
    some (0, [⟨220, 40, -100, [4000, 2000, 2500, 100, 50, 30, 1, 7, -38370]⟩,
      ⟨220, 40, -200000, [-999, -999, -999, -999, -999, -999, 0, 0, -999]⟩]) := by decide +kernel
example : (exEnv exText).nf.real [] = none ∧ (∀ n, (exEnv exText).outGood n = true) ∧ (exEnv exText).input exOpts.filenameIn = some exText.toList ∧
    (exEnv exText).canWrite exOpts.filenameOut = true := ⟨by decide +kernel, fun _ => rfl, rfl, by decide +kernel⟩
example : Configured (exEnv exText) exOpts { VMQuery.init exGeom with db := some exDb, filename := "det" } :=
  ⟨exDb, none, .MAXRES, 0, ErrorHandler.init, rfl, Or.inl ⟨rfl, rfl⟩, Or.inl ⟨by decide +kernel, rfl, rfl⟩, rfl, rfl⟩
theorem exText_locs : LocsText exNumFmt exText.toList [(220, 40, -100), (220, 40, -200000)] := by
  have h1 : readLoc exNumFmt (Stream.ofText exText.toList) (0, 0, 0) = (⟨"\n220 40 -200000\n".toList, false, false⟩, 220, 40, -100) := by
    decide +kernel
  have h2 : readLoc exNumFmt (Stream.ofText "\n220 40 -200000\n".toList) (0, 0, 0) = (⟨"\n".toList, false, false⟩, 220, 40, -200000) := by
    decide +kernel
  have h3 : (readLoc exNumFmt (Stream.ofText "\n".toList) (0, 0, 0)).1.good = false := by decide +kernel
  have a1 := readLoc_good (nf := exNumFmt) (s := Stream.ofText exText.toList) (old := (0, 0, 0)) (by rw [h1]; rfl)
  have a2 := readLoc_good (nf := exNumFmt) (s := Stream.ofText "\n220 40 -200000\n".toList) (old := (0, 0, 0)) (by rw [h2]; rfl)
  rw [h1] at a1
  rw [h2] at a2
  refine .cons a1.2.1 a1.2.2 (.cons a2.2.1 a2.2.2 (.nil ?_))
  intro l t' h
  rw [readLoc_eq (s := Stream.ofText "\n".toList) rfl h] at h3
  cases t' with
  | nil => rfl
  | cons a b => cases h3
example : ∀ l ∈ [((220 : ℚ), (40 : ℚ), (-100 : ℚ)), (220, 40, -200000)],
    valsOf (VMQuery.query exFmt { VMQuery.init exGeom with db := some exDb, filename := "det" } (fun _ => "") 9 l.1 l.2.1 l.2.2) ≠ none := by
  decide +kernel

/-- A projection without inverse: the elevation of the ground below a location in the model is then an error. -/
def exEnvErr (text : String) : Env ℚ :=
  { exEnv text with geom := GeomCenCA.geom exFrame ⟨exProj.project, fun _ _ => .exc "inverse"⟩ (fun _ => .ok 1) }
/-- The second location ends with ERROR: its line and that of the third are missing, the exit code is 1. -/
example : codeLines (run (exEnvErr "220 40 -200000\n220 40 -100\n220 40 -200000\n") exOpts fun _ => "") =
    some (1, [⟨220, 40, -200000, [-999, -999, -999, -999, -999, -999, 0, 0, -999]⟩]) := by decide +kernel

/-- C43 is false: a last location without a line end is not answered, with exit code 0. -/
theorem C43_false : codeLines (run (exEnv "220 40 -100\n220 40 -150") exOpts fun _ => "") =
    some (0, [⟨220, 40, -100, [4000, 2000, 2500, 100, 50, 30, 1, 7, -38370]⟩]) := by decide +kernel

/-- C43 is false: at a line that is not a location the program stops, with exit code 0. -/
theorem C43_false_malformed : codeLines (run (exEnv "220 40 -100\n# a comment\n220 40 -150\n") exOpts fun _ => "") =
    some (0, [⟨220, 40, -100, [4000, 2000, 2500, 100, 50, 30, 1, 7, -38370]⟩]) := by decide +kernel

/-- C43 is false: if writing fails the program stops, with exit code 0. -/
theorem C43_false_write : codeLines (run { exEnv "220 40 -100\n220 40 -150\n" with outGood := fun n => n = 0 } exOpts fun _ => "") =
    some (0, [⟨220, 40, -100, [4000, 2000, 2500, 100, 50, 30, 1, 7, -38370]⟩]) := by decide +kernel

/-! ### C59 -/

/-- C59, what holds: a command line of known options, each followed by its argument as a separate word, in any order and with
repetitions, is accepted exactly if input, output and database names are given and not empty; each setting is that of the
last option naming it, or the default. -/
theorem C59_partial (cv : Conv K) {opts : List (Char × List Char)} (h : ∀ ov ∈ opts, ov.1 ∈ ['c', 'd', 'e', 'i', 'l', 'o', 'r', 's', 't']) :
    parseArgs cv (opts.flatMap optWords) =
      if (lastArg opts 'i').getD "" = "" ∨ (lastArg opts 'o').getD "" = "" ∨ (lastArg opts 'd').getD "" = "" then .error 1
      else .ok {
        filenameIn := (lastArg opts 'i').getD ""
        filenameOut := (lastArg opts 'o').getD ""
        filenameDB := (lastArg opts 'd').getD ""
        filenameDBExt := (lastArg opts 'e').getD ""
        filenameLog := (lastArg opts 'l').getD ""
        queryType := (lastArg opts 't').getD "maxres"
        queryRes := ((lastArg opts 'r').map cv.atof).getD 0
        cacheSize := ((lastArg opts 'c').map cv.atoi).getD 128
        squashLimit := ((lastArg opts 's').map cv.atof).getD 1000000 } := by
  have hlen : (opts.flatMap optWords).length = 2 * opts.length := by
    clear h
    induction opts with
    | nil => rfl
    | cons ov opts ih => rw [List.flatMap_cons, List.length_append, ih]; unfold optWords; simp; omega
  unfold parseArgs OptSpec.getopt
  rw [scan_pairs (by decide) h _ (by omega), parseLoop_args]
  dsimp only
  have hid : ∀ x : Option String, x.map (fun v => v) = x := fun x => by cases x <;> rfl
  have fi := foldl_field cv Options.filenameIn 'i' (fun v => v) (fun _ _ => rfl) (fun o c v hc => by unfold setOpt; split <;> first | rfl | exact absurd rfl hc) opts defaults
  have fo := foldl_field cv Options.filenameOut 'o' (fun v => v) (fun _ _ => rfl) (fun o c v hc => by unfold setOpt; split <;> first | rfl | exact absurd rfl hc) opts defaults
  have fd := foldl_field cv Options.filenameDB 'd' (fun v => v) (fun _ _ => rfl) (fun o c v hc => by unfold setOpt; split <;> first | rfl | exact absurd rfl hc) opts defaults
  have fe := foldl_field cv Options.filenameDBExt 'e' (fun v => v) (fun _ _ => rfl) (fun o c v hc => by unfold setOpt; split <;> first | rfl | exact absurd rfl hc) opts defaults
  have fl := foldl_field cv Options.filenameLog 'l' (fun v => v) (fun _ _ => rfl) (fun o c v hc => by unfold setOpt; split <;> first | rfl | exact absurd rfl hc) opts defaults
  have ft := foldl_field cv Options.queryType 't' (fun v => v) (fun _ _ => rfl) (fun o c v hc => by unfold setOpt; split <;> first | rfl | exact absurd rfl hc) opts defaults
  have fr := foldl_field cv Options.queryRes 'r' cv.atof (fun _ _ => rfl) (fun o c v hc => by unfold setOpt; split <;> first | rfl | exact absurd rfl hc) opts defaults
  have fc := foldl_field cv Options.cacheSize 'c' cv.atoi (fun _ _ => rfl) (fun o c v hc => by unfold setOpt; split <;> first | rfl | exact absurd rfl hc) opts defaults
  have fs := foldl_field cv Options.squashLimit 's' cv.atof (fun _ _ => rfl) (fun o c v hc => by unfold setOpt; split <;> first | rfl | exact absurd rfl hc) opts defaults
  rw [hid] at fi fo fd fe fl ft
  generalize opts.foldl (fun o ov => setOpt cv o ov.1 (String.ofList ov.2)) defaults = r at fi fo fd fe fl ft fr fc fs ⊢
  obtain ⟨r1, r2, r3, r4, r5, r6, r7, r8, r9⟩ := r
  dsimp only at fi fo fd fe fl ft fr fc fs ⊢
  have hz : ∀ s : String, s.length = 0 ↔ s = "" := fun s => by simp
  have g1 : r1 = _ := fi
  have g2 : r2 = _ := fo
  have g3 : r3 = _ := fd
  have g4 : r4 = _ := fe
  have g5 : r5 = _ := fl
  have g6 : r6 = _ := ft
  have g7 : r7 = _ := fr
  have g8 : r8 = _ := fc
  have g9 : r9 = _ := fs
  subst g1 g2 g3 g4 g5 g6 g7 g8 g9
  have hiff : (1 + 2 * opts.length ≠ (opts.flatMap optWords).length + 1 ∨ ((lastArg opts 'i').getD "").length = 0 ∨
      ((lastArg opts 'o').getD "").length = 0 ∨ ((lastArg opts 'd').getD "").length = 0) ↔
      ((lastArg opts 'i').getD "" = "" ∨ (lastArg opts 'o').getD "" = "" ∨ (lastArg opts 'd').getD "" = "") := by
    rw [hz, hz, hz, hlen]
    constructor
    · rintro (h | h)
      · exact absurd (by omega) h
      · exact h
    · exact Or.inr
  by_cases hc : (lastArg opts 'i').getD "" = "" ∨ (lastArg opts 'o').getD "" = "" ∨ (lastArg opts 'd').getD "" = ""
  · rw [if_pos hc]; exact if_pos (hiff.2 hc)
  · rw [if_neg hc]; exact if_neg (fun h => hc (hiff.1 h))

/-- Conversions of the examples. -/
def exConv : Conv ℚ := ⟨fun s => s.length, fun s => s.length⟩
/-- The settings read, to compare. -/
def optsOf : Except Int (Options ℚ) → Option (List String × Int × List ℚ)
  | .ok o => some ([o.filenameIn, o.filenameOut, o.filenameDB, o.filenameDBExt, o.filenameLog, o.queryType], o.cacheSize, [o.queryRes, o.squashLimit])
  | .error _ => none
/-- The exit code of a command line that is not accepted. -/
def refusal : Except Int (Options ℚ) → Option Int
  | .ok _ => none
  | .error c => some c

example : optsOf (parseArgs exConv ([('i', "a".toList), ('d', "-o".toList), ('o', "b".toList), ('d', "m".toList), ('c', "four".toList)].flatMap optWords)) =
    some (["a", "b", "m", "", "", "maxres"], 4, [0, 1000000]) := by decide +kernel
example : refusal (parseArgs exConv ([('i', "a".toList), ('o', "b".toList)].flatMap optWords)) = some 1 := by decide +kernel

/-- A word that is no option with an argument: without a dash, or an option that does not exist. -/
def Stray (w : List Char) : Prop :=
  w.head? ≠ some '-' ∨ w = ['-'] ∨ ∃ x, w = ['-', x] ∧ x ∉ ['-', 'h', 'c', 'd', 'e', 'i', 'l', 'o', 'r', 's', 't']

theorem scan_after {spec : OptSpec} (hs : '-' ∉ spec.args) {opts : List (Char × List Char)} (h : ∀ ov ∈ opts, ov.1 ∈ spec.args)
    (rest : List (List Char)) (n : Nat) (hn : opts.length ≤ n) :
    spec.scan n (opts.flatMap optWords ++ rest) = (opts.map fun ov => .arg ov.1 (String.ofList ov.2)) ++ spec.scan (n - opts.length) rest := by
  induction opts generalizing n with
  | nil => rfl
  | cons ov opts ih =>
    obtain ⟨c, v⟩ := ov
    obtain ⟨n, rfl⟩ : ∃ m, n = m + 1 := ⟨n - 1, by simp at hn; omega⟩
    have hc : c ∈ spec.args := h (c, v) (by simp)
    have hd : c ≠ '-' := by rintro rfl; exact hs hc
    have ih' := ih (fun ov ho => h ov (by simp [ho])) n (by simpa using hn)
    have e : (List.flatMap optWords ((c, v) :: opts)) ++ rest = ['-', c] :: v :: (opts.flatMap optWords ++ rest) := rfl
    rw [e]
    conv_lhs => unfold OptSpec.scan
    split
    · next h1 => simp at h1; exact absurd h1 hd
    · next h1 =>
      cases h1
      have : spec.letters [c] (v :: (opts.flatMap optWords ++ rest)) = ([.arg c (String.ofList v)], opts.flatMap optWords ++ rest) := by
        unfold OptSpec.letters
        rw [if_pos hc]
      rw [this]
      dsimp only
      rw [ih', List.length_cons, show n + 1 - (opts.length + 1) = n - opts.length by omega]
      rfl
    · next h3 => exact absurd rfl (h3 c [])

/-- The number of words of options with arguments. -/
theorem length_optWords (opts : List (Char × List Char)) : (opts.flatMap optWords).length = 2 * opts.length := by
  induction opts with
  | nil => rfl
  | cons ov opts ih => rw [List.flatMap_cons, List.length_append, ih]; unfold optWords; simp; omega

/-- `getopt` passes over a word that is no option. -/
theorem getopt_word {spec : OptSpec} (hs : '-' ∉ spec.args) {pre post : List (Char × List Char)} {w : List Char}
    (hpre : ∀ ov ∈ pre, ov.1 ∈ spec.args) (hpost : ∀ ov ∈ post, ov.1 ∈ spec.args) (hw : w.head? ≠ some '-' ∨ w = ['-']) :
    spec.getopt (pre.flatMap optWords ++ w :: post.flatMap optWords) =
      (pre ++ post).map fun ov => .arg ov.1 (String.ofList ov.2) := by
  unfold OptSpec.getopt
  have hlen := length_optWords
  rw [scan_after hs hpre _ _ (by rw [List.length_append, hlen]; omega), List.map_append]
  obtain ⟨m, hm, hmp⟩ : ∃ m, (pre.flatMap optWords ++ w :: post.flatMap optWords).length - pre.length = m + 1 ∧ post.length ≤ m :=
    ⟨(pre.flatMap optWords ++ w :: post.flatMap optWords).length - pre.length - 1, by
      rw [List.length_append, List.length_cons, hlen, hlen]; omega, by
      rw [List.length_append, List.length_cons, hlen, hlen]; omega⟩
  rw [hm]
  have hpairs := scan_pairs hs hpost m hmp
  rcases hw with hw | rfl
  · have : spec.scan (m + 1) (w :: post.flatMap optWords) = spec.scan m (post.flatMap optWords) := by
      conv_lhs => unfold OptSpec.scan
      split
      · exact absurd rfl hw
      · exact absurd rfl hw
      · rfl
    rw [this, hpairs]
  · rw [show spec.scan (m + 1) (['-'] :: post.flatMap optWords) = spec.scan m (post.flatMap optWords) from rfl, hpairs]

theorem parseLoop_append (cv : Conv K) (opts : List (Char × List Char)) (os : List Opt) (o : Options K) (n : Nat) :
    parseLoop cv ((opts.map fun ov => .arg ov.1 (String.ofList ov.2)) ++ os) o n =
      parseLoop cv os (opts.foldl (fun o ov => setOpt cv o ov.1 (String.ofList ov.2)) o) (n + 2 * opts.length) := by
  induction opts generalizing o n with
  | nil => rfl
  | cons ov opts ih =>
    rw [List.map_cons, List.cons_append, parseLoop, ih, List.foldl_cons, List.length_cons]
    congr 1
    omega

/-- C59: a word among the options and their arguments that is none of these is refused. -/
theorem C59_stray (cv : Conv K) {pre post : List (Char × List Char)} {w : List Char}
    (hpre : ∀ ov ∈ pre, ov.1 ∈ ['c', 'd', 'e', 'i', 'l', 'o', 'r', 's', 't'])
    (hpost : ∀ ov ∈ post, ov.1 ∈ ['c', 'd', 'e', 'i', 'l', 'o', 'r', 's', 't']) (hw : Stray w) :
    parseArgs cv (pre.flatMap optWords ++ w :: post.flatMap optWords) = .error 1 := by
  have hlen : ∀ opts : List (Char × List Char), (opts.flatMap optWords).length = 2 * opts.length := by
    intro opts
    induction opts with
    | nil => rfl
    | cons ov opts ih => rw [List.flatMap_cons, List.length_append, ih]; unfold optWords; simp; omega
  have hcount : ∃ o, parseLoop cv (spec.getopt (pre.flatMap optWords ++ w :: post.flatMap optWords)) defaults 1 =
      some (o, 1 + 2 * pre.length + 2 * post.length) := by
    unfold OptSpec.getopt
    rw [scan_after (spec := spec) (by decide) hpre _ _ (by rw [List.length_append, hlen]; omega), parseLoop_append]
    obtain ⟨m, hm, hmp⟩ : ∃ m, (pre.flatMap optWords ++ w :: post.flatMap optWords).length - pre.length = m + 1 ∧ post.length ≤ m :=
      ⟨(pre.flatMap optWords ++ w :: post.flatMap optWords).length - pre.length - 1, by
        rw [List.length_append, List.length_cons, hlen, hlen]; omega, by
        rw [List.length_append, List.length_cons, hlen, hlen]; omega⟩
    rw [hm]
    have hpairs := scan_pairs (spec := spec) (by decide) hpost m hmp
    rcases hw with hw | rfl | ⟨x, rfl, hx⟩
    · have : spec.scan (m + 1) (w :: post.flatMap optWords) = spec.scan m (post.flatMap optWords) := by
        conv_lhs => unfold OptSpec.scan
        split
        · exact absurd rfl hw
        · exact absurd rfl hw
        · rfl
      rw [this, hpairs, parseLoop_args]
      exact ⟨_, rfl⟩
    · rw [show spec.scan (m + 1) (['-'] :: post.flatMap optWords) = spec.scan m (post.flatMap optWords) from rfl, hpairs, parseLoop_args]
      exact ⟨_, rfl⟩
    · simp only [List.mem_cons, List.not_mem_nil, or_false, not_or] at hx
      have : spec.scan (m + 1) (['-', x] :: post.flatMap optWords) = .unknown :: spec.scan m (post.flatMap optWords) := by
        conv_lhs => unfold OptSpec.scan
        split
        · next h1 => simp at h1; exact absurd h1 hx.1
        · next h1 =>
          cases h1
          unfold OptSpec.letters
          rw [if_neg (by simp [spec, hx]), if_neg (by simp [spec, hx])]
          rfl
        · next h3 => exact absurd rfl (h3 x [])
      rw [this, parseLoop, hpairs, parseLoop_args]
      exact ⟨_, rfl⟩
  obtain ⟨o, ho⟩ := hcount
  unfold parseArgs
  rw [ho]
  dsimp only
  rw [if_pos]
  left
  rw [List.length_append, List.length_cons, hlen, hlen]
  omega

example : Stray "-x".toList := Or.inr (Or.inr ⟨'x', by decide +kernel, by decide⟩)
example : refusal (parseArgs exConv (["-i", "a", "-o", "b", "-x", "-d", "m"].map String.toList)) = some 1 := by decide +kernel

/-- C59: the option -h after any options with arguments ends the program with exit code 0, whatever follows. -/
theorem C59_help (cv : Conv K) {pre : List (Char × List Char)} (rest : List (List Char))
    (hpre : ∀ ov ∈ pre, ov.1 ∈ ['c', 'd', 'e', 'i', 'l', 'o', 'r', 's', 't']) :
    parseArgs cv (pre.flatMap optWords ++ ['-', 'h'] :: rest) = .error 0 := by
  have hlen : (pre.flatMap optWords).length = 2 * pre.length := by
    clear hpre
    induction pre with
    | nil => rfl
    | cons ov opts ih => rw [List.flatMap_cons, List.length_append, ih]; unfold optWords; simp; omega
  unfold parseArgs OptSpec.getopt
  rw [scan_after (spec := spec) (by decide) hpre _ _ (by rw [List.length_append, hlen]; omega), parseLoop_append]
  obtain ⟨m, hm⟩ : ∃ m, (pre.flatMap optWords ++ ['-', 'h'] :: rest).length - pre.length = m + 1 :=
    ⟨(pre.flatMap optWords ++ ['-', 'h'] :: rest).length - pre.length - 1, by
      rw [List.length_append, List.length_cons, hlen]; omega⟩
  rw [hm]
  rfl

example : refusal (parseArgs exConv (["-i", "a", "-h", "b"].map String.toList)) = some 0 := by decide +kernel

/-- C59 is false: an option that does not exist is accepted if it shares a word with one that does: `-i a -o b -xd m`. -/
theorem C59_false : optsOf (parseArgs exConv (["-i", "a", "-o", "b", "-xd", "m"].map String.toList)) =
    some (["a", "b", "m", "", "", "maxres"], 128, [0, 1000000]) := by decide +kernel

/-- C59 is false: an argument in the same word as its option is refused: `-ia -o b -d m`. -/
theorem C59_false_attached : refusal (parseArgs exConv (["-ia", "-o", "b", "-d", "m"].map String.toList)) = some 1 := by decide +kernel

/-! ### C60 -/

/-- C60: if a database named cannot be opened, the type of query is unknown, the resolution is negative (other than for the
maximum resolution), the input cannot be read or the output not be opened, then nothing is written and the exit code is 1
(if closing databases does not fail). -/
theorem C60 {env : Env K} {o : Options K} (h1 : env.closeFail = false) (h2 : env.closeFailExt = false) (fs : Files)
    (h : (∀ q, ¬ Configured env o q) ∨ env.input o.filenameIn = none ∨ env.canWrite o.filenameOut = false) :
    ∃ r, run env o fs = .ok r ∧ r.code = 1 ∧ r.lines = [] := by
  rcases run_cases env o fs with ⟨q, hq, -, ⟨text, hi, hc, -⟩ | ⟨-, hr⟩⟩ | ⟨-, q, hr⟩
  · rcases h with h | h | h
    · exact absurd hq (h q)
    · rw [hi] at h; cases h
    · rw [hc] at h; cases h
  · rw [hr, leave_ok h1 h2]; exact ⟨_, rfl, rfl, rfl⟩
  · rw [hr, leave_ok h1 h2]; exact ⟨_, rfl, rfl, rfl⟩

/-- C60: exit code 0 means that everything was set up as asked. -/
theorem C60_zero {env : Env K} {o : Options K} {fs : Files} {r : Result K} (h : run env o fs = .ok r) (h0 : r.code = 0) :
    (∃ q, Configured env o q) ∧ env.input o.filenameIn ≠ none ∧ env.canWrite o.filenameOut = true := by
  have hl : ∀ q f, leave env ⟨1, [], q, f⟩ ≠ .ok r := by
    intro q f h
    unfold leave VMQuery.destroy at h
    split at h
    · cases h
    · cases h; cases h0
  rcases run_cases env o fs with ⟨q, hq, -, ⟨text, hi, hc, -⟩ | ⟨-, hr⟩⟩ | ⟨-, q, hr⟩
  · exact ⟨⟨q, hq⟩, by rw [hi]; simp, hc⟩
  · exact absurd (hr ▸ h) (hl _ _)
  · exact absurd (hr ▸ h) (hl _ _)

example : codeLines (run (exEnv exText) { exOpts with filenameDB := "missing" } fun _ => "") = some (1, []) := by decide +kernel
example : codeLines (run (exEnv exText) { exOpts with filenameDBExt := "missing" } fun _ => "") = some (1, []) := by decide +kernel
example : codeLines (run (exEnv exText) { exOpts with queryType := "best" } fun _ => "") = some (1, []) := by decide +kernel
example : codeLines (run (exEnv exText) { exOpts with queryType := "WaveRes", queryRes := -1 } fun _ => "") = some (1, []) := by decide +kernel
example : codeLines (run (exEnv exText) { exOpts with filenameIn := "missing" } fun _ => "") = some (1, []) := by decide +kernel
example : codeLines (run (exEnv exText) { exOpts with filenameOut := "dir/" } fun _ => "") = some (1, []) := by decide +kernel
example : (∀ q, ¬ Configured (exEnv exText) { exOpts with filenameDB := "missing" } q) := by
  rintro q ⟨d, -, -, -, -, h, -⟩
  cases h

/-- C60 has a gap: resolution 0, the default, is not refused: with `fixedres` the first query is undefined, for every geometry
whose level of resolution 0 is undefined, as it is for `GeomCenCA`. -/
theorem C60_false_resolution {env : Env K} {o : Options K} (hg : env.geom.level 0 = .ub)
    (hw : env.outGood 0 = true) (hd : env.disk o.filenameDB ≠ none) (hx : o.filenameDBExt = "") (ht : o.queryType = "fixedres")
    (hr : o.queryRes = 0) (hs : o.squashLimit = 1000000) {text t : List Char} {l : K × K × K} (hi : env.input o.filenameIn = some text)
    (ho : env.canWrite o.filenameOut = true) (hl : LocText env.nf text l t) (hne : t ≠ []) (fs : Files) : run env o fs = .ub := by
  obtain ⟨d, hd⟩ := Option.ne_none_iff_exists'.1 hd
  have n1 : "fixedres".toList.map Char.toLower ≠ "maxres".toList := by decide +kernel
  have n2 : "fixedres".toList.map Char.toLower ≠ "waveres".toList := by decide +kernel
  have hconf : ∀ q, Configured env o q → ∀ fs, VMQuery.query env.fmt q fs 9 l.1 l.2.1 l.2.2 = .ub := by
    rintro q ⟨d', x, fn, res, e, h1, h2, h3, h4, rfl⟩ fs
    rcases h3 with ⟨a, -⟩ | ⟨a, -, rfl, rfl⟩ | ⟨a, -⟩
    · rw [ht] at a; exact absurd a n1
    · unfold VMQuery.query
      rw [if_neg (by simp [VMQuery.init])]
      have : VMQuery.fetch env.fmt { VMQuery.init env.geom with
          db := some d', dbExt := x, queryFn := .FIXEDRES, queryRes := o.queryRes, err := e, filename := o.filenameDB
          filenameExt := o.filenameDBExt, cacheSize := if 0 < o.cacheSize then o.cacheSize else 128
          cacheSizeExt := if 0 < o.cacheSize ∧ o.filenameDBExt ≠ "" then o.cacheSize else 128
          squashTopo := decide (o.squashLimit ≠ 1000000), squashLimit := if o.squashLimit = 1000000 then -2000 else o.squashLimit }
          env.geom d' ⟨⟨0, 0, 0, 0⟩, .leaf⟩ l.1 l.2.1 l.2.2 = .ub := by
        unfold VMQuery.fetch VMQuery.squashElev VMQuery.runQueryFn VMQuery.queryFixed
        simp [hs, hr, hg]
      dsimp only [VMQuery.init] at this ⊢
      rw [this]
    · rw [ht] at a; exact absurd a n2
  rcases run_cases env o fs with ⟨q, hq, -, ⟨text', hi', -, hrun⟩ | ⟨hx', -⟩⟩ | ⟨hx', -⟩
  · rw [hi] at hi'; cases hi'
    rw [hrun, readLoc_eq (s := Stream.ofText text) rfl hl]
    unfold loop
    have : (⟨t, t.isEmpty, false⟩ : Stream).good = true := by
      cases t with
      | nil => exact absurd rfl hne
      | cons a b => rfl
    dsimp only
    rw [this, show env.outGood ([] : List (Line K)).length = true from hw, if_pos (show (true && true) = true from rfl), hconf q hq]
    rfl
  · rcases hx' with h | h
    · rw [hi] at h; cases h
    · rw [ho] at h; cases h
  · refine absurd ?_ (hx' { VMQuery.init env.geom with
      db := some d, dbExt := none, queryFn := .FIXEDRES, queryRes := 0, err := ErrorHandler.init, filename := o.filenameDB
      filenameExt := o.filenameDBExt, cacheSize := if 0 < o.cacheSize then o.cacheSize else 128
      cacheSizeExt := if 0 < o.cacheSize ∧ o.filenameDBExt ≠ "" then o.cacheSize else 128
      squashTopo := decide (o.squashLimit ≠ 1000000), squashLimit := if o.squashLimit = 1000000 then -2000 else o.squashLimit })
    exact ⟨d, none, .FIXEDRES, 0, ErrorHandler.init, hd, Or.inl ⟨hx, rfl⟩,
      Or.inr (Or.inl ⟨by rw [ht]; decide +kernel, hr.ge, rfl, hr.symm⟩), rfl, rfl⟩

/-- The level of resolution 0 is undefined for the central California geometry. -/
example (proj : Projector ℝ) : (GeomCenCA.cenCA proj).level 0 = .ub := by
  change GeomCenCA.level 0 = .ub
  unfold GeomCenCA.level; rw [if_pos (by norm_num)]
example : ∃ l t, LocText exNumFmt exText.toList l t ∧ t ≠ [] := by
  have h := exText_locs
  cases h with
  | cons h1 h2 _ => exact ⟨_, _, h1, h2⟩

end QueryApp
end CenCalVM
