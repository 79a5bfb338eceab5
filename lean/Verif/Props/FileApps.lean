/-
Properties C65 to C69: the applications that create, pack, average and describe database files.
-/
import Verif.Props.Average
import Verif.Props.Create
import Verif.Props.QueryApp
import Verif.Spec.FileApps

set_option linter.unusedSectionVars false

namespace CenCalVM
namespace FileApps
open QueryApp (optWords lastArg)

/-! ### C65 -/

theorem parseLoop_args (opts : List (Char × List Char)) (a : Char → String) (n : Nat) :
    parseLoop (opts.map fun ov => .arg ov.1 (String.ofList ov.2)) a n =
      some (fun c => (lastArg opts c).getD (a c), n + 2 * opts.length) := by
  induction opts generalizing a n with
  | nil => rfl
  | cons ov opts ih =>
    rw [List.map_cons, parseLoop, ih]
    congr 2
    · funext c
      unfold lastArg
      by_cases h : ov.1 = c
      · subst h
        rw [List.filter_cons_of_pos (by simp)]
        cases hl : opts.filter (fun o => o.1 == ov.1) with
        | nil => simp
        | cons b bs => rw [List.getLast?_cons_cons]; simp [List.getLast?_cons]
      · rw [List.filter_cons_of_neg (by simpa using h), Function.update_of_ne (Ne.symm h)]
    · simp only [List.length_cons]; omega

theorem parseArgs_pairs {spec : OptSpec} {files : List Char} (hs : '-' ∉ spec.args) {opts : List (Char × List Char)}
    (h : ∀ ov ∈ opts, ov.1 ∈ spec.args) :
    parseArgs spec files (opts.flatMap optWords) =
      if files.any (fun c => ((lastArg opts c).getD "").length = 0) then none
      else some fun c => (lastArg opts c).getD "" := by
  have hlen : (opts.flatMap optWords).length = 2 * opts.length := by
    rw [List.length_flatMap]
    induction opts with
    | nil => rfl
    | cons a l ih => rw [List.map_cons, List.sum_cons, ih fun o ho => h o (by simp [ho])]; simp [optWords]; omega
  unfold parseArgs OptSpec.getopt
  rw [QueryApp.scan_pairs hs h _ (by rw [hlen]; omega), parseLoop_args]
  simp only [hlen]
  by_cases hf : (files.any fun c => ((lastArg opts c).getD "").length = 0) = true
  · rw [if_pos (Or.inr hf), if_pos hf]
  · rw [if_neg hf, if_neg]
    rintro (h1 | h1)
    · omega
    · exact hf h1

theorem App.dash {spec : OptSpec} {files : List Char} (h : App spec files) : '-' ∉ spec.args := by
  cases h <;> decide

/-- C65, what holds: options with arguments given as separate words, in any order and number, are accepted if each file has
a nonempty name; the last argument given for an option counts.  Otherwise the command line is refused.  Missing: the
option `-l` of cencalvmgen (`C65_false_log`), arguments attached to options (`C65_false_attached`) and further words
(`C65_false_extra`). -/
theorem C65_partial {spec : OptSpec} {files : List Char} (ha : App spec files) {opts : List (Char × List Char)}
    (h : ∀ ov ∈ opts, ov.1 ∈ spec.args) :
    ((∀ c ∈ files, ∃ v, lastArg opts c = some v ∧ v ≠ "") →
      ∃ a, parseArgs spec files (opts.flatMap optWords) = some a ∧ ∀ c v, lastArg opts c = some v → a c = v) ∧
    ((∃ c ∈ files, lastArg opts c = none ∨ lastArg opts c = some "") →
      parseArgs spec files (opts.flatMap optWords) = none) := by
  rw [parseArgs_pairs ha.dash h]
  constructor
  · intro hv
    refine ⟨_, if_neg ?_, fun c v hc => by simp [hc]⟩
    rw [List.any_eq_true]
    rintro ⟨c, hc, hl⟩
    obtain ⟨v, h1, h2⟩ := hv c hc
    rw [h1] at hl
    exact h2 (by simpa using hl)
  · rintro ⟨c, hc, hv⟩
    refine if_pos ?_
    rw [List.any_eq_true]
    refine ⟨c, hc, ?_⟩
    rcases hv with hv | hv <;> rw [hv] <;> rfl

/-- The order does not matter and the last argument counts. -/
example : (∀ c ∈ ['i', 'o'], ∃ v, lastArg [('o', "b".toList), ('i', "a".toList), ('o', "c".toList)] c = some v ∧ v ≠ "") ∧
    (parseArgs avgSpec ['i', 'o'] ["-o".toList, "b".toList, "-i".toList, "a".toList, "-o".toList, "c".toList]).map
      (fun a => (a 'i', a 'o')) = some ("a", "c") := by decide +kernel

theorem scan_pairs_append {spec : OptSpec} (hs : '-' ∉ spec.args) {opts : List (Char × List Char)} (h : ∀ ov ∈ opts, ov.1 ∈ spec.args)
    (rest : List (List Char)) (n : Nat) : spec.scan (n + opts.length) (opts.flatMap optWords ++ rest) =
      (opts.map fun ov => .arg ov.1 (String.ofList ov.2)) ++ spec.scan n rest := by
  induction opts with
  | nil => rfl
  | cons ov opts ih =>
    obtain ⟨c, v⟩ := ov
    have hc : c ∈ spec.args := h (c, v) (by simp)
    have hd : c ≠ '-' := by rintro rfl; exact hs hc
    have ih' := ih (fun ov ho => h ov (by simp [ho]))
    have hw : (((c, v) :: opts).flatMap optWords ++ rest) = ['-', c] :: v :: (opts.flatMap optWords ++ rest) := rfl
    have hl : spec.letters [c] (v :: (opts.flatMap optWords ++ rest)) = ([.arg c (String.ofList v)], opts.flatMap optWords ++ rest) := by
      unfold OptSpec.letters
      rw [if_pos hc]
    rw [hw, show n + ((c, v) :: opts).length = (n + opts.length) + 1 from rfl]
    conv_lhs => unfold OptSpec.scan
    split
    · rename_i heq; simp at heq; exact absurd heq hd
    · rename_i heq
      simp only [List.cons.injEq, true_and] at heq
      obtain ⟨rfl, rfl⟩ := heq
      rw [hl]
      dsimp only
      rw [ih']
      rfl
    · rename_i h1 h2
      exact absurd rfl (h2 c [])

theorem parseLoop_other (opts : List (Char × List Char)) {o : Opt} (ho : ∀ c v, o ≠ .arg c v) (os : List Opt) (a : Char → String) (n : Nat) :
    parseLoop ((opts.map fun ov => .arg ov.1 (String.ofList ov.2)) ++ o :: os) a n = none := by
  induction opts generalizing a n with
  | nil =>
    cases o with
    | arg c v => exact absurd rfl (ho c v)
    | flag c => rfl
    | unknown => rfl
  | cons ov opts ih => exact ih _ _

/-- C65: a command line with an option that takes no argument (`-h`) or is not known is refused, whatever comes before
and after it. -/
theorem C65_other {spec : OptSpec} {files : List Char} (ha : App spec files) {opts : List (Char × List Char)}
    (h : ∀ ov ∈ opts, ov.1 ∈ spec.args) {c : Char} (hc : c ∉ spec.args) (hd : c ≠ '-') (rest : List (List Char)) :
    parseArgs spec files (opts.flatMap optWords ++ ['-', c] :: rest) = none := by
  have hlen : (opts.flatMap optWords).length = 2 * opts.length := by
    rw [List.length_flatMap]
    induction opts with
    | nil => rfl
    | cons a l ih => rw [List.map_cons, List.sum_cons, ih fun o ho => h o (by simp [ho])]; simp [optWords]; omega
  unfold parseArgs OptSpec.getopt
  obtain ⟨m, hm⟩ : ∃ m, (opts.flatMap optWords ++ ['-', c] :: rest).length = (m + 1) + opts.length :=
    ⟨opts.length + rest.length, by rw [List.length_append, hlen, List.length_cons]; omega⟩
  rw [hm, scan_pairs_append ha.dash h]
  have hsc : ∃ o os, spec.scan (m + 1) (['-', c] :: rest) = o :: os ∧ ∀ x v, o ≠ .arg x v := by
    unfold OptSpec.scan
    split
    · rename_i heq; simp at heq; exact absurd heq hd
    · rename_i heq
      simp only [List.cons.injEq, true_and] at heq
      obtain ⟨rfl, rfl⟩ := heq
      have hl : spec.letters [c] rest = ([if c ∈ spec.flags then .flag c else .unknown], rest) := by
        unfold OptSpec.letters
        rw [if_neg hc]
        rfl
      rw [hl]
      refine ⟨_, _, rfl, fun x v => ?_⟩
      split <;> simp
    · rename_i h1 h2
      exact absurd rfl (h2 c [])
  obtain ⟨o, os, h1, h2⟩ := hsc
  rw [h1, parseLoop_other opts h2]

example : 'h' ∉ avgSpec.args ∧ 'h' ∉ packSpec.args ∧ 'h' ∉ genSpec.args ∧ 'h' ∉ gradeSpec.args ∧ 'x' ∉ gradeSpec.args := by decide

/-- C65: a word among the options and their arguments that is no option is refused. -/
theorem C65_stray {spec : OptSpec} {files : List Char} (ha : App spec files) {pre post : List (Char × List Char)} {w : List Char}
    (hpre : ∀ ov ∈ pre, ov.1 ∈ spec.args) (hpost : ∀ ov ∈ post, ov.1 ∈ spec.args) (hw : w.head? ≠ some '-' ∨ w = ['-']) :
    parseArgs spec files (pre.flatMap optWords ++ w :: post.flatMap optWords) = none := by
  unfold parseArgs
  rw [QueryApp.getopt_word ha.dash hpre hpost hw, parseLoop_args]
  refine if_pos (Or.inl ?_)
  simp only [List.length_append, List.length_cons, QueryApp.length_optWords]
  omega

example : parseArgs packSpec ['i', 'o'] ["-i".toList, "a".toList, "b".toList, "-o".toList, "c".toList] = none :=
  Option.isNone_iff_eq_none.1 (by decide +kernel)

/-- C65: a refused command line ends the program with code 1 and no file touched. -/
theorem C65_refused {K : Type} [Field K] [LinearOrder K] (argv : List (List Char)) (disk : EtreeDisk K) :
    (parseArgs avgSpec ['i', 'o'] argv = none → ∀ env stamp, avgMain env stamp argv disk = .ok (1, disk)) ∧
    (parseArgs packSpec ['i', 'o'] argv = none → ∀ env, packMain env argv disk = .ok (1, disk)) ∧
    (parseArgs genSpec ['i', 'o', 't'] argv = none → ∀ env nf junk g files stamp,
      genMain env nf junk g files stamp argv disk = .ok (1, disk)) := by
  refine ⟨fun h env stamp => ?_, fun h env => ?_, fun h env nf junk g files stamp => ?_⟩
  · unfold avgMain; rw [h]
  · unfold packMain; rw [h]
  · unfold genMain; rw [h]

/-- Help, a missing file, an unknown option. -/
example : parseArgs avgSpec ['i', 'o'] ["-h".toList] = none ∧ parseArgs avgSpec ['i', 'o'] ["-i".toList, "a".toList] = none ∧
    parseArgs avgSpec ['i', 'o'] ["-i".toList, "a".toList, "-o".toList, "b".toList, "-x".toList] = none := by
  refine ⟨?_, ?_, ?_⟩ <;> exact Option.isNone_iff_eq_none.1 (by decide +kernel)

/-- C65 is false: the option `-l` listed in the help text of cencalvmgen is refused. -/
theorem C65_false_log : parseArgs genSpec ['i', 'o', 't']
    ["-i".toList, "p".toList, "-o".toList, "o".toList, "-t".toList, "t".toList, "-l".toList, "log".toList] = none :=
  Option.isNone_iff_eq_none.1 (by decide +kernel)

/-- C65 is false: an argument in the same word as its option is refused, although `getopt` accepts it. -/
theorem C65_false_attached : avgSpec.getopt ["-ia".toList, "-o".toList, "b".toList] = [.arg 'i' "a", .arg 'o' "b"] ∧
    parseArgs avgSpec ['i', 'o'] ["-ia".toList, "-o".toList, "b".toList] = none :=
  ⟨by decide +kernel, Option.isNone_iff_eq_none.1 (by decide +kernel)⟩

/-- C65 is false: a word that belongs to no option is accepted if an argument is in the same word as its option. -/
theorem C65_false_extra : (parseArgs avgSpec ['i', 'o'] ["-ia".toList, "junk".toList, "-o".toList, "b".toList]).map
    (fun a => (a 'i', a 'o')) = some ("a", "b") := by decide +kernel

/-! ### C66 -/

section
variable {K : Type} [Field K] [LinearOrder K] [IsStrictOrderedRing K]

theorem parse_io {spec : OptSpec} {i o : String} (hs : '-' ∉ spec.args) (h1 : 'i' ∈ spec.args) (h2 : 'o' ∈ spec.args)
    (hi : i ≠ "") (ho : o ≠ "") :
    ∃ a, parseArgs spec ['i', 'o'] (argsIO i o) = some a ∧ a 'i' = i ∧ a 'o' = o := by
  have hp := parseArgs_pairs (files := ['i', 'o']) hs (opts := [('i', i.toList), ('o', o.toList)])
    (by intro ov h; simp at h; rcases h with rfl | rfl <;> assumption)
  have h3 : lastArg [('i', i.toList), ('o', o.toList)] 'i' = some i := by simp [lastArg]
  have h4 : lastArg [('i', i.toList), ('o', o.toList)] 'o' = some o := by simp [lastArg]
  refine ⟨_, hp.trans (if_neg ?_), ?_, ?_⟩
  · simp [h3, h4, hi, ho]
  · simp [h3]
  · simp [h4]

theorem parse_iot {i o t : String} (hi : i ≠ "") (ho : o ≠ "") (ht : t ≠ "") :
    ∃ a, parseArgs genSpec ['i', 'o', 't'] (argsIOT i o t) = some a ∧ a 'i' = i ∧ a 'o' = o ∧ a 't' = t := by
  have hp := parseArgs_pairs (spec := genSpec) (files := ['i', 'o', 't']) (by decide)
    (opts := [('i', i.toList), ('o', o.toList), ('t', t.toList)])
    (by intro ov h; simp at h; rcases h with rfl | rfl | rfl <;> simp [genSpec])
  have h3 : lastArg [('i', i.toList), ('o', o.toList), ('t', t.toList)] 'i' = some i := by simp [lastArg]
  have h4 : lastArg [('i', i.toList), ('o', o.toList), ('t', t.toList)] 'o' = some o := by simp [lastArg]
  have h5 : lastArg [('i', i.toList), ('o', o.toList), ('t', t.toList)] 't' = some t := by simp [lastArg]
  refine ⟨_, hp.trans (if_neg ?_), ?_, ?_, ?_⟩
  · simp [h3, h4, h5, hi, ho, ht]
  · simp [h3]
  · simp [h4]
  · simp [h5]

theorem averageBy {env : AvgEngine.Env K} (he : env.Reliable) {db : Db K} (hdb : db.Good) (hne : db.entries ≠ [])
    (hno : db.NonOverlapping) (hroot : db.BelowRoot) {mean : List (Payload K) → Payload K → Prop}
    (hm : ∃ s, AvgEngine.average env db = .ok s () ∧ ∀ x ∈ s.out.entries, x ∉ db.entries →
      mean ((s.out.childrenOf x.addr.toKey).map Entry.payload) x.payload) :
    ∃ s, AvgEngine.average env db = .ok s () ∧ AverageBy mean db s.out := by
  obtain ⟨s, h, h1, h2, h3, h4⟩ := C27 he hdb hne hno hroot
  obtain ⟨s', h', h5⟩ := hm
  rw [h] at h'; cases h'
  refine ⟨s, h, h1, h2, fun e he => (h4 e he).1, fun x hx hn => ?_⟩
  rcases h3 x hx with h6 | ⟨h6, h7⟩
  · exact absurd h6 hn
  · exact ⟨h6, h7, h5 x hx hn⟩

/-- The octants of the average, whatever their values. -/
theorem averageShape {env : AvgEngine.Env K} (he : env.Reliable) {db : Db K} (hdb : db.Good) (hne : db.entries ≠ [])
    (hno : db.NonOverlapping) (hroot : db.BelowRoot) :
    ∃ s, AvgEngine.average env db = .ok s () ∧ AverageBy (fun _ _ => True) db s.out := by
  obtain ⟨s, h, -⟩ := C27 he hdb hne hno hroot
  exact averageBy he hdb hne hno hroot ⟨s, h, fun _ _ _ => trivial⟩

theorem averageOf {env : AvgEngine.Env K} (he : env.Reliable) (hx : env.Exact) {db : Db K} (hdb : db.Good)
    (hne : db.entries ≠ []) (hno : db.NonOverlapping) (hroot : db.BelowRoot) :
    ∃ s, AvgEngine.average env db = .ok s () ∧ AverageOf db s.out :=
  averageBy he hdb hne hno hroot (C28 he hx hdb hne hno)

/-- C66, what holds: if libetree does not fail, the input file is a database of octants below the root with a schema, and
the files are different, the program ends with code 0 or 1 and touches no file but the output.  The code is 0 exactly if
the input has the expected payload size and schema, at least one octant, and no octant inside another one; then the output
holds the average (of exact arithmetic if results are not rounded), the schema, and the metadata of the input with a note appended.  Missing: a close of the output that
fails (`C66_false_close`), an input without schema (`C66_false_schema`), the output being the input (`C66_false_same`). -/
theorem C66_partial {env : Averager.Env K} (he : env.engine.Reliable) (hc : env.closeLoss = none) (hcr : ∀ n, env.create n = false)
    (hs : env.schema = false) (hm : env.setMeta = false) {stamp i o : String} (hi : i ≠ "") (ho : o ≠ "")
    {disk : EtreeDisk K} {f : EtreeFile K} (hf : disk i = some f) {s : String} (hsc : f.schema = some s)
    (hg : f.db.Good) (hr : f.db.BelowRoot) (hio : o ≠ i) :
    ∃ code disk', avgMain env stamp (argsIO i o) disk = .ok (code, disk') ∧ (code = 0 ∨ code = 1) ∧
      (∀ n, n ≠ o → disk' n = disk n) ∧
      (code = 0 ↔ env.otherSize i = false ∧ s = SCHEMA ∧ f.db.entries ≠ [] ∧ f.db.NonOverlapping) ∧
      (code = 0 → ∃ out, disk' o = some ⟨out, some SCHEMA, f.appmeta.map (· ++ "\nspatially averaged on: " ++ stamp)⟩ ∧
        (env.engine.Exact → AverageOf f.db out)) := by
  obtain ⟨a, h1, h2, h3⟩ := parse_io (spec := avgSpec) (by decide) (by decide) (by decide) hi ho
  unfold avgMain
  rw [h1]
  simp only [h2, h3]
  unfold Averager.average
  rw [hf]
  simp only [hsc, hcr, hs, hm, hio, Bool.and_false, Bool.false_eq_true, if_false]
  by_cases hsz : env.otherSize i = true
  · rw [if_pos hsz]
    exact ⟨1, disk, rfl, Or.inr rfl, fun _ _ => rfl, by simp [hsz], by simp⟩
  rw [if_neg hsz]
  have hsz' : env.otherSize i = false := by simpa using hsz
  by_cases hss : s = SCHEMA
  swap
  · rw [if_pos hss]
    exact ⟨1, disk, rfl, Or.inr rfl, fun _ _ => rfl, by simp [hss], by simp⟩
  rw [if_neg (by simpa using hss)]
  have hset : ∀ (x : EtreeFile K) n, n ≠ o → disk.set o x n = disk n := fun x n hn => by simp [EtreeDisk.set, hn]
  by_cases hne : f.db.entries = []
  · have hav : AvgEngine.average env.engine f.db =
        .exc "Error occurred while initializing etree cursor." (AvgEngine.init env.engine Db.empty) := by
      unfold AvgEngine.average AvgEngine.fillOctants; rw [if_pos hne]
    rw [hav]
    exact ⟨1, _, rfl, Or.inr rfl, hset _, by simp [hne], by simp⟩
  by_cases hno : f.db.NonOverlapping
  · obtain ⟨t, ht, -⟩ := averageShape he hg hne hno hr
    have hA : env.engine.Exact → AverageOf f.db t.out := fun hx => by
      obtain ⟨t', ht', hA⟩ := averageOf he hx hg hne hno hr
      rw [ht] at ht'; cases ht'; exact hA
    rw [ht]
    refine ⟨0, _, rfl, Or.inl rfl, hset _, by simp [hsz', hss, hne, hno], fun _ => ⟨t.out, ?_, hA⟩⟩
    have hmeta : Averager.metainfo stamp f.appmeta = f.appmeta.map (· ++ "\nspatially averaged on: " ++ stamp) := by
      unfold Averager.metainfo
      cases f.appmeta with
      | none => rfl
      | some m =>
        simp only [Option.map_some, Option.some.injEq, String.append_assoc]
        rfl
    simp [EtreeDisk.set, Averager.stored, hc, hmeta]
  · have hbad : ∃ x ∈ f.db.entries, ∃ y ∈ f.db.entries, x.addr.toKey.Contains y.addr.toKey ∧ x ≠ y := by
      unfold Db.NonOverlapping at hno
      push Not at hno
      exact hno
    obtain ⟨x, hx, y, hy, hxy, hne'⟩ := hbad
    obtain ⟨t, ht⟩ := C30 he hg hx hy hne' (hr x hx) hxy
    rw [ht]
    exact ⟨1, _, rfl, Or.inr rfl, hset _, by simp [hno], by simp⟩

/-- An environment in which nothing fails. -/
def exAvgEnv : Averager.Env ℚ := ⟨exEnv, fun _ => false, false, false, fun _ => false, none, "error"⟩

/-- A disk with one file. -/
def exDisk (db : Db ℚ) (n : String) : Option (EtreeFile ℚ) := if n = "a" then some ⟨db, some SCHEMA, some "m"⟩ else none

/-- Exit code and contents of a file. -/
def codeAnd (name : String) (r : Outcome (Int × EtreeDisk ℚ)) : Option (Int × Option (List (Entry ℚ) × Option String)) :=
  match r with
  | .ok (c, d) => some (c, (d name).map fun f => (f.db.entries, f.appmeta))
  | _ => none

example : exAvgEnv.engine.Reliable ∧ exAvgDb.Good ∧ exAvgDb.BelowRoot ∧
    codeAnd "b" (avgMain exAvgEnv "now" (argsIO "a" "b") (exDisk exAvgDb)) =
      some (0, some (exAvgOut.entries, some "m\nspatially averaged on: now")) :=
  ⟨exEnv_reliable, exAvgDb_good, exAvgDb_belowRoot, by decide +kernel⟩

/-- C66 is false: if closing the output fails, all octants may be lost and the exit code is still 0. -/
theorem C66_false_close :
    codeAnd "b" (avgMain { exAvgEnv with closeLoss := some Db.empty } "now" (argsIO "a" "b") (exDisk exAvgDb)) =
      some (0, some ([], some "m\nspatially averaged on: now")) := by decide +kernel

/-- C66 is false: an input file without schema is undefined behaviour. -/
theorem C66_false_schema {env : Averager.Env K} {stamp i o : String} (hi : i ≠ "") (ho : o ≠ "") {disk : EtreeDisk K}
    {f : EtreeFile K} (hf : disk i = some f) (hs : f.schema = none) (hsz : env.otherSize i = false) :
    avgMain env stamp (argsIO i o) disk = .ub := by
  obtain ⟨a, h1, h2, h3⟩ := parse_io (spec := avgSpec) (by decide) (by decide) (by decide) hi ho
  unfold avgMain Averager.average
  simp only [h1, h2, hf, hsz, hs, Bool.false_eq_true, if_false]
  rfl

example : exAvgEnv.otherSize "a" = false := rfl

/-- C66 is false: a database can be averaged into itself; its file is truncated while it is read. -/
theorem C66_false_same {env : Averager.Env K} {stamp i : String} (hi : i ≠ "") {disk : EtreeDisk K} {f : EtreeFile K}
    (hf : disk i = some f) (hs : f.schema = some SCHEMA) (hsz : env.otherSize i = false) (hc : env.create i = false) :
    avgMain env stamp (argsIO i i) disk = .ub := by
  obtain ⟨a, h1, h2, h3⟩ := parse_io (spec := avgSpec) (by decide) (by decide) (by decide) hi hi
  unfold avgMain Averager.average
  simp only [h1, h2, h3, hf, hsz, hs, hc, Bool.false_eq_true, if_false, ne_eq, not_true_eq_false, if_true]
  rfl

example : exAvgEnv.otherSize "a" = false ∧ exAvgEnv.create "a" = false := ⟨rfl, rfl⟩

/-! ### C67 -/

/-- If averaging ends normally, no input octant lies inside another one. -/
theorem nonOverlapping_of_ok {env : AvgEngine.Env K} (he : env.Reliable) {db : Db K} (hg : db.Good) (hr : db.BelowRoot)
    {s : AvgEngine.Engine K} (h : AvgEngine.average env db = .ok s ()) : db.NonOverlapping := by
  intro x hx y hy hxy
  by_contra hne
  obtain ⟨t, ht⟩ := C30 he hg hx hy hne (hr x hx) hxy
  rw [h] at ht; cases ht

/-- In the average an input octant is the smallest stored one around any cell inside it. -/
theorem AverageBy.finest {mean : List (Payload K) → Payload K → Prop} {db out : Db K} (h : AverageBy mean db out) (hg : db.Good) (hno : db.NonOverlapping) {e : Entry K}
    (he : e ∈ db.entries) {k : Key} (hk : k.Aligned) (hc : e.addr.toKey.Contains k) : out.Finest k e := by
  refine ⟨h.keeps e he, hc, fun x hx hxk => ?_⟩
  by_contra hlt
  push Not at hlt
  have hxo := (h.good.octants x hx)
  have heo := (hg.octants e he)
  obtain ⟨h1, h2⟩ := (Key.contains_iff_trunc' heo.aligned hk).1 hc
  obtain ⟨h3, h4⟩ := (Key.contains_iff_trunc' hxo.aligned hk).1 hxk
  have hle : e.addr.toKey.level ≤ x.addr.toKey.level := hlt.le
  have hcx : e.addr.toKey.Contains x.addr.toKey := by
    rw [Key.contains_iff_trunc heo hxo]
    refine ⟨hle, ?_⟩
    conv_lhs => rw [← h4]
    rw [Key.trunc_trunc _ hle, h2]
  by_cases hin : x ∈ db.entries
  · have := hno e he x hin hcx
    subst this; exact lt_irrefl _ hlt
  · obtain ⟨-, ⟨-, y, hy, hxy, hne⟩, -⟩ := h.others x hx hin
    have := hno e he y hy (Key.contains_trans hcx hxy)
    subst this
    have := ((Key.contains_iff_trunc hxo heo).1 hxy).1
    exact absurd hlt (not_lt.2 this)

theorem genMain_iot {env : EtreeEnv} {nf : NumFmt K} {junk : Payload K} {g : Geom K} {files : String → Option (List Char)}
    {stamp i o t : String} (hi : i ≠ "") (ho : o ≠ "") (ht : t ≠ "") {disk disk' : EtreeDisk K}
    (h : genMain env nf junk g files stamp (argsIOT i o t) disk = .ok (0, disk')) :
    GridIngester.run env nf junk (some g) files disk i t o genDescription stamp = .ok disk' () := by
  obtain ⟨a, h1, h2, h3, h4⟩ := parse_iot hi ho ht
  unfold genMain at h
  rw [h1] at h
  simp only [h2, h3, h4] at h
  cases hr : GridIngester.run env nf junk (some g) files disk i t o genDescription stamp with
  | ub => rw [hr] at h; cases h
  | exc m d => rw [hr] at h; simp [finish] at h
  | ok d u => rw [hr] at h; simp [finish] at h; rw [h]

/-- What a run of cencalvmavg with code 0 has done. -/
theorem avgMain_io {env : Averager.Env K} (hc : env.closeLoss = none) {stamp i o : String} (hi : i ≠ "") (ho : o ≠ "")
    {disk disk' : EtreeDisk K} {f : EtreeFile K} (hf : disk i = some f)
    (h : avgMain env stamp (argsIO i o) disk = .ok (0, disk')) :
    ∃ s, AvgEngine.average env.engine f.db = .ok s () ∧
      disk' o = some ⟨s.out, some SCHEMA, Averager.metainfo stamp f.appmeta⟩ := by
  obtain ⟨a, h1, h2, h3⟩ := parse_io (spec := avgSpec) (by decide) (by decide) (by decide) hi ho
  unfold avgMain at h
  rw [h1] at h
  simp only [h2, h3] at h
  unfold Averager.average at h
  simp only [hf] at h
  split at h
  · cases h
  split at h
  · cases h
  split at h
  · cases h
  split at h
  · cases h
  split at h
  · cases h
  split at h
  · cases h
  split at h
  · cases h
  cases hr : AvgEngine.average env.engine f.db with
  | ub => rw [hr] at h; cases h
  | exc m d => rw [hr] at h; simp [finish] at h
  | ok s u =>
    rw [hr] at h
    simp only [finish, Outcome.ok.injEq, Prod.mk.injEq, true_and] at h
    exact ⟨s, rfl, by rw [← h]; simp [EtreeDisk.set, Averager.stored, hc]⟩

/-- The octants of the grids, if all their points with data lie inside the model. -/
theorem grids_inside {nf : NumFmt K} {g : Geom K} (hg : g.Lawful) {files : String → Option (List Char)} {ws : List String}
    {grids : List (List (Entry K))} (h : List.Forall₂ (GridOctants nf g files) ws grids)
    (hin : ∀ w ∈ ws, ∀ text, files w = some text → GridInside nf g text) :
    ∀ e ∈ grids.flatten, e.addr.toKey.Octant ∧ 0 < e.addr.level ∧ e.addr.type = .leaf := by
  induction h with
  | nil => simp
  | @cons w es ws grids hw h ih =>
    intro e he
    rw [List.flatten_cons, List.mem_append] at he
    rcases he with he | he
    swap
    · exact ih (fun w hw => hin w (by simp [hw])) e he
    obtain ⟨text, hf, ⟨hd, t, pts, t', h1, h2, h3, n, h4, h5⟩ | ⟨-, rfl⟩⟩ := hw
    swap
    · simp at he
    obtain ⟨hn, hp⟩ := hin w (by simp) text hf hd t pts t' h1 h2 h3 n h4
    obtain ⟨i, hi, rfl⟩ := List.getElem_of_mem he
    have hl := h5.length_eq
    have h6 := h5.get (i := i) (by omega) hi
    have hm : (pts.filter fun p => decide (HasData p))[i]'(by omega) ∈ pts.filter fun p => decide (HasData p) := List.getElem_mem _
    obtain ⟨hm1, hm2⟩ := List.mem_filter.1 hm
    obtain ⟨elev, code, c1, c2, -⟩ := h6
    obtain ⟨a, a1, a2⟩ := hp _ hm1 (by simpa using hm2) elev c1
    have a3 : g.lonLatElevToAddr _ _ _ elev = .ok (a, 0) := a1
    simp only [List.get_eq_getElem] at c2
    rw [a3] at c2
    cases c2
    have hk := hg.keeps _ _ _ _ _ _ a1
    exact ⟨a2, by rw [hk.1]; exact hn, hk.2⟩

theorem headerText_unique {nf : NumFmt K} {text : List Char} {h h' : GridIngester.Header K} {r r' : List Char}
    (h1 : HeaderText nf text h r) (h2 : HeaderText nf text h' r') : h = h' ∧ r = r' := by
  have e1 := GridIngester.readHeader_iff.1 ⟨h1, rfl⟩
  have e2 := GridIngester.readHeader_iff.1 ⟨h2, rfl⟩
  rw [e1] at e2
  cases e2
  exact ⟨rfl, rfl⟩

theorem pointsText_unique {nf : NumFmt K} {pts pts' : List (GridIngester.Point K)} {text r r' : List Char}
    (h1 : PointsText nf text pts r) (h2 : PointsText nf text pts' r') (hl : pts.length = pts'.length) : pts = pts' := by
  induction pts generalizing text pts' with
  | nil => exact (List.length_eq_zero_iff.1 hl.symm).symm
  | cons p pts ih =>
    cases pts' with
    | nil => cases hl
    | cons p' pts' =>
      obtain ⟨t, a1, a2, a3⟩ := h1
      obtain ⟨t', b1, b2, b3⟩ := h2
      have e1 := (GridIngester.readPoint_iff (junk := noDataPayload) (s := ⟨text, false, false⟩)).1 ⟨rfl, a1, a2⟩
      have e2 := (GridIngester.readPoint_iff (junk := noDataPayload) (s := ⟨text, false, false⟩)).1 ⟨rfl, b1, b2⟩
      rw [e1] at e2
      cases e2
      rw [ih a3 b3 (by simpa using hl)]

/-- C67: a database is created by cencalvmgen from grids whose points with data lie inside the model, and averaged by
cencalvmavg, both with exit code 0.  Then for every point with data of every grid named in the parameter file, a MAXRES query
on the result at any location in the cell of the point (at the resolution of its grid) answers with the values of the point
in SI units. -/
theorem C67 {env : EtreeEnv} (hadv : ∀ i, env.adv i = false) {nf : NumFmt K} {junk : Payload K} {g : Geom K} (hg : g.Lawful)
    {files : String → Option (List Char)} {aenv : Averager.Env K} (hae : aenv.engine.Reliable) (hcl : aenv.closeLoss = none)
    {stamp stamp' params tmp out avg : String} (hp0 : params ≠ "") (ht0 : tmp ≠ "") (ho0 : out ≠ "") (ha0 : avg ≠ "")
    {disk disk₁ disk₂ : EtreeDisk K}
    (hgen : genMain env nf junk g files stamp (argsIOT params out tmp) disk = .ok (0, disk₁))
    (havg : avgMain aenv stamp' (argsIO out avg) disk₁ = .ok (0, disk₂))
    {text : List Char} (hp : files params = some text) {ws : List String} (hws : WordsOf text ws) (hb : EndsBlank text)
    (hin : ∀ w ∈ ws, ∀ t, files w = some t → GridInside nf g t) :
    ∃ f, disk₂ avg = some f ∧ ∀ w ∈ ws, ∃ gt, files w = some gt ∧
      ∀ hd t pts t', HeaderText nf gt hd t → PointsText nf t pts t' → pts.length = hd.numTotal.toNat →
      ∀ p ∈ pts, HasData p → ∃ (n : Nat) (e : Entry K), g.level (nf.rd.double (hd.resHoriz * 1000)) = .ok (n : Int) ∧ e.addr.level = n ∧
        OctantFor nf.rd g n p e ∧
        ∀ {fmt : Fmt K} {q : VMQuery K}, q.Open g f.db → q.queryFn = .MAXRES →
        ∀ {lon lat elev : K}, NotSquashed q elev → ∀ {a : Addr}, CellOf g 31 lon lat elev a →
        e.addr.toKey.Contains a.toKey → PayloadOf fmt q lon lat elev e.payload := by
  obtain ⟨text', grids, f₁, b1, b2, b3, b4, b5, b6, b7, b8⟩ := C52 hadv (genMain_iot hp0 ho0 ht0 hgen)
  rw [hp] at b1; cases b1
  rw [C53_partial hws hb] at b2
  obtain ⟨s, c1, c2⟩ := avgMain_io hcl ho0 ha0 b3 havg
  have hall := grids_inside hg b2 hin
  have hgood : f₁.db.Good := ⟨fun e he => (hall e (b4.mem_iff.1 he)).1, b5⟩
  have hroot : f₁.db.BelowRoot := fun e he => (hall e (b4.mem_iff.1 he)).2.1
  have hno := nonOverlapping_of_ok hae hgood hroot c1
  obtain ⟨s', d1, d2⟩ := averageShape hae hgood b6 hno hroot
  rw [c1] at d1; cases d1
  refine ⟨_, c2, fun w hw => ?_⟩
  obtain ⟨i, hi, rfl⟩ := List.getElem_of_mem hw
  have hl := b2.length_eq
  obtain ⟨gt, e1, e2⟩ := b2.get hi (by omega)
  refine ⟨gt, e1, fun hd t pts t' h1 h2 h3 p hpp hdata => ?_⟩
  rcases e2 with ⟨hd', u, pts', u', g1, g2, g3, n, g4, g5⟩ | ⟨g1, -⟩
  swap
  · exact absurd h1 (g1 _ _)
  obtain ⟨rfl, rfl⟩ := headerText_unique h1 g1
  obtain rfl := pointsText_unique h2 g2 (h3.trans g3.symm)
  have hpm : p ∈ pts.filter fun p => decide (HasData p) := List.mem_filter.2 ⟨hpp, by simpa using hdata⟩
  obtain ⟨j, hj, rfl⟩ := List.getElem_of_mem hpm
  have hjl : j < (grids[i]'(by omega)).length := by have := g5.length_eq; simp only [List.get_eq_getElem] at this; omega
  have ho := g5.get hj hjl
  simp only [List.get_eq_getElem] at ho
  have hem : (grids[i]'(by omega))[j] ∈ f₁.db.entries :=
    b4.mem_iff.2 (List.mem_flatten.2 ⟨_, List.getElem_mem _, List.getElem_mem _⟩)
  have hx := hall _ (b4.mem_iff.1 hem)
  refine ⟨n, _, g4, ?_, ho, ?_⟩
  · obtain ⟨elev, code, -, k2, -⟩ := ho
    exact (hg.keeps _ _ _ _ _ _ k2).1
  · intro fmt q hq hm lon lat elev hs a ha hc
    refine maxres_finest fmt hq hm hs ha (d2.finest hgood hno hem (hg.aligned _ _ _ _ _ ha) hc) hx.2.2 (Or.inl ?_)
    obtain ⟨elev, code, -, -, -, -, -, -, -, -, k, -⟩ := ho
    rw [k]
    exact hdata.1

deriving instance DecidableEq for GridIngester.Point

/-- The example grid after the header. -/
def exRest1 : List Char :=
  ("\n220 40 -350 2 1.5 2.5 100 50 -999 1 7 3\n" ++ "220 40 -0.1 2 1.5 2.5 100 50 0.03 0 7 3\n").toList
/-- The example grid after the first point. -/
def exRest2 : List Char := "\n220 40 -0.1 2 1.5 2.5 100 50 0.03 0 7 3\n".toList
/-- The first point. -/
def exPoint1 : GridIngester.Point ℚ := ⟨220, 40, -350, ⟨2, 3 / 2, 5 / 2, 100, 50, -999, 1, 7⟩, 3⟩
/-- The second point. -/
def exPoint2 : GridIngester.Point ℚ := ⟨220, 40, -1 / 10, ⟨2, 3 / 2, 5 / 2, 100, 50, 3 / 100, 0, 7⟩, 3⟩

theorem exHeaderText : HeaderText exNumFmt exGridText ⟨4096 / 5, 1024 / 5, 1, 1, 2, 2⟩ exRest1 :=
  (GridIngester.readHeader_iff (e := false)).2 (by decide +kernel) |>.1

theorem exPointsText : PointsText exNumFmt exRest1 [exPoint1, exPoint2] ['\n'] := by
  have f2 : GridIngester.readPoint exNumFmt exStored ⟨exRest1, false, false⟩ = (⟨exRest2, false, false⟩, exPoint1) := by
    decide +kernel
  have f4 : GridIngester.readPoint exNumFmt exStored ⟨exRest2, false, false⟩ = (⟨['\n'], false, false⟩, exPoint2) := by
    decide +kernel
  obtain ⟨g1, g2, g3⟩ := GridIngester.readPoint_iff.2 f2
  obtain ⟨k1, k2, k3⟩ := GridIngester.readPoint_iff.2 f4
  exact ⟨_, g2, g3, _, k2, k3, rfl⟩

/-- The points with data of the example grid lie inside the model. -/
theorem exInside : GridInside exNumFmt exGeom exGridText := by
  intro hd t pts t' h1 h2 h3 n h4
  obtain ⟨rfl, rfl⟩ := headerText_unique h1 exHeaderText
  obtain rfl := pointsText_unique h2 exPointsText h3
  have hn : n = 1 := by
    have : (Outcome.ok 1 : Outcome Int) = .ok (n : Int) := h4
    cases n with
    | zero => cases this
    | succ n => simp at this; omega
  subst hn
  refine ⟨Nat.one_pos, fun p hp hd elev he => ?_⟩
  simp only [List.mem_cons, List.not_mem_nil, or_false] at hp
  rcases hp with rfl | rfl
  · have : elev = -350000 := by
      rcases he with ⟨h, -⟩ | ⟨-, h⟩
      · norm_num [exPoint1] at h
      · rw [h]; decide +kernel
    subst this
    exact ⟨⟨⟨0, 0, 0, 1⟩, .leaf⟩, by unfold CellOf; decide +kernel, by decide +kernel⟩
  · exact absurd rfl hd.1

/-- The disk after a program with code 0. -/
def diskOf {K : Type} (r : Outcome (Int × EtreeDisk K)) : EtreeDisk K :=
  match r with
  | .ok (0, d) => d
  | _ => fun _ => none

/-- Both programs end with code 0 for the example grid, and a query near the point answers with its values. -/
example : (∀ i, exEtree.adv i = false) ∧ WordsOf "g\n".toList ["g"] ∧ EndsBlank "g\n".toList ∧ exRunFiles "p" = some "g\n".toList ∧
    exRunFiles "g" = some exGridText ∧ GridInside exNumFmt exGeom exGridText ∧
    codeAnd "o" (genMain exEtree exNumFmt exStored exGeom exRunFiles "s" (argsIOT "p" "o" "t") fun _ => none) =
      some (0, some ([⟨⟨⟨0, 0, 0, 1⟩, .leaf⟩, exStored⟩], some (genDescription ++ "\ns"))) ∧
    codeAnd "a" (avgMain exAvgEnv "s" (argsIO "o" "a")
        (diskOf (genMain exEtree exNumFmt exStored exGeom exRunFiles "s" (argsIOT "p" "o" "t") fun _ => none))) =
      some (0, some ([⟨⟨⟨0, 0, 0, 0⟩, .interior⟩, { exStored with faultBlock := -999, zone := -999 }⟩,
        ⟨⟨⟨0, 0, 0, 1⟩, .leaf⟩, exStored⟩], some (genDescription ++ "\ns\nspatially averaged on: s"))) ∧
    PayloadOf exFmt { VMQuery.init exGeom with db := some ⟨[⟨⟨⟨0, 0, 0, 0⟩, .interior⟩, { exStored with faultBlock := -999, zone := -999 }⟩,
        ⟨⟨⟨0, 0, 0, 1⟩, .leaf⟩, exStored⟩]⟩ } 230 45 (-350500) exStored :=
  ⟨fun _ => rfl, WordsOf.cons (space := []) (w := ['g']) (t := ['\n']) (by simp) (by decide) (by decide) (by decide)
    (.nil (by decide)), by decide +kernel, rfl, rfl, exInside, by decide +kernel, by decide +kernel, payloadOf_of_vals (by decide +kernel)⟩

/-! ### C68 -/

theorem gridCounts {nf : NumFmt K} {g : Geom K} {files : String → Option (List Char)} {ws : List String}
    {grids : List (List (Entry K))} (h : List.Forall₂ (GridOctants nf g files) ws grids) :
    ∃ cs, List.Forall₂ (GridCount nf files) ws cs ∧ grids.flatten.length = cs.sum := by
  induction h with
  | nil => exact ⟨[], .nil, rfl⟩
  | @cons w es ws grids hw h ih =>
    obtain ⟨cs, h1, h2⟩ := ih
    refine ⟨es.length :: cs, .cons ?_ h1, by simp [h2]⟩
    obtain ⟨text, hf, ⟨hd, t, pts, t', k1, k2, k3, n, k4, k5⟩ | ⟨k1, rfl⟩⟩ := hw
    · exact ⟨text, hf, Or.inl ⟨hd, t, pts, t', k1, k2, k3, by rw [← k5.length_eq, List.countP_eq_length_filter]⟩⟩
    · exact ⟨text, hf, Or.inr ⟨k1, rfl⟩⟩

/-- C68: after cencalvmgen with code 0, cencalvminfo prints the description and the schema, and as number of octants the
number of points with data of the grids named in the parameter file; its code is 0. -/
theorem C68 {env : EtreeEnv} (hadv : ∀ i, env.adv i = false) {nf : NumFmt K} {junk : Payload K} {g : Geom K}
    {files : String → Option (List Char)} {stamp params tmp out : String} (hp0 : params ≠ "") (ht0 : tmp ≠ "") (ho0 : out ≠ "")
    {disk disk₁ : EtreeDisk K}
    (hgen : genMain env nf junk g files stamp (argsIOT params out tmp) disk = .ok (0, disk₁))
    {text : List Char} (hp : files params = some text) {ws : List String} (hws : WordsOf text ws) (hb : EndsBlank text) :
    ∃ counts, List.Forall₂ (GridCount nf files) ws counts ∧ 0 < counts.sum ∧
      infoMain false [out.toList] disk₁ = (0, ⟨some (genDescription ++ "\n" ++ stamp), some SCHEMA, some counts.sum⟩) := by
  obtain ⟨text', grids, f₁, b1, b2, b3, b4, b5, b6, b7, b8⟩ := C52 hadv (genMain_iot hp0 ho0 ht0 hgen)
  rw [hp] at b1; cases b1
  rw [C53_partial hws hb] at b2
  obtain ⟨cs, c1, c2⟩ := gridCounts b2
  refine ⟨cs, c1, ?_, ?_⟩
  · rw [← c2, ← b4.length_eq]; exact List.length_pos_iff.2 b6
  · unfold infoMain
    simp only [String.ofList_toList, b3, b8, b7, b4.length_eq, c2, Bool.false_eq_true, if_false]
    rfl

/-- The example grid has one point with data. -/
example : GridCount exNumFmt exRunFiles "g" 1 ∧ infoMain false ["o".toList]
    (diskOf (genMain exEtree exNumFmt exStored exGeom exRunFiles "s" (argsIOT "p" "o" "t") fun _ => none)) =
      (0, ⟨some (genDescription ++ "\ns"), some SCHEMA, some 1⟩) := by
  refine ⟨⟨exGridText, rfl, Or.inl ?_⟩, by decide +kernel⟩
  exact ⟨_, _, _, _, exHeaderText, exPointsText, rfl, by decide +kernel⟩

/-- C68: after cencalvmavg with code 0 on a file with metadata, cencalvminfo prints this with the note on averaging, the
schema, and as number of octants that of the input and its proper ancestors; its code is 0. -/
theorem C68_averaged {env : Averager.Env K} (he : env.engine.Reliable) (hc : env.closeLoss = none) {stamp i o : String}
    (hi : i ≠ "") (ho : o ≠ "") {disk disk' : EtreeDisk K} {f : EtreeFile K} (hf : disk i = some f) {m : String}
    (hm : f.appmeta = some m) (hg : f.db.Good) (hr : f.db.BelowRoot)
    (h : avgMain env stamp (argsIO i o) disk = .ok (0, disk')) :
    ∃ ks : List Key, ks.Nodup ∧ (∀ k, k ∈ ks ↔ f.db.ProperAncestor k) ∧
      infoMain false [o.toList] disk' =
        (0, ⟨some (m ++ "\nspatially averaged on: " ++ stamp), some SCHEMA, some (f.db.entries.length + ks.length)⟩) := by
  obtain ⟨s, c1, c2⟩ := avgMain_io hc hi ho hf h
  have hne : f.db.entries ≠ [] := by
    intro h0
    unfold AvgEngine.average AvgEngine.fillOctants at c1
    rw [if_pos h0] at c1; cases c1
  obtain ⟨s', ks, d1, d2, d3, d4, d5, d6, d7, -⟩ := C31 he hg hne (nonOverlapping_of_ok he hg hr c1)
  rw [c1] at d1; cases d1
  refine ⟨ks, d2, d3, ?_⟩
  have hcount : s.out.entries.length = f.db.entries.length + ks.length := by
    rw [← d5, d7, d4, d6, List.filter_eq_self.2 fun e hx => by simpa using hr e hx]
  have hmeta : m ++ "\n" ++ "spatially averaged on: " ++ stamp = m ++ "\nspatially averaged on: " ++ stamp := by
    simp only [String.append_assoc]; rfl
  unfold infoMain
  simp only [String.ofList_toList, c2, Averager.metainfo, hm, Option.map_some, hcount, hmeta, Bool.false_eq_true, if_false]

example : infoMain false ["b".toList] (diskOf (avgMain exAvgEnv "now" (argsIO "a" "b") (exDisk exAvgDb))) =
    (0, ⟨some "m\nspatially averaged on: now", some SCHEMA, some 5⟩) := by decide +kernel

/-- C68: code 0 means that the file exists and has metadata and a schema, which are printed with the number of octants. -/
theorem C68_zero {closeFail : Bool} {argv : List (List Char)} {disk : EtreeDisk K} {info : Info}
    (h : infoMain closeFail argv disk = (0, info)) :
    ∃ name f, argv = [String.toList name] ∧ disk name = some f ∧ f.appmeta.isSome ∧ f.schema.isSome ∧
      info = ⟨f.appmeta, f.schema, some f.db.entries.length⟩ := by
  unfold infoMain at h
  split at h
  swap
  · cases h
  split at h
  · cases h
  rename_i name _ f hf
  split at h
  · cases h
  rename_i m hm
  split at h
  · cases h
  rename_i s hs
  split at h
  · cases h
  cases h
  exact ⟨String.ofList name, f, by simp, hf, by simp [hm], by simp [hs], by rw [hm, hs]⟩

example : infoMain false ["a".toList] (exDisk exAvgDb) = (0, ⟨some "m", some SCHEMA, some 3⟩) := by decide +kernel

/-! ### C69 -/

/-- C69, what holds: cencalvmpack with code 0 has left in the output a copy of the input: the same octants in the same
order, the same metadata, and the schema of the model.  Missing: a read error while advancing (`C69_false`), the output being
the input (`C69_false_same`). -/
theorem C69_partial {env : EtreeEnv} {i o : String} (hi : i ≠ "") (ho : o ≠ "") {disk disk' : EtreeDisk K} {f : EtreeFile K}
    (hf : disk i = some f) (hadv : ∀ k, k + 1 < f.db.entries.length → env.adv k = false)
    (h : packMain env (argsIO i o) disk = .ok (0, disk')) :
    f.db.entries ≠ [] ∧ ∃ f', disk' o = some f' ∧ f'.db.entries = f.db.entries ∧ f'.appmeta = f.appmeta ∧ f'.schema = some SCHEMA := by
  obtain ⟨a, h1, h2, h3⟩ := parse_io (spec := packSpec) (by decide) (by decide) (by decide) hi ho
  unfold packMain at h
  rw [h1] at h
  simp only [h2, h3] at h
  cases hr : VMCreator.packDB env disk o i with
  | ub => rw [hr] at h; cases h
  | exc m d => rw [hr] at h; simp [finish] at h
  | ok d u =>
    rw [hr] at h
    simp only [finish, Outcome.ok.injEq, Prod.mk.injEq, true_and] at h
    subst h
    refine ⟨fun h0 => ?_, C35_faults hf hadv hr⟩
    obtain ⟨m, d', hx⟩ := C35_empty env (packed := o) hf h0 (packDB_ne hr)
    rw [hx] at hr; cases hr

/-- C69, in addition: the code is 0 only if no call of libetree failed, apart from advancing the cursor. -/
theorem C69_reports {env : EtreeEnv} {i o : String} (hi : i ≠ "") (ho : o ≠ "") {disk disk' : EtreeDisk K} {f : EtreeFile K}
    (hf : disk i = some f) (hadv : ∀ k, k + 1 < f.db.entries.length → env.adv k = false)
    (h : packMain env (argsIO i o) disk = .ok (0, disk')) :
    env.create o = false ∧ env.schema = false ∧ (f.appmeta ≠ none → env.setMeta = false) ∧ env.beginAppend = false ∧
      (∀ k < f.db.entries.length, env.get k = false ∧ env.append k = false) ∧ env.endAppend = false ∧ env.closeIn = false ∧
      env.closeOut = false := by
  obtain ⟨a, h1, h2, h3⟩ := parse_io (spec := packSpec) (by decide) (by decide) (by decide) hi ho
  unfold packMain at h
  rw [h1] at h
  simp only [h2, h3] at h
  cases hr : VMCreator.packDB env disk o i with
  | ub => rw [hr] at h; cases h
  | exc m d => rw [hr] at h; simp [finish] at h
  | ok d u => exact C35_reports hf hadv hr

/-- cencalvmpack with code 0. -/
example : (codeAnd "b" (packMain exEtree (argsIO "a" "b") (exDisk exAvgDb))).map Prod.fst = some 0 ∧
    (exDisk exAvgDb "a").map (fun f => f.db.entries.length) = some 3 := by decide +kernel

/-- C69: if libetree does not fail and the files are different, the code is 0 exactly if the input exists and has an octant, else 1; no file but the
output is touched. -/
theorem C69_code {env : EtreeEnv} (he : env.Reliable) {i o : String} (hi : i ≠ "") (ho : o ≠ "") {disk : EtreeDisk K}
    (hs : ∀ f, disk i = some f → f.db.Sorted) (hio : o ≠ i) :
    ∃ code disk', packMain env (argsIO i o) disk = .ok (code, disk') ∧ (code = 0 ∨ code = 1) ∧
      (code = 0 ↔ ∃ f, disk i = some f ∧ f.db.entries ≠ []) ∧ ∀ n, n ≠ o → disk' n = disk n := by
  obtain ⟨a, h1, h2, h3⟩ := parse_io (spec := packSpec) (by decide) (by decide) (by decide) hi ho
  unfold packMain
  rw [h1]
  simp only [h2, h3]
  cases hf : disk i with
  | none =>
    unfold VMCreator.packDB
    rw [hf]
    exact ⟨1, disk, rfl, Or.inr rfl, by simp, fun _ _ => rfl⟩
  | some f =>
    by_cases hne : f.db.entries = []
    · unfold VMCreator.packDB
      simp only [hf, he.create, he.schema, he.setMeta, hne, hio, Bool.and_false, Bool.false_eq_true, if_false, if_true]
      refine ⟨1, _, rfl, Or.inr rfl, ?_, fun n hn => by simp [EtreeDisk.set, hn]⟩
      simp only [Option.some.injEq, exists_eq_left', hne, ne_eq, not_true_eq_false, iff_false]
      decide
    · obtain ⟨disk', f', k1, -, -, -, -, -, -, k2⟩ := C35 he (packed := o) hf (hs f hf) hne hio
      rw [k1]
      exact ⟨0, disk', rfl, Or.inl rfl, by simp [hne], k2⟩

example : exEtree.Reliable ∧ exAvgDb.Sorted ∧ codeAnd "b" (packMain exEtree (argsIO "a" "b") (exDisk exAvgDb)) =
    some (0, some (exAvgDb.entries, some "m")) := ⟨exEtree_reliable, exAvgDb_good.sorted, by decide +kernel⟩

/-- C69 is false: a read error while advancing is taken for the end of the input, and the code is 0. -/
theorem C69_false : codeAnd "b" (packMain exEtreeAdv (argsIO "a" "b") (exDisk exAvgDb)) =
    some (0, some (exAvgDb.entries.take 1, some "m")) := by decide +kernel

/-- C69 is false: a database can be packed into itself; its file is truncated while it is read. -/
theorem C69_false_same {env : EtreeEnv} {i : String} (hi : i ≠ "") {disk : EtreeDisk K} {f : EtreeFile K} (hf : disk i = some f)
    (hc : env.create i = false) : packMain env (argsIO i i) disk = .ub := by
  obtain ⟨a, h1, h2, h3⟩ := parse_io (spec := packSpec) (by decide) (by decide) (by decide) hi hi
  unfold packMain
  simp only [h1, h2, h3, C35_same hf hc]
  rfl

example : exEtree.create "a" = false := rfl

end
end FileApps
end CenCalVM
