/-
Properties C115 to C118: what cencalvmavg, cencalvmgen and cencalvmpack write to the console.
-/
import Verif.Lemmas.Console
import Verif.Props.FileApps

set_option linter.unusedSectionVars false

namespace CenCalVM
namespace Console
open GridIngester VMCreator FileApps
variable {K : Type} [Field K] [LinearOrder K] [IsStrictOrderedRing K]

/-! ### C115 -/

/-- C115: writing to the console changes neither the exit code nor the files. -/
theorem C115_silent (env : Averager.Env K) (size : String → Nat) (stamp : String) (argv : List (List Char)) (disk : EtreeDisk K) :
    files (avgMain env size stamp argv disk) = FileApps.avgMain env stamp argv disk := by
  unfold avgMain FileApps.avgMain
  cases parseArgs avgSpec ['i', 'o'] argv with
  | none => rfl
  | some a => exact finish_drop average_drop

/-- C115: if cencalvmavg returns 0, standard error is empty, and standard output consists of the numbers of octants of the input,
of the output, and of proper ancestors of octants of the input; and the numbers of these that have in the output just the four
children at the lower end in x, y or z, the two at the lower end in two directions, the one at the lower end in all; and of those
with any other incomplete set of children. -/
theorem C115 {env : Averager.Env K} {size : String → Nat} (he : env.engine.Reliable) (hc : env.closeLoss = none) {stamp i o : String}
    (hi : i ≠ "") (ho : o ≠ "") {disk disk' : EtreeDisk K} {con : Console} {f : EtreeFile K} (hf : disk i = some f)
    (hg : f.db.Good) (hr : f.db.BelowRoot) (h : avgMain env size stamp (argsIO i o) disk = .ok (0, disk', con)) :
    ∃ (f' : EtreeFile K) (ks : List Key) (inv : Nat), disk' o = some f' ∧ ks.Nodup ∧ (∀ k, k ∈ ks ↔ f.db.ProperAncestor k) ∧
      con.err = "" ∧
      con.out = "Summary of etree averaging\n" ++ "Number of octants\n" ++ s!"  IN: {f.db.entries.length}\n" ++
        s!"  OUT total: {f'.db.entries.length}, interior: {ks.length}\n" ++ "Incomplete octants\n" ++
        s!"  x: {ks.countP fun k => f'.db.ChildrenAt k [0, 2, 4, 6]}\n" ++
        s!"  y: {ks.countP fun k => f'.db.ChildrenAt k [0, 1, 4, 5]}\n" ++
        s!"  z: {ks.countP fun k => f'.db.ChildrenAt k [0, 1, 2, 3]}\n" ++
        s!"  xy: {ks.countP fun k => f'.db.ChildrenAt k [0, 4]}\n" ++
        s!"  yz: {ks.countP fun k => f'.db.ChildrenAt k [0, 1]}\n" ++
        s!"  xz: {ks.countP fun k => f'.db.ChildrenAt k [0, 2]}\n" ++
        s!"  xyz: {ks.countP fun k => f'.db.ChildrenAt k [0]}\n" ++
        s!"  invalid: {inv}\n" ++ "\n" ∧
      (ks.countP fun k => f'.db.ChildrenAt k [0, 2, 4, 6]) + (ks.countP fun k => f'.db.ChildrenAt k [0, 1, 4, 5]) +
        (ks.countP fun k => f'.db.ChildrenAt k [0, 1, 2, 3]) + (ks.countP fun k => f'.db.ChildrenAt k [0, 4]) +
        (ks.countP fun k => f'.db.ChildrenAt k [0, 1]) + (ks.countP fun k => f'.db.ChildrenAt k [0, 2]) +
        (ks.countP fun k => f'.db.ChildrenAt k [0]) + inv =
          ks.countP fun k => ¬ f'.db.ChildrenAt k [0, 1, 2, 3, 4, 5, 6, 7] := by
  have hs := C115_silent env size stamp (argsIO i o) disk
  rw [h] at hs
  obtain ⟨s, c1, c2⟩ := avgMain_io hc hi ho hf hs.symm
  have hne : f.db.entries ≠ [] := by
    intro h0
    unfold AvgEngine.average AvgEngine.fillOctants at c1
    rw [if_pos h0] at c1; cases c1
  obtain ⟨s', ks, d1, d2, d3, d4, d5, d6, d7, e1, e2, e3, e4, e5, e6, e7, e8⟩ := C31 he hg hne (nonOverlapping_of_ok he hg hr c1)
  rw [c1] at d1; cases d1
  refine ⟨_, ks, s.cnt.incInvalid, c2, d2, d3, ?_⟩
  obtain ⟨a, h1, h2, h3⟩ := parse_io (spec := avgSpec) (by decide) (by decide) (by decide) hi ho
  unfold avgMain at h
  rw [h1] at h
  simp only [h2, h3, average, hf, Option.map_some, c1] at h
  cases hA : Averager.average env disk i o stamp with
  | ub => rw [hA] at h; cases h
  | exc m d => rw [hA] at h; simp [finish] at h
  | ok d u =>
    rw [hA] at h
    simp only [finish, Outcome.ok.injEq, Prod.mk.injEq, true_and] at h
    obtain ⟨-, rfl⟩ := h
    have hin : (f.db.entries.filter fun e => decide (0 < e.addr.level)) = f.db.entries :=
      List.filter_eq_self.2 fun e hx => by simpa using hr e hx
    rw [hin] at d4
    dsimp only
    rw [← e1, ← e2, ← e3, ← e4, ← e5, ← e6, ← e7, ← d4, ← d5, ← d6]
    refine ⟨rfl, ?_, e8⟩
    rw [cout_false]
    dsimp only [start]
    unfold octantInfo
    generalize s.cnt = c
    simp only [String.empty_append, String.append_assoc]
    rfl

/-- The example database: three octants in, five out, two of them interior with two children side by side in x. -/
example : exAvgEnv.engine.Reliable ∧ exAvgDb.Good ∧ exAvgDb.BelowRoot ∧
    (match avgMain exAvgEnv (fun _ => 28) "now" (argsIO "a" "b") (FileApps.exDisk exAvgDb) with
      | .ok (c, _, con) => some (c, con)
      | _ => none) = some (0, ⟨"Summary of etree averaging\nNumber of octants\n  IN: 3\n  OUT total: 5, interior: 2\nIncomplete octants\n" ++
        "  x: 0\n  y: 0\n  z: 0\n  xy: 0\n  yz: 2\n  xz: 0\n  xyz: 0\n  invalid: 0\n\n", ""⟩) :=
  ⟨exEnv_reliable, exAvgDb_good, exAvgDb_belowRoot, by decide +kernel⟩

/-- C115: if the arguments are wrong or averaging fails the code is 1 and there is no report. -/
theorem C115_fails {env : Averager.Env K} {size : String → Nat} {stamp : String} {argv : List (List Char)} {disk disk' : EtreeDisk K}
    {c : Int} {con : Console} (h : avgMain env size stamp argv disk = .ok (c, disk', con)) (hc : c ≠ 0) :
    con.out = "" ∧ c = 1 := by
  unfold avgMain at h
  split at h
  · cases h; exact ⟨rfl, rfl⟩
  · unfold average at h
    split at h
    · cases h
    · cases h; exact ⟨rfl, rfl⟩
    · split at h <;> cases h <;> exact absurd rfl hc

example : (match avgMain exAvgEnv (fun _ => 28) "now" (argsIO "x" "b") (FileApps.exDisk exAvgDb) with
      | .ok (c, _, con) => some (c, con)
      | _ => none) = some (1, ⟨"", "Could not open etree database 'x' for averaging."⟩) := by decide +kernel

/-! ### C116 -/

/-- C116: writing to the console changes neither the exit code nor the files of cencalvmgen. -/
theorem C116_silent (env : EtreeEnv) (fmt : Fmt K) (nf : NumFmt K) (junk : Payload K) (g : Geom K) (fs : String → Option (List Char))
    (stamp : String) (argv : List (List Char)) (disk : EtreeDisk K) :
    files (genMain env fmt nf junk g fs stamp argv disk) = FileApps.genMain env nf junk g fs stamp argv disk := by
  unfold genMain FileApps.genMain
  cases parseArgs genSpec ['i', 'o', 't'] argv with
  | none => rfl
  | some a => exact finish_drop run_drop

/-- C116: the same for cencalvmpack; with code 0 it writes two lines to standard output and nothing to standard error. -/
theorem C116_pack (env : EtreeEnv) (argv : List (List Char)) (disk : EtreeDisk K) :
    files (packMain env argv disk) = FileApps.packMain env argv disk ∧
    ∀ i o disk' con, i ≠ "" → o ≠ "" → argv = argsIO i o → packMain env argv disk = .ok (0, disk', con) →
      con = ⟨s!"Creating packed etree database '{o}' from unpacked etree database '{i}'.\n" ++ "Done packing etree database.\n", ""⟩ := by
  constructor
  · unfold packMain FileApps.packMain
    cases parseArgs packSpec ['i', 'o'] argv with
    | none => rfl
    | some a => exact finish_drop (by rw [packDB_drop]; exact Same.refl _)
  · rintro i o disk' con hi ho rfl h
    obtain ⟨a, h1, h2, h3⟩ := parse_io (spec := packSpec) (by decide) (by decide) (by decide) hi ho
    unfold packMain at h
    rw [h1] at h
    simp only [h2, h3, packDB] at h
    split at h
    · cases h
    · cases h
    · cases h
      simp only [cout_false, start, String.empty_append]
      rfl

/-- C116: if cencalvmgen returns 0, its standard output tells, in order, the number of grid files named in the parameter file, the
temporary file opened, for each grid file how many points have a fault block and a zone and how many not, the temporary file closed
and the output file packed; standard error has a line for each of the points left out, in order; and the numbers of points added
are together the number of octants in the output. -/
theorem C116 {env : EtreeEnv} (hadv : ∀ i, env.adv i = false) {fmt : Fmt K} {nf : NumFmt K} {junk : Payload K} {g : Geom K}
    {fs : String → Option (List Char)} {stamp params tmp out : String} (hp0 : params ≠ "") (ht0 : tmp ≠ "") (ho0 : out ≠ "")
    {disk disk' : EtreeDisk K} {con : Console}
    (h : genMain env fmt nf junk g fs stamp (argsIOT params out tmp) disk = .ok (0, disk', con))
    {text : List Char} (hp : fs params = some text) {ws : List String} (hws : WordsOf text ws) (hb : EndsBlank text) :
    ∃ rs f', List.Forall₂ (GridReport fmt nf fs) ws rs ∧ disk' out = some f' ∧
      f'.db.entries.length = (rs.map GridSays.added).sum ∧
      con.out = s!"Starting processing of {ws.length} grid files.\n" ++ s!"Opening new etree database '{tmp}'.\n" ++
        "Finished preparing database.\n" ++ concat (rs.map GridSays.out) ++ s!"Closing database '{tmp}'.\n" ++
        s!"Creating packed etree database '{out}' from unpacked etree database '{tmp}'.\n" ++ "Done packing etree database.\n" ∧
      con.err = concat (rs.map GridSays.err) := by
  have hs := C116_silent env fmt nf junk g fs stamp (argsIOT params out tmp) disk
  rw [h] at hs
  obtain ⟨text', grids, f₁, b1, b2, b3, b4, -⟩ := C52 hadv (genMain_iot hp0 ho0 ht0 hs.symm)
  rw [hp] at b1; cases b1
  rw [C53_partial hws hb] at b2
  obtain ⟨cs, c1, c2⟩ := gridCounts b2
  obtain ⟨a, h1, h2, h3, h4⟩ := parse_iot hp0 ho0 ht0
  unfold genMain at h
  rw [h1] at h
  simp only [h2, h3, h4, run, hp, C53_partial hws hb] at h
  unfold openDB at h
  dsimp only at h
  cases ho : VMCreator.openDB env (VMCreator.init disk) tmp genDescription stamp with
  | ub => rw [ho] at h; cases h
  | exc m c => rw [ho] at h; simp [finish] at h
  | ok c u =>
    rw [ho] at h
    dsimp only at h
    have hname : c.filename = tmp := by
      unfold VMCreator.openDB at ho
      split at ho
      · cases ho
      · split at ho
        · cases ho
        · split at ho
          · cases ho
          · cases ho; rfl
    cases hg : addGrids env fmt nf junk (some g) false fs ws c
        (((start.cout false ("Starting processing of " ++ toString ws.length ++ " grid files.\n")).cout false
          ("Opening new etree database '" ++ tmp ++ "'.\n")).cout false "Finished preparing database.\n") with
    | ub => rw [hg] at h; cases h
    | exc m t => rw [hg] at h; simp [finish] at h
    | ok t u =>
      obtain ⟨c', con'⟩ := t
      rw [hg] at h
      dsimp only at h
      obtain ⟨rs, d1, d2, d3⟩ := addGrids_says hg
      have hname' : c'.filename = tmp := (addGrids_filename hg).trans hname
      unfold packDB at h
      dsimp only at h
      split at h
      · cases h
      · cases h
      · cases h
        refine ⟨rs, f₁, d1, b3, ?_, ?_, ?_⟩
        · rw [counts_unique d1 c1, b4.length_eq, c2]
        · simp only [cout_false, start, d2, hname', String.empty_append, String.append_assoc]
          rfl
        · simp only [cout_false, start, d3, String.empty_append]

/-- Whole numbers in decimal notation (the example has no others). -/
def exTalkFmt : Fmt ℚ := ⟨fun x => toString x.num, fun x => toString x.num, fun _ => ""⟩

/-- The example: of the two points of the grid the second has no fault block. -/
example : WordsOf "g\n".toList ["g"] ∧ EndsBlank "g\n".toList ∧ exRunFiles "p" = some "g\n".toList ∧
    (match genMain exEtree exTalkFmt exNumFmt exStored exGeom exRunFiles "s" (argsIOT "p" "o" "t") (fun _ => none) with
      | .ok (c, _, con) => some (c, con)
      | _ => none) = some (0, ⟨"Starting processing of 1 grid files.\nOpening new etree database 't'.\nFinished preparing database.\n" ++
        "Beginning processing of 'g'...\nDone procesing 'g'.  # points added: 1,  # points ignored: 1\nClosing database 't'.\n" ++
        "Creating packed etree database 'o' from unpacked etree database 't'.\nDone packing etree database.\n",
        "220, 40, -100, Ignoring\n"⟩) :=
  ⟨WordsOf.cons (space := []) (w := "g".toList) (t := "\n".toList) (by simp) (by decide) (by decide +kernel) (by decide +kernel)
    (WordsOf.nil (by decide +kernel)), by decide +kernel, rfl, by decide +kernel⟩

/-- C116: with the flag `quiet` an ingestion writes nothing to standard output, and nothing to standard error unless it fails. -/
theorem C116_quiet {env : EtreeEnv} {fmt : Fmt K} {nf : NumFmt K} {junk : Payload K} {g : Option (Geom K)} {fs : String → Option (List Char)}
    {disk : EtreeDisk K} {params tmp out description stamp : String} {con : Console} :
    (∀ disk' con', run env fmt nf junk g true fs disk params tmp out description stamp con = .ok (disk', con') () → con' = con) ∧
    ∀ m disk' con', run env fmt nf junk g true fs disk params tmp out description stamp con = .exc m (disk', con') →
      con'.out = con.out := by
  unfold run
  cases fs params with
  | none => exact ⟨fun _ _ h => (by cases h), fun _ _ _ h => (by cases h; rfl)⟩
  | some text =>
    dsimp only
    unfold openDB
    dsimp only
    cases VMCreator.openDB env (VMCreator.init disk) tmp description stamp with
    | ub => exact ⟨fun _ _ h => (by cases h), fun _ _ _ h => (by cases h)⟩
    | exc m c => exact ⟨fun _ _ h => (by cases h), fun _ _ _ h => (by cases h; rfl)⟩
    | ok c u =>
      simp only [cout_true]
      cases hg : addGrids env fmt nf junk g true fs (readParams text) c con with
      | ub => exact ⟨fun _ _ h => (by cases h), fun _ _ _ h => (by cases h)⟩
      | exc m t => exact ⟨fun _ _ h => (by cases h), fun _ _ _ h => (by cases h; exact addGrids_quiet.2 _ _ _ hg)⟩
      | ok t u =>
        obtain ⟨c1, con1⟩ := t
        have := addGrids_quiet.1 _ _ _ hg
        subst this
        dsimp only
        unfold packDB
        simp only [cout_true]
        split
        · exact ⟨fun _ _ h => (by cases h), fun _ _ _ h => (by cases h)⟩
        · exact ⟨fun _ _ h => (by cases h), fun _ _ _ h => (by cases h; rfl)⟩
        · exact ⟨fun _ _ h => (by cases h; rfl), fun _ _ _ h => (by cases h)⟩

example : (match run exEtree exTalkFmt exNumFmt exStored (some exGeom) true exRunFiles (fun _ => none) "p" "t" "o" "d" "s" start with
    | .ok (d, con) _ => some ((d "o").isSome, con)
    | _ => none) = some (true, start) := by decide +kernel

/-! ### C117 -/

/-- C117: if reading a grid file fails after it has been opened, then standard error holds a line for each point read and left out,
and says how many of the points read before were added and how many left out; the former are just those stored, in order, and
the exception has the message also written.  All data lines up to the failure are well-formed, and fewer than declared. -/
theorem C117 {env : EtreeEnv} {fmt : Fmt K} {nf : NumFmt K} {junk : Payload K} {g : Geom K} {fs : String → Option (List Char)}
    {c c' : Creator K} {con con' : Console} {w m : String} {text : List Char} (hf : fs w = some text)
    (h : addGrid env fmt nf junk (some g) false fs c con w = .exc m (c', con')) :
    ∃ pts lines data, List.Forall₂ (StoredFor nf.rd) (pts.filter fun p => HasData p) data ∧
      List.Forall₂ (IgnoredLine fmt nf.rd) (pts.filter fun p => ¬ HasData p) lines ∧
      con'.out = con.out ++ s!"Beginning processing of '{w}'...\n" ∧
      con'.err = con.err ++ concat lines ++ (s!"Caught error while reading grid from '{w}'.\n" ++
        s!"Successfully added {pts.countP fun p => HasData p} points and ignored {pts.countP fun p => ¬ HasData p} others.\n" ++
        s!"Error message: {m}") ∧
      (pts = [] ∧ c' = c ∨ ∃ hd t t', HeaderText nf text hd t ∧ PointsText nf t pts t' ∧ pts.length < hd.numTotal.toNat ∧
        insertAll env g (nf.rd.double (hd.resHoriz * 1000)) data c = .ok c' ()) := by
  unfold addGrid at h
  simp only [hf] at h
  split at h
  · cases h
  · rename_i t ht
    cases h
    have e1 : ∀ a b : Nat, "Caught error while reading grid from '" ++ w ++ "'.\n" ++ "Successfully added " ++ toString a ++
          " points and ignored " ++ toString b ++ " others.\n" ++ "Error message: " ++ m =
        s!"Caught error while reading grid from '{w}'.\n" ++ s!"Successfully added {a} points and ignored {b} others.\n" ++
        s!"Error message: {m}" := by
      intro a b
      simp only [String.append_assoc]
      rfl
    rw [e1]
    rcases tryGrid_exc ht with rfl | ht
    · refine ⟨[], [], [], .nil, .nil, ?_, ?_, Or.inl ⟨rfl, rfl⟩⟩
      · simp only [cout_false, cerr_def]; rfl
      · simp only [cout_false, cerr_def, concat, String.append_empty]; rfl
    · obtain ⟨pts, t', h1, -, h2, h3, h4, h5, h6, h7⟩ := pointLoop_trace (Or.inr ⟨rfl, _, ht⟩)
      refine ⟨pts, _, _, stored_map _ _, ignoredLine_map _ _ _, ?_, ?_, ?_⟩
      · simp only [cerr_def, h6, cout_false]; rfl
      · rw [← filter_not, ← countP_not]
        simp only [cerr_def, h7, cout_false, h3, h4, Nat.zero_add, Bool.false_eq_true, if_false]
      · right
        rcases hr : readHeader nf (Stream.ofText text) with ⟨⟨rest, e, fl⟩, hd⟩
        cases fl with
        | true =>
          have h0 : (readHeader nf (Stream.ofText text)).2.numTotal = 0 := readHeader_fail (by rw [hr])
          rw [h0] at ht
          cases ht
        | false =>
          obtain ⟨hh, -⟩ := readHeader_iff.2 hr
          rw [hr] at h1 h2 h5
          exact ⟨hd, rest, t', hh, h1, h2 rfl, h5⟩
  · cases h

/-- A grid file that ends in its third data line, after a point with data and one without. -/
def exCutFiles (n : String) : Option (List Char) :=
  if n = "g" then some ("819.2 204.8 1 1 3 3\n220 40 -350 2 1.5 2.5 100 50 -999 1 7 3\n" ++ "220 40 -0.1 2 1.5 2.5 100 50 0.03 0 7 3\n" ++
    "220 40 -0.3 2").toList else none

example : (match addGrid exEtree exTalkFmt exNumFmt exStored (some exGeom) false exCutFiles exCreator start "g" with
      | .exc m (c, con) => some (m, c.pDB.map fun o => o.2.db.entries.length, con)
      | _ => none) = some ("Couldn't parse line.", some 1, ⟨"Beginning processing of 'g'...\n",
        "220, 40, -100, Ignoring\n" ++ "Caught error while reading grid from 'g'.\n" ++
        "Successfully added 1 points and ignored 1 others.\n" ++ "Error message: Couldn't parse line."⟩) := by decide +kernel

/-! ### C118 -/

theorem not_saysNoBlock {a : String} : ¬ SaysNoBlock (a ++ ", Ignoring\n") := by
  rintro ⟨pre, h⟩
  have h := congrArg (fun s => s.toList.reverse) h
  simp at h

/-- C118 is false of the code: the second point of the example has no fault block, and the line about it does not say so. -/
theorem C118_false : ∃ c' con', addGrid exEtree exTalkFmt exNumFmt exStored (some exGeom) false exFiles exCreator start "g" = .ok (c', con') () ∧
    (∃ hd t, HeaderText exNumFmt exGridText hd t) ∧
    ¬ ReasonGiven exNumFmt exGridText start con' (fun p => p.payload.faultBlock = 0) := by
  have h0 : (match addGrid exEtree exTalkFmt exNumFmt exStored (some exGeom) false exFiles exCreator start "g" with
      | .ok (_, con) _ => some con.err
      | _ => none) = some "220, 40, -100, Ignoring\n" := by decide +kernel
  split at h0
  · rename_i c con u h
    refine ⟨c, con, h, ⟨_, _, exHeaderText⟩, ?_⟩
    rintro ⟨hd, t, pts, t', lines, h1, h2, h3, h4, h5⟩
    obtain ⟨rfl, rfl⟩ := headerText_unique h1 exHeaderText
    obtain rfl := pointsText_unique h2 exPointsText h3
    have h6 : ([exPoint1, exPoint2].filter fun p => decide (¬ HasData p)) = [exPoint2] := by decide +kernel
    rw [h6] at h4
    cases h4 with
    | cons hq hr =>
      cases hr
      rename_i line
      rw [Option.some.inj h0] at h5
      have hl : line = "220, 40, -100" ++ ", Ignoring\n" := by
        simpa [concat, start] using h5.symm
      rw [hl] at hq
      exact not_saysNoBlock (hq.2 (by decide +kernel))
  · cases h0

/-- C118, the converse of what is meant: if a grid file with a readable header is ingested, the line about a point left out ends
with the words "No fault block" just if the point has a fault block (and therefore no zone). -/
theorem C118_partial {env : EtreeEnv} {fmt : Fmt K} {nf : NumFmt K} {junk : Payload K} {g : Geom K} {fs : String → Option (List Char)}
    {c c' : Creator K} {con con' : Console} {w : String} {text : List Char} {hd : Header K} {t : List Char} (hf : fs w = some text)
    (ht : HeaderText nf text hd t) (h : addGrid env fmt nf junk (some g) false fs c con w = .ok (c', con') ()) :
    ReasonGiven nf text con con' fun p => p.payload.faultBlock ≠ 0 := by
  obtain ⟨r, ⟨-, text', hf', hr⟩, -, h2⟩ := addGrid_says h
  rw [hf] at hf'; cases hf'
  rcases hr with ⟨hd, t, pts, t', lines, a1, a2, a3, -, -, a4, a5⟩ | ⟨hn, -⟩
  · refine ⟨hd, t, pts, t', lines, a1, a2, a3, a4.imp ?_, by rw [h2, a5]⟩
    rintro p line ⟨elev, -, reason, rfl, h3 | h3⟩
    · obtain ⟨rfl, h3⟩ := h3
      exact ⟨fun h => absurd h not_saysNoBlock, fun h => absurd h3 h⟩
    · obtain ⟨rfl, h3⟩ := h3
      exact ⟨fun _ => h3, fun _ => ⟨_, rfl⟩⟩
  · exact absurd ht (hn _ _)

/-- A grid with a point that has a fault block and no zone, and one that has neither. -/
def exNoZoneFiles (n : String) : Option (List Char) :=
  if n = "g" then some ("819.2 204.8 1 1 2 2\n220 40 -350 2 1.5 2.5 100 50 -999 1 0 3\n" ++
    "220 40 -0.1 2 1.5 2.5 100 50 0.03 0 0 3\n").toList else none

example : (match addGrid exEtree exTalkFmt exNumFmt exStored (some exGeom) false exNoZoneFiles exCreator start "g" with
      | .ok (_, con) _ => some con.err
      | _ => none) = some ("220, 40, -350000, No fault block\n" ++ "220, 40, -100, Ignoring\n") := by decide +kernel

end Console
end CenCalVM
