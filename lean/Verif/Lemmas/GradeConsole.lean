/-
Lemmas about the console output of the grader.
-/
import Verif.Spec.GradeConsole
import Verif.Lemmas.Console
import Verif.Lemmas.GradeApp

set_option linter.unusedSectionVars false

namespace CenCalVM
namespace GradeConsole
open VsGrader Console
variable {K : Type} [Field K] [LinearOrder K] [IsStrictOrderedRing K] [FloorRing K]

/-- The console after some reports. -/
def say (quiet : Bool) (con : Console) (l : List (Bool × String)) : Console :=
  ⟨con.out ++ if quiet then dbText l else allText l, con.err⟩

theorem say_nil (quiet : Bool) (con : Console) : say quiet con [] = con := by
  cases quiet <;> simp [say, dbText, allText, concat]

theorem say_append (quiet : Bool) (con : Console) (l l' : List (Bool × String)) :
    say quiet (say quiet con l) l' = say quiet con (l ++ l') := by
  cases quiet <;> simp [say, dbText, allText, concat_append, String.append_assoc]

theorem cout_say (quiet : Bool) (con : Console) (x : String) : con.cout quiet x = say quiet con [(false, x)] := by
  cases quiet <;> simp [say, dbText, allText, concat, cout_true, cout_false]

theorem cout_say_db (quiet : Bool) (con : Console) (x : String) : con.cout false x = say quiet con [(true, x)] := by
  cases quiet <;> simp [say, dbText, allText, concat, cout_false]

/-! ### Erasure -/

/-- Three passes with a report before each and at the end. -/
def passes (quiet : Bool) (con : Console) (r1 : Run (Db K) Unit) (f2 f3 : Db K → Run (Db K) Unit) : Run (Db K × Console) Unit :=
  let con := con.cout quiet "Grading database in vertical direction.\n"
  match r1 with
  | .ub => .ub
  | .exc m db => .exc m (db, con)
  | .ok db _ =>
    let con := con.cout quiet "Grading database in length direction.\n"
    match f2 db with
    | .ub => .ub
    | .exc m db => .exc m (db, con)
    | .ok db _ =>
      let con := con.cout quiet "Grading database in width direction.\n"
      match f3 db with
      | .ub => .ub
      | .exc m db => .exc m (db, con)
      | .ok db _ => .ok (db, con.cout quiet "Done grading database.\n") ()

theorem passes_drop {quiet : Bool} {con : Console} {r1 : Run (Db K) Unit} {f2 f3 : Db K → Run (Db K) Unit} :
    drop (passes quiet con r1 f2 f3) = r1.bind fun db _ => (f2 db).bind fun db _ => f3 db := by
  unfold passes
  cases r1 with
  | ub => rfl
  | exc m d => rfl
  | ok d u =>
    dsimp only
    rw [Run.bind_ok]
    cases f2 d with
    | ub => rfl
    | exc m d => rfl
    | ok d u =>
      dsimp only
      rw [Run.bind_ok]
      cases f3 d <;> rfl

/-- A result with all of the reports, or if it failed with some of them. -/
def Says {σ : Type} (quiet : Bool) (con : Console) (l : List (Bool × String)) (P : Nat → σ → Prop) (r : Run (σ × Console) Unit) : Prop :=
  match r with
  | .ok t _ => t.2 = say quiet con l ∧ P l.length t.1
  | .exc _ t => ∃ n < l.length, t.2 = say quiet con (l.take n) ∧ P n t.1
  | .ub => True

/-- The reports of the passes. -/
def passReports : List (Bool × String) :=
  [(false, "Grading database in vertical direction.\n"), (false, "Grading database in length direction.\n"),
    (false, "Grading database in width direction.\n"), (false, "Done grading database.\n")]

theorem passes_says {quiet : Bool} {con : Console} {r1 : Run (Db K) Unit} {f2 f3 : Db K → Run (Db K) Unit} :
    Says quiet con passReports (fun n _ => 1 ≤ n) (passes quiet con r1 f2 f3) := by
  unfold passes
  simp only [cout_say, say_append]
  cases r1 with
  | ub => trivial
  | exc m d => exact ⟨1, by decide, rfl, (by decide : 1 ≤ 1)⟩
  | ok d u =>
    dsimp only
    cases f2 d with
    | ub => trivial
    | exc m d => exact ⟨2, by decide, rfl, (by decide : 1 ≤ 2)⟩
    | ok d u =>
      dsimp only
      cases f3 d with
      | ub => trivial
      | exc m d => exact ⟨3, by decide, rfl, (by decide : 1 ≤ 3)⟩
      | ok d u => exact ⟨rfl, (by decide : 1 ≤ 4)⟩

theorem grade_drop {s : Grid K} {junk : Payload K} {quiet : Bool} {db : Db K} {con : Console} :
    drop (grade s junk quiet db con) = VsGrader.grade s junk db := by
  unfold grade VsGrader.grade
  cases s.numLen <;> cases s.numWidth <;> cases s.numHt <;> first | rfl | skip
  exact passes_drop (K := K)

theorem grade_says {s : Grid K} {junk : Payload K} {quiet : Bool} {db : Db K} {con : Console} :
    Says quiet con passReports (fun n _ => 1 ≤ n) (grade s junk quiet db con) := by
  unfold grade
  split
  · exact passes_says (K := K)
  · trivial

theorem extract_drop {fmt : Fmt K} {env : EtreeEnv} {s : Grid K} {nm : Names K} {gq : Geom K} {fs : Files} {quiet : Bool}
    {disk : EtreeDisk K} {con : Console} :
    drop (extract fmt env s nm gq fs quiet disk con) = VsGrader.extract fmt env s nm gq fs disk := by
  unfold extract VsGrader.extract
  dsimp only
  cases openQuery s.rd gq nm.queryType nm.queryRes nm.cacheSize nm.fileIn (fun n => (disk n).map (·.db)) with
  | ub => rfl
  | exc m => rfl
  | ok q =>
    dsimp only
    unfold Console.openDB
    dsimp only
    cases VMCreator.openDB env (VMCreator.init disk) nm.fileTmp nm.description nm.stamp with
    | ub => rfl
    | exc m c => rfl
    | ok c u =>
      dsimp only
      by_cases h : nm.fileTmp = nm.fileIn
      · rw [if_pos h, if_pos h]; rfl
      · rw [if_neg h, if_neg h]
        cases extractLoops fmt env s ⟨q, fs, c⟩ <;> rfl

theorem run_drop {fmt : Fmt K} {env : EtreeEnv} {s : Grid K} {nm : Names K} {gq : Geom K} {junk : Payload K} {fs : Files} {quiet : Bool}
    {disk : EtreeDisk K} {con : Console} :
    drop (run fmt env s nm gq junk fs quiet disk con) = VsGrader.run fmt env s nm gq junk fs disk := by
  unfold run VsGrader.run
  rw [← extract_drop (quiet := quiet) (con := con)]
  cases extract fmt env s nm gq fs quiet disk con with
  | ub => rfl
  | exc m t => rfl
  | ok t u =>
    obtain ⟨d, c⟩ := t
    dsimp only [drop]
    rw [Run.bind_ok, ← packDB_drop (quiet := quiet) (con := c)]
    cases Console.packDB env quiet d nm.fileOut nm.fileTmp c with
    | ub => rfl
    | exc m t => rfl
    | ok t u =>
      obtain ⟨d, c⟩ := t
      dsimp only [drop]
      rw [Run.bind_ok]
      cases d nm.fileOut with
      | none => rfl
      | some f =>
        dsimp only
        rw [← grade_drop (quiet := quiet) (con := c.cout quiet "Starting grading of database.\n")]
        cases grade s junk quiet f.db (c.cout quiet "Starting grading of database.\n") <;> rfl

theorem runAll_drop {fmt : Fmt K} {env : EtreeEnv} {nf : NumFmt K} {t : Tools K} {junk : Payload K} {fs : Files}
    {files : String → Option (List Char)} {old : Params K} {fileParams fileIn fileOut fileTmp : String} {quiet : Bool}
    {disk : EtreeDisk K} {con : Console} :
    drop (runAll fmt env nf t junk fs files old fileParams fileIn fileOut fileTmp quiet disk con) =
      VsGrader.runAll fmt env nf t junk fs files old fileParams fileIn fileOut fileTmp disk := by
  unfold runAll VsGrader.runAll
  dsimp only
  cases files fileParams with
  | none => rfl
  | some text =>
    dsimp only
    cases readParams nf text old with
    | ub => rfl
    | exc m => rfl
    | ok p =>
      dsimp only
      cases t.proj.project (p.real .swLon) (p.real .swLat) with
      | ub => rfl
      | exc m => rfl
      | ok xy => exact run_drop

/-! ### What is written -/

theorem extractPoint_filename {fmt : Fmt K} {env : EtreeEnv} {s : Grid K} {l w h : Nat} {x : Work K} {name : String} (hx : x.c.filename = name) :
    Leaves (fun x : Work K => x.c.filename = name) (extractPoint fmt env s l w h x) := by
  unfold extractPoint
  split
  · exact hx
  · trivial
  · split
    · exact hx
    · trivial
    · split
      · exact hx
      · trivial
      · split
        · rename_i he; rw [insert_exc he]; exact hx
        · trivial
        · rename_i he; exact (insert_filename he).trans hx

theorem extractLoops_filename {fmt : Fmt K} {env : EtreeEnv} {s : Grid K} {x : Work K} {name : String} (hx : x.c.filename = name) :
    Leaves (fun x : Work K => x.c.filename = name) (extractLoops fmt env s x) := by
  unfold extractLoops
  split
  · exact Leaves.loop (fun i x hx => Leaves.loop (fun j x hx => Leaves.loop (fun k x hx => extractPoint_filename hx) _ hx) _ hx) _ hx
  · trivial

theorem openDB_filename {env : EtreeEnv} {c c' : VMCreator.Creator K} {name d st : String} {u : Unit}
    (h : VMCreator.openDB env c name d st = .ok c' u) : c'.filename = name := by
  unfold VMCreator.openDB at h
  split at h
  · cases h
  · split at h
    · cases h
    · split at h
      · cases h
      · cases h; rfl

/-- The reports of the extraction. -/
def extractReports (i t : String) : List (Bool × String) :=
  [(false, "Extracting data from '" ++ i ++ "'...\n"), (true, "Opening new etree database '" ++ t ++ "'.\n"),
    (true, "Finished preparing database.\n"), (true, "Closing database '" ++ t ++ "'.\n"), (false, "Done extracting.\n")]

theorem extract_says {fmt : Fmt K} {env : EtreeEnv} {s : Grid K} {nm : Names K} {gq : Geom K} {fs : Files} {quiet : Bool}
    {disk : EtreeDisk K} {con : Console} :
    Says quiet con (extractReports nm.fileIn nm.fileTmp) (fun n d => (1 ≤ n) ∧ (n ≤ 1 → d = disk) ∧ ∀ x, x ≠ nm.fileTmp → d x = disk x)
      (extract fmt env s nm gq fs quiet disk con) := by
  have hd := extract_drop (fmt := fmt) (env := env) (s := s) (nm := nm) (gq := gq) (fs := fs) (quiet := quiet) (disk := disk) (con := con)
  have hl := extract_holds fmt env s nm gq fs disk
  rw [← hd] at hl
  unfold extract at hl ⊢
  dsimp only at hl ⊢
  cases hq : openQuery s.rd gq nm.queryType nm.queryRes nm.cacheSize nm.fileIn (fun n => (disk n).map (·.db)) with
  | ub => trivial
  | exc m =>
    dsimp only
    exact ⟨1, (by decide : 1 < 5), by rw [cout_say]; rfl, by decide, fun _ => rfl, fun _ _ => rfl⟩
  | ok q =>
    rw [hq] at hl
    dsimp only at hl ⊢
    unfold Console.openDB at hl ⊢
    dsimp only at hl ⊢
    cases ho : VMCreator.openDB env (VMCreator.init disk) nm.fileTmp nm.description nm.stamp with
    | ub => trivial
    | exc m c =>
      rw [ho] at hl
      dsimp only at hl ⊢
      refine ⟨2, (by decide : 2 < 5), ?_, by decide, fun h => absurd h (by decide), hl⟩
      rw [cout_say quiet con, cout_say_db quiet, say_append]; rfl
    | ok c u =>
      rw [ho] at hl
      dsimp only at hl ⊢
      by_cases h : nm.fileTmp = nm.fileIn
      · rw [if_pos h]; trivial
      · rw [if_neg h] at hl ⊢
        have hn := extractLoops_filename (fmt := fmt) (env := env) (s := s) (x := ⟨q, fs, c⟩) (openDB_filename ho)
        cases he : extractLoops fmt env s ⟨q, fs, c⟩ with
        | ub => trivial
        | exc m w =>
          rw [he] at hl
          refine ⟨3, (by decide : 3 < 5), ?_, by decide, fun h => absurd h (by decide), hl⟩
          simp only [cout_say quiet con, cout_say_db quiet, say_append]; rfl
        | ok w u =>
          rw [he] at hl hn
          have hn : w.c.filename = nm.fileTmp := hn
          refine ⟨?_, by show 1 ≤ 5; decide, fun h => absurd (show 5 ≤ 1 from h) (by decide), hl⟩
          dsimp only
          rw [cout_say quiet con, cout_say quiet _ "Done extracting.\n"]
          simp only [cout_say_db quiet, say_append, hn]; rfl

/-- The reports of packing. -/
def packReports (o t : String) : List (Bool × String) :=
  [(false, "Creating packed etree database '" ++ o ++ "' from unpacked etree database '" ++ t ++ "'.\n"), (false, "Done packing etree database.\n")]

theorem packDB_says {env : EtreeEnv} {disk : EtreeDisk K} {o t : String} {quiet : Bool} {con : Console} :
    Says quiet con (packReports o t) (fun n _ => 1 ≤ n) (Console.packDB env quiet disk o t con) := by
  unfold Console.packDB
  simp only [cout_say, say_append]
  cases VMCreator.packDB env disk o t with
  | ub => trivial
  | exc m d => exact ⟨1, (by decide : 1 < 2), rfl, (by decide : 1 ≤ 1)⟩
  | ok d u => exact ⟨rfl, (by decide : 1 ≤ 2)⟩

theorem run_says {fmt : Fmt K} {env : EtreeEnv} {s : Grid K} {nm : Names K} {gq : Geom K} {junk : Payload K} {fs : Files} {quiet : Bool}
    {disk : EtreeDisk K} {con : Console} :
    Says quiet con (extractReports nm.fileIn nm.fileTmp ++ (packReports nm.fileOut nm.fileTmp ++
        ((false, "Starting grading of database.\n") :: passReports)))
      (fun n d => (n ≤ 1 → d = disk) ∧ (n ≤ 5 → ∀ x, x ≠ nm.fileTmp → d x = disk x) ∧ (9 ≤ n → (d nm.fileOut).isSome))
      (run fmt env s nm gq junk fs quiet disk con) := by
  unfold run
  have h1 := extract_says (fmt := fmt) (env := env) (s := s) (nm := nm) (gq := gq) (fs := fs) (quiet := quiet) (disk := disk) (con := con)
  cases he : extract fmt env s nm gq fs quiet disk con with
  | ub => trivial
  | exc m t =>
    rw [he] at h1
    obtain ⟨n, a1, a2, -, a3, a4⟩ := h1
    have a1 : n < 5 := a1
    refine ⟨n, by simp [extractReports, packReports, passReports]; omega, ?_, a3, fun _ => a4, fun h => by omega⟩
    rw [a2, List.take_append_of_le_length (by exact a1.le)]
  | ok t u =>
    rw [he] at h1
    obtain ⟨d, c⟩ := t
    obtain ⟨b1, -, -, b2⟩ := h1
    dsimp only at b1 b2 ⊢
    subst b1
    generalize hc : say quiet con (extractReports nm.fileIn nm.fileTmp) = c
    have h2 := packDB_says (env := env) (disk := d) (o := nm.fileOut) (t := nm.fileTmp) (quiet := quiet) (con := c)
    cases hp : Console.packDB env quiet d nm.fileOut nm.fileTmp c with
    | ub => trivial
    | exc m t =>
      rw [hp] at h2
      obtain ⟨n, a1, a2, a3⟩ := h2
      have a1 : n < 2 := a1
      refine ⟨5 + n, by simp [extractReports, packReports, passReports]; omega, ?_, fun h => by omega, fun h => by omega, fun h => by omega⟩
      rw [a2, ← hc, say_append]
      obtain rfl : n = 1 := by omega
      rfl
    | ok t u =>
      rw [hp] at h2
      obtain ⟨d', c'⟩ := t
      obtain ⟨b3, -⟩ := h2
      dsimp only at b3 ⊢
      subst b3
      rw [← hc, cout_say, say_append, say_append]
      generalize hc' : say quiet con _ = c'
      cases hf : d' nm.fileOut with
      | none =>
        dsimp only
        refine ⟨8, (by decide : 8 < 12), ?_, fun h => by omega, fun h => by omega, fun h => by omega⟩
        rw [← hc']; rfl
      | some f =>
        dsimp only
        have h3 := grade_says (s := s) (junk := junk) (quiet := quiet) (db := f.db) (con := c')
        cases hg : grade s junk quiet f.db c' with
        | ub => trivial
        | exc m t =>
          rw [hg] at h3
          obtain ⟨db, c''⟩ := t
          obtain ⟨n, a1, a2, a3⟩ := h3
          have a1 : n < 4 := a1
          dsimp only at a2 ⊢
          refine ⟨8 + n, by simp [extractReports, packReports, passReports]; omega, ?_, fun h => by omega, fun h => by omega, fun h => by simp [EtreeDisk.set]⟩
          rw [a2, ← hc', say_append]
          obtain rfl | rfl | rfl : n = 1 ∨ n = 2 ∨ n = 3 := by omega
          all_goals rfl
        | ok t u =>
          rw [hg] at h3
          obtain ⟨db, c''⟩ := t
          obtain ⟨b4, -⟩ := h3
          dsimp only at b4 ⊢
          refine ⟨?_, fun h => absurd (show 12 ≤ 1 from h) (by decide), fun h => absurd (show 12 ≤ 5 from h) (by decide), fun h => by simp [EtreeDisk.set]⟩
          rw [b4, ← hc', say_append]
          rfl

theorem runAll_says {fmt : Fmt K} {env : EtreeEnv} {nf : NumFmt K} {tl : Tools K} {junk : Payload K} {fs : Files}
    {files : String → Option (List Char)} {old : Params K} {pf i o t : String} {quiet : Bool} {disk : EtreeDisk K} {con : Console} :
    Says quiet con (reports pf i o t)
      (fun n d => (n ≤ 3 → d = disk) ∧ (n ≤ 7 → ∀ x, x ≠ t → d x = disk x) ∧ (11 ≤ n → (d o).isSome))
      (runAll fmt env nf tl junk fs files old pf i o t quiet disk con) := by
  unfold runAll
  simp only [cout_say, say_append]
  cases files pf with
  | none => exact ⟨1, (by decide : 1 < 14), rfl, fun _ => rfl, fun _ _ _ => rfl, fun h => absurd h (by decide)⟩
  | some text =>
    dsimp only
    cases readParams nf text old with
    | ub => trivial
    | exc m => exact ⟨1, (by decide : 1 < 14), rfl, fun _ => rfl, fun _ _ _ => rfl, fun h => absurd h (by decide)⟩
    | ok p =>
      dsimp only
      cases tl.proj.project (p.real .swLon) (p.real .swLat) with
      | ub => trivial
      | exc m => exact ⟨2, (by decide : 2 < 14), rfl, fun _ => rfl, fun _ _ _ => rfl, fun h => absurd h (by decide)⟩
      | ok xy =>
        dsimp only
        generalize hc : say quiet con _ = c
        have h := run_says (fmt := fmt) (env := env) (s := tl.grid p xy) (nm := tl.names p i o t) (gq := tl.queryGeom) (junk := junk)
          (fs := fs) (quiet := quiet) (disk := disk) (con := c)
        cases hr : run fmt env (tl.grid p xy) (tl.names p i o t) tl.queryGeom junk fs quiet disk c with
        | ub => trivial
        | exc m x =>
          rw [hr] at h
          obtain ⟨n, a1, a2, a3, a4, a5⟩ := h
          have a1 : n < 12 := a1
          refine ⟨n + 2, by simp [reports]; omega, ?_, fun h => a3 (by omega), fun h => a4 (by omega), fun h => a5 (by omega)⟩
          rw [a2, ← hc, say_append]
          rfl
        | ok x u =>
          rw [hr] at h
          obtain ⟨a2, a3, a4, a5⟩ := h
          refine ⟨?_, fun h => absurd (show 14 ≤ 3 from h) (by decide), fun h => absurd (show 14 ≤ 7 from h) (by decide), fun h => a5 (by show 9 ≤ 12; decide)⟩
          rw [a2, ← hc, say_append]
          rfl

end GradeConsole
end CenCalVM
