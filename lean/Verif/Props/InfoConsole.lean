/-
Properties C143 to C145: what cencalvminfo writes, and the handle it uses.
-/
import Verif.Lemmas.InfoConsole
import Verif.Spec.Print
import Verif.Spec.Handles
import Verif.Props.FileApps

set_option linter.unusedSectionVars false

namespace CenCalVM
namespace InfoApp
open Handles Print
variable {K : Type} [Field K] [LinearOrder K]

/-! ### C143 -/

/-- The program with its text ends like that of C68. -/
theorem C143_same (closeFail : Bool) (strerror : String) (argv : List (List Char)) (disk : EtreeDisk K) :
    (main closeFail strerror argv disk).code = (FileApps.infoMain closeFail argv disk).1 := by
  unfold FileApps.infoMain
  rcases main_cases closeFail strerror argv disk with ⟨h1, h2⟩ | ⟨name, rfl, ⟨h1, h2⟩ | ⟨f, h0, ⟨h1, h2⟩ | ⟨m, hm, ⟨h1, h2⟩ | ⟨s, hs, h2⟩⟩⟩⟩ <;> rw [h2]
  · match argv, h1 with
    | [], _ => rfl
    | [a], h1 => exact absurd (by simp) (h1 (String.ofList a))
    | a :: b :: l, _ => rfl
  all_goals simp_all

/-- C143: standard error is empty exactly if the exit code is 0; if a database cannot be opened, it names the file. -/
theorem C143 (closeFail : Bool) {strerror : String} (hs : strerror ≠ "") (argv : List (List Char)) (disk : EtreeDisk K) :
    ((main closeFail strerror argv disk).con.err = "" ↔ (main closeFail strerror argv disk).code = 0) ∧
      ∀ name, argv = [String.toList name] → disk name = none →
        ∃ a b, (main closeFail strerror argv disk).con.err = a ++ "'" ++ name ++ "'" ++ b := by
  constructor
  · rcases main_cases closeFail strerror argv disk with ⟨h1, h2⟩ | ⟨name, rfl, ⟨h1, h2⟩ | ⟨f, h0, ⟨h1, h2⟩ | ⟨m, hm, ⟨h1, h2⟩ | ⟨s, hs, h2⟩⟩⟩⟩ <;> rw [h2]
    · simp [usage]
    · simp
    · simp
    · simp
    · cases closeFail <;> simp
      assumption
  · intro name hn hd
    refine ⟨"Could not open etree database ", ".", ?_⟩
    rcases main_cases closeFail strerror argv disk with ⟨h1, h2⟩ | ⟨name', h, h3⟩
    · exact absurd hn (h1 _)
    · rw [hn] at h
      have : name = name' := String.toList_injective (List.cons.inj h).1
      subst this
      rcases h3 with ⟨-, h2⟩ | ⟨f, h0, -⟩
      · rw [h2]
        apply String.toList_injective
        simp
      · rw [hd] at h0; cases h0

example : main false "e" ["a".toList] (FileApps.exDisk exAvgDb) = ⟨0, ⟨"Database metadata:\nm\n\nDatabase schema:\n" ++ SCHEMA ++
    "\n\nNumber of octants: 3\n", ""⟩, ⟨1, [.opened 0 "a", .used 0, .used 0, .used 0, .closed 0]⟩⟩ := by decide +kernel
example : (main false "e" ["b".toList] (FileApps.exDisk exAvgDb)).con.err = "Could not open etree database 'b'." := by decide +kernel

/-- C143, the reason: missing metadata and a missing schema are told apart on standard error, the first before anything is
written to standard output; with both the exit code is 0 unless closing fails, and then the message is that of libetree. -/
theorem C143_reason (closeFail : Bool) (strerror : String) {name : String} {disk : EtreeDisk K} {f : EtreeFile K} (hf : disk name = some f) :
    (f.appmeta = none → (main closeFail strerror [name.toList] disk).con.err = "Could not retrieve database metadata." ∧
      (main closeFail strerror [name.toList] disk).con.out = "") ∧
    (f.appmeta ≠ none → f.schema = none →
      (main closeFail strerror [name.toList] disk).con.err = "Could not retrieve database schema.") ∧
    (f.appmeta ≠ none → f.schema ≠ none →
      (main closeFail strerror [name.toList] disk).con.err = if closeFail then strerror else "") := by
  rcases main_cases closeFail strerror [name.toList] disk with ⟨h1, -⟩ | ⟨name', h, h3⟩
  · exact absurd rfl (h1 name)
  · obtain rfl : name = name' := String.toList_injective (List.cons.inj h).1
    rcases h3 with ⟨h1, -⟩ | ⟨g, h0, h4⟩
    · rw [hf] at h1; cases h1
    · obtain rfl : f = g := Option.some.inj (hf.symm.trans h0)
      rcases h4 with ⟨h1, h2⟩ | ⟨m, hm, ⟨h1, h2⟩ | ⟨s, hs, h2⟩⟩
      · rw [h2]; exact ⟨fun _ => ⟨rfl, rfl⟩, fun h => absurd h1 h, fun h => absurd h1 h⟩
      · rw [h2]; exact ⟨fun h => (by rw [hm] at h; cases h), fun _ _ => rfl, fun _ h => absurd h1 h⟩
      · rw [h2]; exact ⟨fun h => (by rw [hm] at h; cases h), fun _ h => (by rw [hs] at h; cases h), fun _ _ => rfl⟩

example : (main false "e" ["a".toList] fun _ => some (⟨exAvgDb, none, some "m"⟩ : EtreeFile ℚ)).con.err =
    "Could not retrieve database schema." := by decide +kernel

/-! ### C144 -/

/-- C144, the number of octants: if the exit code is 0 the last line of the output is cut at white space into four words, the last
of which is the number of octants in decimal notation. -/
theorem C144_count {closeFail : Bool} {strerror : String} {argv : List (List Char)} {disk : EtreeDisk K}
    (h : (main closeFail strerror argv disk).code = 0) :
    ∃ name f before line w, argv = [String.toList name] ∧ disk name = some f ∧
      (main closeFail strerror argv disk).con.out.toList = before ++ '\n' :: line ++ ['\n'] ∧ '\n' ∉ line ∧
      words line = ["Number".toList, "of".toList, "octants:".toList, w] ∧ natValue w = some f.db.entries.length := by
  obtain ⟨name, f, m, s, h1, h2, -, -, h5⟩ := main_zero h
  obtain ⟨d1, d2, d3, -⟩ := digits_facts f.db.entries.length
  refine ⟨name, f, ("Database metadata:\n" ++ m ++ "\n\n" ++ ("Database schema:\n" ++ s ++ "\n")).toList,
    "Number of octants: ".toList ++ digits f.db.entries.length, digits f.db.entries.length, h1, h2, ?_, ?_, ?_, ?_⟩
  · rw [h5]; simp
  · rw [line_cols]; exact cols_newline (line_solid _)
  · rw [line_cols]
    refine words_cols (line_solid 0 _ (by simp)) ?_
    intro d hd
    refine ⟨line_solid f.db.entries.length d (List.mem_cons_of_mem _ hd), ?_⟩
    simp only [List.mem_cons, List.not_mem_nil, or_false] at hd
    rcases hd with rfl | rfl | rfl
    · decide
    · decide
    · exact Nat.lt_succ_self _
  · rw [natValue_digits d1 d2, d3]

/-- C144: two databases with the schema of the model for which cencalvminfo writes the same have the same metadata and the same
number of octants. -/
theorem C144 {cf cf' : Bool} {se se' : String} {a a' : String} {disk disk' : EtreeDisk K} {f f' : EtreeFile K}
    (hf : disk a = some f) (hf' : disk' a' = some f') (hs : f.schema = some SCHEMA) (hs' : f'.schema = some SCHEMA)
    (h : (main cf se [a.toList] disk).code = 0) (h' : (main cf' se' [a'.toList] disk').code = 0)
    (ho : (main cf se [a.toList] disk).con.out = (main cf' se' [a'.toList] disk').con.out) :
    f.appmeta = f'.appmeta ∧ f.db.entries.length = f'.db.entries.length := by
  obtain ⟨name, g, m, s, h1, h2, h3, h4, h5⟩ := main_zero h
  obtain ⟨name', g', m', s', h1', h2', h3', h4', h5'⟩ := main_zero h'
  obtain rfl : a = name := String.toList_injective (List.cons.inj h1).1
  obtain rfl : a' = name' := String.toList_injective (List.cons.inj h1').1
  obtain rfl : f = g := Option.some.inj (hf.symm.trans h2)
  obtain rfl : f' = g' := Option.some.inj (hf'.symm.trans h2')
  obtain rfl : SCHEMA = s := Option.some.inj (hs.symm.trans h4)
  obtain rfl : SCHEMA = s' := Option.some.inj (hs'.symm.trans h4')
  rw [h5, h5'] at ho
  have ho := congrArg String.toList ho
  generalize SCHEMA = S at ho
  obtain ⟨d1, d2, d3, -⟩ := digits_facts f.db.entries.length
  obtain ⟨e1, e2, e3, -⟩ := digits_facts f'.db.entries.length
  have key : ("Database metadata:\n".toList ++ m.toList ++ ("\n\nDatabase schema:\n".toList ++ S.toList ++ "\n\nNumber of octants:".toList)) ++
      ' ' :: digits f.db.entries.length =
      ("Database metadata:\n".toList ++ m'.toList ++ ("\n\nDatabase schema:\n".toList ++ S.toList ++ "\n\nNumber of octants:".toList)) ++
      ' ' :: digits f'.db.entries.length := by
    refine List.append_cancel_right (bs := ['\n']) ?_
    simpa using ho
  obtain ⟨k1, k2⟩ := split_digits d1 e1 key
  have k3 := List.append_cancel_left (List.append_cancel_right k1)
  refine ⟨?_, ?_⟩
  · rw [h3, h3', String.toList_injective k3]
  · rw [← d3, ← e3, k2]
/-- The schema in the examples is that of the model. -/
example : (main false "e" ["a".toList] (FileApps.exDisk exAvgDb)).code = 0 ∧
    (match FileApps.exDisk exAvgDb "a" with
      | some f => f.schema == some SCHEMA
      | none => false) = true := by decide +kernel
/-- With another schema two databases can give the same output: the beginning of the one schema is in the metadata of the other. -/
example : (main false "e" ["a".toList] (fun _ => some ⟨exAvgDb, some "x\n\nDatabase schema:\ny", some "m"⟩)).con.out =
    (main false "e" ["a".toList] (fun _ => some ⟨exAvgDb, some "y", some "m\n\nDatabase schema:\nx"⟩)).con.out := by decide +kernel

/-! ### C145 -/

/-- C145, what holds: the handle is used and closed only while it is open, unless closing fails; and it is closed if the database
has metadata and a schema.  Missing: `C145_false_use`, `C145_false_close`. -/
theorem C145_partial (closeFail : Bool) (strerror : String) (argv : List (List Char)) (disk : EtreeDisk K) :
    (closeFail = false → Proper (main closeFail strerror argv disk).lib.log) ∧
    ((∀ name f, argv = [String.toList name] → disk name = some f → f.appmeta.isSome ∧ f.schema.isSome) →
      AllClosed (main closeFail strerror argv disk).lib.log) := by
  have proper : ∀ {name : String} {n : Nat}, Proper ([.opened 0 name] ++ List.replicate n (.used 0)) ∧
      Proper ([.opened 0 name] ++ List.replicate n (.used 0) ++ [.closed 0]) := by
    intro name n
    have h1 : Proper ([.opened 0 name] ++ List.replicate n (.used 0)) := by
      intro pre post e h hl he
      cases pre with
      | nil => cases hl; rcases he with he | he <;> cases he
      | cons x pre =>
        injection hl with hx hl
        have hx' : x = .opened 0 name := hx.symm
        subst hx'
        have hmem : ∀ y ∈ pre ++ e :: post, y = Event.used 0 := by
          intro y hy
          have : y ∈ List.replicate n (Event.used 0) := by rw [show List.replicate n (Event.used 0) = pre ++ e :: post from hl]; exact hy
          exact List.eq_of_mem_replicate this
        have h0 : h = 0 := by
          have := hmem e (by simp)
          rcases he with he | he <;> rw [he] at this <;> cases this
          rfl
        subst h0
        refine ⟨⟨name, by simp⟩, fun hc => ?_⟩
        rcases List.mem_cons.1 hc with hc | hc
        · cases hc
        · have := hmem _ (List.mem_append_left _ hc); cases this
    refine ⟨h1, ?_⟩
    intro pre post e h hl he
    rcases List.eq_nil_or_concat post with rfl | ⟨post', y, rfl⟩
    · have := List.append_inj' hl rfl
      obtain ⟨e1, e2⟩ := this
      cases e2
      rcases he with he | he <;> cases he
      rw [← e1]
      refine ⟨⟨name, by simp⟩, fun hc => ?_⟩
      simp at hc
    · have hl' : [Event.opened 0 name] ++ List.replicate n (.used 0) ++ [.closed 0] = (pre ++ e :: post') ++ [y] := by
        rw [hl]; simp
      exact h1 pre post' e h (List.append_inj' hl' rfl).1 he
  have pnil : Proper [] := by
    intro pre post e h hl
    cases pre <;> cases hl
  rcases main_cases closeFail strerror argv disk with ⟨h1, h2⟩ | ⟨name, rfl, ⟨h1, h2⟩ | ⟨f, h0, ⟨h1, h2⟩ | ⟨m, hm, ⟨h1, h2⟩ | ⟨s, hs, h2⟩⟩⟩⟩ <;> rw [h2]
  · exact ⟨fun _ => pnil, fun _ h n hn => (by cases hn)⟩
  · exact ⟨fun _ => pnil, fun _ h n hn => (by cases hn)⟩
  · refine ⟨fun _ => (proper (n := 1)).1, fun h => ?_⟩
    have := (h name f rfl h0).1
    rw [h1] at this; cases this
  · refine ⟨fun _ => (proper (n := 2)).1, fun h => ?_⟩
    have := (h name f rfl h0).2
    rw [h1] at this; cases this
  · refine ⟨?_, fun _ h n hn => ?_⟩
    · rintro rfl
      exact (proper (n := 3)).2
    · cases closeFail <;> simp at hn ⊢ <;> exact hn.1
example : (∀ name f, ["a".toList] = [String.toList name] → FileApps.exDisk exAvgDb name = some f → f.appmeta.isSome ∧ f.schema.isSome) := by
  intro name f _ h
  unfold FileApps.exDisk at h
  split at h
  · cases h; exact ⟨rfl, rfl⟩
  · cases h

/-- C145 is false: if `etree_close` fails the handle is given to `etree_errno`. -/
theorem C145_false_use : ¬ ∀ (closeFail : Bool) (disk : EtreeDisk ℚ), Proper (main closeFail "e" ["a".toList] disk).lib.log := by
  intro h
  have e : (main true "e" ["a".toList] (FileApps.exDisk exAvgDb)).lib.log = [.opened 0 "a", .used 0, .used 0, .used 0, .closed 0, .used 0] := by
    decide +kernel
  have := h true (FileApps.exDisk exAvgDb)
  rw [e] at this
  exact (this [.opened 0 "a", .used 0, .used 0, .used 0, .closed 0] [] (.used 0) 0 rfl (Or.inl rfl)).2 (by decide)

/-- C145 is false: without metadata the program ends with the database open. -/
theorem C145_false_close : ¬ ∀ (closeFail : Bool) (disk : EtreeDisk ℚ), AllClosed (main closeFail "e" ["a".toList] disk).lib.log := by
  intro h
  have e : (main false "e" ["a".toList] fun _ => some ⟨exAvgDb, some SCHEMA, none⟩).lib.log = [.opened 0 "a", .used 0] := by decide +kernel
  have := h false fun _ => some ⟨exAvgDb, some SCHEMA, none⟩
  rw [e] at this
  exact absurd (this 0 "a" (by decide)) (by decide)

end InfoApp
end CenCalVM
