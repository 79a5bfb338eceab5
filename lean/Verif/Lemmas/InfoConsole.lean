/-
Lemmas for the properties of cencalvminfo.
-/
import Verif.Model.InfoConsole
import Verif.Lemmas.PrintText

set_option linter.unusedSectionVars false

namespace CenCalVM
namespace InfoApp
open Handles Print
variable {K : Type} [Field K] [LinearOrder K]

/-- How the program can end. -/
theorem main_cases (closeFail : Bool) (strerror : String) (argv : List (List Char)) (disk : EtreeDisk K) :
    ((∀ name, argv ≠ [String.toList name]) ∧ main closeFail strerror argv disk = ⟨1, ⟨"", usage⟩, Lib.init⟩) ∨
    ∃ name, argv = [String.toList name] ∧
      ((disk name = none ∧ main closeFail strerror argv disk =
          ⟨255, ⟨"", "Could not open etree database '" ++ name ++ "'."⟩, Lib.init⟩) ∨
        ∃ f, disk name = some f ∧
        ((f.appmeta = none ∧ main closeFail strerror argv disk =
            ⟨255, ⟨"", "Could not retrieve database metadata."⟩, ⟨1, [.opened 0 name, .used 0]⟩⟩) ∨
          ∃ m, f.appmeta = some m ∧
          ((f.schema = none ∧ main closeFail strerror argv disk =
              ⟨255, ⟨"Database metadata:\n" ++ m ++ "\n\n", "Could not retrieve database schema."⟩,
                ⟨1, [.opened 0 name, .used 0, .used 0]⟩⟩) ∨
            ∃ s, f.schema = some s ∧ main closeFail strerror argv disk =
              ⟨if closeFail then 255 else 0,
                ⟨"Database metadata:\n" ++ m ++ "\n\n" ++ ("Database schema:\n" ++ s ++ "\n\n") ++
                  ("Number of octants: " ++ String.ofList (digits f.db.entries.length) ++ "\n"), if closeFail then strerror else ""⟩,
                ⟨1, [.opened 0 name, .used 0, .used 0, .used 0, .closed 0] ++ if closeFail then [.used 0] else []⟩⟩))) := by
  have e1 : ∀ s : String, "" ++ s = s := fun _ => String.empty_append
  match argv with
  | [] => exact Or.inl ⟨fun _ h => (by cases h), by simp [main, Console.start, Console.cerr, e1]⟩
  | a :: b :: l => exact Or.inl ⟨fun _ h => (by cases h), by simp [main, Console.start, Console.cerr, e1]⟩
  | [a] =>
    right
    refine ⟨String.ofList a, by simp, ?_⟩
    unfold main
    dsimp only
    cases hd : disk (String.ofList a) with
    | none => left; exact ⟨rfl, by simp [Console.start, Console.cerr, e1]⟩
    | some f =>
      right
      refine ⟨f, rfl, ?_⟩
      unfold appmeta
      dsimp only
      cases hm : f.appmeta with
      | none => left; exact ⟨rfl, by simp [Console.start, Console.cerr, e1, Lib.open, Lib.use, Lib.init]⟩
      | some m =>
        right
        refine ⟨m, rfl, ?_⟩
        unfold schema
        dsimp only
        cases hs : f.schema with
        | none => left; exact ⟨rfl, by simp [Console.start, Console.cerr, Console.cout, e1, Lib.open, Lib.use, Lib.init]⟩
        | some s =>
          right
          refine ⟨s, rfl, ?_⟩
          unfold closing
          cases closeFail <;>
            simp [Console.start, Console.cerr, Console.cout, e1, Lib.open, Lib.use, Lib.close, Lib.init]

theorem main_zero {closeFail : Bool} {strerror : String} {argv : List (List Char)} {disk : EtreeDisk K}
    (h : (main closeFail strerror argv disk).code = 0) :
    ∃ name f m s, argv = [String.toList name] ∧ disk name = some f ∧ f.appmeta = some m ∧ f.schema = some s ∧
      (main closeFail strerror argv disk).con.out = "Database metadata:\n" ++ m ++ "\n\n" ++ ("Database schema:\n" ++ s ++ "\n\n") ++
        ("Number of octants: " ++ String.ofList (digits f.db.entries.length) ++ "\n") := by
  rcases main_cases closeFail strerror argv disk with ⟨h1, h2⟩ | ⟨name, hn, ⟨h1, h2⟩ | ⟨f, h0, ⟨h1, h2⟩ | ⟨m, hm, ⟨h1, h2⟩ | ⟨s, hs, h2⟩⟩⟩⟩ <;> rw [h2] at h
  · cases h
  · cases h
  · cases h
  · cases h
  · exact ⟨name, f, m, s, hn, h0, hm, hs, by rw [h2]⟩

/-- The last line as columns. -/
theorem line_cols (n : Nat) : "Number of octants: ".toList ++ digits n =
    cols [(6, "Number".toList), (3, "of".toList), (9, "octants:".toList), ((digits n).length + 1, digits n)] := by
  simp [cols, padLeft]

theorem line_solid (n : Nat) : ∀ d ∈ ([(6, "Number".toList), (3, "of".toList), (9, "octants:".toList), ((digits n).length + 1, digits n)] : List Col),
    Solid d.2 := by
  intro d hd
  simp only [List.mem_cons, List.not_mem_nil, or_false] at hd
  rcases hd with rfl | rfl | rfl | rfl
  · exact ⟨by decide, by decide⟩
  · exact ⟨by decide, by decide⟩
  · exact ⟨by decide, by decide⟩
  · obtain ⟨d1, d2, -⟩ := digits_facts n
    exact ⟨d2, fun c hc => (d1 c hc).2.1⟩

/-- A text that ends with a blank and digits is cut there in one way. -/
theorem split_digits {a a' d d' : List Char} (h : Digits d) (h' : Digits d') (e : a ++ ' ' :: d = a' ++ ' ' :: d') : a = a' ∧ d = d' := by
  have key : ∀ (a d : List Char), Digits d → (a ++ ' ' :: d).reverse.takeWhile Char.isDigit = d.reverse := by
    intro a d hd
    rw [List.reverse_append, List.reverse_cons, List.append_assoc, List.takeWhile_append_of_pos]
    · simp
    · intro c hc
      exact (hd c (List.mem_reverse.1 hc)).1
  have h2 : d = d' := by
    have := key a d h
    rw [e, key a' d' h'] at this
    exact (List.reverse_injective this).symm
  subst h2
  exact ⟨List.append_cancel_right e, rfl⟩

end InfoApp
end CenCalVM
