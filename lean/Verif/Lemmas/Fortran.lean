/-
Lemmas on the Fortran interface.
-/
import Verif.Spec.Fortran
import Verif.Lemmas.CApi

set_option linter.unusedSectionVars false

namespace CenCalVM
namespace Fortran

theorem NUL_not_space : Stream.isSpace NUL = false := by decide +kernel

theorem cString_append (a b : List Char) (h : NUL ∉ a) : cString (a ++ NUL :: b) = .ok a := by
  induction a with
  | nil => rfl
  | cons c a ih =>
    have hc : c ≠ NUL := fun e => h (by simp [e])
    rw [List.cons_append, cString, if_neg hc, ih (fun h' => h (by simp [h']))]
    rfl

theorem cString_ub (a : List Char) (h : NUL ∉ a) : cString a = .ub := by
  induction a with
  | nil => rfl
  | cons c a ih =>
    have hc : c ≠ NUL := fun e => h (by simp [e])
    rw [cString, if_neg hc, ih (fun h' => h (by simp [h']))]
    rfl

theorem firstToken_eq {ws rest : List Char} {tok : String} (hws : ∀ c ∈ ws, Stream.isSpace c = true) (ht : tok ≠ "")
    (htok : ∀ c ∈ tok.toList, Stream.isSpace c = false)
    (hrest : rest = [] ∨ ∃ b r, rest = b :: r ∧ Stream.isSpace b = true) :
    firstToken (ws ++ tok.toList ++ rest) = tok := by
  have hdrop : (ws ++ tok.toList ++ rest).dropWhile Stream.isSpace = tok.toList ++ rest := by
    rw [List.append_assoc, List.dropWhile_append_of_pos hws]
    cases hl : tok.toList with
    | nil => exact absurd (String.toList_eq_nil_iff.1 hl) ht
    | cons c cs => rw [List.cons_append, List.dropWhile_cons, htok c (by rw [hl]; simp)]; rfl
  have hspan : (tok.toList ++ rest).span (fun ch => !Stream.isSpace ch) = (tok.toList, rest) := by
    rw [List.span_eq_takeWhile_dropWhile]
    have h1 : ∀ c ∈ tok.toList, (!Stream.isSpace c) = true := fun c hc => by rw [htok c hc]; rfl
    rw [List.takeWhile_append_of_pos h1, List.dropWhile_append_of_pos h1]
    rcases hrest with rfl | ⟨b, r, rfl, hb⟩
    · simp
    · simp [hb]
  unfold firstToken Stream.extract Stream.ofText Stream.good
  simp only [Bool.not_false, Bool.and_self, Bool.not_true, Bool.false_eq_true, if_false]
  rw [hdrop]
  cases hl : tok.toList ++ rest with
  | nil =>
    have := (List.append_eq_nil_iff.1 hl).1
    exact absurd (String.toList_eq_nil_iff.1 this) ht
  | cons c cs =>
    dsimp only
    rw [← hl, hspan]
    exact String.ofList_toList

theorem Holds.token {var : List Char} {tok : String} (h : Holds var tok) :
    ∃ text, cString var = .ok text ∧ firstToken text = tok := by
  obtain ⟨ws, rest, more, rfl, h1, h2, h3, h4, h5⟩ := h
  refine ⟨ws ++ tok.toList ++ rest, cString_append _ _ ?_, firstToken_eq h1 h2 (fun c hc => (h3 c hc).1) h4⟩
  intro h
  rcases List.mem_append.1 h with h | h
  · rcases List.mem_append.1 h with h | h
    · have := h1 _ h; rw [NUL_not_space] at this; cases this
    · exact (h3 _ h).2 rfl
  · exact h5 h

theorem strncpy_nil {n : Nat} {dst : List Char} (h : n ≤ dst.length) :
    strncpy n dst [] = .ok (List.replicate n NUL ++ dst.drop n) := by
  induction n generalizing dst with
  | zero => rfl
  | succ n ih =>
    cases dst with
    | nil => simp at h
    | cons d dst =>
      rw [strncpy, ih (by simpa using h)]
      simp [List.replicate_succ]

theorem strncpy_eq {n : Nat} {dst src : List Char} (h : n ≤ dst.length) (hs : NUL ∉ src) :
    strncpy n dst src = .ok (src.take n ++ List.replicate (n - src.length) NUL ++ dst.drop n) := by
  induction n generalizing dst src with
  | zero => simp [strncpy]
  | succ n ih =>
    cases dst with
    | nil => simp at h
    | cons d dst =>
      cases src with
      | nil => rw [strncpy_nil h]; simp
      | cons c src =>
        have hc : c ≠ NUL := fun e => hs (by simp [e])
        rw [strncpy, if_neg hc, ih (by simpa using h) (fun h' => hs (by simp [h']))]
        simp

theorem strncpy_short {n : Nat} {dst src : List Char} (h : dst.length < n) : strncpy n dst src = .ub := by
  induction n generalizing dst src with
  | zero => omega
  | succ n ih =>
    cases dst with
    | nil => rfl
    | cons d dst =>
      have h' : dst.length < n := by simpa using h
      cases src with
      | nil => rw [strncpy, ih h']; rfl
      | cons c src => rw [strncpy]; split <;> (rw [ih h']; rfl)

end Fortran
end CenCalVM
