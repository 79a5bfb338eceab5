/-
Lemmas for the array of the example in C.
-/
import Verif.Model.CExampleHeap
import Verif.Lemmas.CExample
import Verif.Lemmas.Heap
import Verif.Lemmas.IsoHeap

set_option linter.unusedSectionVars false

namespace CenCalVM
namespace CExample
open QueryApp (Options Env Line)
open CApi (World)
open Mem (Heap Block Has)
open Print (bind_eq_ok)
variable {K : Type} [Field K] [LinearOrder K]

theorem loopMem_fst (env : Env K) (h p n : Nat) (s : Stream) (loc : K × K × K) (lines : List (Line K)) (w : World K) (m : Heap) :
    (loopMem env h p n s loc lines w m).1 = loop env h n s loc lines w := by
  induction n generalizing s loc lines w m with
  | zero => rfl
  | succ n ih =>
    unfold loopMem loop
    split
    · rfl
    · cases ask env h loc w with
      | ub => rfl
      | exc e => rfl
      | ok x =>
        cases x with
        | none => rfl
        | some x => exact ih _ _ _ _ _

theorem runMem_fst (env : Env K) (o : Options K) (fs : Files) (rounds : Nat) : (runMem env o fs rounds).1 = run env o fs rounds := by
  unfold runMem run
  cases prepare env o fs with
  | ub => rfl
  | exc e => rfl
  | ok x =>
    cases x with
    | none => rfl
    | some x =>
      dsimp only
      cases env.input o.filenameIn with
      | none => rfl
      | some text =>
        dsimp only
        split
        · exact loopMem_fst _ _ _ _ _ _ _ _ _
        · rfl

theorem chosen_of_ask {env : Env K} {h : Nat} {loc : K × K × K} {w : World K} {x : Option (World K × List K)}
    (he : ask env h loc w = .ok x) : chosen w h = 9 := by
  unfold ask at he
  obtain ⟨r, hr, he⟩ := bind_eq_ok he
  change CApi.query _ _ _ _ _ _ _ = _ at hr
  unfold CApi.query CApi.use at hr
  split at hr
  · cases hr; cases he
  · unfold chosen
    split at hr
    · cases hr
    · rename_i q hq
      rw [hq]
      obtain ⟨y, hy, -⟩ := bind_eq_ok hr
      obtain ⟨z, hz, -⟩ := bind_eq_ok hy
      unfold VMQuery.query at hz
      split at hz
      · cases hz
      · rename_i hne
        have := not_not.1 hne
        dsimp only
        omega

theorem loopMem_has {env : Env K} {h p n : Nat} {s : Stream} {loc : K × K × K} {lines : List (Line K)} {w : World K} {m : Heap}
    {own : List Block} (hm : Has m own) (hp : (⟨p, 9, true⟩ : Block) ∈ own) : Has (loopMem env h p n s loc lines w m).2 own := by
  induction n generalizing s loc lines w m with
  | zero => exact hm
  | succ n ih =>
    unfold loopMem
    split
    · exact hm
    · cases ha : ask env h loc w with
      | ub => exact hm
      | exc e => exact hm
      | ok x =>
        have h1 : Has (m.accesses p (List.range (chosen w h))) own := hm.accesses hp (by rw [chosen_of_ask ha]; simp)
        cases x with
        | none => exact h1
        | some x => exact ih (h1.accesses hp (show ∀ i ∈ [0, 1, 2, 3, 4, 5, 6, 7, 8], i < 9 by decide))

theorem runMem_has (env : Env K) (o : Options K) (fs : Files) (rounds : Nat) :
    Has (runMem env o fs rounds).2 [] ∨ Has (runMem env o fs rounds).2 [⟨0, 9, true⟩] := by
  unfold runMem
  cases prepare env o fs with
  | ub => exact Or.inl Has.init
  | exc e => exact Or.inl Has.init
  | ok x =>
    cases x with
    | none => exact Or.inl Has.init
    | some x =>
      dsimp only
      cases env.input o.filenameIn with
      | none => exact Or.inl Has.init
      | some text =>
        dsimp only
        split
        · exact Or.inr (loopMem_has (Has.init.array 9) List.mem_cons_self)
        · exact Or.inl Has.init

end CExample
end CenCalVM
