/-
Lemmas for the array of the example in C++.
-/
import Verif.Model.CppHeap
import Verif.Lemmas.CppExample
import Verif.Lemmas.Heap
import Verif.Lemmas.IsoHeap

set_option linter.unusedSectionVars false

namespace CenCalVM
namespace CppExample
open QueryApp (Options Env Line Result leave)
open Mem (Heap Block Has)
open Print (bind_eq_ok)
open IsoApp (dropHeap drop_bind)
variable {K : Type} [Field K] [LinearOrder K]

theorem drop_leave_cpp (env : Env K) (r : Result K) (h : Heap) : dropHeap (leaveMem env r h) = leave env r := by
  unfold leaveMem
  cases leave env r <;> rfl

theorem drop_loop_cpp (env : Env K) (all : Bool) (p n : Nat) (s : Stream) (loc : K × K × K) (q : VMQuery K) (fs : Files)
    (lines : List (Line K)) (h : Heap) :
    dropHeap (loopMem env all p n s loc q fs lines h) = loop env all n s loc q fs lines := by
  induction n generalizing s loc q fs lines h with
  | zero => rfl
  | succ n ih =>
    unfold loopMem loop
    split
    · cases VMQuery.query env.fmt q fs (numVals all) loc.1 loc.2.1 loc.2.2 with
      | ub => rfl
      | exc m => rfl
      | ok r =>
        rw [Outcome.bind_ok, Outcome.bind_ok]
        dsimp only
        split
        · exact drop_leave_cpp _ _ _
        · exact ih _ _ _ _ _ _
    · unfold finishMem
      cases finish env q fs lines <;> rfl

theorem drop_run_cpp (env : Env K) (all : Bool) (o : Options K) (fs : Files) : dropHeap (runMem env all o fs) = run env all o fs := by
  unfold runMem run
  dsimp only
  cases configure o { VMQuery.init env.geom with err := (start env o fs).1 } with
  | none => exact drop_leave_cpp _ _ _
  | some q =>
    dsimp only
    cases chooseVals all q with
    | ub => rfl
    | exc m => rfl
    | ok x =>
      rw [Outcome.bind_ok, Outcome.bind_ok]
      cases x with
      | none => exact drop_leave_cpp _ _ _
      | some q =>
        dsimp only
        cases VMQuery.openDb env.disk q with
        | ub => rfl
        | exc m => rfl
        | ok q =>
          rw [Outcome.bind_ok, Outcome.bind_ok]
          cases checked q with
          | none => exact drop_leave_cpp _ _ _
          | some q =>
            dsimp only
            cases selectType o q with
            | none => exact drop_leave_cpp _ _ _
            | some q =>
              dsimp only
              cases env.input o.filenameIn with
              | none => exact drop_leave_cpp _ _ _
              | some text =>
                dsimp only
                split
                · exact drop_loop_cpp _ _ _ _ _ _ _ _ _ _
                · exact drop_leave_cpp _ _ _

theorem leaveMem_heap {env : Env K} {r : Result K} {h : Heap} {x : Result K × Heap} (he : leaveMem env r h = .ok x) : x = (r, h) := by
  unfold leaveMem at he
  obtain ⟨y, hy, he⟩ := bind_eq_ok he
  cases he
  rw [leave_code hy]

theorem loop_has_cpp {env : Env K} {all : Bool} {p n : Nat} {s : Stream} {loc : K × K × K} {q : VMQuery K} {fs : Files}
    {lines : List (Line K)} {h : Heap} {x : Result K × Heap} {own : List Block} (hh : Has h own)
    (hp : (⟨p, (numVals all).toNat, true⟩ : Block) ∈ own) (he : loopMem env all p n s loc q fs lines h = .ok x) : Has x.2 own := by
  induction n generalizing s loc q fs lines h with
  | zero => cases he
  | succ n ih =>
    unfold loopMem at he
    split at he
    · obtain ⟨r, hr, he⟩ := bind_eq_ok he
      have hn : q.queryVals.length = (numVals all).toNat := by
        unfold VMQuery.query at hr
        split at hr
        · cases hr
        · rename_i hne
          have := not_not.1 hne
          omega
      have h1 : Has (h.accesses p (List.range q.queryVals.length)) own := hh.accesses hp (by rw [hn]; simp)
      split at he
      · rw [leaveMem_heap he]; exact h1
      · refine ih ?_ he
        refine h1.accesses hp ?_
        show ∀ i ∈ printed all, i < (numVals all).toNat
        cases all <;> decide
    · unfold finishMem at he
      obtain ⟨y, -, he⟩ := bind_eq_ok he
      cases he
      exact hh

theorem run_has_cpp {env : Env K} {all : Bool} {o : Options K} {fs : Files} {x : Result K × Heap} (he : runMem env all o fs = .ok x) :
    Has x.2 [] ∨ Has x.2 [⟨0, (numVals all).toNat, true⟩] := by
  have stop : ∀ {r : Result K}, leaveMem env r Heap.init = .ok x → Has x.2 [] ∨ Has x.2 [⟨0, (numVals all).toNat, true⟩] := by
    intro r h
    rw [leaveMem_heap h]
    exact Or.inl Has.init
  unfold runMem at he
  dsimp only at he
  split at he
  · exact stop he
  · obtain ⟨c, -, he⟩ := bind_eq_ok he
    split at he
    · exact stop he
    · obtain ⟨q, -, he⟩ := bind_eq_ok he
      split at he
      · exact stop he
      · split at he
        · exact stop he
        · split at he
          · exact stop he
          · split at he
            · exact Or.inr (loop_has_cpp (Has.init.array _) List.mem_cons_self he)
            · exact stop he

end CppExample
end CenCalVM
