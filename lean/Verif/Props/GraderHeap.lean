/-
Properties of the dynamic memory of a `VsGrader`.
-/
import Verif.Spec.GraderHeap
import Verif.Lemmas.GraderHeap

namespace CenCalVM
namespace Mem

/-! ### C151 -/

/-- C151: for every history of calls of a `VsGrader`, whatever runs end with exceptions and wherever, every access is to an element
of a block that is there, and every deletion is of a block that is there and has the form of its allocation; so too when the object
is destroyed. -/
theorem C151 {cs : List GraderCall} {o : Grader} (h : (newGrader Heap.init).history cs = .ok o) :
    Proper o.heap.log ∧ Proper o.destroy.log := by
  obtain ⟨more, h1, -⟩ := grader_history cs newGrader_has h
  exact ⟨h1.inv.proper, h1.deleteGeomOpt.inv.proper⟩

/-- The histories without a null geometry are all defined. -/
theorem C151_defined {cs : List GraderCall} (hn : GraderCall.geometry false ∉ cs) :
    ∃ o, (newGrader Heap.init).history cs = .ok o := by
  obtain ⟨o, h, -⟩ := grader_defined cs hn (o := newGrader Heap.init) (by simp [newGrader])
  exact ⟨o, h⟩

/-- A run after a null geometry is not, once the parameters are read. -/
theorem C151_null {pre : List GraderCall} (hn : GraderCall.geometry false ∉ pre) (len wid ht : Int) (stop : Stop)
    (post : List GraderCall) :
    (newGrader Heap.init).history (pre ++ .geometry false :: .run len wid ht stop :: post) = .ub := by
  suffices ∀ o : Grader, o.geom ≠ none → o.history (pre ++ .geometry false :: .run len wid ht stop :: post) = .ub from
    this _ (by simp [newGrader])
  induction pre with
  | nil => intro o _; rfl
  | cons c cs ih =>
    intro o ho
    have ih := ih (fun h => hn (List.mem_cons_of_mem _ h))
    rw [List.cons_append]
    unfold Grader.history
    cases c with
    | geometry g =>
      cases g with
      | false => exact absurd List.mem_cons_self hn
      | true => exact ih (o.geometry true) (by simp [Grader.geometry])
    | unread => exact ih o ho
    | run len wid ht stop =>
      obtain ⟨geom, heap⟩ := o
      cases geom with
      | none => exact absurd rfl ho
      | some g => cases stop <;> exact ih _ ho

/-- What is done in all: allocations, accesses, deletions. -/
def tally : Outcome Grader → Option (Nat × Nat × Nat)
  | .ok o => some ((o.destroy.log.filter fun e => match e with | .new _ => true | _ => false).length,
      (o.destroy.log.filter fun e => match e with | .access _ _ => true | _ => false).length,
      (o.destroy.log.filter fun e => match e with | .delete _ _ => true | _ => false).length)
  | _ => none

/-- A run over 2 by 2 by 3 points to the end, one ended in the extraction, one ended in the second pass, and a change of geometry. -/
def exCalls : List GraderCall :=
  [.run 2 2 3 (.grade none), .unread, .geometry true, .run 2 2 3 (.extract 1), .run 2 1 3 (.grade (some (1, 0)))]
example : tally ((newGrader Heap.init).history exCalls) = some (17, 732, 14) := by decide +kernel
example : GraderCall.geometry false ∉ exCalls := by decide
example : tally ((newGrader Heap.init).history [.geometry false, .geometry true, .geometry false]) = some (4, 4, 4) := by decide +kernel

/-! ### C152 -/

theorem callLost_eq (c : GraderCall) : callLost c = (left c).map fun n => (n, true) := by
  have hp : ∀ n : Int, passLost n = (pairOf n).map fun n => (n, true) := by
    intro n; unfold passLost pairOf; split <;> rfl
  match c with
  | .geometry _ => rfl
  | .unread => rfl
  | .run _ _ _ .opening => rfl
  | .run _ _ _ (.extract _) => rfl
  | .run _ _ _ .pack => rfl
  | .run _ _ _ (.grade none) => rfl
  | .run _ _ ht (.grade (some (0, _))) => exact hp ht
  | .run len _ _ (.grade (some (1, _))) => exact hp len
  | .run _ wid _ (.grade (some (2, _))) => exact hp wid
  | .run _ _ _ (.grade (some (_ + 3, _))) => rfl

/-- C152, what holds: when a `VsGrader` is destroyed, the blocks still there are arrays, one of eight values for every run whose
extraction ended with an exception, and two of the length of the pass for every run whose grading did; the geometries are all
gone.  Missing: that none is left after an exception (`C152_false`). -/
theorem C152_partial {cs : List GraderCall} {o : Grader} (h : (newGrader Heap.init).history cs = .ok o) :
    ∃ bs : List Block, bs.Nodup ∧ (∀ b, Live o.destroy.log b ↔ b ∈ bs) ∧ (∀ b ∈ bs, b.arr = true) ∧
      List.Perm (bs.map Block.size) (cs.flatMap left) := by
  obtain ⟨more, h1, h2⟩ := grader_history cs newGrader_has h
  rw [List.append_nil] at h1
  have h3 := h1.deleteGeomOpt
  have h4 : List.Perm (more.map fun b => (b.size, b.arr)) ((cs.flatMap left).map fun n => (n, true)) := by
    rw [List.map_flatMap]
    refine h2.trans (List.Perm.of_eq ?_)
    exact List.flatMap_congr fun c _ => callLost_eq c
  refine ⟨more, List.Nodup.of_map _ h3.inv.nodup, fun b => ⟨h3.kept b, h3.inv.live b⟩, fun b hb => ?_, ?_⟩
  · obtain ⟨n, -, he⟩ := List.mem_map.1 (h4.subset (List.mem_map_of_mem (f := fun b : Block => (b.size, b.arr)) hb))
    injection he with e1 e2
    exact e2.symm
  · have h5 := h4.map Prod.fst
    rw [List.map_map, List.map_map] at h5
    simpa [Function.comp_def] using h5

/-- C152 where it holds in full: no run ends with an exception after its databases are open and before its grading is over. -/
theorem C152_none {cs : List GraderCall} {o : Grader} (h : (newGrader Heap.init).history cs = .ok o)
    (hn : ∀ len wid ht stop, GraderCall.run len wid ht stop ∈ cs → stop = .opening ∨ stop = .pack ∨ stop = .grade none) :
    AllDeleted o.destroy.log := by
  obtain ⟨bs, -, h2, -, h4⟩ := C152_partial h
  have h5 : cs.flatMap left = [] := by
    rw [List.flatMap_eq_nil_iff]
    intro c hc
    cases c with
    | geometry g => rfl
    | unread => rfl
    | run len wid ht stop => rcases hn len wid ht stop hc with rfl | rfl | rfl <;> rfl
  rw [h5] at h4
  have h6 : bs = [] := List.map_eq_nil_iff.1 h4.eq_nil
  subst h6
  intro b hb
  by_contra hc
  exact absurd ((h2 b).1 ⟨hb, fun a ha => hc ⟨a, ha⟩⟩) (by simp)

/-- C152 is false: a run whose extraction ends with an exception leaves the array of values. -/
theorem C152_false {cs : List GraderCall} {o : Grader} (h : (newGrader Heap.init).history cs = .ok o) {len wid ht : Int} {k : Nat}
    (hc : GraderCall.run len wid ht (.extract k) ∈ cs) : ¬ AllDeleted o.destroy.log := by
  obtain ⟨bs, -, h2, -, h4⟩ := C152_partial h
  have h5 : (8 : Nat) ∈ cs.flatMap left := List.mem_flatMap.2 ⟨_, hc, by simp [left]⟩
  obtain ⟨b, hb, -⟩ := List.mem_map.1 (h4.symm.subset h5)
  obtain ⟨hn, hd⟩ := (h2 b).2 hb
  intro hall
  obtain ⟨a, ha⟩ := hall b hn
  exact hd a ha

/-- Three arrays are left of the calls above. -/
example : exCalls.flatMap left = [8, 2, 2] := by decide
example : tally ((newGrader Heap.init).history [.run 1 1 1 (.grade none)]) = some (9, 42, 9) := by decide +kernel

end Mem
end CenCalVM
