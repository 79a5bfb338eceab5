import Verif.Model.GraderHeap
import Verif.Lemmas.HeapMore

/-! Invariants of the memory of a `VsGrader`. -/

namespace CenCalVM
namespace Mem

/-- Size and form of the arrays that a pass with an exception leaves. -/
def passLost (n : Int) : List (Nat × Bool) := if 0 < n then [(n.toNat, true), (n.toNat, true)] else []

theorem pass_lost {num : Int} {k : Nat} {raises : Bool} {h : Heap} {own : List Block} (hh : Has h own) :
    ∃ lost, Has (pass num k raises h) (lost ++ own) ∧
      lost.map (fun b => (b.size, b.arr)) = if raises then passLost num else [] := by
  unfold pass
  by_cases hn : num > 0
  · have hp : 0 < num.toNat := by omega
    simp only [if_pos hn, if_pos hp]
    have h1 := (hh.array num.toNat).array num.toNat
    have h2 := rows_has (d := h.next) (c := (h.array num.toNat).next) (n := num.toNat)
      (List.mem_cons_of_mem _ List.mem_cons_self) List.mem_cons_self k h1
    cases raises
    · refine ⟨[], ?_, by simp⟩
      have h3 := h2.perm (List.Perm.swap _ _ own)
      exact (Has.deleteArray h3).deleteArray
    · refine ⟨[_, _], h2, ?_⟩
      simp [passLost, if_pos hn]
  · simp only [if_neg hn, lt_irrefl, gt_iff_lt, if_false]
    refine ⟨[], ?_, ?_⟩
    · cases raises <;> exact hh
    · cases raises
      · rfl
      · simp [passLost, show ¬ 0 < num from hn]

theorem points_has {geom : Option GeomPtr} {d : Nat} {own : List Block} (hd : (⟨d, 8, true⟩ : Block) ∈ own)
    (hg : geomBlocks geom ⊆ own) : ∀ (k : Nat) {h : Heap}, Has h own → Has (points geom d k h) own := by
  intro k
  induction k with
  | zero => intro h hh; exact hh
  | succ k ih =>
    intro h hh
    have r : ∀ i ∈ List.range 8, i < 8 := fun i hi => List.mem_range.1 hi
    exact ih (Has.useGeom (Has.accesses hd (Has.accesses hd (hh.useGeom hg) r) r) hg)

/-- Size and form of the arrays that the grading leaves. -/
def passesLost : List (Int × Nat) → Option (Nat × Nat) → List (Nat × Bool)
  | [], _ => []
  | (n, _) :: _, some (0, _) => passLost n
  | _ :: ps, some (i + 1, k) => passesLost ps (some (i, k))
  | _ :: _, none => []

theorem passes_has {geom : Option GeomPtr} : ∀ (ps : List (Int × Nat)) (s : Option (Nat × Nat)) {h : Heap} {own : List Block},
    geomBlocks geom ⊆ own → Has h own → ∃ lost, Has (passes geom ps s h) (lost ++ own) ∧
      lost.map (fun b => (b.size, b.arr)) = passesLost ps s := by
  intro ps
  induction ps with
  | nil => intro s h own _ hh; exact ⟨[], hh, by cases s <;> rfl⟩
  | cons p ps ih =>
    obtain ⟨n, r⟩ := p
    intro s h own hg hh
    have go : ∀ s', ∃ lost, Has (passes geom ps s' (pass n r false (useGeom h geom))) (lost ++ own) ∧
        lost.map (fun b => (b.size, b.arr)) = passesLost ps s' := by
      intro s'
      obtain ⟨lost, h1, h2⟩ := pass_lost (num := n) (k := r) (raises := false) (hh.useGeom hg)
      rw [if_neg (by simp), List.map_eq_nil_iff] at h2
      subst h2
      exact ih s' hg h1
    match s with
    | none =>
      obtain ⟨lost, h1, h2⟩ := go none
      refine ⟨lost, h1, h2.trans ?_⟩
      cases ps <;> rfl
    | some (0, k) =>
      obtain ⟨lost, h1, h2⟩ := pass_lost (num := n) (k := k) (raises := true) (hh.useGeom hg)
      exact ⟨lost, h1, h2⟩
    | some (i + 1, k) => exact go (some (i, k))

/-- Size and form of the arrays that a run leaves. -/
def runLost (len wid ht : Int) : Stop → List (Nat × Bool)
  | .extract _ => [(8, true)]
  | .grade s => passesLost [(ht, 0), (len, 0), (wid, 0)] s
  | _ => []

theorem passesLost_rows (a b c : Int) (i j k : Nat) (s : Option (Nat × Nat)) :
    passesLost [(a, i), (b, j), (c, k)] s = passesLost [(a, 0), (b, 0), (c, 0)] s := by
  match s with
  | none => rfl
  | some (0, _) => rfl
  | some (1, _) => rfl
  | some (2, _) => rfl
  | some (_ + 3, _) => rfl

/-- Size and form of the arrays that calls leave. -/
def callLost : GraderCall → List (Nat × Bool)
  | .run len wid ht stop => runLost len wid ht stop
  | _ => []

theorem grader_call {o o' : Grader} {c : GraderCall} {lost : List Block} (hh : Has o.heap (geomBlocks o.geom ++ lost))
    (h : o.call c = .ok o') : ∃ more, Has o'.heap (geomBlocks o'.geom ++ (more ++ lost)) ∧
      more.map (fun b => (b.size, b.arr)) = callLost c := by
  cases c with
  | geometry g =>
    injection h with h; subst h
    have h1 := hh.deleteGeomOpt
    cases g
    · exact ⟨[], h1, rfl⟩
    · exact ⟨[], h1.newGeom, rfl⟩
  | unread => injection h with h; subst h; exact ⟨[], hh, rfl⟩
  | run len wid ht stop =>
    obtain ⟨geom, heap⟩ := o
    change Grader.run _ _ _ _ _ = _ at h
    unfold Grader.run at h
    cases geom with
    | none => cases h
    | some g =>
      dsimp only at h hh
      have h0 := hh.useGeom (p := some g) (List.subset_append_left _ _)
      generalize useGeom heap (some g) = h1 at h h0
      have h2 := h0.array 8
      have hsub : geomBlocks (some g) ⊆ (⟨h1.next, 8, true⟩ : Block) :: (geomBlocks (some g) ++ lost) :=
        fun b hb => List.mem_cons_of_mem _ (List.mem_append_left _ hb)
      have h3 := fun k => points_has (geom := some g) List.mem_cons_self hsub k h2
      have h4 := (h3 (len.toNat * wid.toNat * ht.toNat)).deleteArray
      cases stop with
      | opening => injection h with h; subst h; exact ⟨[], h0, rfl⟩
      | extract k =>
        injection h with h; subst h
        refine ⟨[⟨h1.next, 8, true⟩], (h3 (k + 1)).perm ?_, rfl⟩
        exact List.perm_middle.symm
      | pack => injection h with h; subst h; exact ⟨[], h4, rfl⟩
      | grade s =>
        injection h with h; subst h
        obtain ⟨more, h5, h6⟩ := passes_has (geom := some g)
          [(ht, len.toNat * wid.toNat), (len, ht.toNat * wid.toNat), (wid, ht.toNat * len.toNat)] s (List.subset_append_left _ lost) h4
        refine ⟨more, h5.perm ?_, h6.trans (passesLost_rows _ _ _ _ _ _ _)⟩
        rw [← List.append_assoc, ← List.append_assoc]
        exact List.perm_append_comm.append_right _

theorem grader_history (cs : List GraderCall) : ∀ {o o' : Grader} {lost : List Block}, Has o.heap (geomBlocks o.geom ++ lost) →
    o.history cs = .ok o' → ∃ more, Has o'.heap (geomBlocks o'.geom ++ (more ++ lost)) ∧
      List.Perm (more.map fun b => (b.size, b.arr)) (cs.flatMap callLost) := by
  induction cs with
  | nil => intro o o' lost hh h; injection h with h; subst h; exact ⟨[], hh, List.Perm.nil⟩
  | cons c cs ih =>
    intro o o' lost hh h
    unfold Grader.history at h
    cases hc : o.call c with
    | ub => rw [hc] at h; cases h
    | exc m => rw [hc] at h; cases h
    | ok o1 =>
      rw [hc] at h
      obtain ⟨m1, h1, h2⟩ := grader_call hh hc
      obtain ⟨m2, h3, h4⟩ := ih h1 h
      refine ⟨m2 ++ m1, by rw [List.append_assoc]; exact h3, ?_⟩
      rw [List.map_append, List.flatMap_cons, h2]
      exact List.perm_append_comm.trans (h4.append_left _)

theorem newGrader_has : Has (newGrader Heap.init).heap (geomBlocks (newGrader Heap.init).geom ++ []) := Has.init.newGeom

theorem grader_defined (cs : List GraderCall) (hn : GraderCall.geometry false ∉ cs) : ∀ {o : Grader}, o.geom ≠ none →
    ∃ o', o.history cs = .ok o' ∧ o'.geom ≠ none := by
  induction cs with
  | nil => intro o ho; exact ⟨o, rfl, ho⟩
  | cons c cs ih =>
    intro o ho
    have ih := @ih (fun h => hn (List.mem_cons_of_mem _ h))
    unfold Grader.history
    cases c with
    | geometry g =>
      cases g with
      | false => exact absurd List.mem_cons_self hn
      | true => exact ih (o := o.geometry true) (by simp [Grader.geometry])
    | unread => exact ih ho
    | run len wid ht stop =>
      obtain ⟨geom, heap⟩ := o
      cases geom with
      | none => exact absurd rfl ho
      | some g => cases stop <;> exact ih ho

end Mem
end CenCalVM
