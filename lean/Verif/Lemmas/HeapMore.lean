import Verif.Lemmas.Heap

/-! The memory of the averaging engine, of the ingestion of grids, and of the passes of the grader. -/

namespace CenCalVM
namespace Mem

/-- The blocks of the elements of the array of pending octants. -/
def elemBlocks : List (Nat × Nat) → List Block
  | [] => []
  | (s, a) :: r => ⟨s, 1, false⟩ :: ⟨a, 1, false⟩ :: elemBlocks r

theorem newPending_has {octs N : Nat} : ∀ (n i : Nat) {h : Heap} {own : List Block}, (⟨octs, N, true⟩ : Block) ∈ own → i + n ≤ N →
    Has h own → Has (newPending octs i n h).1 (elemBlocks (newPending octs i n h).2 ++ own) ∧
      (newPending octs i n h).2.length = n := by
  intro n
  induction n with
  | zero => intro i h own _ _ hh; exact ⟨hh, rfl⟩
  | succ n ih =>
    intro i h own hb hle hh
    have lt : (0 : Int) ≤ (i : Int) ∧ (i : Int) < ((⟨octs, N, true⟩ : Block).size : Int) := nat_lt (n := N) (by omega)
    have h1 := hh.one.access (List.mem_cons_of_mem _ hb) lt
    have hb2 : (⟨octs, N, true⟩ : Block) ∈ (⟨h.next + 1, 1, false⟩ : Block) :: ⟨h.next, 1, false⟩ :: own :=
      List.mem_cons_of_mem _ (List.mem_cons_of_mem _ hb)
    have h2 : Has _ ((⟨h.next + 1, 1, false⟩ : Block) :: ⟨h.next, 1, false⟩ :: own) := h1.one.access hb2 lt
    have h3 := h2.access (b := ⟨h.next + 1, 1, false⟩) List.mem_cons_self one_lt
    have h4 := h3.access hb2 lt
    obtain ⟨h5, h6⟩ := ih (i + 1) hb2 (by omega) h4
    refine ⟨h5.perm ?_, congrArg (· + 1) h6⟩
    refine List.perm_middle.trans (List.Perm.trans ?_ (List.Perm.swap _ _ _))
    exact List.Perm.cons _ List.perm_middle

theorem newEngine_has {h : Heap} {own : List Block} (hh : Has h own) :
    Has (newEngine h).1 (elemBlocks (newEngine h).2.elems ++ (⟨(newEngine h).2.octs, AvgEngine.pendingSize, true⟩ :: own)) ∧
      (newEngine h).2.elems.length = AvgEngine.pendingSize := by
  unfold newEngine
  dsimp only
  generalize AvgEngine.pendingSize = N
  exact newPending_has (octs := h.next) (N := N) N 0 List.mem_cons_self (by omega) (hh.array N)

theorem deletePending_has {octs N : Nat} : ∀ (l : List (Nat × Nat)) (i : Nat) {h : Heap} {own : List Block},
    (⟨octs, N, true⟩ : Block) ∈ own → i + l.length ≤ N → Has h (elemBlocks l ++ own) → Has (deletePending octs i l h) own := by
  intro l
  induction l with
  | nil => intro i h own _ _ hh; exact hh
  | cons e r ih =>
    obtain ⟨s, a⟩ := e
    intro i h own hb hle hh
    have lt : (0 : Int) ≤ (i : Int) ∧ (i : Int) < ((⟨octs, N, true⟩ : Block).size : Int) :=
      nat_lt (n := N) (by simp only [List.length_cons] at hle; omega)
    have h1 := hh.access (List.mem_append_right _ hb) lt
    have h2 : Has ((h.access octs i).delete s) (⟨a, 1, false⟩ :: (elemBlocks r ++ own)) := Has.delete (n := 1) h1
    have h3 := h2.access (List.mem_cons_of_mem _ (List.mem_append_right _ hb)) lt
    have h4 := Has.delete (n := 1) h3
    exact ih (i + 1) hb (by simp only [List.length_cons] at hle; omega) h4

theorem deleteEngine_has {p : EnginePtr} {h : Heap} {own : List Block} (hl : p.elems.length = AvgEngine.pendingSize)
    (hh : Has h (elemBlocks p.elems ++ (⟨p.octs, AvgEngine.pendingSize, true⟩ :: own))) : Has (deleteEngine p h) own := by
  revert hl hh
  generalize AvgEngine.pendingSize = N
  intro hl hh
  exact (deletePending_has (octs := p.octs) (N := N) p.elems 0 List.mem_cons_self (by omega) hh).deleteArray

/-- The arrays of names of a history of runs. -/
def lostSizes : List IngesterCall → List Nat
  | [] => []
  | .run (some text) _ :: cs => (GridIngester.readParams text).length :: lostSizes cs
  | _ :: cs => lostSizes cs

theorem mem_lostSizes {cs : List IngesterCall} {n : Nat} : n ∈ lostSizes cs ↔
    ∃ text used, IngesterCall.run (some text) used ∈ cs ∧ n = (GridIngester.readParams text).length := by
  induction cs with
  | nil => simp [lostSizes]
  | cons c cs ih =>
    cases c with
    | geometry g => simp [lostSizes, ih]
    | run p u =>
      cases p with
      | none => simp [lostSizes, ih]
      | some text =>
        simp only [lostSizes, List.mem_cons, ih, IngesterCall.run.injEq, Option.some.injEq]
        constructor
        · rintro (rfl | ⟨t, v, h, rfl⟩)
          · exact ⟨text, u, Or.inl ⟨rfl, rfl⟩, rfl⟩
          · exact ⟨t, v, Or.inr h, rfl⟩
        · rintro ⟨t, v, ⟨rfl, rfl⟩ | h, rfl⟩
          · exact Or.inl rfl
          · exact Or.inr ⟨t, v, h, rfl⟩

theorem history_has (cs : List IngesterCall) : ∀ {o : Ingester} {lost : List Block}, Has o.heap (geomBlocks o.geom ++ lost) →
    ∃ more, Has (o.history cs).heap (geomBlocks (o.history cs).geom ++ (more ++ lost)) ∧
      List.Perm (more.map fun b => (b.size, b.arr)) ((lostSizes cs).map fun n => (n, true)) := by
  induction cs with
  | nil => intro o lost hh; exact ⟨[], hh, List.Perm.nil⟩
  | cons c cs ih =>
    intro o lost hh
    cases c with
    | geometry g =>
      have h1 := hh.deleteGeomOpt
      have h2 : Has (o.geometry g).heap (geomBlocks (o.geometry g).geom ++ lost) := by
        unfold Ingester.geometry
        dsimp only
        cases g
        · exact h1
        · exact h1.newGeom
      exact ih h2
    | run p used =>
      cases p with
      | none => exact ih hh
      | some text =>
        have h1 := hh.array (GridIngester.readParams text).length
        have h2 := Has.accesses (is := List.range (GridIngester.readParams text).length) List.mem_cons_self h1
          fun i hi => List.mem_range.1 hi
        have h3 := Has.accesses (is := List.range (min used (GridIngester.readParams text).length)) List.mem_cons_self h2
          fun i hi => lt_of_lt_of_le (List.mem_range.1 hi) (min_le_right _ _)
        have h4 := h3.useGeom (p := o.geom) fun b hb => List.mem_cons_of_mem _ (List.mem_append_left _ hb)
        have h5 : Has (o.run (some text) used).heap (geomBlocks (o.run (some text) used).geom ++
            (⟨o.heap.next, (GridIngester.readParams text).length, true⟩ :: lost)) := h4.perm List.perm_middle.symm
        obtain ⟨more, h6, h7⟩ := ih h5
        refine ⟨more ++ [⟨o.heap.next, (GridIngester.readParams text).length, true⟩], ?_, ?_⟩
        · rw [List.append_assoc]
          exact h6
        · rw [List.map_append]
          show List.Perm _ (((GridIngester.readParams text).length, true) :: _)
          exact List.perm_append_comm.trans (List.Perm.cons _ h7)

theorem Has.foldl {own : List Block} {f : Heap → Nat → Heap} : ∀ {l : List Nat} {h : Heap},
    (∀ h, Has h own → ∀ i ∈ l, Has (f h i) own) → Has h own → Has (l.foldl f h) own := by
  intro l
  induction l with
  | nil => intro h _ hh; exact hh
  | cons i l ih =>
    intro h hf hh
    exact ih (fun h hh j hj => hf h hh j (List.mem_cons_of_mem _ hj)) (hf h hh i List.mem_cons_self)

theorem limitDiff_has {d c n : Nat} {h : Heap} {own : List Block} (hd : (⟨d, n, true⟩ : Block) ∈ own)
    (hc : (⟨c, n, true⟩ : Block) ∈ own) (hh : Has h own) : Has (limitDiff d c n h) own := by
  unfold limitDiff
  have lt : ∀ {p : Nat} {i : Int}, 0 ≤ i ∧ i < n → 0 ≤ i ∧ i < ((⟨p, n, true⟩ : Block).size : Int) := fun h => h
  refine Has.foldl (fun h hh i hi => ?_) (Has.foldl (fun h hh i hi => ?_)
    (Has.accesses hc hh fun i hi => List.mem_range.1 hi))
  · rw [List.mem_reverse, List.mem_range] at hi
    exact ((hh.access hd (lt (by omega))).access hd (lt (by omega))).access hc (lt (by omega))
  · obtain ⟨j, hj, rfl⟩ := List.mem_map.1 hi
    rw [List.mem_range] at hj
    exact ((hh.access hd (lt (by omega))).access hd (lt (by omega))).access hc (lt (by omega))

theorem rows_has {d c n : Nat} {own : List Block} (hd : (⟨d, n, true⟩ : Block) ∈ own) (hc : (⟨c, n, true⟩ : Block) ∈ own) :
    ∀ (k : Nat) {h : Heap}, Has h own → Has (rows d c n k h) own := by
  intro k
  induction k with
  | zero => intro h hh; exact hh
  | succ k ih =>
    intro h hh
    have r : ∀ i ∈ List.range n, i < n := fun i hi => List.mem_range.1 hi
    exact ih (Has.accesses hd (Has.accesses hc (limitDiff_has hd hc (Has.accesses hd hh r)) r) r)

theorem pass_has {num : Int} {k : Nat} {raises : Bool} {h : Heap} {own : List Block} (hh : Has h own) :
    ∃ lost, Has (pass num k raises h) (lost ++ own) ∧ (lost = [] ↔ raises = false ∨ num ≤ 0) := by
  unfold pass
  by_cases hn : num > 0
  · have hp : 0 < num.toNat := by omega
    simp only [if_pos hn, if_pos hp]
    have h1 := (hh.array num.toNat).array num.toNat
    have h2 := rows_has (d := h.next) (c := (h.array num.toNat).next) (n := num.toNat)
      (List.mem_cons_of_mem _ List.mem_cons_self) List.mem_cons_self k h1
    cases raises
    · refine ⟨[], ?_, by simp⟩
      have h3 := h2.perm (List.Perm.swap _ _ own)
      exact (Has.deleteArray h3).deleteArray
    · refine ⟨[_, _], h2, ?_⟩
      simp only [List.cons_ne_nil, Bool.true_eq_false, false_or, false_iff]
      omega
  · simp only [if_neg hn, lt_irrefl, gt_iff_lt, if_false]
    refine ⟨[], ?_, ?_⟩
    · cases raises <;> exact hh
    · simp only [true_iff]
      right; omega

end Mem
end CenCalVM
