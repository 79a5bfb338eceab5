import Verif.Lemmas.HeapQuery
import Verif.Lemmas.HeapMore
import Verif.Props.Handles

/-! C124, C125: dynamic memory. -/

namespace CenCalVM
namespace Mem

set_option linter.unusedSectionVars false

section
variable {K : Type} [Field K] [LinearOrder K] [IsStrictOrderedRing K]

/-! ### C124 -/

/-- The functions with memory do what the functions of the other properties do. -/
theorem C124_same (fmt : Fmt K) (canOpen : String → Bool) (g : Geom K) (fs : Files) (cs : List (VMQuery.Call K)) :
    VMQuery.run fmt canOpen ⟨VMQuery.init g, fs, []⟩ cs = (run fmt canOpen (newQuery g fs) cs >>= fun o => .ok o.s) :=
  run_same cs (o := newQuery g fs) (newQuery_has g fs).1 (newQuery_has g fs).2

/-- C124 for query objects: in every history of calls that is defined, and when the object is then destroyed without a failure
of `etree_close`, every access is within a block that is there, and every deletion is of a block that is there and has the form
of its allocation.  Missing, because false (`C124_false`): a failure of `etree_close` in the destructor. -/
theorem C124_partial (fmt : Fmt K) (canOpen : String → Bool) (g : Geom K) (fs : Files) (cs : List (VMQuery.Call K))
    {o : Query K} (h : run fmt canOpen (newQuery g fs) cs = .ok o) :
    Proper o.heap.log ∧ ∃ l, destroy false false o = .ok l ∧ Proper l.log := by
  obtain ⟨h1, -⟩ := run_has cs (newQuery_has g fs).1 (newQuery_has g fs).2 h
  refine ⟨h1.inv.proper, ?_⟩
  have hd : ∃ l, destroy false false o = .ok l := by
    unfold destroy VMQuery.destroy
    rw [Bool.and_false, Bool.and_false]
    exact ⟨_, rfl⟩
  obtain ⟨l, hl⟩ := hd
  exact ⟨l, hl, (destroy_has h1 hl).inv.proper⟩

/-- C124 for the averaging engine, its constructor and its destructor. -/
theorem C124_engine : Proper (newEngine Heap.init).1.log ∧ Proper (deleteEngine (newEngine Heap.init).2 (newEngine Heap.init).1).log := by
  obtain ⟨h1, h2⟩ := newEngine_has Has.init
  exact ⟨h1.inv.proper, (deleteEngine_has h2 h1).inv.proper⟩

/-- C124 for the ingestion of grids, in every history of calls, and when the object is then destroyed. -/
theorem C124_ingest (cs : List IngesterCall) :
    Proper ((newIngester Heap.init).history cs).heap.log ∧ Proper ((newIngester Heap.init).history cs).destroy.log := by
  obtain ⟨more, h1, -⟩ := history_has cs (o := newIngester Heap.init) (lost := []) Has.init
  exact ⟨h1.inv.proper, h1.deleteGeomOpt.inv.proper⟩

/-- C124 for passes of the grader of any lengths, over any numbers of rows, each ending normally or with an exception. -/
theorem C124_passes (ps : List (Int × Nat × Bool)) :
    Proper (ps.foldl (fun h p => pass p.1 p.2.1 p.2.2 h) Heap.init).log := by
  suffices ∀ (h : Heap), (∃ own, Has h own) → ∃ own, Has (ps.foldl (fun h p => pass p.1 p.2.1 p.2.2 h) h) own by
    obtain ⟨own, h⟩ := this _ ⟨[], Has.init⟩
    exact h.inv.proper
  induction ps with
  | nil => exact fun h hh => hh
  | cons p ps ih =>
    rintro h ⟨own, hh⟩
    obtain ⟨lost, h1, -⟩ := pass_has (num := p.1) (k := p.2.1) (raises := p.2.2) hh
    exact ih _ ⟨_, h1⟩

/-! ### C125 -/

/-- C125 for query objects: when the object is destroyed, every block it allocated has been deleted. -/
theorem C125_query (fmt : Fmt K) (canOpen : String → Bool) (g : Geom K) (fs : Files) (cs : List (VMQuery.Call K))
    {o : Query K} (h : run fmt canOpen (newQuery g fs) cs = .ok o) {f fx : Bool} {l : Heap} (hd : destroy f fx o = .ok l) :
    AllDeleted l.log := by
  obtain ⟨h1, -⟩ := run_has cs (newQuery_has g fs).1 (newQuery_has g fs).2 h
  exact (destroy_has h1 hd).allDeleted

/-- At any time, the blocks of a query object that are there are five: the values, two of the geometry, two of the error
handler; whatever number of calls has been made. -/
theorem C125_bounded (fmt : Fmt K) (canOpen : String → Bool) (g : Geom K) (fs : Files) (cs : List (VMQuery.Call K))
    {o : Query K} (h : run fmt canOpen (newQuery g fs) cs = .ok o) :
    ∃ bs : List Block, bs.length ≤ 5 ∧ ∀ b, Live o.heap.log b → b ∈ bs := by
  obtain ⟨h1, -⟩ := run_has cs (newQuery_has g fs).1 (newQuery_has g fs).2 h
  refine ⟨o.blocks, ?_, h1.kept⟩
  unfold Query.blocks
  cases o.vals <;> cases o.geom <;> simp [valBlocks, geomBlocks]

/-- C125 for the averaging engine. -/
theorem C125_engine : AllDeleted (deleteEngine (newEngine Heap.init).2 (newEngine Heap.init).1).log := by
  obtain ⟨h1, h2⟩ := newEngine_has Has.init
  exact (deleteEngine_has h2 h1).allDeleted

/-- C125 for the ingestion of grids, as far as it is true: the blocks left when the object is destroyed are the arrays of
names, one for every run that could open its parameter file. -/
theorem C125_partial (cs : List IngesterCall) : ∃ bs : List Block,
    (∀ b, Live ((newIngester Heap.init).history cs).destroy.log b ↔ b ∈ bs) ∧
      bs.length = (cs.filter fun c => match c with | .run (some _) _ => true | _ => false).length ∧
      ∀ b ∈ bs, b.arr = true ∧ ∃ text used, IngesterCall.run (some text) used ∈ cs ∧ b.size = (GridIngester.readParams text).length := by
  obtain ⟨more, h1, h2⟩ := history_has cs (o := newIngester Heap.init) (lost := []) Has.init
  rw [List.append_nil] at h1
  have h3 := h1.deleteGeomOpt
  refine ⟨more, fun b => ⟨h3.kept b, h3.inv.live b⟩, ?_, fun b hb => ?_⟩
  · have h4 := h2.length_eq
    rw [List.length_map, List.length_map] at h4
    rw [h4]
    clear h1 h2 h3 h4
    induction cs with
    | nil => rfl
    | cons c cs ih =>
      cases c with
      | geometry g => exact ih
      | run p u => cases p with
        | none => exact ih
        | some t => exact congrArg (· + 1) ih
  · have h4 : (b.size, b.arr) ∈ (lostSizes cs).map fun n => (n, true) := h2.subset (List.mem_map_of_mem hb)
    obtain ⟨n, hn, he⟩ := List.mem_map.1 h4
    injection he with e1 e2
    exact ⟨e2.symm, e1 ▸ mem_lostSizes.1 hn⟩

/-- C125 is false of the ingestion of grids: every history with a run that opens its parameter file leaves memory. -/
theorem C125_false {cs : List IngesterCall} {text : List Char} {used : Nat} (h : IngesterCall.run (some text) used ∈ cs) :
    ¬ AllDeleted ((newIngester Heap.init).history cs).destroy.log := by
  obtain ⟨bs, h1, h2, -⟩ := C125_partial cs
  have hm : IngesterCall.run (some text) used ∈ cs.filter fun c => match c with | .run (some _) _ => true | _ => false :=
    List.mem_filter.2 ⟨h, rfl⟩
  have hl := List.length_pos_of_mem hm
  rw [← h2] at hl
  obtain ⟨b, hb⟩ := List.exists_mem_of_length_pos hl
  intro hall
  obtain ⟨hn, hd⟩ := (h1 b).2 hb
  obtain ⟨arr, ha⟩ := hall b hn
  exact hd arr ha

/-- C125 for passes of the grader that end normally. -/
theorem C125_passes_partial (ps : List (Int × Nat)) :
    AllDeleted (ps.foldl (fun h p => pass p.1 p.2 false h) Heap.init).log := by
  suffices ∀ (h : Heap), Has h [] → Has (ps.foldl (fun h p => pass p.1 p.2 false h) h) [] from (this _ Has.init).allDeleted
  induction ps with
  | nil => exact fun h hh => hh
  | cons p ps ih =>
    intro h hh
    obtain ⟨lost, h1, h2⟩ := pass_has (num := p.1) (k := p.2) (raises := false) hh
    rw [h2.2 (Or.inl rfl)] at h1
    exact ih _ h1

/-- C125 is false of a pass of the grader with an exception: its arrays are lost. -/
theorem C125_false_pass {num : Int} (hn : 0 < num) (k : Nat) : ¬ AllDeleted (pass num k true Heap.init).log := by
  obtain ⟨lost, h1, h2⟩ := pass_has (num := num) (k := k) (raises := true) Has.init
  have hne : lost ≠ [] := fun h => by
    rcases h2.1 h with h | h
    · cases h
    · omega
  obtain ⟨b, hb⟩ := List.exists_mem_of_ne_nil _ hne
  intro hall
  obtain ⟨hn, hd⟩ := h1.inv.live b (List.mem_append_left _ hb)
  obtain ⟨arr, ha⟩ := hall b hn
  exact hd arr ha

end

/-! ### Examples and counterexamples -/

/-- The events. -/
def eventsOf : Outcome Heap → Option (List Event)
  | .ok h => some h.log
  | _ => none

/-- A query object that is given a geometry, asked for two values, queried and destroyed. -/
example : eventsOf (run exFmt (fun _ => true) (newQuery exGeom (fun _ => ""))
      [.filename "det", .open exDisk, .geometry (some exGeom), .queryVals ["Vs", "Vp"] 2, .query 2 220 40 (-100)] >>= destroy false false) =
    some ([.new ⟨0, 1, false⟩, .new ⟨1, 1, false⟩, .access 0 0, .new ⟨2, 1, false⟩, .new ⟨3, 1, false⟩, .access 2 0, .new ⟨4, 9, true⟩] ++
      (List.range 9).map (fun i => .access 4 i) ++ [.access 2 0, .access 3 0, .access 2 0, .access 3 0, .access 0 0, .delete 1 false, .delete 0 false,
      .new ⟨5, 1, false⟩, .new ⟨6, 1, false⟩, .access 5 0, .delete 4 true, .new ⟨7, 2, true⟩, .access 7 0, .access 7 1,
      .access 2 0, .access 3 0, .access 5 0, .access 6 0, .access 2 0, .access 3 0, .access 7 0, .access 7 1, .delete 7 true,
      .access 5 0, .delete 6 false, .delete 5 false, .access 2 0, .delete 3 false, .delete 2 false]) := by decide +kernel

/-- C124 is false if `etree_close` fails when a query object is destroyed: the error handler has been deleted. -/
theorem C124_false : ∃ o : Query ℚ, run exFmt (fun _ => true) (newQuery exGeom (fun _ => "")) [.filename "det", .open exDisk] = .ok o ∧
    destroy true false o = .ub := by
  have h : (match run exFmt (fun _ => true) (newQuery exGeom (fun _ => "")) [.filename "det", .open exDisk] with
    | .ok o => (match destroy true false o with | .ub => true | _ => false)
    | _ => false) = true := by decide +kernel
  cases hr : run exFmt (fun _ => true) (newQuery exGeom (fun _ => "")) [.filename "det", .open exDisk] with
  | ok o =>
    rw [hr] at h
    refine ⟨o, rfl, ?_⟩
    dsimp only at h
    cases hd : destroy true false o with
    | ub => rfl
    | ok l => rw [hd] at h; cases h
    | exc m => rw [hd] at h; cases h
  | exc m => rw [hr] at h; cases h
  | ub => rw [hr] at h; cases h

/-- Two runs, the second with no names. -/
example : ((newIngester Heap.init).history [.geometry true, .run (some "a b\n".toList) 1, .run (some []) 0, .geometry false]).destroy.log =
    [.new ⟨0, 1, false⟩, .new ⟨1, 1, false⟩, .access 0 0, .new ⟨2, 2, true⟩, .access 2 0, .access 2 1, .access 2 0, .access 0 0, .access 1 0,
      .new ⟨3, 0, true⟩, .access 0 0, .access 1 0, .access 0 0, .delete 1 false, .delete 0 false] := by decide +kernel

/-- A pass over one row of three points, and one with no points. -/
example : (pass 0 5 false (pass 3 1 false Heap.init)).log = [.new ⟨0, 3, true⟩, .new ⟨1, 3, true⟩, .access 0 0, .access 0 1, .access 0 2,
    .access 1 0, .access 1 1, .access 1 2, .access 0 1, .access 0 0, .access 1 1, .access 0 2, .access 0 1, .access 1 2,
    .access 0 1, .access 0 2, .access 1 1, .access 0 0, .access 0 1, .access 1 0, .access 1 0, .access 1 1, .access 1 2,
    .access 0 0, .access 0 1, .access 0 2, .delete 0 true, .delete 1 true] := by decide +kernel

/-- The engine allocates 65 blocks. -/
example : (newEngine Heap.init).1.next = 65 := by decide +kernel

end Mem
end CenCalVM
