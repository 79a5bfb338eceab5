import Verif.Lemmas.Handles
import Verif.Lemmas.HandlesSame
import Verif.Props.Create
import Verif.Props.FileApps

/-! C122, C123: handles of etree databases. -/

namespace CenCalVM
namespace Handles

section
variable {K : Type} [Field K] [LinearOrder K]

/-! ### C122 -/

/-- The functions with handles do what the functions of the other properties do: query objects. -/
theorem C122_same [IsStrictOrderedRing K] (fmt : Fmt K) (canOpen : String → Bool) (g : Geom K) (fs : Files) (cs : List (VMQuery.Call K)) :
    VMQuery.run fmt canOpen ⟨VMQuery.init g, fs, []⟩ cs =
      (run fmt canOpen (newQuery g fs) cs >>= fun o => .ok o.s) :=
  run_same cs (o := newQuery g fs) ⟨rfl, rfl⟩

/-- Creators. -/
theorem C122_same_create [IsStrictOrderedRing K] (env : EtreeEnv) (s : Creator K) (f d t p u : String) :
    VMCreator.openDB env s.c f d t = (match openDB env s f d t with
      | .ok s' _ => .ok s'.c ()
      | .exc m s' => .exc m s'.c
      | .ub => .ub) ∧
    VMCreator.packDB env s.c.disk p u = (match packDB env s.c.disk s.lib p u with
      | .ok r _ => .ok r.1 ()
      | .exc m r => .exc m r.1
      | .ub => .ub) :=
  ⟨openDB_same env s f d t, packDB_same env s.c.disk s.lib p u⟩

/-- Averagers. -/
theorem C122_same_average [IsStrictOrderedRing K] (env : Averager.Env K) (s : Averager K) (fi fo st : String) :
    Averager.average env s.disk fi fo st = match average env s fi fo st with
      | .ok s' _ => .ok s'.disk ()
      | .exc m s' => .exc m s'.disk
      | .ub => .ub :=
  average_same env s fi fo st

/-- C122 for query objects: in every history of calls on a new object, and when it is then destroyed, no handle is used
or closed before it is given or after it is closed. -/
theorem C122_query (fmt : Fmt K) (canOpen : String → Bool) (g : Geom K) (fs : Files) (cs : List (VMQuery.Call K))
    {o : Query K} (h : run fmt canOpen (newQuery g fs) cs = .ok o) :
    Proper o.lib.log ∧ ∀ f fx l, destroy f fx o = .ok l → Proper l.log := by
  obtain ⟨h1, h2⟩ := run_inv cs h inv_init kept_init
  refine ⟨h1.proper, fun f fx l hl => ?_⟩
  rw [destroy_ok hl]
  exact (close_inv h1 h2).1.proper

/-- C122 for averagers: in every history of averages by one object, with exceptions caught, and when it is then
destroyed. -/
theorem C122_average (disk : EtreeDisk K) (cs : List (AverageCall K)) {s : Averager K}
    (h : averagerRun (newAverager disk) cs = .ok s) : Proper s.lib.log ∧ Proper (destroyAverager s).log := by
  have hi := averagerRun_inv cs h inv_init
  refine ⟨hi.proper, ?_⟩
  unfold Averager.own at hi
  exact (Inv.closeHead (own := []) (by simpa using hi.closeHead)).proper

/-- C122 for creators: in every history of calls on a new object, with exceptions caught, and when it is then destroyed,
if `etree_close` does not fail in `packDB`.  The missing part is false: `C122_false`. -/
theorem C122_partial (disk : EtreeDisk K) (cs : List (CreatorCall K)) (hw : ∀ c ∈ cs, CloseWorks c) {s : Creator K}
    (h : creatorRun (newCreator disk) cs = .ok s) : Proper s.lib.log ∧ Proper (closeDB s).lib.log := by
  have hi := creatorRun_inv cs h hw inv_init
  exact ⟨hi.proper, (Inv.closeHead (own := []) (by simpa using hi)).proper⟩

/-! ### C123 -/

/-- C123 for query objects: after every history of calls on a new object and its destruction, all handles are closed. -/
theorem C123_query (fmt : Fmt K) (canOpen : String → Bool) (g : Geom K) (fs : Files) (cs : List (VMQuery.Call K))
    {o : Query K} (h : run fmt canOpen (newQuery g fs) cs = .ok o) {f fx : Bool} {l : Lib}
    (hd : destroy f fx o = .ok l) : AllClosed l.log := by
  obtain ⟨h1, h2⟩ := run_inv cs h inv_init kept_init
  rw [destroy_ok hd]
  exact (close_inv h1 h2).2.allClosed

/-- C123 for averagers, if no average but the last of the object raised an exception.  The missing part is false:
`C123_false_average`. -/
theorem C123_average_partial (disk : EtreeDisk K) (cs : List (AverageCall K)) {s : Averager K}
    (h : averagerRun (newAverager disk) cs = .ok s) (ho : OnlyLastFails (newAverager disk) cs) :
    AllClosed (destroyAverager s).log := by
  have hk := averagerRun_kept cs h ho kept_init rfl rfl
  unfold Averager.own at hk
  exact (Kept.closeHead (own := []) (by simpa using hk.closeHead)).allClosed

/-- C123 for creators, if no database is opened while another is open, and no `packDB` fails after it opened the unpacked
database.  The missing parts are false: `C123_false_open`, `C123_false_pack`. -/
theorem C123_partial (disk : EtreeDisk K) (cs : List (CreatorCall K)) {s : Creator K}
    (h : creatorRun (newCreator disk) cs = .ok s) (ho : OrderlyRun (newCreator disk) cs) :
    AllClosed (closeDB s).lib.log := by
  have hk := creatorRun_kept cs h ho kept_init
  exact (Kept.closeHead (own := []) (by simpa using hk)).allClosed

end

/-! ### Examples and counterexamples -/

/-- The calls of libetree. -/
def logOf {α : Type} (f : α → Lib) : Outcome α → Option (List Event)
  | .ok a => some (f a).log
  | _ => none

theorem logOf_some {α : Type} {f : α → Lib} {o : Outcome α} {l : List Event} (h : logOf f o = some l) :
    ∃ a, o = .ok a ∧ (f a).log = l := by
  cases o with
  | ok a => exact ⟨a, rfl, Option.some.inj h⟩
  | exc m => cases h
  | ub => cases h

/-- Opening twice, a query, closing, opening again, and destruction. -/
example : logOf id (run exFmt (fun _ => true) (newQuery exGeom (fun _ => ""))
      [.filename "det", .open exDisk, .filenameExt "ext", .open exDisk, .query 9 220 40 (-100), .close false true, .open exDisk] >>=
        destroy false false) =
    some [.opened 0 "det", .opened 1 "ext", .used 0, .used 1, .closed 0, .closed 1, .opened 2 "det", .opened 3 "ext",
      .closed 2, .closed 3] := by decide +kernel

/-- A disk with two files. -/
def exPackDisk (n : String) : Option (EtreeFile ℚ) := if n = "a" then some ⟨exDb, some SCHEMA, some "m"⟩ else none

/-- A creator: create, insert, close, pack. -/
def exCreatorCalls : List (CreatorCall ℚ) :=
  [.openDB exEtree "t" "d" "now", .insert exEtree (exPay 2000 1) 220 40 (-100) 1000 (some exGeom), .closeDB, .packDB exEtree "p" "t"]

example : (∀ c ∈ exCreatorCalls, CloseWorks c) ∧
    logOf Creator.lib (creatorRun (newCreator exPackDisk) exCreatorCalls) =
      some [.opened 0 "t", .used 0, .used 0, .closed 0, .opened 1 "t", .opened 2 "p", .used 2, .used 1, .used 2, .closed 1, .closed 2] := by
  refine ⟨?_, by decide +kernel⟩
  intro c hc env p u h
  subst h
  simp only [exCreatorCalls, List.mem_cons, reduceCtorEq, false_or, List.not_mem_nil, or_false] at hc
  cases hc
  exact ⟨rfl, rfl⟩

/-- An averager that fails the second time. -/
example : logOf destroyAverager (averagerRun (newAverager (FileApps.exDisk exAvgDb))
      [⟨FileApps.exAvgEnv, "a", "b", "now"⟩, ⟨{ FileApps.exAvgEnv with schema := true }, "a", "c", "now"⟩]) =
    some [.opened 0 "a", .used 0, .opened 1 "b", .used 1, .used 0, .closed 0, .closed 1,
      .opened 2 "a", .used 2, .opened 3 "c", .used 3, .used 2, .closed 2, .closed 3] := by decide +kernel

/-- A normal end. -/
def okRun {σ : Type} : Run σ Unit → Bool
  | .ok _ _ => true
  | _ => false

theorem okRun_ok {σ : Type} {r : Run σ Unit} (h : okRun r = true) : ∃ s, r = .ok s () := by
  cases r with
  | ok s a => exact ⟨s, rfl⟩
  | exc m s => cases h
  | ub => cases h

example : OnlyLastFails (newAverager (FileApps.exDisk exAvgDb))
    [⟨FileApps.exAvgEnv, "a", "b", "now"⟩, ⟨{ FileApps.exAvgEnv with schema := true }, "a", "c", "now"⟩] := by
  obtain ⟨s, hs⟩ := okRun_ok (r := average FileApps.exAvgEnv (newAverager (FileApps.exDisk exAvgDb)) "a" "b" "now") (by decide +kernel)
  exact Or.inr ⟨s, hs, Or.inl rfl⟩

example : OrderlyRun (newCreator exPackDisk) [.openDB exEtree "t" "d" "now", .closeDB, .packDB exEtree "p" "a"] := by
  refine ⟨⟨fun _ _ _ _ _ => rfl, fun _ _ _ h => by cases h⟩, fun s1 h1 => ⟨⟨fun _ _ _ _ h => (by cases h), fun _ _ _ h => by cases h⟩,
    fun s2 h2 => ⟨⟨fun _ _ _ _ h => (by cases h), fun env p u h => ?_⟩, fun _ _ => trivial⟩⟩⟩
  cases h
  right
  have e1 : openDB exEtree (newCreator exPackDisk) "t" "d" "now" = .ok s1 () := by
    rcases h1 with h1 | ⟨m, h1⟩
    · exact h1
    · exfalso
      have : okRun (creatorCall (newCreator exPackDisk) (.openDB exEtree "t" "d" "now")) = true := by decide +kernel
      rw [h1] at this; cases this
  rcases h2 with h2 | ⟨m, h2⟩ <;> cases h2
  unfold openDB at e1
  simp only [exEtree, Bool.false_eq_true, if_false] at e1
  cases e1
  exact okRun_ok (by decide +kernel)

/-- C122 is false for creators: if closing the unpacked database fails, its handle is used to find the message. -/
theorem C122_false : ¬ ∀ (cs : List (CreatorCall ℚ)) (s : Creator ℚ),
    creatorRun (newCreator exPackDisk) cs = .ok s → Proper s.lib.log := by
  intro h
  obtain ⟨s, h1, h2⟩ := logOf_some (f := Creator.lib)
    (l := [.opened 0 "a", .opened 1 "p", .used 1, .used 0, .used 1, .closed 0, .used 0])
    (o := creatorRun (newCreator exPackDisk) [.packDB { exEtree with closeIn := true } "p" "a"]) (by decide +kernel)
  have := h _ s h1
  rw [h2] at this
  have := this [.opened 0 "a", .opened 1 "p", .used 1, .used 0, .used 1, .closed 0] [] (.used 0) 0 rfl (Or.inl rfl)
  exact this.2 (by decide)

/-- C123 is false for creators: opening a database while another is open loses the handle of the first. -/
theorem C123_false_open : ¬ ∀ (cs : List (CreatorCall ℚ)) (s : Creator ℚ),
    creatorRun (newCreator exPackDisk) cs = .ok s → (∀ c ∈ cs, ∀ env p u, c ≠ .packDB env p u) →
    AllClosed (closeDB s).lib.log := by
  intro h
  obtain ⟨s, h1, h2⟩ := logOf_some (f := fun s => (closeDB s).lib)
    (l := [.opened 0 "s", .used 0, .opened 1 "t", .used 1, .closed 1])
    (o := creatorRun (newCreator exPackDisk) [.openDB exEtree "s" "d" "now", .openDB exEtree "t" "d" "now"]) (by decide +kernel)
  have := h _ s h1 (by intro c hc env p u e; subst e; simp at hc)
  rw [h2] at this
  exact absurd (this 0 "s" (by decide)) (by decide)

/-- C123 is false for creators: if packing fails, the databases stay open. -/
theorem C123_false_pack : ¬ ∀ (cs : List (CreatorCall ℚ)) (s : Creator ℚ),
    creatorRun (newCreator exPackDisk) cs = .ok s → (∀ c ∈ cs, ∀ env f d t, c ≠ .openDB env f d t) →
    AllClosed (closeDB s).lib.log := by
  intro h
  obtain ⟨s, h1, h2⟩ := logOf_some (f := fun s => (closeDB s).lib) (l := [.opened 0 "a"])
    (o := creatorRun (newCreator exPackDisk) [.packDB { exEtree with create := fun _ => true } "p" "a"]) (by decide +kernel)
  have := h _ s h1 (by intro c hc env f d t e; subst e; simp at hc)
  rw [h2] at this
  exact absurd (this 0 "a" (by decide)) (by decide)

/-- C123 is false for averagers: another average after one that raised an exception loses the handle of its input. -/
theorem C123_false_average : ¬ ∀ (cs : List (AverageCall ℚ)) (s : Averager ℚ),
    averagerRun (newAverager (FileApps.exDisk exAvgDb)) cs = .ok s → AllClosed (destroyAverager s).log := by
  intro h
  obtain ⟨s, h1, h2⟩ := logOf_some (f := destroyAverager)
    (l := [.opened 0 "a", .used 0, .opened 1 "a", .used 1, .opened 2 "b", .used 2, .used 1, .closed 1, .closed 2])
    (o := averagerRun (newAverager (FileApps.exDisk exAvgDb))
      [⟨{ FileApps.exAvgEnv with otherSize := fun _ => true }, "a", "b", "now"⟩, ⟨FileApps.exAvgEnv, "a", "b", "now"⟩])
    (by decide +kernel)
  have := h _ s h1
  rw [h2] at this
  exact absurd (this 0 "a" (by decide)) (by decide)

end Handles
end CenCalVM
