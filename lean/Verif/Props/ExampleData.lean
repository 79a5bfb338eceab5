/-
Concrete data used by the examples: a small detailed model, a regional model, a query object.
-/
import Verif.Props.Geometry
import Verif.Lemmas.QueryEffects

namespace CenCalVM

/-- Geometry of the examples: requested resolutions give level 1. -/
def exGeom : Geom ℚ := GeomCenCA.geom exFrame exProj (fun _ => .ok 1)
/-- The same with a projection failing above latitude 90. -/
def exGeomPartial : Geom ℚ := GeomCenCA.geom exFrame exProjPartial (fun _ => .ok 1)

/-- A payload with given shear speed and fault block. -/
def exPay (v : ℚ) (fb : Int) : Payload ℚ := ⟨2 * v, v, 2500, 100, 50, 30, fb, 7⟩

/-- Detailed model: a leaf of level 2 at (220, 40, -100) with its ancestors. -/
def exDb : Db ℚ := ⟨[⟨⟨⟨0, 0, 0, 0⟩, .interior⟩, exPay 1600 (-999)⟩,
  ⟨⟨⟨0, 0, 0x40000000, 1⟩, .interior⟩, exPay 1800 (-999)⟩, ⟨⟨⟨0, 0, 0x60000000, 2⟩, .leaf⟩, exPay 2000 1⟩]⟩

/-- Regional model: only the root, a leaf. -/
def exDbExt : Db ℚ := ⟨[⟨⟨⟨0, 0, 0, 0⟩, .leaf⟩, exPay 3000 2⟩]⟩

/-- Formatting is irrelevant in the examples. -/
def exFmt : Fmt ℚ := ⟨fun _ => "", fun _ => "", fun _ => ""⟩

/-- An open query object. -/
def exQ : VMQuery ℚ := { VMQuery.init exGeom with db := some exDb }

/-- An open query object with both models. -/
def exQ2 : VMQuery ℚ := { VMQuery.init exGeom with db := some exDb, dbExt := some exDbExt }

/-- The values of a query that returns. -/
def valsOf : Outcome (VMQuery ℚ × Files × List ℚ) → Option (List ℚ)
  | .ok (_, _, v) => some v
  | _ => none

/-- The status after a query that returns. -/
def statusOf : Outcome (VMQuery ℚ × Files × List ℚ) → Option Status
  | .ok (q, _, _) => some q.err.status
  | _ => none

theorem valsOf_some {o : Outcome (VMQuery ℚ × Files × List ℚ)} {v : List ℚ} (h : valsOf o = some v) :
    ∃ q fs, o = .ok (q, fs, v) := by
  cases o with
  | ok r => cases h; exact ⟨_, _, rfl⟩
  | exc m => cases h
  | ub => cases h

theorem payloadOf_of_vals {q : VMQuery ℚ} {lon lat elev : ℚ} {p : Payload ℚ}
    (h : valsOf (VMQuery.query exFmt { q with queryVals := (List.range 8).map some } (fun _ => "") 8 lon lat elev) =
      some ((List.range 8).map (pick p))) : PayloadOf exFmt q lon lat elev p := valsOf_some h

theorem exDb_good : exDb.Good := ⟨by unfold Db.Octants; decide +kernel, by unfold Db.Sorted; decide +kernel⟩
theorem exDbExt_good : exDbExt.Good := ⟨by unfold Db.Octants; decide +kernel, by unfold Db.Sorted; decide +kernel⟩
theorem exDb_closed : exDb.AncestorClosed := by unfold Db.AncestorClosed; decide +kernel
theorem exGeom_lawful : exGeom.Lawful := GeomCenCA.geom_lawful _ _ _

theorem exQ_open : exQ.Open exGeom exDb :=
  ⟨rfl, rfl, exGeom_lawful, exDb_good, fun _ h => by cases h⟩
theorem exQ2_open : exQ2.Open exGeom exDb :=
  ⟨rfl, rfl, exGeom_lawful, exDb_good, fun _ h => by cases h; exact exDbExt_good⟩

/-- The cell of the example location at the finest level. -/
def exCell : Addr := ⟨⟨0x00020000, 0x00040000, 0x7bf80000, 31⟩, .leaf⟩

theorem exCell_of : CellOf exGeom 31 220 40 (-100) exCell := by unfold CellOf; decide +kernel

theorem exGeom_noThrow : exGeom.NoThrow := by
  refine ⟨fun a lon lat elev m => ?_, fun a m => ?_⟩
  · simp only [exGeom, GeomCenCA.geom, GeomCenCA.lonLatElevToAddr, exProj]
    split
    · split <;> simp
    · simp
  · simp only [exGeom, GeomCenCA.geom, GeomCenCA.addrToLonLatElev, exProj]
    split <;> simp

end CenCalVM
