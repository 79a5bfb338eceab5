/-
Vocabulary of the properties of the application cencalvmisosurface.
-/
import Verif.Spec.QueryApp
import Verif.Model.IsoApp

namespace CenCalVM
namespace IsoApp
variable {K : Type} [Field K] [LinearOrder K]

/-- The query object answers with `v` at a location, asked for one value (by number: 1 is Vs, 8 the elevation of the
ground). -/
def ValueAt (fmt : Fmt K) (q : VMQuery K) (i : Nat) (lon lat e v : K) : Prop :=
  ∃ q' fs', VMQuery.query fmt { q with queryVals := [some i] } (fun _ => "") 1 lon lat e = .ok (q', fs', [v])

/-- The same, ending with an error. -/
def ErrorAt (fmt : Fmt K) (q : VMQuery K) (i : Nat) (lon lat e : K) : Prop :=
  ∃ q' fs' vals, VMQuery.query fmt { q with queryVals := [some i] } (fun _ => "") 1 lon lat e = .ok (q', fs', vals) ∧
    q'.err.status = .ERROR

/-- At `e` the speed reaches the target, and within `width` above it, not above `upper`, there is a place where it does
not. -/
def Bracketed (speed : K → K → Prop) (target upper lower width e : K) : Prop :=
  lower ≤ e ∧ e < upper ∧ (∃ v, speed e v ∧ target ≤ v) ∧
    ∃ e' v', e < e' ∧ e' ≤ upper ∧ e' - e ≤ width ∧ speed e' v' ∧ v' < target

/-- What a search between two limits may report: the upper limit if the speed reaches the target there already, a place where
the target is crossed within `width`, or 1e6 if the lower limit is outside the model and the target is not reached at either
limit. -/
def Reported (width : K) (speed : K → K → Prop) (target upper lower e : K) : Prop :=
  (e = upper ∧ ∃ v, speed upper v ∧ target ≤ v) ∨ Bracketed speed target upper lower width e ∨
    (e = 1000000 ∧ (∃ v, speed lower v ∧ v < 0 ∧ v < target) ∧ ∃ v, speed upper v ∧ v < target)

/-- The elevation of the ground as corrected for the steps of the grid: the highest of ten elevations 12.5 apart, from the
one stored at 5000 m below the sea downwards, with positive speed, or else the one stored.  Elevations are rounded by `rd`
(`id` for exact arithmetic), here and below. -/
def Ground (rd : K → K) (fmt : Fmt K) (q : VMQuery K) (lon lat g : K) : Prop :=
  ∃ e0, ValueAt fmt q 8 lon lat (-5000) e0 ∧
    ((∃ k : Nat, k < 10 ∧ g = rd (e0 - 12.5 * k) ∧ (∃ v, ValueAt fmt q 1 lon lat g v ∧ 0 < v) ∧
        ∀ j : Nat, j < k → ∃ v, ValueAt fmt q 1 lon lat (rd (e0 - 12.5 * j)) v ∧ v ≤ 0) ∨
      (g = e0 ∧ ∀ j : Nat, j < 10 → ∃ v, ValueAt fmt q 1 lon lat (rd (e0 - 12.5 * j)) v ∧ v ≤ 0))

/-- The text starts with two numbers. -/
def LocText (nf : NumFmt K) (text : List Char) (l : K × K) (rest : List Char) : Prop :=
  ∃ t1, RealText nf text l.1 t1 ∧ RealText nf t1 l.2 rest

/-- The locations of an input file: one after the other, each followed by something (a line end), until the text does not go
on with another such location. -/
inductive LocsText (nf : NumFmt K) : List Char → List (K × K) → Prop
  | nil {t : List Char} (h : ∀ l t', LocText nf t l t' → t' = []) : LocsText nf t []
  | cons {t t' : List Char} {l : K × K} {ls : List (K × K)} (h : LocText nf t l t') (hne : t' ≠ [])
      (h' : LocsText nf t' ls) : LocsText nf t (l :: ls)

/-- The query object the command line asks for: a new object on the databases named, at the highest resolution, with the
squashing named, and no error. -/
def Configured (env : QueryApp.Env K) (o : Options K) (q : VMQuery K) : Prop :=
  ∃ d x,
    env.disk o.filenameDB = some d ∧
    ((o.filenameDBExt = "" ∧ x = none) ∨ (o.filenameDBExt ≠ "" ∧ ∃ d', env.disk o.filenameDBExt = some d' ∧ x = some d')) ∧
    q = { VMQuery.init env.geom with
      db := some d, dbExt := x
      filename := o.filenameDB, filenameExt := o.filenameDBExt
      cacheSize := if 0 < o.cacheSize then o.cacheSize else 128
      cacheSizeExt := if 0 < o.cacheSize then o.cacheSize else 128
      squashTopo := decide (o.squashLimit ≠ 1000000)
      squashLimit := if o.squashLimit = 1000000 then -2000 else o.squashLimit }

/-- Closing the databases fails. -/
def CloseFails (env : QueryApp.Env K) (o : Options K) : Prop :=
  env.closeFail = true ∨ (o.filenameDBExt ≠ "" ∧ env.closeFailExt = true)

/-- The line holds the location and the difference between the elevation of the ground and what a search may report, or -999
for 1e6.  The search is from the ground to the lowest elevation, both relative to the ground if topography is squashed. -/
def LineFor (rd : K → K) (width : K) (fmt : Fmt K) (o : Options K) (q : VMQuery K) (l : K × K) (line : Line K) : Prop :=
  (line.lon, line.lat) = l ∧ ∃ g e base, Ground rd fmt q l.1 l.2 g ∧ base = (if o.squashLimit = 1000000 then 0 else g) ∧
    Reported width (ValueAt fmt q 1 l.1 l.2) o.vs (rd (g - base)) (rd (o.elevMin - base)) e ∧
    line.dist = if e = 1000000 then -999 else rd (g - e)

/-- The target is not reached anywhere the search looks first, and the lower limit is in the model. -/
def OutOfRange (rd : K → K) (fmt : Fmt K) (o : Options K) (q : VMQuery K) (l : K × K) : Prop :=
  ∃ g base, Ground rd fmt q l.1 l.2 g ∧ base = (if o.squashLimit = 1000000 then 0 else g) ∧
    (∃ v, ValueAt fmt q 1 l.1 l.2 (rd (g - base)) v ∧ v < o.vs) ∧
    (∃ v, ValueAt fmt q 1 l.1 l.2 (rd ((rd (g - base) + rd (o.elevMin - base)) / 2)) v ∧ v < o.vs) ∧
    ∃ v, ValueAt fmt q 1 l.1 l.2 (rd (o.elevMin - base)) v ∧ v < o.vs ∧ 0 ≤ v

/-- Everything asked about a location has an answer, without error, and the ground is more than `gap` above the lowest
elevation. -/
def Answered (rd : K → K) (gap : K) (fmt : Fmt K) (o : Options K) (q : VMQuery K) (l : K × K) : Prop :=
  (∃ v, ValueAt fmt q 8 l.1 l.2 (-5000) v) ∧ ¬ ErrorAt fmt q 8 l.1 l.2 (-5000) ∧ (∀ e, ∃ v, ValueAt fmt q 1 l.1 l.2 e v) ∧
    ∀ g, Ground rd fmt q l.1 l.2 g → o.elevMin + gap < g

end IsoApp
end CenCalVM
