/-
Model of cencalvm::storage::Projector: the map projection object, with the error code of the projection library.
-/
import Verif.Model.Geometry
import Verif.Model.Run

namespace CenCalVM

/-- What the proj library does for the projection object, a parameter: the transformations between radians and metres (an error has a
code), the text of a code, the factor from degrees to radians of `proj_torad`, and whether a transformation that succeeds leaves the
error code of an earlier failure in place (`proj_errno` reports the code of the context; `proj_trans` restores it on success in current
releases of the library, and `proj_errno_reset` is the call to clear it). -/
structure ProjLib (K : Type) where
  fwd : K → K → Except Int (K × K)
  inv : K → K → Except Int (K × K)
  keeps : Bool
  errText : Int → String
  rad : K
  fwd_code : ∀ {a b c}, fwd a b = .error c → c ≠ 0
  inv_code : ∀ {a b c}, inv a b = .error c → c ≠ 0

namespace ProjLib
variable {K : Type} [Field K]

/-- `proj_errno(_pProj)` after `proj_trans`, libsrc/cencalvm/storage/Projector.cc:74-75,100-101; `e` is the code before. -/
def errnoAfter (lib : ProjLib K) (e : Int) : Except Int (K × K) → Int
  | .error c => c
  | .ok _ => if lib.keeps then e else 0

/-- `Projector::project`, libsrc/cencalvm/storage/Projector.cc:63-85.  The state is the error code of the library.  The coordinates of a
failed transformation are not used.  `fmt` prints a coordinate. -/
def project (lib : ProjLib K) (fmt : K → String) (e : Int) (lon lat : K) : Run Int (K × K) :=
  let r := lib.fwd (lon * lib.rad) (lat * lib.rad)
  let e' := lib.errnoAfter e r
  if e' ≠ 0 then
    .exc ("Error while projecting location.\n  " ++ lib.errText e' ++ "\n  longitude: " ++ fmt lon ++ "\n  latitude: " ++ fmt lat ++ "\n") e'
  else match r with
    | .ok p => .ok e' p
    | .error _ => .ub

/-- `Projector::invProject`, libsrc/cencalvm/storage/Projector.cc:89-111. -/
def invProject (lib : ProjLib K) (fmt : K → String) (e : Int) (x y : K) : Run Int (K × K) :=
  let r := lib.inv x y
  let e' := lib.errnoAfter e r
  if e' ≠ 0 then
    .exc ("Error while inverse projecting location.\n  " ++ lib.errText e' ++ "\n  x: " ++ fmt x ++ "\n  y: " ++ fmt y ++ "\n") e'
  else match r with
    | .ok p => .ok e' (p.1 / lib.rad, p.2 / lib.rad)
    | .error _ => .ub

/-- A call of the object: `project` or `invProject`, libsrc/cencalvm/storage/Projector.h:45-67. -/
inductive Call (K : Type) where
  | fwd (lon lat : K)
  | inv (x y : K)

/-- One call. -/
def call (lib : ProjLib K) (fmt : K → String) (e : Int) : Call K → Run Int (K × K)
  | .fwd lon lat => lib.project fmt e lon lat
  | .inv x y => lib.invProject fmt e x y

/-- The error code after a call that ended. -/
def errnoOf {α : Type} (e : Int) : Run Int α → Int
  | .ok e' _ => e'
  | .exc _ e' => e'
  | .ub => e

/-- The outcome of a call, without the state. -/
def outcomeOf {α : Type} : Run Int α → Outcome α
  | .ok _ a => .ok a
  | .exc m _ => .exc m
  | .ub => .ub

/-- A sequence of calls by a program that catches the exceptions; outcome of each and the error code at the end. -/
def calls (lib : ProjLib K) (fmt : K → String) : Int → List (Call K) → Int × List (Outcome (K × K))
  | e, [] => (e, [])
  | e, c :: cs =>
    let r := lib.call fmt e c
    let t := calls lib fmt (errnoOf e r) cs
    (t.1, outcomeOf r :: t.2)

/-- The projection as the rest of the model sees it while the error code is `e` (see `Projector` in Model/Geometry). -/
def at_ (lib : ProjLib K) (fmt : K → String) (e : Int) : Projector K where
  project lon lat := outcomeOf (lib.project fmt e lon lat)
  invProject x y := outcomeOf (lib.invProject fmt e x y)

/-- The arguments of `proj_create` in the constructor, libsrc/cencalvm/storage/Projector.cc:24-42. -/
def createArgs : String := "+proj=tmerc +lon_0=-123 +lat_0=35 +k=0.9996 +datum=NAD83 +units=m"

/-- The constructor, libsrc/cencalvm/storage/Projector.cc:32-54.  `created` says whether `proj_create` returns an object; `e` is the error
code of the default context after it. -/
def construct (lib : ProjLib K) (created : Bool) (e : Int) : Outcome Int :=
  if created then .ok e
  else .exc ("Error while initializing projection:\n  " ++ lib.errText e ++ "\nProjection parameters:\n  " ++ createArgs)

end ProjLib
end CenCalVM
