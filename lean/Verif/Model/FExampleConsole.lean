/-
What the example program cencalvmf77query writes to standard output.
-/
import Verif.Model.FExample

namespace CenCalVM
namespace FExample
open CApi (World)
open QueryApp (Env Line)
variable {K : Type}

/-- How the program ends and what it has written to standard output (unit 6), examples/query/f77/cencalvmf77query.f:118-234: the
characters written by each `write(6,*)`.  Simplification: without the blank in front and the ends of records, which are up to
the run-time system of Fortran, as are its own messages. -/
structure Report (K : Type) where
  result : Result K
  out : List (List Char)

/-- Label 999, examples/query/f77/cencalvmf77query.f:233. -/
def said999 : List (List Char) := ["ERROR".toList]

variable [Field K] [LinearOrder K]

/-- Label 998, examples/query/f77/cencalvmf77query.f:230-232, up to the jump to 999: all 256 characters of `errorMsg` are written. -/
def label998Said {α : Type} (h : Nat) (w : World K) : Outcome (Except (List (List Char)) α) := do
  let m ← Fortran.errMessage (List.replicate 256 ' ') 256 w h
  .ok (.error [m.2.1])

/-- A call followed by `if (ok.ne.0) goto 998`, e.g. examples/query/f77/cencalvmf77query.f:133-134: `error` is what is written
before the jump to 999. -/
def checkedSaid (env : Env K) (h : Nat) (f : Fortran.Fn K) (w : World K) : Outcome (Except (List (List Char)) (World K)) := do
  let r ← Fortran.callFn env.fmt env.canLog w h f
  match r.2 with
  | .code n => if n ≠ 0 then label998Said h r.1 else .ok (.ok r.1)
  | _ => .ub

/-- A call followed by `if (ok.ne.0) goto 999`, examples/query/f77/cencalvmf77query.f:129-130. -/
def checked999Said (env : Env K) (h : Nat) (f : Fortran.Fn K) (w : World K) : Outcome (Except (List (List Char)) (World K)) := do
  let r ← Fortran.callFn env.fmt env.canLog w h f
  match r.2 with
  | .code n => if n ≠ 0 then .ok (.error []) else .ok (.ok r.1)
  | _ => .ub

/-- A call whose result is not tested, examples/query/f77/cencalvmf77query.f:175. -/
def uncheckedSaid (env : Env K) (h : Nat) (f : Fortran.Fn K) (w : World K) : Outcome (Except (List (List Char)) (World K)) := do
  let r ← Fortran.callFn env.fmt env.canLog w h f
  .ok (.ok r.1)

/-- Going on unless a jump was made, e.g. examples/query/f77/cencalvmf77query.f:133-137. -/
def thenSaid {α β : Type} (x : Outcome (Except (List (List Char)) α)) (f : α → Outcome (Except (List (List Char)) β)) :
    Outcome (Except (List (List Char)) β) := do
  match ← x with
  | .error t => .ok (.error t)
  | .ok a => f a

/-- The type of query, examples/query/f77/cencalvmf77query.f:160-181. -/
def selectTypeSaid (env : Env K) (v : Vars K) (h : Nat) (w : World K) : Outcome (Except (List (List Char)) (World K)) :=
  if v.queryType.take 6 = "maxres".toList then checkedSaid env h (.queryType 0) w
  else if v.queryRes < 0 then .ok (.error ["Query resolution must be a positive value.".toList])
  else thenSaid (checkedSaid env h (.queryRes v.queryRes) w) fun w =>
    if v.queryType.take 8 = "fixedres".toList then checkedSaid env h (.queryType 1) w
    else if v.queryType.take 7 = "waveres".toList then uncheckedSaid env h (.queryType 2) w
    else .ok (.error ["Could not parse query resolution string.".toList])

/-- The program up to opening the files, examples/query/f77/cencalvmf77query.f:118-181: `error` is what is written before a jump
to 999. -/
def prepareSaid (env : Env K) (v : Vars K) (fs : Files) : Outcome (Except (List (List Char)) (Nat × World K)) := do
  match ← CApi.createQuery env.geom (World.init fs) with
  | (w, .ptr h) =>
    if h = 0 then .ok (.error [])
    else do
      let r ← Fortran.callFn env.fmt env.canLog w h .errorHandler
      match r.2 with
      | .ptr e =>
        if e = 0 then .ok (.error [])
        else thenSaid (checked999Said env e (.errLogFilename v.log) r.1) fun w =>
          thenSaid (checkedSaid env h (.filename v.db v.db.length) w) fun w =>
          thenSaid (checkedSaid env h (.cacheSize 128) w) fun w =>
          thenSaid (checkedSaid env h (.open env.disk) w) fun w =>
          thenSaid (selectTypeSaid env v h w) fun w => .ok (.ok (h, w))
      | _ => .ub
  | _ => .ub

/-- One query, examples/query/f77/cencalvmf77query.f:192-202: what is written, and the values unless there is a jump to 998 or
999. -/
def askSaid (env : Env K) (h : Nat) (l : K × K × K) (w : World K) : Outcome (List (List Char) × Option (World K × List K)) := do
  let r ← Fortran.callFn env.fmt env.canLog w h (.query 9 l.1 l.2.1 l.2.2)
  match r.2 with
  | .answer ok (some vals) =>
    if ok ≠ 0 then do
      let m ← Fortran.errMessage (List.replicate 256 ' ') 256 r.1 h
      let ok := m.2.2
      if ok = 2 then .ok ([m.2.1], none)
      else do
        match ← checkedSaid env h .errResetStatus m.1 with
        | .error t => .ok (m.2.1 :: t, none)
        | .ok w => .ok ([m.2.1], some (w, vals))
    else .ok ([], some (r.1, vals))
  | _ => .ub

/-- The end of the program, examples/query/f77/cencalvmf77query.f:211-223, 230-234. -/
def finishSaid (env : Env K) (h : Nat) (lines : List (Line K)) (out : List (List Char)) (w : World K) : Outcome (Report K) := do
  match ← checkedSaid env h (.close env.closeFail env.closeFailExt) w with
  | .error t => .ok ⟨⟨.error, lines⟩, out ++ t ++ said999⟩
  | .ok w => do
    let r ← CApi.destroyQuery env.closeFail env.closeFailExt w h
    match r.2 with
    | .code n => if n ≠ 0 then .ok ⟨⟨.error, lines⟩, out ++ said999⟩ else .ok ⟨⟨.done, lines⟩, out⟩
    | _ => .ub

/-- The loop over the locations, examples/query/f77/cencalvmf77query.f:189-209, with what has been written so far. -/
def loopSaid (env : Env K) (h : Nat) : List (Option (K × K × K)) → List (Line K) → List (List Char) → World K → Outcome (Report K)
  | [], lines, out, w => finishSaid env h lines out w
  | none :: _, lines, out, _ => .ok ⟨⟨.stopped, lines⟩, out⟩
  | some l :: rs, lines, out, w => do
    match ← askSaid env h l w with
    | (t, none) => .ok ⟨⟨.error, lines⟩, out ++ t ++ said999⟩
    | (t, some (w, vals)) => loopSaid env h rs (lines ++ [⟨l.1, l.2.1, l.2.2, vals⟩]) (out ++ t) w

/-- The program, examples/query/f77/cencalvmf77query.f:118-234, with what it writes. -/
def runSaid (env : Env K) (v : Vars K) (input : Option (List (Option (K × K × K)))) (fresh : Bool) (fs : Files) : Outcome (Report K) := do
  match ← prepareSaid env v fs with
  | .error t => .ok ⟨⟨.error, []⟩, t ++ said999⟩
  | .ok (h, w) =>
    match input with
    | none => .ok ⟨⟨.stopped, []⟩, []⟩
    | some rs => if fresh then loopSaid env h rs [] [] w else .ok ⟨⟨.stopped, []⟩, []⟩

end FExample
end CenCalVM
