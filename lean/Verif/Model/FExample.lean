/-
The example program cencalvmf77query, a Fortran program using the Fortran interface.
-/
import Verif.Model.Fortran
import Verif.Model.QueryApp

namespace CenCalVM
namespace FExample
open CApi (World Ret)
open QueryApp (Env Line)
variable {K : Type}

/-- The character and number variables of the program that are named constants, examples/query/f77/cencalvmf77query.f:30-47,
78-82.  The other sets of constants that may be uncommented differ in these values only. -/
structure Vars (K : Type) where
  log : List Char
  db : List Char
  queryType : List Char
  queryRes : K

/-- A character variable of the given length with the given text: padded with blanks, as Fortran does (the `parameter`
statements, examples/query/f77/cencalvmf77query.f:30-37, 81). -/
def padded (n : Nat) (s : String) : List Char := s.toList ++ List.replicate (n - s.length) ' '

/-- The constants as published, examples/query/f77/cencalvmf77query.f:30-47, 81-82. -/
def published [Field K] : Vars K :=
  ⟨padded 64 "test.log", padded 64 "USGSBayAreaVM-08.3.0.etree", padded 64 "maxres", 0⟩

/-- How the program ends: at its end, after writing ERROR, or stopped by the run-time system of Fortran. -/
inductive Ending
  | done | error | stopped
  deriving DecidableEq

/-- Ending and lines in the output file. -/
structure Result (K : Type) where
  ending : Ending
  lines : List (Line K)

variable [Field K] [LinearOrder K]

/-- Label 998, examples/query/f77/cencalvmf77query.f:230-232, up to the jump to 999.  The variable `errorMsg` has 256
characters; it is overwritten as a whole, so that its contents do not matter. -/
def label998 (h : Nat) (w : World K) : Outcome (Option (World K)) := do
  let _ ← Fortran.errMessage (List.replicate 256 ' ') 256 w h
  .ok none

/-- A call followed by `if (ok.ne.0) goto 998`, e.g. examples/query/f77/cencalvmf77query.f:133-134: `none` is the jump. -/
def checked (env : Env K) (h : Nat) (f : Fortran.Fn K) (w : World K) : Outcome (Option (World K)) := do
  let r ← Fortran.callFn env.fmt env.canLog w h f
  match r.2 with
  | .code n => if n ≠ 0 then label998 h r.1 else .ok (some r.1)
  | _ => .ub

/-- A call followed by `if (ok.ne.0) goto 999`, examples/query/f77/cencalvmf77query.f:129-130. -/
def checked999 (env : Env K) (h : Nat) (f : Fortran.Fn K) (w : World K) : Outcome (Option (World K)) := do
  let r ← Fortran.callFn env.fmt env.canLog w h f
  match r.2 with
  | .code n => if n ≠ 0 then .ok none else .ok (some r.1)
  | _ => .ub

/-- A call whose result is not tested, examples/query/f77/cencalvmf77query.f:175. -/
def unchecked (env : Env K) (h : Nat) (f : Fortran.Fn K) (w : World K) : Outcome (Option (World K)) := do
  let r ← Fortran.callFn env.fmt env.canLog w h f
  .ok (some r.1)

/-- Going on unless a jump was made. -/
def thenDo {α β : Type} (x : Outcome (Option α)) (f : α → Outcome (Option β)) : Outcome (Option β) := do
  match ← x with
  | none => .ok none
  | some a => f a

/-- The type of query, examples/query/f77/cencalvmf77query.f:160-181. -/
def selectType (env : Env K) (v : Vars K) (h : Nat) (w : World K) : Outcome (Option (World K)) :=
  if v.queryType.take 6 = "maxres".toList then checked env h (.queryType 0) w
  else if v.queryRes < 0 then .ok none
  else thenDo (checked env h (.queryRes v.queryRes) w) fun w =>
    if v.queryType.take 8 = "fixedres".toList then checked env h (.queryType 1) w
    else if v.queryType.take 7 = "waveres".toList then unchecked env h (.queryType 2) w
    else .ok none

/-- The program up to opening the files, examples/query/f77/cencalvmf77query.f:118-181: `none` is a jump to 999. -/
def prepare (env : Env K) (v : Vars K) (fs : Files) : Outcome (Option (Nat × World K)) := do
  match ← CApi.createQuery env.geom (World.init fs) with
  | (w, .ptr h) =>
    if h = 0 then .ok none
    else do
      let r ← Fortran.callFn env.fmt env.canLog w h .errorHandler
      match r.2 with
      | .ptr e =>
        if e = 0 then .ok none
        else thenDo (checked999 env e (.errLogFilename v.log) r.1) fun w =>
          thenDo (checked env h (.filename v.db v.db.length) w) fun w =>
          thenDo (checked env h (.cacheSize 128) w) fun w =>
          thenDo (checked env h (.open env.disk) w) fun w =>
          thenDo (selectType env v h w) fun w => .ok (some (h, w))
      | _ => .ub
  | _ => .ub

/-- One query, examples/query/f77/cencalvmf77query.f:192-202: `none` is a jump to 998 or 999. -/
def ask (env : Env K) (h : Nat) (l : K × K × K) (w : World K) : Outcome (Option (World K × List K)) := do
  let r ← Fortran.callFn env.fmt env.canLog w h (.query 9 l.1 l.2.1 l.2.2)
  match r.2 with
  | .answer ok (some vals) =>
    if ok ≠ 0 then do
      let m ← Fortran.errMessage (List.replicate 256 ' ') 256 r.1 h
      let ok := m.2.2
      if ok = 2 then .ok none
      else thenDo (checked env h .errResetStatus m.1) fun w => .ok (some (w, vals))
    else .ok (some (r.1, vals))
  | _ => .ub

/-- The end of the program, examples/query/f77/cencalvmf77query.f:211-223. -/
def finish (env : Env K) (h : Nat) (lines : List (Line K)) (w : World K) : Outcome (Result K) := do
  match ← checked env h (.close env.closeFail env.closeFailExt) w with
  | none => .ok ⟨.error, lines⟩
  | some w => do
    let r ← CApi.destroyQuery env.closeFail env.closeFailExt w h
    match r.2 with
    | .code n => if n ≠ 0 then .ok ⟨.error, lines⟩ else .ok ⟨.done, lines⟩
    | _ => .ub

/-- The loop over the locations, examples/query/f77/cencalvmf77query.f:189-209.  Simplification: the input file is the list
of the results of the `read` statements; where one is not three numbers (`none`) the run-time system stops the program, as
the statement has no `err=`.  Model/Print has how the numbers are printed. -/
def loop (env : Env K) (h : Nat) : List (Option (K × K × K)) → List (Line K) → World K → Outcome (Result K)
  | [], lines, w => finish env h lines w
  | none :: _, lines, _ => .ok ⟨.stopped, lines⟩
  | some l :: rs, lines, w => do
    match ← ask env h l w with
    | none => .ok ⟨.error, lines⟩
    | some (w, vals) => loop env h rs (lines ++ [⟨l.1, l.2.1, l.2.2, vals⟩]) w

/-- The program, examples/query/f77/cencalvmf77query.f:118-234.  `input` is the input file, if it exists; `fresh` tells
whether the output file can be created (`status='new'`: it must not exist).  Without `err=` in the `open` statements the
run-time system stops the program if one fails. -/
def run (env : Env K) (v : Vars K) (input : Option (List (Option (K × K × K)))) (fresh : Bool) (fs : Files) : Outcome (Result K) := do
  match ← prepare env v fs with
  | none => .ok ⟨.error, []⟩
  | some (h, w) =>
    match input with
    | none => .ok ⟨.stopped, []⟩
    | some rs => if fresh then loop env h rs [] w else .ok ⟨.stopped, []⟩

end FExample
end CenCalVM
