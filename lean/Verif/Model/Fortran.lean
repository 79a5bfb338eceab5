/-
query/f77vmquery and query/f77vmerror: the Fortran interface.
-/
import Verif.Model.CApi
import Verif.Model.Stream

namespace CenCalVM
namespace Fortran
open CApi (World Ret)

/-- The terminating character of C strings. -/
def NUL : Char := Char.ofNat 0

/-- Reading a C string from a Fortran character variable, as the constructors of `std::string` do
(libsrc/cencalvm/query/f77vmquery.cc:106, 136, f77vmerror.cc:37): up to the terminating character; running over the end
of the variable is undefined. -/
def cString : List Char → Outcome (List Char)
  | [] => .ub
  | c :: cs => if c = NUL then .ok [] else do
    let r ← cString cs
    .ok (c :: r)

/-- `sin >> cfilename`, libsrc/cencalvm/query/f77vmquery.cc:106-108, 136-138, f77vmerror.cc:37-39. -/
def firstToken (text : List Char) : String :=
  ((Stream.ofText text).extract (List.span fun ch => !Stream.isSpace ch) (fun t => some (String.ofList t)) "" "").2

/-- `strncpy(dst, src, n)` of the C library (used in libsrc/cencalvm/query/f77vmerror.cc:97): copies characters up to the
end of the string, then fills with terminating characters; exactly `n` characters are written.  A too short destination
is undefined. -/
def strncpy : Nat → List Char → List Char → Outcome (List Char)
  | 0, dst, _ => .ok dst
  | _ + 1, [], _ => .ub
  | n + 1, _ :: dst, [] => do
    let r ← strncpy n dst []
    .ok (NUL :: r)
  | n + 1, _ :: dst, c :: src =>
    if c = NUL then do
      let r ← strncpy n dst []
      .ok (NUL :: r)
    else do
      let r ← strncpy n dst src
      .ok (c :: r)

variable {K : Type} [Field K] [LinearOrder K]

/-- `cencalvm_filename_f`, libsrc/cencalvm/query/f77vmquery.cc:96-110; `var` is the caller's character variable, `len` the
length passed. -/
def filename (var : List Char) (len : Int) (w : World K) (h : Nat) : Outcome (World K × Ret K) :=
  if len > 0 then do
    let text ← cString var
    CApi.filename (firstToken text) w h
  else .ub
/-- `cencalvm_filenameext_f`, libsrc/cencalvm/query/f77vmquery.cc:126-140. -/
def filenameExt (var : List Char) (len : Int) (w : World K) (h : Nat) : Outcome (World K × Ret K) :=
  if len > 0 then do
    let text ← cString var
    CApi.filenameExt (firstToken text) w h
  else .ub
/-- `cencalvm_error_logfilename_f`, libsrc/cencalvm/query/f77vmerror.cc:29-42. -/
def errLogFilename (canOpen : String → Bool) (var : List Char) (w : World K) (e : Nat) : Outcome (World K × Ret K) := do
  let text ← cString var
  CApi.errLogFilename canOpen (firstToken text) w e
/-- `cencalvm_error_message_f`, libsrc/cencalvm/query/f77vmerror.cc:81-98: the message is copied to the caller's variable;
`strncpy` from a null pointer is undefined. -/
def errMessage (var : List Char) (len : Int) (w : World K) (e : Nat) : Outcome (World K × List Char × Int) :=
  if len > 0 then do
    let r ← CApi.errMessage w e
    match r.2 with
    | .text (some t) => do
      let v ← strncpy len.toNat var t.toList
      .ok (r.1, v, 0)
    | _ => .ub
  else .ub

/-- The other functions pass their arguments on unchanged: libsrc/cencalvm/query/f77vmquery.cc:29-92, 114-122, 144-152,
157-194, f77vmerror.cc:46-76.  There is no Fortran function for `queryVals`. -/
inductive Fn (K : Type) where
  | open (disk : String → Option (Db K))
  | close (fail failExt : Bool)
  | queryType (n : Int)
  | queryRes (r : K)
  | filename (var : List Char) (len : Int)
  | cacheSize (n : Int)
  | filenameExt (var : List Char) (len : Int)
  | cacheSizeExt (n : Int)
  | squash (flag : Int) (limit : K)
  | query (numVals : Int) (lon lat elev : K)
  | errorHandler
  | errLogFilename (var : List Char)
  | errLoggingOn (flag : Int)
  | errResetStatus
  | errStatus

/-- A call with a handle (the message is separate, `errMessage`). -/
def callFn (fmt : Fmt K) (canOpen : String → Bool) (w : World K) (h : Nat) : Fn K → Outcome (World K × Ret K)
  | .open disk => CApi.openDb disk w h
  | .close f fx => CApi.close f fx w h
  | .queryType n => CApi.queryType n w h
  | .queryRes r => CApi.queryRes r w h
  | .filename v l => filename v l w h
  | .cacheSize n => CApi.cacheSize n w h
  | .filenameExt v l => filenameExt v l w h
  | .cacheSizeExt n => CApi.cacheSizeExt n w h
  | .squash f l => CApi.squash f l w h
  | .query n lon lat elev => CApi.query fmt n lon lat elev w h
  | .errorHandler => CApi.errorHandler w h
  | .errLogFilename v => errLogFilename canOpen v w h
  | .errLoggingOn f => CApi.errLoggingOn canOpen f w h
  | .errResetStatus => CApi.errResetStatus w h
  | .errStatus => CApi.errStatus w h

end Fortran
end CenCalVM
