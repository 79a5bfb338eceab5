/-
query/cvmquery and query/cvmerror: the C interface.
-/
import Verif.Model.QueryApi

namespace CenCalVM

/-- Numerical value of a status, libsrc/cencalvm/storage/ErrorHandler.h:53-57. -/
def Status.code : Status → Int
  | .OK => 0
  | .WARNING => 1
  | .ERROR => 2

namespace CApi

/-- The memory of the process, as far as the interface sees it: query objects by handle (a pointer; 0 is null) and files.
A pointer to an error handler is named by the handle of the query object owning it.  Simplification: handles of deleted
objects are not used again. -/
structure World (K : Type) where
  next : Nat
  objs : Nat → Option (VMQuery K)
  fs : Files

/-- What a call hands back: an integer; an integer and the values written to the caller's array, if any; a pointer; a
string, null or not. -/
inductive Ret (K : Type) where
  | code (n : Int)
  | answer (n : Int) (vals : Option (List K))
  | ptr (h : Nat)
  | text (t : Option String)

/-- Storing an object. -/
def World.put {K : Type} (w : World K) (h : Nat) (q : Option (VMQuery K)) : World K :=
  { w with objs := fun k => if k = h then q else w.objs k }

variable {K : Type} [Field K] [LinearOrder K]

/-- Before any call. -/
def World.init (fs : Files) : World K := ⟨0, fun _ => none, fs⟩

/-- The pattern of most functions: a null handle gives `null`; else the object is used; a pointer to no object is
undefined behaviour. -/
def use (w : World K) (h : Nat) (null : Ret K) (f : VMQuery K → Outcome (VMQuery K × Files × Ret K)) : Outcome (World K × Ret K) :=
  if h = 0 then .ok (w, null)
  else match w.objs h with
    | none => .ub
    | some q => do
      let r ← f q
      .ok ({ w.put h (some r.1) with fs := r.2.1 }, r.2.2)

/-- Returning the status of the object's error handler. -/
def withStatus (fs : Files) (q : VMQuery K) : Outcome (VMQuery K × Files × Ret K) := .ok (q, fs, .code q.err.status.code)

/-- `cencalvm_createQuery`, libsrc/cencalvm/query/cvmquery.cc:25-30; `g` is the geometry the object creates. -/
def createQuery (g : Geom K) (w : World K) : Outcome (World K × Ret K) :=
  .ok ({ w.put (w.next + 1) (some (VMQuery.init g)) with next := w.next + 1 }, .ptr (w.next + 1))

/-- `cencalvm_destroyQuery`, libsrc/cencalvm/query/cvmquery.cc:34-42. -/
def destroyQuery (fail failExt : Bool) (w : World K) (h : Nat) : Outcome (World K × Ret K) :=
  if h = 0 then .ok (w, .code 0)
  else match w.objs h with
    | none => .ub
    | some q => do
      VMQuery.destroy fail failExt q
      .ok (w.put h none, .code 0)

/-- `cencalvm_open`, libsrc/cencalvm/query/cvmquery.cc:46-60. -/
def openDb (disk : String → Option (Db K)) (w : World K) (h : Nat) : Outcome (World K × Ret K) :=
  use w h (.code 2) fun q => do
    let q ← VMQuery.openDb disk q
    withStatus w.fs q
/-- `cencalvm_close`, libsrc/cencalvm/query/cvmquery.cc:64-78. -/
def close (fail failExt : Bool) (w : World K) (h : Nat) : Outcome (World K × Ret K) :=
  use w h (.code 2) fun q => withStatus w.fs (VMQuery.close fail failExt q)
/-- `cencalvm_queryType`, libsrc/cencalvm/query/cvmquery.cc:82-99. -/
def queryType (n : Int) (w : World K) (h : Nat) : Outcome (World K × Ret K) :=
  use w h (.code 2) fun q => withStatus w.fs (VMQuery.queryType q n)
/-- `cencalvm_queryRes`, libsrc/cencalvm/query/cvmquery.cc:103-118. -/
def queryRes (r : K) (w : World K) (h : Nat) : Outcome (World K × Ret K) :=
  use w h (.code 2) fun q => withStatus w.fs (VMQuery.setQueryRes q r)
/-- `cencalvm_queryVals`, libsrc/cencalvm/query/cvmquery.cc:122-138. -/
def queryVals (names : List String) (n : Int) (w : World K) (h : Nat) : Outcome (World K × Ret K) :=
  use w h (.code 2) fun q => do
    let q ← VMQuery.setQueryVals q names n
    withStatus w.fs q
/-- `cencalvm_filename`, libsrc/cencalvm/query/cvmquery.cc:142-157. -/
def filename (n : String) (w : World K) (h : Nat) : Outcome (World K × Ret K) :=
  use w h (.code 2) fun q => withStatus w.fs (VMQuery.setFilename q n)
/-- `cencalvm_cacheSize`, libsrc/cencalvm/query/cvmquery.cc:161-176. -/
def cacheSize (n : Int) (w : World K) (h : Nat) : Outcome (World K × Ret K) :=
  use w h (.code 2) fun q => withStatus w.fs (VMQuery.setCacheSize q n)
/-- `cencalvm_filenameExt`, libsrc/cencalvm/query/cvmquery.cc:180-195. -/
def filenameExt (n : String) (w : World K) (h : Nat) : Outcome (World K × Ret K) :=
  use w h (.code 2) fun q => withStatus w.fs (VMQuery.setFilenameExt q n)
/-- `cencalvm_cacheSizeExt`, libsrc/cencalvm/query/cvmquery.cc:199-214. -/
def cacheSizeExt (n : Int) (w : World K) (h : Nat) : Outcome (World K × Ret K) :=
  use w h (.code 2) fun q => withStatus w.fs (VMQuery.setCacheSizeExt q n)
/-- `cencalvm_squash`, libsrc/cencalvm/query/cvmquery.cc:219-235; the flag is an integer. -/
def squash (flag : Int) (limit : K) (w : World K) (h : Nat) : Outcome (World K × Ret K) :=
  use w h (.code 2) fun q => withStatus w.fs (VMQuery.squash q (decide (flag ≠ 0)) limit)
/-- `cencalvm_query`, libsrc/cencalvm/query/cvmquery.cc:239-258. -/
def query (fmt : Fmt K) (n : Int) (lon lat elev : K) (w : World K) (h : Nat) : Outcome (World K × Ret K) :=
  use w h (.answer 2 none) fun q => do
    let r ← VMQuery.query fmt q w.fs n lon lat elev
    .ok (r.1, r.2.1, .answer r.1.err.status.code (some r.2.2))
/-- `cencalvm_errorHandler`, libsrc/cencalvm/query/cvmquery.cc:262-273. -/
def errorHandler (w : World K) (h : Nat) : Outcome (World K × Ret K) :=
  use w h (.ptr 0) fun q => .ok (q, w.fs, .ptr h)

/-- `cencalvm_error_logFilename`, libsrc/cencalvm/query/cvmerror.cc:29-44. -/
def errLogFilename (canOpen : String → Bool) (n : String) (w : World K) (e : Nat) : Outcome (World K × Ret K) :=
  use w e (.code 1) fun q =>
    let r := ErrorHandler.setLogFilename canOpen q.err w.fs n
    .ok ({ q with err := r.1 }, r.2, .code 0)
/-- `cencalvm_error_loggingOn`, libsrc/cencalvm/query/cvmerror.cc:48-63; the flag is an integer. -/
def errLoggingOn (canOpen : String → Bool) (flag : Int) (w : World K) (e : Nat) : Outcome (World K × Ret K) :=
  use w e (.code 1) fun q =>
    let r := ErrorHandler.loggingOn canOpen q.err w.fs (decide (flag ≠ 0))
    .ok ({ q with err := r.1 }, r.2, .code 0)
/-- `cencalvm_error_resetStatus`, libsrc/cencalvm/query/cvmerror.cc:67-81. -/
def errResetStatus (w : World K) (e : Nat) : Outcome (World K × Ret K) :=
  use w e (.code 1) fun q => .ok ({ q with err := q.err.resetStatus }, w.fs, .code 0)
/-- `cencalvm_error_status`, libsrc/cencalvm/query/cvmerror.cc:85-97. -/
def errStatus (w : World K) (e : Nat) : Outcome (World K × Ret K) :=
  use w e (.code 2) fun q => .ok (q, w.fs, .code q.err.status.code)
/-- `cencalvm_error_message`, libsrc/cencalvm/query/cvmerror.cc:101-113. -/
def errMessage (w : World K) (e : Nat) : Outcome (World K × Ret K) :=
  use w e (.text none) fun q => .ok (q, w.fs, .text (some q.err.message))

/-- The functions taking a handle, with their other arguments and what the environment decides. -/
inductive Fn (K : Type) where
  | open (disk : String → Option (Db K))
  | close (fail failExt : Bool)
  | queryType (n : Int)
  | queryRes (r : K)
  | queryVals (names : List String) (numVals : Int)
  | filename (n : String)
  | cacheSize (n : Int)
  | filenameExt (n : String)
  | cacheSizeExt (n : Int)
  | squash (flag : Int) (limit : K)
  | query (numVals : Int) (lon lat elev : K)
  | errorHandler
  | errLogFilename (n : String)
  | errLoggingOn (flag : Int)
  | errResetStatus
  | errStatus
  | errMessage

/-- The calls of the interface. -/
inductive Call (K : Type) where
  | create (g : Geom K)
  | destroy (fail failExt : Bool) (h : Nat)
  | fn (f : Fn K) (h : Nat)

/-- Dispatch of a function with a handle to the definitions above. -/
def callFn (fmt : Fmt K) (canOpen : String → Bool) (w : World K) (h : Nat) : Fn K → Outcome (World K × Ret K)
  | .open disk => openDb disk w h
  | .close f fx => close f fx w h
  | .queryType n => queryType n w h
  | .queryRes r => queryRes r w h
  | .queryVals names n => queryVals names n w h
  | .filename n => filename n w h
  | .cacheSize n => cacheSize n w h
  | .filenameExt n => filenameExt n w h
  | .cacheSizeExt n => cacheSizeExt n w h
  | .squash f l => squash f l w h
  | .query n lon lat elev => query fmt n lon lat elev w h
  | .errorHandler => errorHandler w h
  | .errLogFilename n => errLogFilename canOpen n w h
  | .errLoggingOn f => errLoggingOn canOpen f w h
  | .errResetStatus => errResetStatus w h
  | .errStatus => errStatus w h
  | .errMessage => errMessage w h

/-- One call. -/
def call (fmt : Fmt K) (canOpen : String → Bool) (w : World K) : Call K → Outcome (World K × Ret K)
  | .create g => createQuery g w
  | .destroy f fx h => destroyQuery f fx w h
  | .fn f h => callFn fmt canOpen w h f

/-- A history of calls, with what each hands back. -/
def run (fmt : Fmt K) (canOpen : String → Bool) : World K → List (Call K) → Outcome (World K × List (Ret K))
  | w, [] => .ok (w, [])
  | w, c :: cs => do
    let r ← call fmt canOpen w c
    let rs ← run fmt canOpen r.1 cs
    .ok (rs.1, r.2 :: rs.2)

end CApi
end CenCalVM
