/-
query/VMQuery as a state machine over all public calls.
-/
import Verif.Model.Query

namespace CenCalVM
namespace VMQuery

/-- The public calls of `VMQuery` and of its error handler (libsrc/cencalvm/query/VMQuery.h:80-196).  What the
environment decides is part of the call: the databases that can be opened, whether closing fails. -/
inductive Call (K : Type) where
  | geometry (g : Option (Geom K))
  | open (disk : String → Option (Db K))
  | close (fail failExt : Bool)
  | queryType (n : Int)
  | queryVals (names : List String) (numVals : Int)
  | queryRes (r : K)
  | filename (n : String)
  | filenameExt (n : String)
  | cacheSize (n : Int)
  | cacheSizeExt (n : Int)
  | squash (flag : Bool) (limit : K)
  | query (numVals : Int) (lon lat elev : K)
  | handler (c : ErrCall)

/-- A query object, the files, and the values returned by the queries so far. -/
structure Session (K : Type) where
  q : VMQuery K
  fs : Files
  outs : List (List K)

variable {K : Type} [Field K] [LinearOrder K]

/-- One call, dispatching to the functions of libsrc/cencalvm/query/VMQuery.cc:68-290 and
libsrc/cencalvm/query/VMQuery.icc:18-67. -/
def call (fmt : Fmt K) (canOpen : String → Bool) (s : Session K) : Call K → Outcome (Session K)
  | .geometry g => do
    let q ← geometry s.q g
    .ok { s with q := q }
  | .open disk => do
    let q ← openDb disk s.q
    .ok { s with q := q }
  | .close f fx => .ok { s with q := close f fx s.q }
  | .queryType n => .ok { s with q := queryType s.q n }
  | .queryVals names n => do
    let q ← setQueryVals s.q names n
    .ok { s with q := q }
  | .queryRes r => .ok { s with q := setQueryRes s.q r }
  | .filename n => .ok { s with q := setFilename s.q n }
  | .filenameExt n => .ok { s with q := setFilenameExt s.q n }
  | .cacheSize n => .ok { s with q := setCacheSize s.q n }
  | .cacheSizeExt n => .ok { s with q := setCacheSizeExt s.q n }
  | .squash flag limit => .ok { s with q := squash s.q flag limit }
  | .query n lon lat elev => do
    let r ← query fmt s.q s.fs n lon lat elev
    .ok { q := r.1, fs := r.2.1, outs := s.outs ++ [r.2.2] }
  | .handler c =>
    let r := ErrorHandler.call canOpen (s.q.err, s.fs) c
    .ok { s with q := { s.q with err := r.1 }, fs := r.2 }

/-- A history of calls. -/
def run (fmt : Fmt K) (canOpen : String → Bool) : Session K → List (Call K) → Outcome (Session K)
  | s, [] => .ok s
  | s, c :: cs => do
    let s ← call fmt canOpen s c
    run fmt canOpen s cs

end VMQuery
end CenCalVM
