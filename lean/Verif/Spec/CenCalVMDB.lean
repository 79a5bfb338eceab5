/-
Vocabulary of the properties of the spatial database.
-/
import Verif.Model.CenCalVMDB
import Verif.Spec.Query

namespace CenCalVM
namespace CenCalVMDB
variable {K : Type} [Field K] [LinearOrder K]

/-- The object answers with the values `names`: they were set by a call of `queryVals` that returned normally, and the
names have not been set again since, whatever other calls were made (with exceptions caught). -/
def Returns (fmt : Fmt K) (names : List String) (s : CenCalVMDB K) : Prop :=
  names ≠ [] ∧ ∃ s0 s1 calls, queryVals s0 names names.length = .ok s1 () ∧
    (∀ c ∈ calls, ∀ ns n, c ≠ Call.queryVals ns n) ∧ run fmt s1 calls = some s

/-- Position `i` is the last one at which value number `k` is named. -/
def LastNamed (names : List String) (k i : Nat) : Prop :=
  (∃ n, names[i]? = some n ∧ NamesValue n k) ∧ ∀ j n, i < j → names[j]? = some n → ¬ NamesValue n k

/-- What the underlying object answers at an elevation. -/
def AnswerAt (fmt : Fmt K) (q : VMQuery K) (numVals : Int) (lon lat elev : K) (vals : List K) : Prop :=
  ∃ q' fs', VMQuery.query fmt q (fun _ => "") numVals lon lat elev = .ok (q', fs', vals)

/-- The elevations at which a void is filled: the one asked for, then 25, 50, 100, … below it, rounded to
double. -/
def probe (rd : Rd K) (z : K) : Nat → K
  | 0 => z
  | j + 1 => rd.double (z - 25 * 2 ^ j)

/-- The least Vp for a least Vs: 1360 + 1.16 times it, each operation and 1.16 rounded to double. -/
def leastVp (rd : Rd K) (minVs : K) : K := rd.double (1360 + rd.double (rd.double (116 / 100) * minVs))

/-- What a call that configures the database asks of the underlying object; a query type that is none of the three is
undefined behaviour (assertion). -/
def Call.setting : Call K → Option (VMQuery K → Outcome (VMQuery K))
  | .open disk => some (VMQuery.openDb disk)
  | .close fail failExt => some fun q => .ok (VMQuery.close fail failExt q)
  | .queryType n => some fun q => if 0 ≤ n ∧ n ≤ 2 then .ok (VMQuery.queryType q n) else .ub
  | .queryVals names n => some fun q => VMQuery.setQueryVals q names n
  | _ => none

/-- The call is a query. -/
def Call.IsQuery : Call K → Prop
  | .query _ _ _ => True
  | _ => False

end CenCalVMDB
end CenCalVM
