/-
Vocabulary of the properties of the application cencalvmquery.
-/
import Verif.Spec.Create
import Verif.Model.QueryApp

namespace CenCalVM
namespace QueryApp
variable {K : Type} [Field K] [LinearOrder K]

/-- The text starts with three numbers. -/
def LocText (nf : NumFmt K) (text : List Char) (l : K × K × K) (rest : List Char) : Prop :=
  ∃ t1 t2, RealText nf text l.1 t1 ∧ RealText nf t1 l.2.1 t2 ∧ RealText nf t2 l.2.2 rest

/-- The locations of an input file: one after the other, each followed by something (a line end), until the text does not go
on with another such location. -/
inductive LocsText (nf : NumFmt K) : List Char → List (K × K × K) → Prop
  | nil {t : List Char} (h : ∀ l t', LocText nf t l t' → t' = []) : LocsText nf t []
  | cons {t t' : List Char} {l : K × K × K} {ls : List (K × K × K)} (h : LocText nf t l t') (hne : t' ≠ [])
      (h' : LocsText nf t' ls) : LocsText nf t (l :: ls)

/-- The type of query named on the command line (in any case), with the resolution it works with. -/
def TypeNamed (o : Options K) (fn : QueryType) (res : K) : Prop :=
  let is (s : String) := o.queryType.toList.map Char.toLower = s.toList
  (is "maxres" ∧ fn = .MAXRES ∧ res = 0) ∨ (is "fixedres" ∧ 0 ≤ o.queryRes ∧ fn = .FIXEDRES ∧ res = o.queryRes) ∨
    (is "waveres" ∧ 0 ≤ o.queryRes ∧ fn = .WAVERES ∧ res = o.queryRes)

/-- The query object the command line asks for: a new object on the databases named, with the type, resolution and squashing
named, and no error. -/
def Configured (env : Env K) (o : Options K) (q : VMQuery K) : Prop :=
  ∃ d x fn res e,
    env.disk o.filenameDB = some d ∧
    ((o.filenameDBExt = "" ∧ x = none) ∨ (o.filenameDBExt ≠ "" ∧ ∃ d', env.disk o.filenameDBExt = some d' ∧ x = some d')) ∧
    TypeNamed o fn res ∧ e.status = Status.OK ∧
    q = { VMQuery.init env.geom with
      db := some d, dbExt := x, queryFn := fn, queryRes := res, err := e
      filename := o.filenameDB, filenameExt := o.filenameDBExt
      cacheSize := if 0 < o.cacheSize then o.cacheSize else 128
      cacheSizeExt := if 0 < o.cacheSize ∧ o.filenameDBExt ≠ "" then o.cacheSize else 128
      squashTopo := decide (o.squashLimit ≠ 1000000)
      squashLimit := if o.squashLimit = 1000000 then -2000 else o.squashLimit }

/-- The line holds the location and all nine values a query object answers with there, without error. -/
def LineFor (fmt : Fmt K) (q : VMQuery K) (l : K × K × K) (line : Line K) : Prop :=
  (line.lon, line.lat, line.elev) = l ∧ ∃ q' fs', VMQuery.query fmt q (fun _ => "") 9 l.1 l.2.1 l.2.2 = .ok (q', fs', line.vals) ∧
    q'.err.status ≠ .ERROR

/-- The query object answers with an error. -/
def ErrorAt (fmt : Fmt K) (q : VMQuery K) (l : K × K × K) : Prop :=
  ∃ q' fs' vals, VMQuery.query fmt q (fun _ => "") 9 l.1 l.2.1 l.2.2 = .ok (q', fs', vals) ∧ q'.err.status = .ERROR

/-- Closing the databases fails. -/
def CloseFails (env : Env K) (o : Options K) : Prop := env.closeFail = true ∨ (o.filenameDBExt ≠ "" ∧ env.closeFailExt = true)

/-- The words of an option with an argument, given separately. -/
def optWords (ov : Char × List Char) : List (List Char) := [['-', ov.1], ov.2]

/-- The last argument given for an option. -/
def lastArg (opts : List (Char × List Char)) (c : Char) : Option String :=
  ((opts.filter fun ov => ov.1 == c).getLast?).map fun ov => String.ofList ov.2

end QueryApp
end CenCalVM
