/-
Vocabulary of the properties of the parameter file of the grader and of gradecencalvm.
-/
import Verif.Spec.FileApps
import Verif.Spec.Grade
import Verif.Model.GradeApp

namespace CenCalVM
namespace VsGrader
variable {K : Type} [Field K] [LinearOrder K]

/-- The next word of a text: after any whitespace the longest run of other characters. -/
def WordAt (t w t' : List Char) : Prop :=
  ∃ space, t = space ++ (w ++ t') ∧ (∀ c ∈ space, Stream.isSpace c = true) ∧ w ≠ [] ∧ (∀ c ∈ w, Stream.isSpace c = false) ∧
    ∀ c ∈ t'.head?, Stream.isSpace c = true

/-- A text after a mark that comes within 128 characters, or after 128 characters without one. -/
def After (mark : Char) (t t' : List Char) : Prop :=
  ∃ gap, mark ∉ gap ∧ ((gap.length < 128 ∧ t = gap ++ mark :: t') ∨ (gap.length = 128 ∧ t = gap ++ t'))

/-- The word is the given name, up to upper and lower case. -/
def Lower (w : List Char) (name : String) : Prop := w.map Char.toLower = name.toList

instance (w : List Char) (name : String) : Decidable (Lower w name) := inferInstanceAs (Decidable (_ = _))

/-- The names of the settings that have no default. -/
def realNames : List (String × RealKey) :=
  [("swcorner-lon", .swLon), ("swcorner-lat", .swLat), ("swcorner-elev", .swElev), ("domain-length", .domainLen),
    ("domain-width", .domainWidth), ("domain-height", .domainHt), ("resolution-vert", .resVert), ("vs-gradient-max", .gradientMax),
    ("vs-min", .minVs)]

/-- The names of the types of query. -/
def typeNames : List (String × Int) := [("maxres", 0), ("fixedres", 1), ("waveres", 2)]

/-- A setting with its value. -/
inductive Setting (K : Type) where
  | real (k : RealKey) (v : K)
  | cacheSize (v : Int)
  | queryRes (v : K)
  | queryType (v : Int)

/-- What follows the name of a setting: anything up to the equal sign, and the value. -/
inductive ValueText (nf : NumFmt K) : List Char → List Char → Setting K → List Char → Prop
  | real {name : String} {k : RealKey} {w t t1 t' : List Char} {v : K} (hk : (name, k) ∈ realNames) (hw : Lower w name)
      (ht : After '=' t t1) (hv : RealText nf t1 v t') : ValueText nf w t (.real k v) t'
  | cacheSize {w t t1 t' : List Char} {v : Int} (hw : Lower w "cache-size") (ht : After '=' t t1) (hv : IntText nf t1 v t') :
      ValueText nf w t (.cacheSize v) t'
  | queryRes {w t t1 t' : List Char} {v : K} (hw : Lower w "query-resolution") (ht : After '=' t t1) (hv : RealText nf t1 v t') :
      ValueText nf w t (.queryRes v) t'
  | queryType {name : String} {w t t1 w' t' : List Char} {n : Int} (hw : Lower w "query-type") (ht : After '=' t t1)
      (hv : WordAt t1 w' t') (hn : (name, n) ∈ typeNames) (hw' : Lower w' name) : ValueText nf w t (.queryType n) t'

/-- A text starts with the given settings. -/
inductive SettingsText (nf : NumFmt K) : List Char → List (Setting K) → List Char → Prop
  | nil (t : List Char) : SettingsText nf t [] t
  | cons {t w t1 t2 t' : List Char} {x : Setting K} {xs : List (Setting K)} (hw : WordAt t w t1) (hv : ValueText nf w t1 x t2)
      (hs : SettingsText nf t2 xs t') : SettingsText nf t (x :: xs) t'

/-- The start of a parameter file: the word VsGrader and an opening brace. -/
def HeadText (text t : List Char) : Prop := ∃ w t1, WordAt text w t1 ∧ Lower w "vsgrader" ∧ After '{' t1 t

/-- A parameter file: head, settings, the word `}` and something after it. -/
def ParamText (nf : NumFmt K) (text : List Char) (xs : List (Setting K)) : Prop :=
  ∃ t t1 t2, HeadText text t ∧ SettingsText nf t xs t1 ∧ WordAt t1 ['}'] t2 ∧ t2 ≠ []

/-- The values given to a number without default. -/
def realValues (k : RealKey) (xs : List (Setting K)) : List K :=
  xs.filterMap fun | .real k' v => if k' = k then some v else none | _ => none
/-- The acceptable values given to the cache size. -/
def cacheValues (xs : List (Setting K)) : List Int := xs.filterMap fun | .cacheSize v => if 0 < v then some v else none | _ => none
/-- The acceptable values given to the query resolution. -/
def resValues (xs : List (Setting K)) : List K := xs.filterMap fun | .queryRes v => if 0 ≤ v then some v else none | _ => none
/-- The values given to the type of query. -/
def typeValues (xs : List (Setting K)) : List Int := xs.filterMap fun | .queryType v => some v | _ => none

/-- The settings of a grader after a file with the given settings: of each the last acceptable value; a number without default that
was not given is 0, the others keep their value. -/
structure SetBy (xs : List (Setting K)) (old p : Params K) : Prop where
  real : ∀ k, p.real k = (realValues k xs).getLast?.getD 0
  cacheSize : p.cacheSize = (cacheValues xs).getLast?.getD old.cacheSize
  queryRes : p.queryRes = (resValues xs).getLast?.getD old.queryRes
  queryType : p.queryType = (typeValues xs).getLast?.getD old.queryType

/-- The settings needed are there: the numbers without default are not 0, and the types of query that need one have a
resolution. -/
def Complete (p : Params K) : Prop := (∀ k, p.real k ≠ 0) ∧ (p.queryType = 0 ∨ 0 < p.queryRes)

/-- After the name of a setting there is no equal sign, or nothing but whitespace after it. -/
def NoValue (t : List Char) : Prop := ∀ t1, After '=' t t1 → ∀ c ∈ t1, Stream.isSpace c = true

/-- The grid described by the settings: lengths, resolution and limits as given, and the corner `xy` in the plane. -/
structure GridFor (tl : Tools K) (p : Params K) (xy : K × K) (s : Grid K) : Prop where
  gradientMax : s.gradientMax = p.real .gradientMax
  minVs : s.minVs = p.real .minVs
  swElev : s.swElev = p.real .swElev
  corner : (s.swX, s.swY) = xy
  domainLen : s.domainLen = p.real .domainLen
  domainWidth : s.domainWidth = p.real .domainWidth
  domainHt : s.domainHt = p.real .domainHt
  resVert : s.resVert = p.real .resVert
  azimuth : s.sinAz = tl.sinAz ∧ s.cosAz = tl.cosAz
  proj : s.proj = tl.proj
  geom : s.geom = tl.geom
  rd : s.rd = tl.rd

/-- The command line naming parameter, input, output and temporary file. -/
def argsGrade (p i o t : String) : List (List Char) :=
  [['-', 'p'], p.toList, ['-', 'i'], i.toList, ['-', 'o'], o.toList, ['-', 't'], t.toList]

end VsGrader
end CenCalVM
