/-
Specification vocabulary for creating databases and ingesting grids.
-/
import Verif.Spec.Query
import Verif.Model.GridIngester

namespace CenCalVM

/-- libetree never fails. -/
structure EtreeEnv.Reliable (env : EtreeEnv) : Prop where
  create : ∀ n, env.create n = false
  schema : env.schema = false
  setMeta : env.setMeta = false
  beginAppend : env.beginAppend = false
  endAppend : env.endAppend = false
  get : ∀ i, env.get i = false
  append : ∀ i, env.append i = false
  adv : ∀ i, env.adv i = false
  insert : ∀ i, env.insert i = false
  closeIn : env.closeIn = false
  closeOut : env.closeOut = false

section
variable {K : Type} [Field K] [LinearOrder K]

/-- Data to be inserted: payload and location. -/
structure Datum (K : Type) where
  payload : Payload K
  lon : K
  lat : K
  elev : K

/-- A sequence of insertions with one resolution. -/
def insertAll (env : EtreeEnv) (g : Geom K) (res : K) : List (Datum K) → VMCreator.Creator K → Run (VMCreator.Creator K) Unit
  | [], c => .ok c ()
  | d :: ds, c => (VMCreator.insert env c d.payload d.lon d.lat d.elev res (some g)).bind fun c _ => insertAll env g res ds c

/-- The next word of a text in the sense of a number format: after any whitespace the characters the format takes. -/
def Word (nf : NumFmt K) (text word rest : List Char) : Prop :=
  ∃ space body, text = space ++ body ∧ (∀ c ∈ space, Stream.isSpace c = true) ∧ body ≠ [] ∧
    (∀ c ∈ body.head?, Stream.isSpace c = false) ∧ nf.scan body = (word, rest)

/-- The next word is a number of type `double`. -/
def RealText (nf : NumFmt K) (text : List Char) (v : K) (rest : List Char) : Prop :=
  ∃ w, Word nf text w rest ∧ nf.real w = some v
/-- The next word is a number of type `float`. -/
def Real32Text (nf : NumFmt K) (text : List Char) (v : K) (rest : List Char) : Prop :=
  ∃ w, Word nf text w rest ∧ nf.real32 w = some v
/-- The next word is an integer. -/
def IntText (nf : NumFmt K) (text : List Char) (v : Int) (rest : List Char) : Prop :=
  ∃ w, Word nf text w rest ∧ nf.int w = some v
/-- The next word is a 16 bit integer. -/
def Int16Text (nf : NumFmt K) (text : List Char) (v : Int) (rest : List Char) : Prop :=
  ∃ w, Word nf text w rest ∧ nf.int16 w = some v

/-- The text starts with the six numbers of a grid header. -/
def HeaderText (nf : NumFmt K) (text : List Char) (h : GridIngester.Header K) (rest : List Char) : Prop :=
  ∃ t1 t2 t3 t4 t5, RealText nf text h.resHoriz t1 ∧ RealText nf t1 h.resVert t2 ∧ IntText nf t2 h.numX t3 ∧
    IntText nf t3 h.numY t4 ∧ IntText nf t4 h.numZ t5 ∧ IntText nf t5 h.numTotal rest

/-- The text starts with the twelve numbers of a data line. -/
def PointText (nf : NumFmt K) (text : List Char) (p : GridIngester.Point K) (rest : List Char) : Prop :=
  ∃ t1 t2 t3 t4 t5 t6 t7 t8 t9 t10 t11, RealText nf text p.lon t1 ∧ RealText nf t1 p.lat t2 ∧ RealText nf t2 p.elev t3 ∧
    Real32Text nf t3 p.payload.vp t4 ∧ Real32Text nf t4 p.payload.vs t5 ∧ Real32Text nf t5 p.payload.density t6 ∧
    Real32Text nf t6 p.payload.qp t7 ∧ Real32Text nf t7 p.payload.qs t8 ∧ Real32Text nf t8 p.payload.depth t9 ∧
    Int16Text nf t9 p.payload.faultBlock t10 ∧ Int16Text nf t10 p.payload.zone t11 ∧ IntText nf t11 p.volID rest

/-- The text starts with the given data lines, each followed by something. -/
def PointsText (nf : NumFmt K) : List Char → List (GridIngester.Point K) → List Char → Prop
  | text, [], rest => text = rest
  | text, p :: ps, rest => ∃ t, PointText nf text p t ∧ t ≠ [] ∧ PointsText nf t ps rest

/-- A point with a fault block and a zone. -/
def HasData (p : GridIngester.Point K) : Prop := p.payload.faultBlock ≠ 0 ∧ p.payload.zone ≠ 0

instance (p : GridIngester.Point K) : Decidable (HasData p) := inferInstanceAs (Decidable (_ ∧ _))

/-- `b` is `a` converted from km to m and rounded, no-data stays no-data. -/
def Converted (rnd : K → K) (a b : K) : Prop := (a = -999 ∧ b = -999) ∨ (a ≠ -999 ∧ b = rnd (1000 * a))

/-- `b` is `a` converted from km to m in a `float`, no-data stays no-data: the product is a `double`, which is rounded again. -/
def Converted32 (rd : Rd K) (a b : K) : Prop := Converted (fun x => rd.single (rd.double x)) a b

/-- `d` is the datum to be stored for the point `p`: lengths, speeds and density converted, the rest unchanged. -/
structure StoredFor (rd : Rd K) (p : GridIngester.Point K) (d : Datum K) : Prop where
  lon : d.lon = p.lon
  lat : d.lat = p.lat
  elev : Converted rd.double p.elev d.elev
  vp : Converted32 rd p.payload.vp d.payload.vp
  vs : Converted32 rd p.payload.vs d.payload.vs
  density : Converted32 rd p.payload.density d.payload.density
  depth : Converted32 rd p.payload.depth d.payload.depth
  qp : d.payload.qp = p.payload.qp
  qs : d.payload.qs = p.payload.qs
  faultBlock : d.payload.faultBlock = p.payload.faultBlock
  zone : d.payload.zone = p.payload.zone

/-- `e` is an octant for the point `p` at level `n`: at the cell of its location (elevation converted) with its converted
payload. -/
def OctantFor (rd : Rd K) (g : Geom K) (n : Nat) (p : GridIngester.Point K) (e : Entry K) : Prop :=
  ∃ elev code, Converted rd.double p.elev elev ∧
    g.lonLatElevToAddr ⟨⟨0, 0, 0, n⟩, .leaf⟩ p.lon p.lat elev = .ok (e.addr, code) ∧
    Converted32 rd p.payload.vp e.payload.vp ∧ Converted32 rd p.payload.vs e.payload.vs ∧
    Converted32 rd p.payload.density e.payload.density ∧ Converted32 rd p.payload.depth e.payload.depth ∧
    e.payload.qp = p.payload.qp ∧ e.payload.qs = p.payload.qs ∧ e.payload.faultBlock = p.payload.faultBlock ∧
    e.payload.zone = p.payload.zone

/-- `es` are the octants for a grid file: one for each point with data, in file order; none if the header cannot be read. -/
def GridOctants (nf : NumFmt K) (g : Geom K) (files : String → Option (List Char)) (filename : String) (es : List (Entry K)) :
    Prop :=
  ∃ text, files filename = some text ∧
    ((∃ hd t pts t', HeaderText nf text hd t ∧ PointsText nf t pts t' ∧ pts.length = hd.numTotal.toNat ∧
      ∃ n : Nat, g.level (nf.rd.double (hd.resHoriz * 1000)) = .ok (n : Int) ∧
        List.Forall₂ (OctantFor nf.rd g n) (pts.filter fun p => HasData p) es) ∨
    ((∀ hd t, ¬ HeaderText nf text hd t) ∧ es = []))

end

/-- The words of a text: maximal runs of characters that are not whitespace. -/
inductive WordsOf : List Char → List String → Prop
  | nil {t : List Char} (h : ∀ c ∈ t, Stream.isSpace c = true) : WordsOf t []
  | cons {space w t : List Char} {ws : List String} (hs : ∀ c ∈ space, Stream.isSpace c = true) (hne : w ≠ [])
      (hw : ∀ c ∈ w, Stream.isSpace c = false) (ht : ∀ c ∈ t.head?, Stream.isSpace c = true) (h : WordsOf t ws) :
      WordsOf (space ++ (w ++ t)) (String.ofList w :: ws)

/-- The text ends with whitespace. -/
def EndsBlank (t : List Char) : Prop := ∃ c ∈ t.getLast?, Stream.isSpace c = true

instance (t : List Char) : Decidable (EndsBlank t) :=
  decidable_of_iff ((t.getLast?.any Stream.isSpace) = true) (by unfold EndsBlank; cases t.getLast? <;> simp)

end CenCalVM
