/-
extensions/applications/vsgrader: the parameter file of the grader and the application gradecencalvm.
-/
import Verif.Model.VsGrader
import Verif.Model.FileApps

namespace CenCalVM

/-- What is left after skipping up to `n` characters up to and including `delim`, and whether the end was met. -/
def Stream.skip (delim : Char) : Nat → List Char → List Char × Bool
  | 0, t => (t, false)
  | _ + 1, [] => ([], true)
  | n + 1, c :: t => if c = delim then (t, false) else skip delim n t

/-- `s.ignore(n, delim)`: nothing but `failbit` if the stream is not good; the end sets `eofbit`.  After `n` characters the
delimiter is not looked for; an end that follows directly is noticed here or by the next extraction, which fails either way. -/
def Stream.ignore (s : Stream) (n : Nat) (delim : Char) : Stream :=
  if !s.good then { s with fail := true }
  else
    let r := Stream.skip delim n s.rest
    ⟨r.1, r.2, false⟩

/-- `s >> word` for a string with value `old`. -/
def Stream.word (s : Stream) (old : String) : Stream × String :=
  s.extract (List.span fun ch => !Stream.isSpace ch) (fun t => some (String.ofList t)) "" old

namespace VsGrader
variable {K : Type} [Field K] [LinearOrder K]

/-- The settings that are numbers without default, extensions/applications/vsgrader/VsGrader.cc:122-148. -/
inductive RealKey where
  | swLon | swLat | swElev | domainLen | domainWidth | domainHt | resVert | gradientMax | minVs
  deriving DecidableEq, Repr

/-- Members set by `_readParams`. -/
structure Params (K : Type) where
  real : RealKey → K
  cacheSize : Int
  queryRes : K
  queryType : Int

/-- The setting a word names, if it is one of the numbers without default,
extensions/applications/vsgrader/VsGrader.cc:122-148. -/
def realKey (token : String) : Option RealKey :=
  if VMQuery.sameName token "swcorner-lon" then some .swLon
  else if VMQuery.sameName token "swcorner-lat" then some .swLat
  else if VMQuery.sameName token "swcorner-elev" then some .swElev
  else if VMQuery.sameName token "domain-length" then some .domainLen
  else if VMQuery.sameName token "domain-width" then some .domainWidth
  else if VMQuery.sameName token "domain-height" then some .domainHt
  else if VMQuery.sameName token "resolution-vert" then some .resVert
  else if VMQuery.sameName token "vs-gradient-max" then some .gradientMax
  else if VMQuery.sameName token "vs-min" then some .minVs
  else none

/-- One setting with the name `token`, extensions/applications/vsgrader/VsGrader.cc:122-181.  `value` of lines 151 and 157 is
not initialised; if nothing is read into it, the comparison is undefined. -/
def readSetting (nf : NumFmt K) (s : Stream) (token : String) (p : Params K) : Outcome (Stream × Params K) :=
  match realKey token with
  | some k =>
    let r := (s.ignore 128 '=').extract nf.scan nf.real 0 (p.real k)
    .ok (r.1, { p with real := Function.update p.real k r.2 })
  | none =>
    if VMQuery.sameName token "cache-size" then
      let r := (s.ignore 128 '=').extract nf.scan (fun w => (nf.int w).map some) (some 0) none
      match r.2 with
      | none => .ub
      | some v => .ok (r.1, if v > 0 then { p with cacheSize := v } else p)
    else if VMQuery.sameName token "query-resolution" then
      let r := (s.ignore 128 '=').extract nf.scan (fun w => (nf.real w).map some) (some 0) none
      match r.2 with
      | none => .ub
      | some v => .ok (r.1, if v ≥ 0 then { p with queryRes := v } else p)
    else if VMQuery.sameName token "query-type" then
      let r := (s.ignore 128 '=').word ""
      if VMQuery.sameName "maxres" r.2 then .ok (r.1, { p with queryType := 0 })
      else if VMQuery.sameName "fixedres" r.2 then .ok (r.1, { p with queryType := 1 })
      else if VMQuery.sameName "waveres" r.2 then .ok (r.1, { p with queryType := 2 })
      else .exc ("Could not parse query type '" ++ r.2 ++ "' into a known type of query.")
    else .exc ("Could not parse '" ++ token ++ "' into a parameter setting.")

/-- The loop over the settings, extensions/applications/vsgrader/VsGrader.cc:121-184, with at most `n` words left. -/
def readSettings (nf : NumFmt K) : Nat → Stream → String → Params K → Outcome (Stream × Params K)
  | 0, _, _, _ => .ub
  | n + 1, s, token, p =>
    if s.good && token != "}" then
      match readSetting nf s token p with
      | .exc m => .exc m
      | .ub => .ub
      | .ok r =>
        let w := r.1.word token
        readSettings nf n w.1 w.2 r.2
    else .ok (s, p)

/-- Whether something is reported as missing, extensions/applications/vsgrader/VsGrader.cc:190-232. -/
def Params.incomplete (p : Params K) : Prop :=
  p.real .gradientMax = 0 ∨ p.real .minVs = 0 ∨ p.real .swLon = 0 ∨ p.real .swLat = 0 ∨ p.real .swElev = 0 ∨
    p.real .domainLen = 0 ∨ p.real .domainWidth = 0 ∨ p.real .domainHt = 0 ∨ p.real .resVert = 0 ∨
    (p.queryType ≠ 0 ∧ p.queryRes ≤ 0)

instance (p : Params K) : Decidable p.incomplete := by unfold Params.incomplete; infer_instance

/-- `VsGrader::_readParams`, extensions/applications/vsgrader/VsGrader.cc:96-249, for an opened file.  Messages are
abbreviated. -/
def readParams (nf : NumFmt K) (text : List Char) (old : Params K) : Outcome (Params K) :=
  let w := (Stream.ofText text).word ""
  if VMQuery.sameName w.2 "VsGrader" then
    let t := (w.1.ignore 128 '{').word ""
    match readSettings nf (text.length + 1) t.1 t.2 { old with real := fun _ => 0 } with
    | .exc m => .exc m
    | .ub => .ub
    | .ok r =>
      if !r.1.good then .exc "I/O error while parsing settings."
      else if r.2.incomplete then .exc "Parameter file must specify all settings."
      else .ok r.2
  else .exc ("Could not parse '" ++ w.2 ++ "' into 'VsGrader'.")

/-- Cache size, query resolution and type of a new `VsGrader`, extensions/applications/vsgrader/VsGrader.cc:41-64. -/
def newParams : Params K := ⟨fun _ => 0, 128, 0, 0⟩

/-- `VsGrader::cacheSize`, extensions/applications/vsgrader/VsGrader.icc:46-51. -/
def Params.setCacheSize (p : Params K) (size : Int) : Params K := if size > 0 then { p with cacheSize := size } else p

/-- What a grader uses besides its settings: the geometry it creates, the geometry of a new query object, the projection, sine
and cosine of `_AZIMUTHLEN`, the formatting of the description (metadata of the geometry and the gradient,
extensions/applications/vsgrader/VsGrader.cc:285-287), time and host, and the rounding. -/
structure Tools (K : Type) where
  geom : Geom K
  queryGeom : Geom K
  proj : Projector K
  sinAz : K
  cosAz : K
  describe : K → String
  stamp : String
  rd : Rd K := Rd.exact

/-- The settings after `_initialize`, extensions/applications/vsgrader/VsGrader.cc:254-265, with the corner at `xy`. -/
def Tools.grid (t : Tools K) (p : Params K) (xy : K × K) : Grid K where
  gradientMax := p.real .gradientMax
  minVs := p.real .minVs
  swElev := p.real .swElev
  swX := xy.1
  swY := xy.2
  domainLen := p.real .domainLen
  domainWidth := p.real .domainWidth
  domainHt := p.real .domainHt
  resVert := p.real .resVert
  sinAz := t.sinAz
  cosAz := t.cosAz
  proj := t.proj
  geom := t.geom
  rd := t.rd

/-- File names and query settings of a grader. -/
def Tools.names (t : Tools K) (p : Params K) (fileIn fileOut fileTmp : String) : Names K where
  fileIn := fileIn
  fileTmp := fileTmp
  fileOut := fileOut
  queryType := p.queryType
  queryRes := p.queryRes
  cacheSize := p.cacheSize
  description := t.describe (p.real .gradientMax)
  stamp := t.stamp

variable [FloorRing K]

/-- `VsGrader::run`, extensions/applications/vsgrader/VsGrader.cc:84-91. -/
def runAll (fmt : Fmt K) (env : EtreeEnv) (nf : NumFmt K) (t : Tools K) (junk : Payload K) (fs : Files)
    (files : String → Option (List Char)) (old : Params K) (fileParams fileIn fileOut fileTmp : String) (disk : EtreeDisk K) :
    Run (EtreeDisk K) Unit :=
  match files fileParams with
  | none => .exc ("Could not open file '" ++ fileParams ++ "' to read VsGrader parameters.") disk
  | some text => match readParams nf text old with
    | .exc m => .exc m disk
    | .ub => .ub
    | .ok p => match t.proj.project (p.real .swLon) (p.real .swLat) with
      | .exc m => .exc m disk
      | .ub => .ub
      | .ok xy => run fmt env (t.grid p xy) (t.names p fileIn fileOut fileTmp) t.queryGeom junk fs disk

/-- gradecencalvm, extensions/applications/vsgrader/gradecencalvm.cc:107-141.  Without `-c` the cache size is 128 (115), as in a
new grader; here the argument is then empty, and `atoi` gives 0, which the setter ignores. -/
def gradeMain (fmt : Fmt K) (env : EtreeEnv) (nf : NumFmt K) (atoi : String → Int) (t : Tools K) (junk : Payload K) (fs : Files)
    (files : String → Option (List Char)) (argv : List (List Char)) (disk : EtreeDisk K) : Outcome (Int × EtreeDisk K) :=
  match FileApps.parseArgs FileApps.gradeSpec ['i', 'o', 'p', 't'] argv with
  | none => .ok (1, disk)
  | some a =>
    let old := if a 'c' = "" then newParams else newParams.setCacheSize (atoi (a 'c'))
    FileApps.finish (runAll fmt env nf t junk fs files old (a 'p') (a 'i') (a 'o') (a 't') disk)

end VsGrader
end CenCalVM
