/-
Properties C71 to C73: the parameter file of the grader and gradecencalvm.
-/
import Verif.Lemmas.GradeApp
import Verif.Props.FileApps
import Verif.Props.Grade

set_option linter.unusedSectionVars false

namespace CenCalVM
namespace VsGrader

section
variable {K : Type} [Field K] [LinearOrder K]

/-! ### C71 -/

theorem head_of_word {text t : List Char} (h : HeadText text t) :
    VMQuery.sameName ((Stream.ofText text).word "").2 "VsGrader" = true ∧
      (((Stream.ofText text).word "").1.ignore 128 '{') = ⟨t, false, false⟩ ∧ t.length < text.length := by
  obtain ⟨w, t1, h1, h2, h3⟩ := h
  have hw := word_at (s := Stream.ofText text) (fresh_text text) h1 ""
  rw [hw]
  refine ⟨?_, ignore_after (fresh_rest t1) h3, lt_of_le_of_lt (after_length h3) (wordAt_length h1)⟩
  have : VMQuery.sameName (String.ofList w) "VsGrader" = VMQuery.sameName (String.ofList w) "vsgrader" := by
    unfold VMQuery.sameName; congr 1
  rw [this, sameName_of (by decide +kernel), decide_eq_true_iff]
  exact h2

theorem head_of_good {text : List Char} (h1 : VMQuery.sameName ((Stream.ofText text).word "").2 "VsGrader" = true)
    (h2 : (((Stream.ofText text).word "").1.ignore 128 '{').good = true) :
    ∃ t, HeadText text t ∧ (((Stream.ofText text).word "").1.ignore 128 '{') = ⟨t, false, false⟩ := by
  obtain ⟨hg, t, a1, a2⟩ := ignore_good h2
  have hf : ((Stream.ofText text).word "").1.fail = false := by
    unfold Stream.good at hg; simp only [Bool.and_eq_true, Bool.not_eq_eq_eq_not, Bool.not_true] at hg; exact hg.2
  obtain ⟨-, w, t1, b1, b2⟩ := word_ok hf
  rw [b2] at a1 h1
  have : VMQuery.sameName (String.ofList w) "VsGrader" = VMQuery.sameName (String.ofList w) "vsgrader" := by
    unfold VMQuery.sameName; congr 1
  rw [this, sameName_of (by decide +kernel), decide_eq_true_iff] at h1
  exact ⟨t, ⟨w, t1, b1, h1, a1⟩, a2⟩

/-- C71: a parameter file is accepted exactly if it consists of the word VsGrader, an opening brace, settings with values, and the
word `}` with something after it, and all settings needed are there; each setting has the last acceptable value. -/
theorem C71 {nf : NumFmt K} {text : List Char} {old p : Params K} :
    readParams nf text old = .ok p ↔ ∃ xs, ParamText nf text xs ∧ SetBy xs old p ∧ Complete p := by
  constructor
  · intro h
    unfold readParams at h
    simp only at h
    split at h
    · rename_i hn
      split at h
      · cases h
      · cases h
      · rename_i r hr
        split at h
        · cases h
        rename_i hg
        simp only [Bool.not_eq_eq_eq_not, Bool.not_true, Bool.not_eq_false] at hg
        split at h
        · cases h
        rename_i hc
        cases h
        obtain ⟨xs, t, t', a1, a2, a3, a4⟩ := readSettings_back (s' := r.1) (p' := r.2) hr hg
        have hi : (((Stream.ofText text).word "").1.ignore 128 '{').good = true := by
          by_contra hb
          rw [Bool.not_eq_true] at hb
          unfold readSettings at hr
          have hw : ((((Stream.ofText text).word "").1.ignore 128 '{').word "").1.good = false := word_bad hb
          rw [hw] at hr
          simp only [Bool.false_and, Bool.false_eq_true, if_false, Outcome.ok.injEq] at hr
          rw [← hr, hw] at hg
          cases hg
        obtain ⟨t0, b1, b2⟩ := head_of_good hn hi
        rw [b2] at a1
        exact ⟨xs, ⟨t0, t, t', b1, a1, a2, a3⟩, setBy_iff.2 a4, incomplete_iff.1 hc⟩
    · cases h
  · rintro ⟨xs, ⟨t, t1, t2, h1, h2, h3, h4⟩, hp, hc⟩
    obtain ⟨a1, a2, a3⟩ := head_of_word h1
    unfold readParams
    simp only [a1, a2, if_true]
    obtain ⟨s', m, old', b1, b2, b3, b4⟩ := readSettings_text h2 (s := ⟨t, false, false⟩) (n := text.length + 1) (old := "")
      (p := { old with real := fun _ => 0 }) (fresh_text t) rfl (by simp only; omega)
    rw [b4]
    subst b2
    rw [readSettings_close b1 h3 b3, ← setBy_iff.1 hp]
    have hg : Stream.good ⟨t2, t2.isEmpty, false⟩ = true := good_of_ne (fresh_rest _) h4
    simp only [hg, Bool.not_true, Bool.false_eq_true, if_false, incomplete_iff.2 hc]

/-- What is accepted does not depend on how the text is divided: two readings give the same settings. -/
theorem C71_unique {nf : NumFmt K} {text : List Char} {old p p' : Params K} {xs xs' : List (Setting K)}
    (h : ParamText nf text xs) (hp : SetBy xs old p) (hc : Complete p)
    (h' : ParamText nf text xs') (hp' : SetBy xs' old p') (hc' : Complete p') : p = p' := by
  have h1 := C71.2 ⟨xs, h, hp, hc⟩
  have h2 := C71.2 ⟨xs', h', hp', hc'⟩
  exact Outcome.ok.inj (h1.symm.trans h2)

end

/-- A parameter file, with the resolution given twice. -/
def exParamText : List Char :=
  ("VsGrader {\n  vs-min = 400\n  vs-gradient-max = 1.0\n  domain-length = 500.0\n  domain-width = 400.0\n" ++
    "  domain-height = 150.0\n  SWcorner-lon = 280\n  swcorner-lat = -40\n  swcorner-elev = -50.0\n  resolution-vert = 3.0\n" ++
    "  resolution-vert = 100.0\n  query-type = fixedres\n  query-resolution = 200.0\n  cache-size = 64\n}\n").toList

/-- The settings as a list, to compare them. -/
def Params.list (p : Params ℚ) : List ℚ × Int × ℚ × Int :=
  ([RealKey.swLon, .swLat, .swElev, .domainLen, .domainWidth, .domainHt, .resVert, .gradientMax, .minVs].map p.real, p.cacheSize,
    p.queryRes, p.queryType)

/-- What a reading gives. -/
def exRead (text : List Char) : Outcome (List ℚ × Int × ℚ × Int) :=
  match readParams exNumFmt text newParams with
  | .ok p => .ok p.list
  | .exc m => .exc m
  | .ub => .ub

theorem exRead_ok {text : List Char} {l : List ℚ × Int × ℚ × Int} (h : exRead text = .ok l) :
    ∃ p, readParams exNumFmt text newParams = .ok p ∧ p.list = l := by
  unfold exRead at h
  split at h
  · rename_i p hp; cases h; exact ⟨p, hp, rfl⟩
  · cases h
  · cases h

example : exRead exParamText = .ok ([280, -40, -50, 500, 400, 150, 100, 1, 400], 64, 200, 1) := by decide +kernel

example : ∃ xs p, ParamText exNumFmt exParamText xs ∧ SetBy xs newParams p ∧ Complete p ∧
    p.list = ([280, -40, -50, 500, 400, 150, 100, 1, 400], 64, 200, 1) := by
  obtain ⟨p, h1, h2⟩ := exRead_ok (text := exParamText) (l := ([280, -40, -50, 500, 400, 150, 100, 1, 400], 64, 200, 1)) (by decide +kernel)
  obtain ⟨xs, h3, h4, h5⟩ := C71.1 h1
  exact ⟨xs, p, h3, h4, h5, h2⟩

/-- The file with other values for the elevation of the corner, and another end. -/
def exParamWith (elev last : String) : List Char :=
  ("VsGrader { vs-min = 400 vs-gradient-max = 1 domain-length = 500 domain-width = 400 domain-height = 150 " ++
    "swcorner-lon = 280 swcorner-lat = -40 swcorner-elev = " ++ elev ++ " resolution-vert = 100 " ++ last).toList

/-- Corners of C71: an elevation of 0 counts as missing; nothing may be missing after the closing brace, not even the end of the line; a name
directly followed by the equal sign is not recognised; anything may stand before the equal sign. -/
theorem C71_corners : exRead (exParamWith "5" "}\n") = .ok ([280, -40, 5, 500, 400, 150, 100, 1, 400], 128, 0, 0) ∧
    (∃ m, exRead (exParamWith "0" "}\n") = .exc m) ∧ (∃ m, exRead (exParamWith "5" "}") = .exc m) ∧
    (∃ m, exRead (exParamWith "5" "vs-min=500 }\n") = .exc m) ∧
    exRead (exParamWith "5" "vs-min or vs-max ?= 500 }\n") = .ok ([280, -40, 5, 500, 400, 150, 100, 1, 500], 128, 0, 0) :=
  ⟨by decide +kernel, ⟨"Parameter file must specify all settings.", by decide +kernel⟩,
    ⟨"I/O error while parsing settings.", by decide +kernel⟩,
    ⟨"Could not parse 'vs-min=500' into a parameter setting.", by decide +kernel⟩, by decide +kernel⟩

/-! ### C72 -/

section
variable {K : Type} [Field K] [LinearOrder K]

/-- C72, what holds: reading a parameter file gives settings or an exception, except exactly if the file ends where the value of the cache
size or of the query resolution is expected.  Then an uninitialised variable is read (`C72_false`). -/
theorem C72_partial {nf : NumFmt K} {text : List Char} {old : Params K} :
    readParams nf text old = .ub ↔ ∃ t xs t1 w t2, HeadText text t ∧ SettingsText nf t xs t1 ∧ WordAt t1 w t2 ∧ t2 ≠ [] ∧
      (Lower w "cache-size" ∨ Lower w "query-resolution") ∧ NoValue t2 := by
  constructor
  · intro h
    unfold readParams at h
    simp only at h
    split at h
    · rename_i hn
      have hub : readSettings nf (text.length + 1) ((((Stream.ofText text).word "").1.ignore 128 '{').word "").1
          ((((Stream.ofText text).word "").1.ignore 128 '{').word "").2 { old with real := fun _ => 0 } = .ub := by
        split at h
        · cases h
        · assumption
        · split at h
          · cases h
          · split at h <;> cases h
      have hi : (((Stream.ofText text).word "").1.ignore 128 '{').good = true := by
        by_contra hb
        rw [Bool.not_eq_true] at hb
        unfold readSettings at hub
        rw [word_bad hb] at hub
        simp at hub
      obtain ⟨t, b1, b2⟩ := head_of_good hn hi
      have hlt := (head_of_word b1).2.2
      rw [b2] at hub
      obtain ⟨xs, t1, w, t2, c1, c2⟩ := readSettings_ub (by simp only; omega) hub
      exact ⟨t, xs, t1, w, t2, b1, c1, c2⟩
    · cases h
  · rintro ⟨t, xs, t1, w, t2, h1, h2, h3, h4, h5, h6⟩
    obtain ⟨a1, a2, a3⟩ := head_of_word h1
    unfold readParams
    simp only [a1, a2, if_true]
    obtain ⟨s', m, old', b1, b2, b3, b4⟩ := readSettings_text h2 (s := ⟨t, false, false⟩) (n := text.length + 1) (old := "")
      (p := { old with real := fun _ => 0 }) (fresh_text t) rfl (by simp only; omega)
    rw [b4]
    subst b2
    rw [readSettings_noValue b1 b3 h3 h4 h5 h6]

end

/-- C72 is false: the variable read after `cache-size` has no value. -/
theorem C72_false : exRead (exParamWith "5" "cache-size =\n").dropLast = .ub ∧ exRead (exParamWith "5" "cache-size }\n") = .ub ∧
    ∃ m, exRead (exParamWith "5" "cache-size = none }\n") = .exc m :=
  ⟨by decide +kernel, by decide +kernel, ⟨"I/O error while parsing settings.", by decide +kernel⟩⟩

/-! ### C73 -/

section
variable {K : Type} [Field K] [LinearOrder K] [IsStrictOrderedRing K] [FloorRing K]

theorem parse_grade {p i o t : String} (hp : p ≠ "") (hi : i ≠ "") (ho : o ≠ "") (ht : t ≠ "") :
    ∃ a, FileApps.parseArgs FileApps.gradeSpec ['i', 'o', 'p', 't'] (argsGrade p i o t) = some a ∧
      a 'p' = p ∧ a 'i' = i ∧ a 'o' = o ∧ a 't' = t ∧ a 'c' = "" := by
  have hq := FileApps.parseArgs_pairs (spec := FileApps.gradeSpec) (files := ['i', 'o', 'p', 't']) (by decide)
    (opts := [('p', p.toList), ('i', i.toList), ('o', o.toList), ('t', t.toList)])
    (by intro ov h; simp at h; rcases h with rfl | rfl | rfl | rfl <;> simp [FileApps.gradeSpec])
  have h2 : QueryApp.lastArg [('p', p.toList), ('i', i.toList), ('o', o.toList), ('t', t.toList)] 'p' = some p := by simp [QueryApp.lastArg]
  have h3 : QueryApp.lastArg [('p', p.toList), ('i', i.toList), ('o', o.toList), ('t', t.toList)] 'i' = some i := by simp [QueryApp.lastArg]
  have h4 : QueryApp.lastArg [('p', p.toList), ('i', i.toList), ('o', o.toList), ('t', t.toList)] 'o' = some o := by simp [QueryApp.lastArg]
  have h5 : QueryApp.lastArg [('p', p.toList), ('i', i.toList), ('o', o.toList), ('t', t.toList)] 't' = some t := by simp [QueryApp.lastArg]
  have h6 : QueryApp.lastArg [('p', p.toList), ('i', i.toList), ('o', o.toList), ('t', t.toList)] 'c' = none := by simp [QueryApp.lastArg]
  refine ⟨_, hq.trans (if_neg ?_), ?_, ?_, ?_, ?_, ?_⟩
  · simp [h2, h3, h4, h5, hp, hi, ho, ht]
  · simp [h2]
  · simp [h3]
  · simp [h4]
  · simp [h5]
  · simp [h6]

theorem gradeMain_eq {fmt : Fmt K} {env : EtreeEnv} {nf : NumFmt K} {atoi : String → Int} {tl : Tools K} {junk : Payload K} {fs : Files}
    {files : String → Option (List Char)} {p i o t : String} (hp : p ≠ "") (hi : i ≠ "") (ho : o ≠ "") (ht : t ≠ "")
    (disk : EtreeDisk K) : gradeMain fmt env nf atoi tl junk fs files (argsGrade p i o t) disk =
      FileApps.finish (runAll fmt env nf tl junk fs files newParams p i o t disk) := by
  obtain ⟨a, h1, h2, h3, h4, h5, h6⟩ := parse_grade hp hi ho ht
  unfold gradeMain
  simp only [h1, h2, h3, h4, h5, h6, if_true]

/-- C73, what holds: gradecencalvm ends with code 0 only if the parameter file is accepted and the corner can be projected.  If then the
points of the grid described by the file lie inside the model and the gradient is not negative, the output file holds one octant per
point of the grid and nothing else, the speeds respect the bounds and the minimum.  Missing: `C73_false_missing`,
`C73_false_same`. -/
theorem C73_partial {fmt : Fmt K} {env : EtreeEnv} {nf : NumFmt K} {atoi : String → Int} {tl : Tools K} {junk : Payload K} {fs : Files}
    {files : String → Option (List Char)} {pf i o t : String} (hp : pf ≠ "") (hi : i ≠ "") (ho : o ≠ "") (ht : t ≠ "")
    (hg : tl.geom.Lawful) (hrd : tl.rd.Exact) (hgq : tl.queryGeom.Lawful) {disk disk' : EtreeDisk K}
    (h : gradeMain fmt env nf atoi tl junk fs files (argsGrade pf i o t) disk = .ok (0, disk')) :
    ∃ text xs p xy s, files pf = some text ∧ ParamText nf text xs ∧ SetBy xs ⟨fun _ => 0, 128, 0, 0⟩ p ∧ Complete p ∧
      tl.proj.project (p.real .swLon) (p.real .swLat) = .ok xy ∧ GridFor tl p xy s ∧
      ∀ n nL nW nH : Nat, 0 ≤ p.real .gradientMax → p.real .minVs ≤ 10 ^ 10 →
        tl.geom.level (p.real .resVert * tl.geom.vertExag) = .ok (n : Int) → Dims s nL nW nH → 0 < nL ∧ 0 < nW ∧ 0 < nH →
        (∀ l < nL, ∀ w < nW, ∀ h < nH, ∃ a, PointCell s n l w h a) →
        ∃ f, disk' o = some f ∧ OnGrid s n nL nW nH f.db ∧ f.db.entries.length = nL * nW * nH ∧
          ∃ v : Nat → Nat → Nat → K, (∀ l < nL, ∀ w < nW, ∀ h < nH, ∀ q, PointPayload s n f.db l w h q → q.vs = v l w h) ∧
            (∀ l < nL, ∀ w < nW, ∀ h < nH, p.real .minVs ≤ v l w h) ∧
            Bounded3 (p.real .gradientMax * (p.real .resVert * tl.geom.vertExag)) (p.real .gradientMax * p.real .resVert) nL nW nH v := by
  rw [gradeMain_eq hp hi ho ht] at h
  unfold runAll at h
  split at h
  · simp [FileApps.finish] at h
  rename_i text hf
  split at h
  · simp [FileApps.finish] at h
  · simp [FileApps.finish] at h
  rename_i p hr
  split at h
  · simp [FileApps.finish] at h
  · simp [FileApps.finish] at h
  rename_i xy hxy
  obtain ⟨xs, a1, a2, a3⟩ := C71.1 hr
  refine ⟨text, xs, p, xy, tl.grid p xy, hf, a1, a2, a3, hxy, ⟨rfl, rfl, rfl, rfl, rfl, rfl, rfl, rfl, ⟨rfl, rfl⟩, rfl, rfl, rfl⟩, ?_⟩
  intro n nL nW nH hm hmin hlv hd hpos hin
  cases hrun : run fmt env (tl.grid p xy) (tl.names p i o t) tl.queryGeom junk fs disk with
  | ub => rw [hrun] at h; simp [FileApps.finish] at h
  | exc m d => rw [hrun] at h; simp [FileApps.finish] at h
  | ok d u =>
    cases u
    rw [hrun] at h
    simp only [FileApps.finish, Outcome.ok.injEq, Prod.mk.injEq, true_and] at h
    subst h
    obtain ⟨f, b1, b2, b3, v, b4, b5⟩ := C50_run (s := tl.grid p xy) (nm := tl.names p i o t) hg hrd hgq hm hlv hd hpos hin hrun
    obtain ⟨f', c1, c2⟩ := C51_run (s := tl.grid p xy) (nm := tl.names p i o t) hg hrd hgq hm hlv hd hpos hin hmin hrun
    cases b1.symm.trans c1
    refine ⟨f, b1, b2, b3, v, b4, fun l hl w hw k hk => ?_, b5⟩
    obtain ⟨q, hq⟩ := b2.stored l hl w hw k hk
    rw [← b4 l hl w hw k hk q hq]
    exact c2 l hl w hw k hk q hq

/-- C73: gradecencalvm ends with code 0 if libetree reports no failure, the parameter file is accepted, the corner can be projected, the three
files are different, the input exists and the model has an answer at every point of the grid. -/
theorem C73_runs {fmt : Fmt K} {env : EtreeEnv} (he : env.Reliable) {nf : NumFmt K} {atoi : String → Int} {tl : Tools K} (junk : Payload K)
    (fs : Files) {files : String → Option (List Char)} {pf i o t : String} (hp : pf ≠ "") (hi : i ≠ "") (ho : o ≠ "") (ht : t ≠ "")
    (hti : t ≠ i) (hot : o ≠ t) (hg : tl.geom.Lawful) (hgq : tl.queryGeom.Lawful) {disk : EtreeDisk K} {text : List Char} {xs : List (Setting K)}
    {p : Params K} {xy : K × K} {s : Grid K} (hf : files pf = some text) (hx : ParamText nf text xs) (hs : SetBy xs ⟨fun _ => 0, 128, 0, 0⟩ p)
    (hc : Complete p) (hxy : tl.proj.project (p.real .swLon) (p.real .swLat) = .ok xy) (hgrid : GridFor tl p xy s) {n nL nW nH : Nat}
    (hlv : tl.geom.level (p.real .resVert * tl.geom.vertExag) = .ok (n : Int)) (hd : Dims s nL nW nH) (hpos : 0 < nL ∧ 0 < nW ∧ 0 < nH)
    {fi : EtreeFile K} (hfi : disk i = some fi) {q : VMQuery K} (hq : QueryFor tl.rd tl.queryGeom fi.db p.queryType p.queryRes q)
    (ha : Answered fmt q s n nL nW nH) :
    ∃ disk', gradeMain fmt env nf atoi tl junk fs files (argsGrade pf i o t) disk = .ok (0, disk') := by
  have hr := C71.2 ⟨xs, hx, hs, hc⟩
  have hs' : s = tl.grid p xy := by
    cases s
    obtain ⟨b1, b2, b3, b4, b5, b6, b7, b8, ⟨b9, b10⟩, b11, b12, b13⟩ := hgrid
    simp only at b1 b2 b3 b4 b5 b6 b7 b8 b9 b10 b11 b12 b13
    subst b1 b2 b3 b5 b6 b7 b8 b9 b10 b11 b12 b13
    cases b4
    rfl
  subst hs'
  obtain ⟨disk', h⟩ := C50_runs (s := tl.grid p xy) (nm := tl.names p i o t) he junk fs hg hgq hlv hd hpos hti hot hfi hq ha
  refine ⟨disk', ?_⟩
  rw [gradeMain_eq hp hi ho ht]
  unfold runAll
  simp only [hf]
  have hr' : readParams nf text newParams = .ok p := hr
  simp only [hr', hxy, h]
  rfl

/-- C73: whatever fails, the code is 0 or 1 and no file but the temporary one and the output is touched, unless the behaviour is
undefined. -/
theorem C73_files {fmt : Fmt K} {env : EtreeEnv} {nf : NumFmt K} {atoi : String → Int} {tl : Tools K} {junk : Payload K} {fs : Files}
    {files : String → Option (List Char)} {pf i o t : String} (hp : pf ≠ "") (hi : i ≠ "") (ho : o ≠ "") (ht : t ≠ "")
    {disk disk' : EtreeDisk K} {code : Int}
    (h : gradeMain fmt env nf atoi tl junk fs files (argsGrade pf i o t) disk = .ok (code, disk')) :
    (code = 0 ∨ code = 1) ∧ ∀ n, n ≠ t → n ≠ o → disk' n = disk n := by
  rw [gradeMain_eq hp hi ho ht] at h
  have hl : Leaves (fun d => ∀ n, n ≠ t → n ≠ o → d n = disk n) (runAll fmt env nf tl junk fs files newParams pf i o t disk) := by
    unfold runAll
    split
    · exact fun _ _ _ => rfl
    · split
      · exact fun _ _ _ => rfl
      · trivial
      · split
        · exact fun _ _ _ => rfl
        · trivial
        · exact run_holds fmt env _ (tl.names _ i o t) _ _ _ _
  cases hr : runAll fmt env nf tl junk fs files newParams pf i o t disk with
  | ub => rw [hr] at h; cases h
  | exc m d => rw [hr] at h hl; cases h; exact ⟨Or.inr rfl, hl⟩
  | ok d u => rw [hr] at h hl; cases h; exact ⟨Or.inl rfl, hl⟩

/-- C65 for gradecencalvm: a refused command line ends the program with code 1 and no file touched. -/
theorem C65_refused_grade {fmt : Fmt K} {env : EtreeEnv} {nf : NumFmt K} {atoi : String → Int} {tl : Tools K} {junk : Payload K} {fs : Files}
    {files : String → Option (List Char)} {argv : List (List Char)} (disk : EtreeDisk K)
    (h : FileApps.parseArgs FileApps.gradeSpec ['i', 'o', 'p', 't'] argv = none) :
    gradeMain fmt env nf atoi tl junk fs files argv disk = .ok (1, disk) := by
  unfold gradeMain; rw [h]

/-- Without a temporary file; help. -/
example : FileApps.parseArgs FileApps.gradeSpec ['i', 'o', 'p', 't'] (["-i", "a", "-o", "b", "-p", "c"].map String.toList) = none ∧
    FileApps.parseArgs FileApps.gradeSpec ['i', 'o', 'p', 't'] ["-h".toList] = none :=
  ⟨Option.isNone_iff_eq_none.1 (by decide +kernel), Option.isNone_iff_eq_none.1 (by decide +kernel)⟩

/-- C73: a parameter file that cannot be opened or is not accepted gives code 1, and no file is touched. -/
theorem C73_refused {fmt : Fmt K} {env : EtreeEnv} {nf : NumFmt K} {atoi : String → Int} {tl : Tools K} {junk : Payload K} {fs : Files}
    {files : String → Option (List Char)} {pf i o t : String} (hp : pf ≠ "") (hi : i ≠ "") (ho : o ≠ "") (ht : t ≠ "")
    {disk : EtreeDisk K} (h : ∀ text, files pf = some text → (∀ xs p, ParamText nf text xs → SetBy xs ⟨fun _ => 0, 128, 0, 0⟩ p → ¬ Complete p) ∧
      readParams nf text newParams ≠ .ub) :
    gradeMain fmt env nf atoi tl junk fs files (argsGrade pf i o t) disk = .ok (1, disk) := by
  rw [gradeMain_eq hp hi ho ht]
  unfold runAll
  split
  · rfl
  rename_i text hf
  obtain ⟨h1, h2⟩ := h text hf
  split
  · rfl
  · rename_i hub; exact absurd hub h2
  rename_i p hr
  obtain ⟨xs, a1, a2, a3⟩ := C71.1 hr
  exact absurd a3 (h1 xs p a1 a2)

/-- C73 is false: if the input cannot be opened, the program uses a null database. -/
theorem C73_false_missing {fmt : Fmt K} {env : EtreeEnv} (he : env.Reliable) {nf : NumFmt K} {atoi : String → Int} {tl : Tools K}
    {junk : Payload K} {fs : Files} {files : String → Option (List Char)} {pf i o t : String} (hp : pf ≠ "") (hi : i ≠ "") (ho : o ≠ "")
    (ht : t ≠ "") {text : List Char} (hf : files pf = some text) {xs : List (Setting K)} {p : Params K} (hx : ParamText nf text xs)
    (hs : SetBy xs ⟨fun _ => 0, 128, 0, 0⟩ p) (hc : Complete p) {xy : K × K} (hxy : tl.proj.project (p.real .swLon) (p.real .swLat) = .ok xy)
    {s : Grid K} (hgs : GridFor tl p xy s) {nL nW nH : Nat} (hd : Dims s nL nW nH) (hpos : 0 < nL ∧ 0 < nW ∧ 0 < nH) {lon lat elev : K}
    (hpt : PointAt s 0 0 0 lon lat elev) {disk : EtreeDisk K} (hmiss : disk i = none) :
    gradeMain fmt env nf atoi tl junk fs files (argsGrade pf i o t) disk = .ub := by
  have hsg : s = tl.grid p xy := by
    obtain ⟨g1, g2, g3, g4, g5, g6, g7, g8, ⟨g9, g10⟩, g11, g12, g13⟩ := hgs
    cases s
    subst xy
    simp only at *
    subst g1 g2 g3 g5 g6 g7 g8 g9 g10 g11 g12 g13
    rfl
  subst hsg
  rw [gradeMain_eq hp hi ho ht]
  unfold runAll
  rw [hf]
  simp only [C71.2 ⟨xs, hx, hs, hc⟩, show (newParams : Params K) = ⟨fun _ => 0, 128, 0, 0⟩ from rfl, hxy]
  unfold run
  rw [C54_missing he (nm := tl.names p i o t) hd hpos hmiss hpt]
  rfl

/-- C73 is false: if the temporary file is the input, the input is truncated while it is open. -/
theorem C73_false_same {fmt : Fmt K} {env : EtreeEnv} (he : env.Reliable) {nf : NumFmt K} {atoi : String → Int} {tl : Tools K}
    {junk : Payload K} {fs : Files} {files : String → Option (List Char)} {pf i o : String} (hp : pf ≠ "") (hi : i ≠ "") (ho : o ≠ "")
    {text : List Char} (hf : files pf = some text) {xs : List (Setting K)} {p : Params K} (hx : ParamText nf text xs)
    (hs : SetBy xs ⟨fun _ => 0, 128, 0, 0⟩ p) (hc : Complete p) {xy : K × K} (hxy : tl.proj.project (p.real .swLon) (p.real .swLat) = .ok xy)
    (disk : EtreeDisk K) : gradeMain fmt env nf atoi tl junk fs files (argsGrade pf i o i) disk = .ub := by
  rw [gradeMain_eq hp hi ho hi]
  unfold runAll
  rw [hf]
  simp only [C71.2 ⟨xs, hx, hs, hc⟩, show (newParams : Params K) = ⟨fun _ => 0, 128, 0, 0⟩ from rfl, hxy]
  unfold run
  rw [C54_same he (nm := tl.names p i o i) rfl]
  rfl

end

/-- Tools for the example grid. -/
def exTools : Tools ℚ := ⟨exGradeGeom, exGeom, exProj, 4 / 5, 3 / 5, fun _ => "d", "t", .exact⟩
/-- The file of the example, with all details of the model used. -/
def exParamFiles (name : String) : Option (List Char) := if name = "p" then some (exParamWith "-50" "}\n") else none

/-- Code and speeds of an application. -/
def exGradeApp (argv : List (List Char)) : Option (Int × Option (List (Option ℚ))) :=
  match gradeMain exFmt exEtree exNumFmt (fun _ => 0) exTools (exPay 0 0) (fun _ => "") exParamFiles argv exGradeDisk with
  | .ok (code, disk) => some (code, exRunSpeeds "out" (.ok disk ()))
  | _ => none

/-- The file describes the example grid. -/
theorem exParam_grid : ∃ text xs p, exParamFiles "p" = some text ∧ ParamText exNumFmt text xs ∧ SetBy xs ⟨fun _ => 0, 128, 0, 0⟩ p ∧ Complete p ∧
    exTools.proj.project (p.real .swLon) (p.real .swLat) = .ok (280, -40) ∧ GridFor exTools p (280, -40) exGrid := by
  obtain ⟨p, h1, h2⟩ := exRead_ok (text := exParamWith "-50" "}\n") (l := ([280, -40, -50, 500, 400, 150, 100, 1, 400], 128, 0, 0))
    (by decide +kernel)
  obtain ⟨xs, h3, h4, h5⟩ := C71.1 h1
  simp only [Params.list, List.map_cons, List.map_nil, Prod.mk.injEq, List.cons.injEq, and_true] at h2
  obtain ⟨⟨a1, a2, a3, a4, a5, a6, a7, a8, a9⟩, -⟩ := h2
  refine ⟨_, xs, p, rfl, h3, h4, h5, ?_, ?_⟩
  · rw [a1, a2]; rfl
  · exact ⟨a8.symm, a9.symm, a3.symm, rfl, a4.symm, a5.symm, a6.symm, a7.symm, ⟨rfl, rfl⟩, rfl, rfl, rfl⟩

/-- The case of C73_false_missing and C73_false_same. -/
example : exEtree.Reliable ∧ Dims exGrid 2 2 2 ∧ PointAt exGrid 0 0 0 280 (-40) (-50) ∧ exGradeDisk "other" = none :=
  ⟨exEtree_reliable, exGrid_dims, by unfold PointAt Steps; decide +kernel, rfl⟩

/-- The case of C73_refused: no such file, or the elevation 0. -/
example : exParamFiles "q" = none ∧ ∀ xs p, ParamText exNumFmt (exParamWith "0" "}\n") xs → SetBy xs newParams p → ¬ Complete p := by
  refine ⟨rfl, fun xs p h1 h2 h3 => ?_⟩
  have h := C71.2 ⟨xs, h1, h2, h3⟩
  have : exRead (exParamWith "0" "}\n") = .exc "Parameter file must specify all settings." := by decide +kernel
  unfold exRead at this
  rw [h] at this
  cases this

/-- The whole program on the example grid. -/
example : exGradeApp (argsGrade "p" "in" "out" "tmp") =
    some (0, some [some 400, some 500, some 800, some 900, some 800, some 900, some 1200, some 1300]) := by decide +kernel

end VsGrader
end CenCalVM
