/-
Properties C126 to C129: the texts of the output files of cencalvmquery, of the example programs, and of cencalvmisosurface.
-/
import Verif.Lemmas.PrintText
import Verif.Props.QueryApp
import Verif.Props.CExample
import Verif.Props.FExample

set_option linter.unusedSectionVars false

namespace CenCalVM

namespace Print
variable {K : Type} [Field K] [LinearOrder K] [IsStrictOrderedRing K] [FloorRing K]

/-- Rounding to the nearest integer, as the C library does. -/
theorem nearest_nearest : Nearest (IntRound.nearest : IntRound K) := by
  intro x
  obtain ⟨h1, h2, h3, h4, h5⟩ := nearestEven_bounds x
  have hx : x = ⌊x⌋ + Int.fract x := (Int.floor_add_fract x).symm
  have h0 := Int.fract_nonneg x
  have h1' := Int.fract_lt_one x
  show |(nearestEven x : K) - x| ≤ 1 / 2
  rw [abs_le]
  rcases lt_trichotomy (Int.fract x) (1 / 2) with h | h | h
  · rw [h3 h]; constructor <;> linarith
  · rw [h5 h]
    split
    · constructor <;> linarith
    · push_cast; constructor <;> linarith
  · rw [h4 h]; push_cast; constructor <;> linarith

/-- The printer of the examples. -/
def exPr : Printer ℚ := ⟨IntRound.nearest, fun _ _ _ _ => []⟩

example : fixedText (IntRound.nearest : IntRound ℚ) 5 (-122.7655) = "-122.76550".toList := by decide +kernel
example : fixedText (IntRound.nearest : IntRound ℚ) 1 (-0.04) = "-0.0".toList := by decide +kernel
example : fixedText (IntRound.nearest : IntRound ℚ) 1 0.25 = "0.2".toList := by decide +kernel
example : fixedText (IntRound.nearest : IntRound ℚ) 1 99999.96 = "100000.0".toList := by decide +kernel
example : words "  -122.76550 38.97350\n".toList = ["-122.76550".toList, "38.97350".toList] := by decide +kernel
example : numberValue "-122.76550".toList = some (-122.7655 : ℚ) ∧ numberValue "12".toList = some (12 : ℚ) ∧
    numberValue "1.5-2".toList = (none : Option ℚ) ∧ numberValue "".toList = (none : Option ℚ) := by decide +kernel

end Print

namespace QueryApp
open Print VMQuery
variable {K : Type} [Field K] [LinearOrder K] [IsStrictOrderedRing K] [FloorRing K]

/-! ### C126 -/

/-- The lines of a run have nine values of which the seventh and eighth are numbers of 16 bits. -/
theorem lines_of_run {env : Env K} (hid : ∀ name d, env.disk name = some d → Ids16 d) {o : Options K} {fs : Files} {r : Result K}
    (hr : run env o fs = .ok r) : ∀ l ∈ r.lines, ∃ (v : Fin 9 → K) (b z : Int),
      l.vals = [v 0, v 1, v 2, v 3, v 4, v 5, (b : K), (z : K), v 8] ∧ v 6 = b ∧ v 7 = z ∧
        (-2 ^ 15 ≤ b ∧ b < 2 ^ 15) ∧ -2 ^ 15 ≤ z ∧ z < 2 ^ 15 := by
  intro l hl
  obtain ⟨p, e, hp, -, hv⟩ := run_lines (Q := Ids16) (X := Ids16) (E := fun _ => True)
    (P := fun p : Payload K => (-2 ^ 15 ≤ p.faultBlock ∧ p.faultBlock < 2 ^ 15) ∧ -2 ^ 15 ≤ p.zone ∧ p.zone < 2 ^ 15)
    (by refine ⟨⟨?_, ?_⟩, ?_, ?_⟩ <;> norm_num [noDataPayload, NODATABLOCK, NODATAZONE]) (fun d hd e he => (or_self_iff.1 hd) e he) (fun c p _ hp => hp) trivial (fun _ _ _ _ _ => trivial) (hid _) (fun _ _ => hid _ _) hr l hl
  exact ⟨![p.vp, p.vs, p.density, p.qp, p.qs, p.depth, (p.faultBlock : K), (p.zone : K), e], p.faultBlock, p.zone, hv, rfl, rfl, hp⟩

/-- C126, what holds: the output file of every run is lines of text, one for each line of numbers; none of the conversions to
`int` is undefined.  A line whose numbers fit their columns, cut at white space, gives the twelve numbers back, the identifiers
exactly and the others to half a unit of their last decimal.  A line with a number that fills its column gives fewer words.
Missing: lines with numbers that do not fit (`C126_false`). -/
theorem C126_partial {env : Env K} (hid : ∀ name d, env.disk name = some d → Ids16 d) {o : Options K} {fs : Files} {r : Result K}
    (hr : run env o fs = .ok r) (pr : Printer K) (hn : Nearest pr.ri) :
    ∃ texts, fileText pr r.lines = .ok (texts.flatMap (· ++ ['\n'])) ∧
      List.Forall₂ (fun l t => '\n' ∉ t ∧ (Fits l → ReadsBack l (words t)) ∧ (Overflows l → (words t).length < 12)) r.lines texts := by
  refine fileText_eq pr fun l hl => ?_
  obtain ⟨v, b, z, hv, h6, h7, ⟨hb1, hb2⟩, hz1, hz2⟩ := lines_of_run hid hr l hl
  refine ⟨cols (lineCols pr.ri l.lon l.lat l.elev v b z), ⟨cols_newline (lineCols_solid _ _ _ _ _ _ _), line_readsBack hn hv,
    line_overflows hv⟩, fun s => putLine_eq pr s (by rw [hv, h6, h7]) ?_ ?_⟩
  · rw [h6]; exact toInt_cast (by omega) (by omega)
  · rw [h7]; exact toInt_cast (by omega) (by omega)

theorem exDisk_cases {P : Db ℚ → Prop} (h1 : P exDb) (h2 : P exDbExt) : ∀ name d, exDisk name = some d → P d := by
  intro name d h
  unfold exDisk at h
  split at h
  · cases h; exact h1
  · cases h; exact h2
  · cases h

example : ∀ name d, (exEnv exText).disk name = some d → Ids16 d :=
  exDisk_cases (by unfold Ids16; decide +kernel) (by unfold Ids16; decide +kernel)
/-- The text, to compare. -/
def exOut (text : String) : Option String :=
  match run (exEnv text) exOpts fun _ => "" with
  | .ok r => match fileText exPr r.lines with
    | .ok t => some (String.ofList t)
    | _ => none
  | _ => none
example : exOut "120.34567 40 -100\n220 40 -200000\n" = some
    (" 120.34567 40.00000   -100.0  4000.0  2000.0  2500.0    100.0     50.0     30.0    1    7 -38370.0\n" ++
      " 220.00000 40.00000-200000.0  -999.0  -999.0  -999.0   -999.0   -999.0   -999.0    0    0   -999.0\n") := by decide +kernel
/-- The first line of examples/query/data/sample-08.3.0_maxres.out. -/
example : fileText exPr [⟨-122.7655, 38.9735, 1187.5, [1880, 530, 2040, 67, 34, 67.9, 9, 30, 1255.4]⟩] = .ok
    "-122.76550 38.97350   1187.5  1880.0   530.0  2040.0     67.0     34.0     67.9    9   30   1255.4\n".toList := by decide +kernel
example : Fits (⟨-122.7655, 38.9735, 1187.5, [1880, 530, 2040, 67, 34, 67.9, 9, 30, 1255.4]⟩ : Line ℚ) := by
  refine ⟨⟨by decide +kernel, by decide +kernel⟩, ⟨by decide +kernel, by decide +kernel⟩, ?_⟩
  exact .cons ⟨by decide +kernel, by decide +kernel⟩ (.cons ⟨by decide +kernel, by decide +kernel⟩
    (.cons ⟨by decide +kernel, by decide +kernel⟩ (.cons ⟨by decide +kernel, by decide +kernel⟩
    (.cons ⟨by decide +kernel, by decide +kernel⟩ (.cons ⟨by decide +kernel, by decide +kernel⟩
    (.cons ⟨by decide +kernel, by decide +kernel⟩ (.cons ⟨by decide +kernel, by decide +kernel⟩
    (.cons ⟨by decide +kernel, by decide +kernel⟩ .nil))))))))

/-- C126, the numbers of the databases: if those stored fit the columns, and the ground elevations that follow from the leaves
of the database and from all octants of the extended one, then so do the nine values of every line; only the location can make
its line unreadable. -/
theorem C126_stored {env : Env K} {o : Options K}
    (hst : ∀ d, env.disk o.filenameDB = some d → StoredFits d ∧ ∀ e ∈ d.entries, e.addr.type ≠ .interior → ElevFits env.geom e)
    (hstx : ∀ d, o.filenameDBExt ≠ "" → env.disk o.filenameDBExt = some d → StoredFits d ∧ ∀ e ∈ d.entries, ElevFits env.geom e)
    {fs : Files} {r : Result K} (hr : run env o fs = .ok r) : ∀ l ∈ r.lines, ValuesFit l.vals := by
  intro l hl
  let W8 : K → Prop := Within (-9999.9) 99999.9
  let W9 : K → Prop := Within (-99999.9) 999999.9
  have mean : ∀ {lo hi x y : K}, Within lo hi x → Within lo hi y → Within lo hi (waveMean Rd.exact x y) := by
    intro lo hi x y hx hy
    obtain ⟨h1, h2⟩ := hx
    obtain ⟨h3, h4⟩ := hy
    show lo ≤ 1 / 2 * (x + y) ∧ 1 / 2 * (x + y) ≤ hi
    constructor <;> linarith
  obtain ⟨p, e, ⟨h0, h1, h2, h3, h4, h5, h6, h7⟩, he, hv⟩ := run_lines
    (Q := fun d => StoredFits d ∧ ∀ e ∈ d.entries, e.addr.type ≠ .interior → ElevFits env.geom e)
    (X := fun d => StoredFits d ∧ ∀ e ∈ d.entries, ElevFits env.geom e) (E := W9)
    (P := fun p : Payload K => W8 p.vp ∧ W8 p.vs ∧ W8 p.density ∧ W9 p.qp ∧ W9 p.qs ∧ W9 p.depth ∧
      Within (-999) 9999 (p.faultBlock : K) ∧ Within (-999) 9999 (p.zone : K)) (by
        refine ⟨⟨?_, ?_⟩, ⟨?_, ?_⟩, ⟨?_, ?_⟩, ⟨?_, ?_⟩, ⟨?_, ?_⟩, ⟨?_, ?_⟩, ⟨?_, ?_⟩, ⟨?_, ?_⟩⟩ <;>
          norm_num [noDataPayload, NODATAVAL, NODATABLOCK, NODATAZONE])
    (fun d hd e he => by
      obtain ⟨a1, a2, a3, a4⟩ := (hd.elim And.left And.left) e he
      exact ⟨a1 _ (by simp), a1 _ (by simp), a1 _ (by simp), a2 _ (by simp), a2 _ (by simp), a2 _ (by simp), a3, a4⟩)
    (fun c p hc hp => by
      obtain ⟨a1, a2, a3, a4, a5, a6, -, -⟩ := hc
      obtain ⟨b1, b2, b3, b4, b5, b6, b7, b8⟩ := hp
      exact ⟨mean a1 b1, mean a2 b2, mean a3 b3, mean a4 b4, mean a5 b5, mean a6 b6, b7, b8⟩)
    (by constructor <;> norm_num [NODATAVAL]) (fun d e h c hc => by
      rcases h with ⟨h1, h2, h3⟩ | ⟨h1, h2⟩
      · exact h1.2 e h2 h3 c hc
      · exact h1.2 e h2 c hc) hst hstx hr l hl
  rw [hv]
  exact .cons h0 (.cons h1 (.cons h2 (.cons h3 (.cons h4 (.cons h5 (.cons h6 (.cons h7 (.cons he .nil))))))))

/-- The database of the examples meets the hypotheses: its root, an average, has its centroid at -192000 m, the leaf does not. -/
example : StoredFits exDb ∧ ∀ e ∈ exDb.entries, e.addr.type ≠ .interior → ElevFits exGeom e := by
  constructor
  · unfold StoredFits Within
    decide +kernel
  · have h : ∀ e ∈ exDb.entries, e.addr.type ≠ .interior → (match exGeom.addrToLonLatElev e.addr with
        | .ok c => decide (-99999.9 ≤ c.2.2 + e.payload.depth ∧ c.2.2 + e.payload.depth ≤ 999999.9)
        | _ => true) = true := by decide +kernel
    intro e he ht c hc
    have := h e he ht
    rw [hc] at this
    simp only [decide_eq_true_eq] at this
    exact this

/-- C126 is false: longitude and latitude given in the wrong order.  The run ends with code 0, and its line gives eleven words,
the first of which is not a number. -/
theorem C126_false : exOut "37.5 -122.25 0\n" =
      some "  37.50000-122.25000      0.0  -999.0  -999.0  -999.0   -999.0   -999.0   -999.0    0    0   -999.0\n" ∧
    (words "  37.50000-122.25000      0.0  -999.0  -999.0  -999.0   -999.0   -999.0   -999.0    0    0   -999.0\n".toList).length = 11 ∧
    numberValue "37.50000-122.25000".toList = (none : Option ℚ) := by decide +kernel
/-- C126 is false in another way: at a location without data in an extended database that holds averages the ground elevation
is that of the root, which fills its column. -/
theorem C126_false_elevation :
    (match run { exEnv "220 40 -200000\n" with disk := fun n => if n = "det" then some exDb else if n = "ext" then some exDb else none }
        { exOpts with filenameDBExt := "ext" } fun _ => "" with
      | .ok r => match fileText exPr r.lines with
        | .ok t => some (String.ofList t, (words t).length)
        | _ => none
      | _ => none) =
    some (" 220.00000 40.00000-200000.0  -999.0  -999.0  -999.0   -999.0   -999.0   -999.0    0    0-191970.0\n", 10) := by decide +kernel
example : Overflows (⟨37.5, -122.25, 0, []⟩ : Line ℚ) := Or.inl (by decide +kernel)

/-! ### C127 -/

theorem toInt_exc (x : K) (m : String) : toInt x ≠ .exc m := by
  unfold toInt
  dsimp only
  intro h
  by_cases hc : -2 ^ 31 ≤ (if 0 ≤ x then ⌊x⌋ else ⌈x⌉) ∧ (if 0 ≤ x then ⌊x⌋ else ⌈x⌉) < 2 ^ 31
  · rw [if_pos hc] at h; cases h
  · rw [if_neg hc] at h; cases h

theorem lineText_eq (pr : Printer K) (s : OStream) (l : Line K) :
    putLine pr s l = (do let t ← CExample.lineText pr.ri l; .ok ⟨true, false, 1, 0, s.text ++ t⟩) := by
  unfold CExample.lineText
  by_cases h : ∃ v : Fin 9 → K, l.vals = [v 0, v 1, v 2, v 3, v 4, v 5, v 6, v 7, v 8]
  · obtain ⟨v, hv⟩ := h
    rw [hv]
    have e1 : ∀ a b c : K, fprintf pr.ri .outside "%10.5f%9.5f%9.1f".toList [.real a, .real b, .real c] = .ok
        (padLeft 10 (fixedText pr.ri 5 a) ++ (padLeft 9 (fixedText pr.ri 5 b) ++ (padLeft 9 (fixedText pr.ri 1 c) ++ []))) := fun _ _ _ => rfl
    have e2 : ∀ (a b c d e f g : K) (m n : Int), fprintf pr.ri .outside "%8.1f%8.1f%8.1f%9.1f%9.1f%9.1f%5d%5d%9.1f\n".toList
        [.real a, .real b, .real c, .real d, .real e, .real f, .int m, .int n, .real g] = .ok
        (padLeft 8 (fixedText pr.ri 1 a) ++ (padLeft 8 (fixedText pr.ri 1 b) ++ (padLeft 8 (fixedText pr.ri 1 c) ++
          (padLeft 9 (fixedText pr.ri 1 d) ++ (padLeft 9 (fixedText pr.ri 1 e) ++ (padLeft 9 (fixedText pr.ri 1 f) ++
          (padLeft 5 (intText m) ++ (padLeft 5 (intText n) ++ (padLeft 9 (fixedText pr.ri 1 g) ++ ['\n']))))))))) := fun _ _ _ _ _ _ _ _ _ => rfl
    dsimp only
    simp only [e1, e2, Outcome.bind_ok]
    cases hb : toInt (v 6) with
    | exc m => exact absurd hb (toInt_exc _ _)
    | ub => unfold putLine; rw [hv]; dsimp only; rw [hb]; rfl
    | ok b =>
      cases hz : toInt (v 7) with
      | exc m => exact absurd hz (toInt_exc _ _)
      | ub => unfold putLine; rw [hv]; dsimp only; rw [hb, hz]; rfl
      | ok z =>
        rw [putLine_eq pr s hv hb hz]
        simp only [Outcome.bind_ok]
        simp [cols, lineCols, List.append_assoc]
  · have h1 : ∀ (vals : List K), (¬ ∃ v : Fin 9 → K, vals = [v 0, v 1, v 2, v 3, v 4, v 5, v 6, v 7, v 8]) →
        ∀ a b c d e f g i j, vals ≠ [a, b, c, d, e, f, g, i, j] := by
      intro vals hn a b c d e f g i j he
      exact hn ⟨![a, b, c, d, e, f, g, i, j], he⟩
    have h2 := h1 l.vals h
    unfold putLine
    split
    · rename_i heq; exact absurd heq (h2 _ _ _ _ _ _ _ _ _)
    · rfl

/-- C127: the manipulators of the C++ program and the formats of the C program give the same text, whatever the numbers. -/
theorem C127 (pr : Printer K) (lines : List (Line K)) : CExample.fileText pr.ri lines = fileText pr lines := by
  have key : ∀ (lines : List (Line K)) (s : OStream), putLines pr s lines =
      (do let t ← CExample.fileText pr.ri lines; .ok (if lines = [] then s else ⟨true, false, 1, 0, s.text ++ t⟩)) := by
    intro lines
    induction lines with
    | nil => intro s; rfl
    | cons l ls ih =>
      intro s
      unfold putLines CExample.fileText
      rw [lineText_eq]
      cases ht : CExample.lineText pr.ri l with
      | ub => rfl
      | exc m => rfl
      | ok t =>
        simp only [Outcome.bind_ok]
        rw [ih]
        cases hts : CExample.fileText pr.ri ls with
        | ub => rfl
        | exc m => rfl
        | ok ts =>
          simp only [Outcome.bind_ok]
          rw [if_neg (List.cons_ne_nil l ls)]
          cases ls with
          | nil => cases hts; rw [if_pos rfl, List.append_nil]
          | cons a b => rw [if_neg (List.cons_ne_nil a b)]; simp only [List.append_assoc]
  unfold fileText
  rw [key]
  cases hts : CExample.fileText pr.ri lines with
  | ub => rfl
  | exc m => rfl
  | ok ts =>
    simp only [Outcome.bind_ok]
    cases lines with
    | nil => cases hts; rfl
    | cons a b => rfl
example : CExample.fileText exPr.ri [⟨-122.7655, 38.9735, 1187.5, [1880, 530, 2040, 67, 34, 67.9, 9, 30, 1255.4]⟩] = .ok
    "-122.76550 38.97350   1187.5  1880.0   530.0  2040.0     67.0     34.0     67.9    9   30   1255.4\n".toList := by decide +kernel

/-- C127, the programs: where the C program answers like the application (C94), the two output files have the same text. -/
theorem C127_program {env : Env K} {o : Options K} (hw : ∀ n, env.outGood n = true)
    (ht : ∀ text, env.input o.filenameIn = some text → ∃ ls, CExample.NumbersOnly env.nf text ls) {fs : Files} {r : Result K}
    (h : run env o fs = .ok r) (pr : Printer K) :
    ∃ n0, ∀ n ≥ n0, ∃ r', CExample.run env o fs n = some (.ok r') ∧ r'.code = r.code ∧
      CExample.fileText pr.ri r'.lines = fileText pr r.lines := by
  obtain ⟨n0, h0⟩ := CExample.C94_partial hw ht h
  exact ⟨n0, fun n hn => ⟨_, h0 n hn, rfl, C127 pr r.lines⟩⟩

end QueryApp

namespace FExample
open Print QueryApp Fortran
variable {K : Type} [Field K] [LinearOrder K] [IsStrictOrderedRing K] [FloorRing K]

/-! ### C128 -/

/-- A field of the format with a number in it. -/
theorem field_column {w : Nat} {ε lo hi x : K} {t : List Char} (hs : Solid t) (hr : Reads ε x t)
    (hf : Within lo hi x → t.length ≤ w) : Column w ε lo hi x (field w t) := by
  unfold Column field
  by_cases h : t.length ≤ w
  · rw [if_pos h]
    refine ⟨?_, Or.inl ⟨t, ?_, hr⟩⟩
    · unfold padLeft
      rw [List.length_append, List.length_replicate]
      omega
    · have := words_padLeft w t []
      simp only [List.append_nil] at this
      rw [this, words_solid hs]
  · rw [if_neg h]
    exact ⟨List.length_replicate, Or.inr ⟨rfl, fun hw => h (hf hw)⟩⟩

theorem column_real {ri : IntRound K} (hn : Nearest ri) {p k w : Nat} (hp : 0 < p) (hk : 0 < k) (hw : w = k + 2 + p) {ε lo hi : K}
    (he : ε = 1 / 2 / 10 ^ p) (hlo : lo = -(10 ^ k - 1 / 10 ^ p)) (hhi : hi = 10 ^ (k + 1) - 1 / 10 ^ p) (x : K) :
    Column w ε lo hi x (field w (fixedText ri p x)) := by
  refine field_column (solid_fixedText _ _ _) (reads_fixedText hn hp he x) fun h => ?_
  rw [hlo, hhi] at h
  rw [hw]
  exact fixedText_fits ri hp hk h

theorem column_int (n : Int) : Column 5 (0 : K) (-9999) 99999 (n : K) (field 5 (intText n)) := by
  refine field_column (solid_intText n) (reads_intText n) fun h => ?_
  have h1 : ((-9999 : Int) : K) ≤ n := by push_cast; exact h.1
  have h2 : (n : K) ≤ ((99999 : Int) : K) := by push_cast; exact h.2
  have h3 := Int.cast_le.1 h1
  have h4 := Int.cast_le.1 h2
  exact (intText_length n 4 (by norm_num)).2 ⟨by norm_num; omega, by norm_num; omega⟩

/-- C128: where the Fortran program answers the locations (C95), each record of its output file is twelve columns of the widths
of the format.  A column holds the number to half a unit of its last decimal, or asterisks; asterisks only for a number
outside the range given here. -/
theorem C128 {env : Env K} (hid : ∀ name d, env.disk name = some d → Ids16 d) {v : Vars K} {log db name : String}
    (hlog : Holds v.log log) (hdb : Holds v.db db) (hname : Names v.queryType name) {q : VMQuery K}
    (hq : Configured env (options log db name v.queryRes) q) {ls : List (K × K × K)}
    (hls : ∀ l ∈ ls, VMQuery.query env.fmt q (fun _ => "") 9 l.1 l.2.1 l.2.2 ≠ .ub ∧ ¬ ErrorAt env.fmt q l) (fs : Files)
    {ri : IntRound K} (hn : Nearest ri) :
    ∃ r records, run env v (some (ls.map some)) true fs = .ok r ∧ List.Forall₂ (LineFor env.fmt q) ls r.lines ∧
      fileRecords ri r.lines = .ok records ∧
      List.Forall₂ (fun l t => ∃ c : Fin 12 → List Char, t = (List.ofFn c).flatten ∧
        Column 9 0.00005 (-999.9999) 9999.9999 l.lon (c 0) ∧ Column 8 0.00005 (-99.9999) 999.9999 l.lat (c 1) ∧
        Column 9 0.05 (-999999.9) 9999999.9 l.elev (c 2) ∧
        ∃ x : Fin 9 → K, l.vals = List.ofFn x ∧
          Column 8 0.05 (-99999.9) 999999.9 (x 0) (c 3) ∧ Column 8 0.05 (-99999.9) 999999.9 (x 1) (c 4) ∧
          Column 8 0.05 (-99999.9) 999999.9 (x 2) (c 5) ∧ Column 9 0.05 (-999999.9) 9999999.9 (x 3) (c 6) ∧
          Column 9 0.05 (-999999.9) 9999999.9 (x 4) (c 7) ∧ Column 9 0.05 (-999999.9) 9999999.9 (x 5) (c 8) ∧
          Column 5 0 (-9999) 99999 (x 6) (c 9) ∧ Column 5 0 (-9999) 99999 (x 7) (c 10) ∧
          Column 9 0.05 (-999999.9) 9999999.9 (x 8) (c 11)) r.lines records := by
  obtain ⟨r, h1, h2, -⟩ := (C95_partial hlog hdb hname fs).1 q hq ls hls
  have hvals : ∀ {ls : List (K × K × K)} {lines : List (Line K)}, List.Forall₂ (LineFor env.fmt q) ls lines →
      ∀ l ∈ lines, Answers (fun p : Payload K => (-2 ^ 15 ≤ p.faultBlock ∧ p.faultBlock < 2 ^ 15) ∧ -2 ^ 15 ≤ p.zone ∧ p.zone < 2 ^ 15)
        (fun _ => True) l.vals := by
    intro ls lines h
    induction h with
    | nil => intro l hl; cases hl
    | cons h3 h4 ih =>
      intro l hl
      rcases List.mem_cons.1 hl with rfl | hl
      · obtain ⟨-, q', fs', h5, h6⟩ := h3
        obtain ⟨d, x, fn, res, e, hd, hx, -, -, rfl⟩ := hq
        refine (query_answers (Q := Ids16) (X := Ids16) (g := env.geom) (by refine ⟨⟨?_, ?_⟩, ?_, ?_⟩ <;> norm_num [noDataPayload, NODATABLOCK, NODATAZONE])
          (fun d hd e he => (or_self_iff.1 hd) e he) (fun c p _ hp => hp) trivial (fun _ _ _ _ _ => trivial) ⟨rfl, rfl, rfl, ?_, ?_⟩ h5).2 h6
        · intro d' hd'; cases hd'; exact hid _ _ hd
        · intro d' hd'
          rcases hx with ⟨-, rfl⟩ | ⟨-, d2, hd2, rfl⟩
          · cases hd'
          · cases hd'; exact hid _ _ hd2
      · exact ih l hl
  suffices hx : ∀ lines : List (Line K), (∀ l ∈ lines, Answers (fun p : Payload K => (-2 ^ 15 ≤ p.faultBlock ∧ p.faultBlock < 2 ^ 15) ∧ -2 ^ 15 ≤ p.zone ∧ p.zone < 2 ^ 15)
      (fun _ => True) l.vals) → ∃ records, fileRecords ri lines = .ok records ∧ List.Forall₂ _ lines records by
    obtain ⟨records, h3, h4⟩ := hx r.lines (hvals h2)
    exact ⟨r, records, h1, h2, h3, h4⟩
  intro lines
  induction lines with
  | nil => intro _; exact ⟨[], rfl, .nil⟩
  | cons l lines ih =>
    intro hl
    obtain ⟨records, h3, h4⟩ := ih fun x hx => hl x (List.mem_cons_of_mem _ hx)
    obtain ⟨p, e, ⟨⟨b1, b2⟩, z1, z2⟩, -, hv⟩ := hl l (by simp)
    have hb : toInt (p.faultBlock : K) = .ok p.faultBlock := toInt_cast (by omega) (by omega)
    have hz : toInt (p.zone : K) = .ok p.zone := toInt_cast (by omega) (by omega)
    let c : Fin 12 → List Char := ![field 9 (fixedText ri 4 l.lon), field 8 (fixedText ri 4 l.lat), field 9 (fixedText ri 1 l.elev),
      field 8 (fixedText ri 1 p.vp), field 8 (fixedText ri 1 p.vs), field 8 (fixedText ri 1 p.density), field 9 (fixedText ri 1 p.qp),
      field 9 (fixedText ri 1 p.qs), field 9 (fixedText ri 1 p.depth), field 5 (intText p.faultBlock), field 5 (intText p.zone),
      field 9 (fixedText ri 1 e)]
    have ht : lineText ri l = .ok ((List.ofFn c).flatten) := by
      unfold lineText
      rw [hv]
      dsimp only
      rw [hb, hz]
      simp [c, format20, record, List.ofFn_succ]
    have r9 : ∀ x : K, Column 9 0.05 (-999999.9) 9999999.9 x (field 9 (fixedText ri 1 x)) :=
      column_real (k := 6) hn (by norm_num) (by norm_num) rfl (by norm_num) (by norm_num) (by norm_num)
    have r8 : ∀ x : K, Column 8 0.05 (-99999.9) 999999.9 x (field 8 (fixedText ri 1 x)) :=
      column_real (k := 5) hn (by norm_num) (by norm_num) rfl (by norm_num) (by norm_num) (by norm_num)
    refine ⟨_ :: records, ?_, .cons ⟨c, rfl, ?_, ?_, r9 _, ![p.vp, p.vs, p.density, p.qp, p.qs, p.depth, (p.faultBlock : K), (p.zone : K), e],
      ?_, r8 _, r8 _, r8 _, r9 _, r9 _, r9 _, column_int _, column_int _, r9 _⟩ h4⟩
    · unfold fileRecords
      rw [ht, Outcome.bind_ok, h3]
      rfl
    · exact column_real (k := 3) hn (by norm_num) (by norm_num) rfl (by norm_num) (by norm_num) (by norm_num) _
    · exact column_real (k := 2) hn (by norm_num) (by norm_num) rfl (by norm_num) (by norm_num) (by norm_num) _
    · rw [hv]; simp [List.ofFn_succ]

/-- What Fortran writes for the first line of examples/query/data/sample-08.3.0_maxres.out, and for a longitude that does not fit. -/
example : fileRecords exPr.ri [⟨-122.7655, 38.9735, 1187.5, [1880, 530, 2040, 67, 34, 67.9, 9, 30, 1255.4]⟩,
      ⟨-1222.7655, 38.9735, 1187.5, [1880, 530, 2040, 67, 34, 67.9, 9, 30, 1255.4]⟩] = .ok
    ["-122.7655 38.9735   1187.5  1880.0   530.0  2040.0     67.0     34.0     67.9    9   30   1255.4".toList,
      "********* 38.9735   1187.5  1880.0   530.0  2040.0     67.0     34.0     67.9    9   30   1255.4".toList] := by decide +kernel

end FExample

namespace IsoApp
open Print
variable {K : Type} [Field K] [LinearOrder K] [IsStrictOrderedRing K] [FloorRing K]

/-! ### C129 -/

/-- C129, what holds: the output file of `cencalvmisosurface` is lines of text, one for each line of numbers.  If latitude and
distance fit their columns, the line cut at white space gives the three numbers back to half a unit of their last decimal;
if one fills its column, there are fewer words.  Missing: numbers that do not fit (`C129_false`). -/
theorem C129_partial (pr : Printer K) (hn : Nearest pr.ri) (lines : List (Line K)) :
    ∃ texts, fileText pr lines = texts.flatMap (· ++ ['\n']) ∧
      List.Forall₂ (fun l t => '\n' ∉ t ∧
        (Within (-9.99999) 99.99999 l.lat ∧ Within (-99999.9) 999999.9 l.dist → ReadsBack l (words t)) ∧
        (l.lat ≤ -10 ∨ 100 ≤ l.lat ∨ l.dist ≤ -100000 ∨ 1000000 ≤ l.dist → (words t).length < 3)) lines texts := by
  let cs : Line K → List Col := fun l => [(10, fixedText pr.ri 5 l.lon), (9, fixedText pr.ri 5 l.lat), (9, fixedText pr.ri 1 l.dist)]
  have hput : ∀ s l, putLine pr s l = ⟨true, false, 1, 0, s.text ++ (cols (cs l) ++ ['\n'])⟩ := by
    intro s l
    unfold putLine
    simp [OStream.putAll, OStream.put, OStream.format, cols, cs, padLeft, List.append_assoc]
  have hsolid : ∀ l, ∀ d ∈ cs l, Solid d.2 := by
    intro l d hd
    simp only [cs, List.mem_cons, List.not_mem_nil, or_false] at hd
    rcases hd with rfl | rfl | rfl <;> exact solid_fixedText _ _ _
  refine ⟨lines.map fun l => cols (cs l), ?_, ?_⟩
  · have key : ∀ (ls : List (Line K)) (s : OStream), (ls.foldl (putLine pr) s).text = s.text ++ (ls.map fun l => cols (cs l)).flatMap (· ++ ['\n']) := by
      intro ls
      induction ls with
      | nil => intro s; simp
      | cons l ls ih =>
        intro s
        rw [List.foldl_cons, ih, hput, List.map_cons, List.flatMap_cons, List.append_assoc]
    unfold fileText
    rw [key]
    rfl
  · rw [List.forall₂_map_right_iff, List.forall₂_same]
    intro l _
    refine ⟨cols_newline (hsolid l), ?_, ?_⟩
    · rintro ⟨h1, h2⟩
      refine ⟨fixedText pr.ri 5 l.lon, fixedText pr.ri 5 l.lat, fixedText pr.ri 1 l.dist, ?_, reads_fixedText hn (by norm_num) (by norm_num) _,
        reads_fixedText hn (by norm_num) (by norm_num) _, reads_fixedText hn (by norm_num) (by norm_num) _⟩
      refine words_cols (c := (10, fixedText pr.ri 5 l.lon)) (solid_fixedText _ _ _) ?_
      intro d hd
      simp only [List.mem_cons, List.not_mem_nil, or_false] at hd
      rcases hd with rfl | rfl
      · exact ⟨solid_fixedText _ _ _, QueryApp.fitsLat _ h1⟩
      · exact ⟨solid_fixedText _ _ _, QueryApp.fits9 _ h2⟩
    · intro h
      have hlat : l.lat ≤ -10 ∨ 100 ≤ l.lat → 9 ≤ (fixedText pr.ri 5 l.lat).length := by
        intro h
        have := fixedText_overflows pr.ri (p := 5) (k := 1) (by norm_num) (by norm_num) (x := l.lat) (by norm_num; exact h)
        omega
      have hd : l.dist ≤ -100000 ∨ 1000000 ≤ l.dist → 9 ≤ (fixedText pr.ri 1 l.dist).length := by
        intro h
        have := fixedText_overflows pr.ri (p := 1) (k := 5) (by norm_num) (by norm_num) (x := l.dist) (by norm_num; exact h)
        omega
      refine words_cols_lt (hsolid l) ?_
      rcases h with h | h | h | h
      · exact ⟨(9, fixedText pr.ri 5 l.lat), by simp, hlat (Or.inl h)⟩
      · exact ⟨(9, fixedText pr.ri 5 l.lat), by simp, hlat (Or.inr h)⟩
      · exact ⟨(9, fixedText pr.ri 1 l.dist), by simp, hd (Or.inl h)⟩
      · exact ⟨(9, fixedText pr.ri 1 l.dist), by simp, hd (Or.inr h)⟩
example : fileText exPr [⟨-122.7655, 38.9735, 1187.54⟩, ⟨-121, 37, -999⟩] =
    "-122.76550 38.97350   1187.5\n-121.00000 37.00000   -999.0\n".toList := by decide +kernel

/-- C129 is false: with longitude and latitude in the wrong order there are two words. -/
theorem C129_false : fileText exPr [⟨37.5, -122.25, -999⟩] = "  37.50000-122.25000   -999.0\n".toList ∧
    (words (fileText exPr [⟨37.5, -122.25, -999⟩])).length = 2 := by decide +kernel

end IsoApp
end CenCalVM
