/-
Properties C140 to C142: the example in C++.
-/
import Verif.Lemmas.CppExample
import Verif.Props.Print

set_option linter.unusedSectionVars false

namespace CenCalVM
namespace CppExample
open QueryApp (Options Env Line Result Conv leave exEnv exEnvErr exOpts exText exConv codeLines Ids16)
open Print
variable {K : Type} [Field K] [LinearOrder K]

/-! ### C140 -/

/-- C140: as published, with all values, the example reads its command line as cencalvmquery does, and ends with the same exit
code, lines, query object and files, whatever the environment. -/
theorem C140 (env : Env K) (cv : Conv K) (argv : List (List Char)) (o : Options K) (fs : Files) :
    parseArgs cv argv = QueryApp.parseArgs cv argv ∧ run env true o fs = QueryApp.run env o fs ∧
      main env true cv argv fs = QueryApp.main env cv argv fs := by
  refine ⟨parseArgs_eq cv argv, run_eq env o fs, ?_⟩
  unfold main QueryApp.main
  rw [parseArgs_eq]
  cases QueryApp.parseArgs cv argv with
  | error c => rfl
  | ok o => dsimp only; rw [run_eq]

example : codeLines (run (exEnv exText) true exOpts fun _ => "") =
    some (0, [⟨220, 40, -100, [4000, 2000, 2500, 100, 50, 30, 1, 7, -38370]⟩,
      ⟨220, 40, -200000, [-999, -999, -999, -999, -999, -999, 0, 0, -999]⟩]) := by decide +kernel

/-- C140, the texts: the same lines are printed as the same text. -/
theorem C140_text [FloorRing K] (pr : Printer K) (lines : List (Line K)) : fileText pr true lines = QueryApp.fileText pr lines := by
  have hl : ∀ s l, putLine pr true s l = QueryApp.putLine pr s l := by
    intro s l
    unfold putLine QueryApp.putLine
    rw [if_pos rfl]
    split
    · rename_i heq
      simp only [heq]
      congr 1
    · rename_i hn
      split
      · rename_i heq; exact absurd heq (hn _ _ _ _ _ _ _ _ _)
      · rfl
  have hls : ∀ (lines : List (Line K)) s, putLines pr true s lines = QueryApp.putLines pr s lines := by
    intro lines
    induction lines with
    | nil => intro s; rfl
    | cons l ls ih =>
      intro s
      unfold putLines QueryApp.putLines
      rw [hl]
      congr 1; funext s'
      exact ih s'
  unfold fileText QueryApp.fileText
  rw [hls]
example : fileText exPr true [⟨-122.7655, 38.9735, 1187.5, [1880, 530, 2040, 67, 34, 67.9, 9, 30, 1255.4]⟩] = .ok
    "-122.76550 38.97350   1187.5  1880.0   530.0  2040.0     67.0     34.0     67.9    9   30   1255.4\n".toList := by decide +kernel

/-! ### C141 -/

/-- C141: compiled for two values, the example succeeds wherever cencalvmquery does with the same settings and files; its lines
are those of cencalvmquery with fault block and zone alone, and it leaves the same files, the log among them. -/
theorem C141 {env : Env K} {o : Options K} {fs : Files} {r : Result K} (h : QueryApp.run env o fs = .ok r) (h0 : r.code = 0) :
    ∃ r', run env false o fs = .ok r' ∧ r'.code = 0 ∧ List.Forall₂ TwoOf r.lines r'.lines ∧ r'.fs = r.fs := by
  rcases run_two h with ⟨r', h1, h2, h3, h4⟩ | ⟨h1, -⟩
  · exact ⟨r', h1, h2.trans h0, h3, h4⟩
  · rw [h0] at h1; cases h1

/-- C141, failures: where cencalvmquery fails, its lines are the beginning of those of the example for two values (if that one
ends); and where that one fails, so does cencalvmquery. -/
theorem C141_failure {env : Env K} {o : Options K} {fs : Files} {r r' : Result K} (h : QueryApp.run env o fs = .ok r)
    (h' : run env false o fs = .ok r') :
    (∃ first rest, r'.lines = first ++ rest ∧ List.Forall₂ TwoOf r.lines first) ∧ (r'.code ≠ 0 → r.code ≠ 0) := by
  rcases run_two h with ⟨r2, h1, h2, h3, h4⟩ | ⟨h1, h2⟩
  · rw [h'] at h1
    cases h1
    exact ⟨⟨_, [], (List.append_nil _).symm, h3⟩, fun h => by rwa [← h2]⟩
  · exact ⟨h2 _ h', fun _ => by rw [h1]; decide⟩

example : codeLines (run (exEnv exText) false exOpts fun _ => "") =
    some (0, [⟨220, 40, -100, [1, 7]⟩, ⟨220, 40, -200000, [0, 0]⟩]) := by decide +kernel
/-- The converse does not hold: where the ground elevation cannot be found cencalvmquery fails, the example goes on. -/
theorem C141_converse_false :
    codeLines (QueryApp.run (exEnvErr "220 40 -200000\n220 40 -100\n220 40 -200000\n") exOpts fun _ => "") =
      some (1, [⟨220, 40, -200000, [-999, -999, -999, -999, -999, -999, 0, 0, -999]⟩]) ∧
    codeLines (run (exEnvErr "220 40 -200000\n220 40 -100\n220 40 -200000\n") false exOpts fun _ => "") =
      some (0, [⟨220, 40, -200000, [0, 0]⟩, ⟨220, 40, -100, [1, 7]⟩, ⟨220, 40, -200000, [0, 0]⟩]) := by decide +kernel

/-! ### C142 -/

variable [IsStrictOrderedRing K] [FloorRing K]

/-- C142: compiled for two values, the example writes one line of text for each location; none of the conversions to `int` is
undefined; and a line whose numbers fit their columns, cut at white space, gives the location back to half a unit of its last
decimals and the two identifiers exactly. -/
theorem C142 {env : Env K} (hid : ∀ name d, env.disk name = some d → Ids16 d) {o : Options K} {fs : Files} {r : Result K}
    (h : QueryApp.run env o fs = .ok r) (h0 : r.code = 0) (pr : Printer K) (hn : Nearest pr.ri) :
    ∃ r' texts, run env false o fs = .ok r' ∧ fileText pr false r'.lines = .ok (texts.flatMap (· ++ ['\n'])) ∧
      List.Forall₂ (fun l t => '\n' ∉ t ∧ (FitsTwo l → ReadsTwo l (words t))) r'.lines texts := by
  obtain ⟨r', h1, -, h3, -⟩ := C141 h h0
  have hl := QueryApp.lines_of_run hid h
  have key : ∀ (lines lines' : List (Line K)), List.Forall₂ TwoOf lines lines' → (∀ l ∈ lines, ∃ (v : Fin 9 → K) (b z : Int),
      l.vals = [v 0, v 1, v 2, v 3, v 4, v 5, (b : K), (z : K), v 8] ∧ v 6 = b ∧ v 7 = z ∧
        (-2 ^ 15 ≤ b ∧ b < 2 ^ 15) ∧ -2 ^ 15 ≤ z ∧ z < 2 ^ 15) →
      ∃ texts, List.Forall₂ (fun l t => '\n' ∉ t ∧ (FitsTwo l → ReadsTwo l (words t))) lines' texts ∧
        ∀ s, ∃ s', putLines pr false s lines' = .ok s' ∧ s'.text = s.text ++ texts.flatMap (· ++ ['\n']) := by
    intro lines lines' hf
    induction hf with
    | nil => intro _; exact ⟨[], .nil, fun s => ⟨s, rfl, by simp⟩⟩
    | @cons l l' ls ls' hll _ ih =>
      intro hl
      obtain ⟨ts, h3, h4⟩ := ih fun x hx => hl x (List.mem_cons_of_mem _ hx)
      obtain ⟨v, b, z, hv, -, -, ⟨hb1, hb2⟩, hz1, hz2⟩ := hl l (by simp)
      obtain ⟨-, -, -, b', z', hb, hz, hv'⟩ := hll
      rw [hv] at hb hz
      have eb : b' = (b : K) := by simpa using hb.symm
      have ez : z' = (z : K) := by simpa using hz.symm
      subst eb ez
      have tb : toInt (b : K) = .ok b := QueryApp.toInt_cast (by omega) (by omega)
      have tz : toInt (z : K) = .ok z := QueryApp.toInt_cast (by omega) (by omega)
      let c : List Col := [(10, fixedText pr.ri 5 l'.lon), (9, fixedText pr.ri 5 l'.lat), (9, fixedText pr.ri 1 l'.elev),
        (5, intText b), (5, intText z)]
      have hp : ∀ s, putLine pr false s l' = .ok ⟨true, false, 1, 0, s.text ++ (cols c ++ ['\n'])⟩ := by
        intro s
        unfold putLine putLoc
        rw [if_neg (by decide), hv']
        simp only [tb, tz, Outcome.bind_ok]
        congr 1
        simp [OStream.putAll, OStream.put, OStream.format, cols, c, padLeft, List.append_assoc]
      refine ⟨cols c :: ts, .cons ⟨?_, ?_⟩ h3, fun s => ?_⟩
      · refine cols_newline ?_
        intro d hd
        simp only [c, List.mem_cons, List.not_mem_nil, or_false] at hd
        rcases hd with rfl | rfl | rfl | rfl | rfl
        all_goals first | exact solid_fixedText _ _ _ | exact solid_intText _
      · rintro ⟨f1, f2, f3⟩
        rw [hv'] at f3
        have hw : words (cols c) = c.map (·.2) := by
          refine words_cols (solid_fixedText _ _ _) ?_
          intro d hd
          simp only [List.mem_cons, List.not_mem_nil, or_false] at hd
          rcases hd with rfl | rfl | rfl | rfl
          · exact ⟨solid_fixedText _ _ _, QueryApp.fitsLat pr.ri f1⟩
          · exact ⟨solid_fixedText _ _ _, QueryApp.fits9 pr.ri f2⟩
          · exact ⟨solid_intText _, QueryApp.fits5 (f3 _ (by simp))⟩
          · exact ⟨solid_intText _, QueryApp.fits5 (f3 _ (by simp))⟩
        rw [hw]
        exact ⟨b, z, _, _, _, _, _, hv', rfl, reads_fixedText hn (by norm_num) (by norm_num) _,
          reads_fixedText hn (by norm_num) (by norm_num) _, reads_fixedText hn (by norm_num) (by norm_num) _,
          reads_intText b, reads_intText z⟩
      · obtain ⟨s', h5, h6⟩ := h4 ⟨true, false, 1, 0, s.text ++ (cols c ++ ['\n'])⟩
        refine ⟨s', ?_, ?_⟩
        · unfold putLines
          rw [hp, Outcome.bind_ok, h5]
        · rw [h6, List.flatMap_cons, List.append_assoc]
  obtain ⟨ts, h5, h6⟩ := key _ _ h3 hl
  obtain ⟨s', h7, h8⟩ := h6 .new
  refine ⟨r', ts, h1, ?_, h5⟩
  unfold fileText
  rw [h7, Outcome.bind_ok, h8]
  rfl

/-- The text, to compare. -/
def exOut (text : String) : Option String :=
  match run (exEnv text) false exOpts fun _ => "" with
  | .ok r => match fileText exPr false r.lines with
    | .ok t => some (String.ofList t)
    | _ => none
  | _ => none
example : exOut "120.34567 40 -100\n220 40 -200000\n" = some
    (" 120.34567 40.00000   -100.0    1    7\n" ++ " 220.00000 40.00000-200000.0    0    0\n") := by decide +kernel
example : FitsTwo (⟨-122.7655, 38.9735, 1187.5, [9, 30]⟩ : Line ℚ) := by
  unfold FitsTwo Within
  decide +kernel

end CppExample
end CenCalVM
