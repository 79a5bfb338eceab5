/-
Properties C136 and C137: the numbers in the log and in warnings.
-/
import Verif.Lemmas.Scientific
import Verif.Props.Print
import Verif.Props.QueryLog
import Verif.Props.QueryConsole

set_option linter.unusedSectionVars false

namespace CenCalVM

namespace Print
example : sciText (IntRound.nearest : IntRound ℚ) 6 (-122.7655) = "-1.227655e+02".toList := by decide +kernel
example : sciText (IntRound.nearest : IntRound ℚ) 6 9999999.7 = "1.000000e+07".toList := by decide +kernel
example : sciText (IntRound.nearest : IntRound ℚ) 6 0.00012 = "1.200000e-04".toList := by decide +kernel
example : sciText (IntRound.nearest : IntRound ℚ) 6 0 = "0.000000e+00".toList := by decide +kernel
example : sciValue "-1.227655e+02".toList = some (-122.7655 : ℚ) ∧ sciValue "1.5e-01".toList = some (0.15 : ℚ) ∧
    sciValue "1.5".toList = (none : Option ℚ) ∧ sciValue "1.5e07".toList = (none : Option ℚ) := by decide +kernel
example : cells "1.0e+00, 2.0e+00, No data".toList = ["1.0e+00".toList, "2.0e+00".toList, "No data".toList] := by decide +kernel
end Print

namespace QueryApp
open Print
variable {K : Type} [Field K] [LinearOrder K] [IsStrictOrderedRing K] [FloorRing K]

/-- The texts for the lines without data are those for their locations. -/
theorem noDataTexts_eq (fmt : Fmt K) (lines : List (Line K)) :
    noDataTexts fmt lines = ((lines.filter fun l => decide (l.vals[6]? = some 0)).map fun l => (l.lon, l.lat, l.elev)).map
      fun l => noDataText fmt l.1 l.2.1 l.2.2 := by
  unfold noDataTexts
  induction lines with
  | nil => rfl
  | cons l ls ih =>
    rw [List.flatMap_cons, ih]
    by_cases h : l.vals[6]? = some 0
    · rw [if_pos h, List.filter_cons_of_pos (by simpa using h)]
      rfl
    · rw [if_neg h, List.filter_cons_of_neg (by simpa using h)]
      rfl

/-- C136: the log of cencalvmquery can be read back.  Cut at the ends of lines it gives one row for each line of the output
without data, in order (and after an error perhaps one more, about the location of the error), and nothing after the last end
of a line.  Cut at commas each row gives four cells: the longitude, latitude and elevation of the line in scientific notation
with six decimals, each up to one part in two million, and `No data`. -/
theorem C136 {env : Env K} {ri : IntRound K} (hn : Nearest ri) {f : Fmt K} (hf : env.fmt = sciFmt ri f)
    {o : Options K} {fs : Files} {r : Result K} (hne : o.filenameLog ≠ "") (hnull : o.filenameLog ≠ NULLFILE)
    (hopen : env.canLog o.filenameLog = true) (h : run env o fs = .ok r) :
    ∃ extra rs, rows (r.fs o.filenameLog).toList = rs ++ [[]] ∧
      List.Forall₂ LogRow (((r.lines.filter fun l => decide (l.vals[6]? = some 0)).map fun l => (l.lon, l.lat, l.elev)) ++ extra) rs ∧
      (extra = [] ∨ r.code = 1 ∧ ∃ q l, Configured env o q ∧ ErrorAt env.fmt q l ∧ extra = [l]) := by
  have hf : ∀ x, env.fmt.sci x = String.ofList (sciText ri 6 x) := by intro x; rw [hf]; rfl
  have key : ∀ ls : List (K × K × K), List.Forall₂ LogRow ls (ls.map (rowText ri)) := by
    intro ls
    induction ls with
    | nil => exact .nil
    | cons l ls ih => exact .cons (rowText_row hn l) ih
  obtain ⟨-, extra, h1, h2⟩ := C97 hne hnull hopen h
  rw [noDataTexts_eq] at h1
  rcases h2 with rfl | ⟨hc, q, l, hq, hl, rfl⟩
  · rw [String.append_empty] at h1
    refine ⟨[], _, by rw [h1, rows_log hf], ?_, Or.inl rfl⟩
    rw [List.append_nil]
    exact key _
  · refine ⟨[l], (_ ++ [l]).map (rowText ri), ?_, key _, Or.inr ⟨hc, q, l, hq, hl, rfl⟩⟩
    rw [← rows_log hf, h1]
    congr 2
    rw [List.map_append]
    generalize List.map (fun l : K × K × K => noDataText env.fmt l.1 l.2.1 l.2.2) _ = ts
    induction ts with
    | nil => simp [String.join]
    | cons t ts ih => rw [List.cons_append, String.join_cons, String.join_cons, ← ih, String.append_assoc]

/-- C137: locations of which the longitudes differ by 0.0002, the latitudes by 0.0001 or the elevations by 0.11 have different
rows in the log (and warnings).  For numbers as they occur: degrees, and at most 100 km up or down. -/
theorem C137 {f : Fmt K} {ri : IntRound K} (hn : Nearest ri)
    {l l' : K × K × K} (h1 : |l.1| ≤ 180 ∧ |l'.1| ≤ 180) (h2 : |l.2.1| ≤ 90 ∧ |l'.2.1| ≤ 90) (h3 : |l.2.2| ≤ 100000 ∧ |l'.2.2| ≤ 100000)
    (h : 0.0002 ≤ |l.1 - l'.1| ∨ 0.0001 ≤ |l.2.1 - l'.2.1| ∨ 0.11 ≤ |l.2.2 - l'.2.2|) :
    VMQuery.noDataLine (sciFmt ri f) l.1 l.2.1 l.2.2 ≠ VMQuery.noDataLine (sciFmt ri f) l'.1 l'.2.1 l'.2.2 ∧
      VMQuery.noDataWarning (sciFmt ri f) l.1 l.2.1 l.2.2 ≠ VMQuery.noDataWarning (sciFmt ri f) l'.1 l'.2.1 l'.2.2 := by
  have hf : ∀ x, (sciFmt ri f).sci x = String.ofList (sciText ri 6 x) := fun _ => rfl
  have tells : ∀ {x y b : K}, |x| ≤ b → |y| ≤ b → sciText ri 6 x = sciText ri 6 y → |x - y| ≤ b / 1000000 := by
    intro x y b hx hy he
    obtain ⟨⟨u, hu, hu'⟩, -⟩ := reads_sciText hn x
    obtain ⟨⟨v, hv, hv'⟩, -⟩ := reads_sciText hn y
    rw [he, hv] at hu
    cases hu
    rw [abs_le] at hu' hv' ⊢
    constructor <;> linarith
  have cancel : ∀ {x y : K} {s t : List Char}, sciText ri 6 x ++ ',' :: s = sciText ri 6 y ++ ',' :: t →
      sciText ri 6 x = sciText ri 6 y ∧ s = t := by
    intro x y s t he
    exact append_sep (fun c hc => (sciText_chars ri (by norm_num) x c hc).1) (fun c hc => (sciText_chars ri (by norm_num) y c hc).1) he
  have apart : sciText ri 6 l.1 = sciText ri 6 l'.1 → sciText ri 6 l.2.1 = sciText ri 6 l'.2.1 →
      sciText ri 6 l.2.2 = sciText ri 6 l'.2.2 → False := by
    intro e1 e2 e3
    have e1 := tells h1.1 h1.2 e1
    have e2 := tells h2.1 h2.2 e2
    have e3 := tells h3.1 h3.2 e3
    norm_num at e1 e2 e3 h
    rcases h with h | h | h
    · have := h.trans e1
      norm_num at this
    · have := h.trans e2
      norm_num at this
    · have := h.trans e3
      norm_num at this
  constructor
  · intro he
    have he := congrArg String.toList he
    change (noDataText _ _ _ _).toList = (noDataText _ _ _ _).toList at he
    rw [noDataText_eq hf, noDataText_eq hf] at he
    have he := List.append_cancel_right he
    unfold rowText at he
    obtain ⟨e1, he⟩ := cancel he
    obtain ⟨e2, he⟩ := cancel (List.cons.inj he).2
    exact apart e1 e2 (cancel (List.cons.inj he).2).1
  · intro he
    have he := congrArg String.toList he
    unfold VMQuery.noDataWarning at he
    simp only [hf, String.toList_append, List.append_assoc, String.toList_ofList] at he
    have he := List.append_cancel_left he
    obtain ⟨e1, he⟩ := cancel he
    obtain ⟨e2, he⟩ := cancel (List.cons.inj he).2
    exact apart e1 e2 (List.append_cancel_right (List.cons.inj he).2)

/-! A run meeting the hypotheses of C136 and locations meeting those of C137. -/

/-- The numbers of VMQuery.cc:232-236. -/
def exSci : Fmt ℚ := sciFmt IntRound.nearest ⟨fun _ => "", fun _ => "", fun _ => ""⟩

/-- Locations 0.00004 degrees apart may have the same row, so C137 needs some distance. -/
theorem C137_close : VMQuery.noDataLine exSci (-122.76551) 38 0 = VMQuery.noDataLine exSci (-122.76547) 38 0 := by decide +kernel

example : logAfter "log" (run { exEnv "220 40 -100\n220 40 -200000\n220 40 -300000\n" with fmt := exSci }
      { exOpts with filenameLog := "log" } fun _ => "old") =
    some (0, "2.200000e+02, 4.000000e+01, -2.000000e+05, No data\n2.200000e+02, 4.000000e+01, -3.000000e+05, No data\n") := by
  decide +kernel
example : VMQuery.noDataLine exSci (-122.7655) 38.1 (-50) ≠ VMQuery.noDataLine exSci (-122.7657) 38.1 (-50) ∧
    VMQuery.noDataWarning exSci (-122.7655) 38.1 (-50) ≠ VMQuery.noDataWarning exSci (-122.7657) 38.1 (-50) :=
  C137 (ri := IntRound.nearest) nearest_nearest (l := (-122.7655, 38.1, -50)) (l' := (-122.7657, 38.1, -50))
    (by norm_num [abs_le]) (by norm_num [abs_le]) (by norm_num [abs_le]) (Or.inl (by norm_num [abs_of_pos]))

end QueryApp
end CenCalVM
