/-
The texts of the lines of the programs as columns.
-/
import Verif.Lemmas.PrintRun

set_option linter.unusedSectionVars false

namespace CenCalVM

namespace QueryApp
open Print
variable {K : Type} [Field K] [LinearOrder K] [FloorRing K]

/-- The columns of a line of `cencalvmquery`. -/
def lineCols (ri : IntRound K) (lon lat elev : K) (v : Fin 9 → K) (block zone : Int) : List Col :=
  [(10, fixedText ri 5 lon), (9, fixedText ri 5 lat), (9, fixedText ri 1 elev), (8, fixedText ri 1 (v 0)), (8, fixedText ri 1 (v 1)),
    (8, fixedText ri 1 (v 2)), (9, fixedText ri 1 (v 3)), (9, fixedText ri 1 (v 4)), (9, fixedText ri 1 (v 5)), (5, intText block),
    (5, intText zone), (9, fixedText ri 1 (v 8))]

theorem putLine_eq (pr : Printer K) (s : OStream) {l : Line K} {v : Fin 9 → K} {b z : Int}
    (hv : l.vals = [v 0, v 1, v 2, v 3, v 4, v 5, v 6, v 7, v 8]) (hb : toInt (v 6) = .ok b) (hz : toInt (v 7) = .ok z) :
    putLine pr s l = .ok ⟨true, false, 1, 0, s.text ++ (cols (lineCols pr.ri l.lon l.lat l.elev v b z) ++ ['\n'])⟩ := by
  unfold putLine
  rw [hv]
  simp only [hb, hz, Outcome.bind_ok]
  congr 1
  simp [OStream.putAll, OStream.put, OStream.format, cols, lineCols, padLeft, List.append_assoc]

theorem toInt_cast [IsStrictOrderedRing K] {n : Int} (h1 : -2 ^ 31 ≤ n) (h2 : n < 2 ^ 31) : toInt (n : K) = .ok n := by
  unfold toInt
  simp only [Int.floor_intCast, Int.ceil_intCast, ite_self]
  exact if_pos ⟨h1, h2⟩

/-- The lines of a list written one after the other. -/
theorem fileText_eq (pr : Printer K) {R : Line K → List Char → Prop} {lines : List (Line K)}
    (h : ∀ l ∈ lines, ∃ t, R l t ∧ ∀ s, putLine pr s l = .ok ⟨true, false, 1, 0, s.text ++ (t ++ ['\n'])⟩) :
    ∃ texts, fileText pr lines = .ok (texts.flatMap (· ++ ['\n'])) ∧ List.Forall₂ R lines texts := by
  have key : ∀ (lines : List (Line K)), (∀ l ∈ lines, ∃ t, R l t ∧ ∀ s, putLine pr s l = .ok ⟨true, false, 1, 0, s.text ++ (t ++ ['\n'])⟩) →
      ∃ texts, List.Forall₂ R lines texts ∧ ∀ s, ∃ s', putLines pr s lines = .ok s' ∧ s'.text = s.text ++ texts.flatMap (· ++ ['\n']) := by
    intro lines
    induction lines with
    | nil => intro _; exact ⟨[], .nil, fun s => ⟨s, rfl, by simp⟩⟩
    | cons l ls ih =>
      intro h
      obtain ⟨t, h1, h2⟩ := h l (by simp)
      obtain ⟨ts, h3, h4⟩ := ih fun x hx => h x (List.mem_cons_of_mem _ hx)
      refine ⟨t :: ts, .cons h1 h3, fun s => ?_⟩
      obtain ⟨s', h5, h6⟩ := h4 ⟨true, false, 1, 0, s.text ++ (t ++ ['\n'])⟩
      refine ⟨s', ?_, ?_⟩
      · unfold putLines
        rw [h2, Outcome.bind_ok, h5]
      · rw [h6, List.flatMap_cons, List.append_assoc]
  obtain ⟨ts, h1, h2⟩ := key lines h
  obtain ⟨s', h3, h4⟩ := h2 .new
  refine ⟨ts, ?_, h1⟩
  unfold fileText
  rw [h3, Outcome.bind_ok, h4]
  rfl

variable [IsStrictOrderedRing K]

theorem lineCols_solid (ri : IntRound K) (lon lat elev : K) (v : Fin 9 → K) (b z : Int) :
    ∀ d ∈ lineCols ri lon lat elev v b z, Solid d.2 := by
  intro d hd
  simp only [lineCols, List.mem_cons, List.not_mem_nil, or_false] at hd
  rcases hd with rfl | rfl | rfl | rfl | rfl | rfl | rfl | rfl | rfl | rfl | rfl | rfl
  all_goals first | exact solid_fixedText _ _ _ | exact solid_intText _

theorem fits8 (ri : IntRound K) {x : K} (h : Within (-9999.9) 99999.9 x) : (fixedText ri 1 x).length < 8 := by
  have := fixedText_fits ri (p := 1) (k := 4) (by norm_num) (by norm_num) (x := x) (by
    constructor <;> norm_num <;> [linarith [h.1, show (-9999.9 : K) = -(99999 / 10) by norm_num]; linarith [h.2, show (99999.9 : K) = 999999 / 10 by norm_num]])
  omega

theorem fits9 (ri : IntRound K) {x : K} (h : Within (-99999.9) 999999.9 x) : (fixedText ri 1 x).length < 9 := by
  have := fixedText_fits ri (p := 1) (k := 5) (by norm_num) (by norm_num) (x := x) (by
    constructor <;> norm_num <;> [linarith [h.1, show (-99999.9 : K) = -(999999 / 10) by norm_num]; linarith [h.2, show (999999.9 : K) = 9999999 / 10 by norm_num]])
  omega

theorem fitsLat (ri : IntRound K) {x : K} (h : Within (-9.99999) 99.99999 x) : (fixedText ri 5 x).length < 9 := by
  have := fixedText_fits ri (p := 5) (k := 1) (by norm_num) (by norm_num) (x := x) (by
    constructor <;> norm_num <;> [linarith [h.1, show (-9.99999 : K) = -(999999 / 100000) by norm_num]; linarith [h.2, show (99.99999 : K) = 9999999 / 100000 by norm_num]])
  omega

theorem fits5 {n : Int} (h : Within (-999) 9999 (n : K)) : (intText n).length < 5 := by
  have h1 : ((-999 : Int) : K) ≤ n := by push_cast; exact h.1
  have h2 : (n : K) ≤ ((9999 : Int) : K) := by push_cast; exact h.2
  have h3 := Int.cast_le.1 h1
  have h4 := Int.cast_le.1 h2
  have := (intText_length n 3 (by norm_num)).2 ⟨by norm_num; omega, by norm_num; omega⟩
  omega

/-- A line that fits is read back. -/
theorem line_readsBack {ri : IntRound K} (hn : Nearest ri) {l : Line K} {v : Fin 9 → K} {b z : Int}
    (hv : l.vals = [v 0, v 1, v 2, v 3, v 4, v 5, (b : K), (z : K), v 8]) (hf : Fits l) :
    ReadsBack l (words (cols (lineCols ri l.lon l.lat l.elev v b z))) := by
  obtain ⟨h1, h2, h3⟩ := hf
  rw [hv] at h3
  unfold ValuesFit at h3
  simp only [List.forall₂_cons] at h3
  obtain ⟨a0, a1, a2, a3, a4, a5, a6, a7, a8, -⟩ := h3
  have hw : words (cols (lineCols ri l.lon l.lat l.elev v b z)) = (lineCols ri l.lon l.lat l.elev v b z).map (·.2) := by
    refine words_cols (solid_fixedText _ _ _) ?_
    intro d hd
    simp only [List.mem_cons, List.not_mem_nil, or_false] at hd
    rcases hd with rfl | rfl | rfl | rfl | rfl | rfl | rfl | rfl | rfl | rfl | rfl
    · exact ⟨solid_fixedText _ _ _, fitsLat ri h1⟩
    · exact ⟨solid_fixedText _ _ _, fits9 ri h2⟩
    · exact ⟨solid_fixedText _ _ _, fits8 ri a0⟩
    · exact ⟨solid_fixedText _ _ _, fits8 ri a1⟩
    · exact ⟨solid_fixedText _ _ _, fits8 ri a2⟩
    · exact ⟨solid_fixedText _ _ _, fits9 ri a3⟩
    · exact ⟨solid_fixedText _ _ _, fits9 ri a4⟩
    · exact ⟨solid_fixedText _ _ _, fits9 ri a5⟩
    · exact ⟨solid_intText _, fits5 a6⟩
    · exact ⟨solid_intText _, fits5 a7⟩
    · exact ⟨solid_fixedText _ _ _, fits9 ri a8⟩
  rw [hw]
  have r5 : ∀ x, Reads (0.000005 : K) x (fixedText ri 5 x) := fun x => reads_fixedText hn (by norm_num) (by norm_num) x
  have r1 : ∀ x, Reads (0.05 : K) x (fixedText ri 1 x) := fun x => reads_fixedText hn (by norm_num) (by norm_num) x
  refine ⟨?_, by rw [hv]; rfl⟩
  rw [hv]
  simp only [lineCols, List.map_cons, List.map_nil, List.zip_cons_cons, List.zip_nil_left]
  exact .cons (r5 _) (.cons (r5 _) (.cons (r1 _) (.cons (r1 _) (.cons (r1 _) (.cons (r1 _) (.cons (r1 _) (.cons (r1 _)
    (.cons (r1 _) (.cons (reads_intText b) (.cons (reads_intText z) (.cons (r1 _) .nil)))))))))))

/-- In a line with a number that fills its column there are fewer words. -/
theorem line_overflows {ri : IntRound K} {l : Line K} {v : Fin 9 → K} {b z : Int}
    (hv : l.vals = [v 0, v 1, v 2, v 3, v 4, v 5, (b : K), (z : K), v 8]) (hf : Overflows l) :
    (words (cols (lineCols ri l.lon l.lat l.elev v b z))).length < 12 := by
  have o9 : ∀ {x : K}, x ≤ -100000 ∨ 1000000 ≤ x → 9 ≤ (fixedText ri 1 x).length := by
    intro x h
    have := fixedText_overflows ri (p := 1) (k := 5) (by norm_num) (by norm_num) (x := x) (by norm_num; exact h)
    omega
  have o8 : ∀ {x : K}, x ≤ -10000 ∨ 100000 ≤ x → 8 ≤ (fixedText ri 1 x).length := by
    intro x h
    have := fixedText_overflows ri (p := 1) (k := 4) (by norm_num) (by norm_num) (x := x) (by norm_num; exact h)
    omega
  have oL : ∀ {x : K}, x ≤ -10 ∨ 100 ≤ x → 9 ≤ (fixedText ri 5 x).length := by
    intro x h
    have := fixedText_overflows ri (p := 5) (k := 1) (by norm_num) (by norm_num) (x := x) (by norm_num; exact h)
    omega
  have o5 : ∀ {n : Int}, (n : K) ≤ -1000 ∨ 10000 ≤ (n : K) → 5 ≤ (intText n).length := by
    intro n h
    by_contra hlt
    have h1 := (intText_length n 3 (by norm_num)).1 (by omega)
    norm_num at h1
    rcases h with h | h
    · have h2 : (n : K) ≤ ((-1000 : Int) : K) := by push_cast; exact h
      have := Int.cast_le.1 h2
      omega
    · have h2 : ((10000 : Int) : K) ≤ (n : K) := by push_cast; exact h
      have := Int.cast_le.1 h2
      omega
  refine words_cols_lt (lineCols_solid ri l.lon l.lat l.elev v b z) ?_
  rcases hf with h | h | h | h | ⟨i, x, hi, hx⟩
  · exact ⟨(9, fixedText ri 5 l.lat), by simp, oL (Or.inl h)⟩
  · exact ⟨(9, fixedText ri 5 l.lat), by simp, oL (Or.inr h)⟩
  · exact ⟨(9, fixedText ri 1 l.elev), by simp, o9 (Or.inl h)⟩
  · exact ⟨(9, fixedText ri 1 l.elev), by simp, o9 (Or.inr h)⟩
  · rw [hv] at hi
    match i, hi, hx with
    | 0, hi, hx => cases hi; exact ⟨(8, fixedText ri 1 (v 0)), by simp, o8 (by simpa using hx)⟩
    | 1, hi, hx => cases hi; exact ⟨(8, fixedText ri 1 (v 1)), by simp, o8 (by simpa using hx)⟩
    | 2, hi, hx => cases hi; exact ⟨(8, fixedText ri 1 (v 2)), by simp, o8 (by simpa using hx)⟩
    | 3, hi, hx => cases hi; exact ⟨(9, fixedText ri 1 (v 3)), by simp, o9 (by simpa using hx)⟩
    | 4, hi, hx => cases hi; exact ⟨(9, fixedText ri 1 (v 4)), by simp, o9 (by simpa using hx)⟩
    | 5, hi, hx => cases hi; exact ⟨(9, fixedText ri 1 (v 5)), by simp, o9 (by simpa using hx)⟩
    | 6, hi, hx => cases hi; exact ⟨(5, intText b), by simp, o5 (by simpa using hx)⟩
    | 7, hi, hx => cases hi; exact ⟨(5, intText z), by simp, o5 (by simpa using hx)⟩
    | 8, hi, hx => cases hi; exact ⟨(9, fixedText ri 1 (v 8)), by simp, o9 (by simpa using hx)⟩
    | n + 9, hi, hx => simp at hi

end QueryApp
end CenCalVM
