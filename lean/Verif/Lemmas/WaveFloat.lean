/-
Lemmas about WAVERES queries in `float` and `double` on an averaged database.
-/
import Verif.Lemmas.IngestFloat
import Verif.Lemmas.QueryFloat
import Verif.Lemmas.AvgFacts
import Verif.Props.AvgFloat

set_option linter.unusedSectionVars false

namespace CenCalVM
open AvgEngine FileApps GridIngester
variable {K : Type} [Field K] [LinearOrder K] [IsStrictOrderedRing K] [FloorRing K]

theorem fl_noData {ri : IntRound K} : fl ri 24 (-999 : K) = -999 := by
  have := fl_int (K := K) (ri := ri) (prec := 24) (by norm_num) (m := -999) (by norm_num)
  simpa using this

/-- Numbers of type `float` are the same for every direction of rounding. -/
theorem fl_any {ri rj : IntRound K} {x : K} (h : fl ri 24 x = x) : fl rj 24 x = x := by
  rw [← h]; exact fl_fl (by norm_num) le_rfl x

/-- The averages of numbers of type `float` are numbers of type `float`. -/
theorem average_single {ri rj rk : IntRound K} {env : Env K} (he : env.Reliable) (hs : Single ri env) {db : Db K} (hdb : db.Good)
    (hne : db.entries ≠ []) (hno : db.NonOverlapping) (hroot : db.BelowRoot) (hsi : db.Single rj) :
    ∃ s, average env db = .ok s () ∧ s.out.Single rk := by
  obtain ⟨s, g, h, ht, -⟩ := average_tree' he hdb hne hno hroot
  refine ⟨s, h, fun x hx r hr => ?_⟩
  rcases ht.entries hx with hin | ⟨-, ha⟩
  · exact fl_any (hsi x hin r hr)
  · rw [ht.mean_eq hx ha, hs]
    unfold meanOf finalPayload
    simp only [Payload.reals, List.mem_cons, List.not_mem_nil, or_false] at hr
    split
    · rcases hr with rfl | rfl | rfl | rfl | rfl | rfl <;> exact fl_fl (by norm_num) le_rfl _
    · rcases hr with rfl | rfl | rfl | rfl | rfl | rfl <;> exact fl_noData

theorem pointsText_mem {nf : NumFmt K} {pts : List (Point K)} : ∀ {t t' : List Char}, PointsText nf t pts t' → ∀ p ∈ pts, ∃ u u', PointText nf u p u' := by
  induction pts with
  | nil => intro t t' _ p hp; simp at hp
  | cons x xs ih =>
    rintro t t' ⟨u, h1, -, h2⟩ p hp
    rcases List.mem_cons.1 hp with rfl | hp
    · exact ⟨t, u, h1⟩
    · exact ih h2 p hp

/-- The values stored for a point read from a file are numbers of type `float`. -/
theorem octantFor_single {rs rdb rk : IntRound K} {nf : NumFmt K} (hb : nf.rd.Binary rs rdb) (hread : ∀ w v, nf.real32 w = some v → fl rs 24 v = v)
    {g : Geom K} {n : Nat} {p : Point K} {e : Entry K} (h : OctantFor nf.rd g n p e) {u u' : List Char} (ht : PointText nf u p u')
    {r : Payload K → K} (hr : r ∈ Payload.reals (K := K)) : fl rk 24 (r e.payload) = r e.payload := by
  obtain ⟨_, _, _, _, _, _, _, _, _, _, _, -, -, -, -, -, -, ⟨_, -, hqp⟩, ⟨_, -, hqs⟩, -⟩ := ht
  obtain ⟨el, code, -, -, c1, c2, c3, c4, c5, c6, -, -⟩ := h
  have conv : ∀ {a b : K}, Converted32 nf.rd a b → fl rk 24 b = b := by
    rintro a b (⟨-, rfl⟩ | ⟨-, rfl⟩)
    · exact fl_noData
    · simp only [hb.1]; exact fl_fl (by norm_num) le_rfl _
  simp only [Payload.reals, List.mem_cons, List.not_mem_nil, or_false] at hr
  rcases hr with rfl | rfl | rfl | rfl | rfl | rfl
  · exact conv c1
  · exact conv c2
  · exact conv c3
  · rw [c5]; exact fl_any (hread _ _ hqp)
  · rw [c6]; exact fl_any (hread _ _ hqs)
  · exact conv c4

theorem octantFor_metres {rs rdb : IntRound K} {rd : Rd K} (hb : rd.Binary rs rdb)
    {g : Geom K} {n : Nat} {p : Point K} {e : Entry K} (h : OctantFor rd g n p e) : InMetresUpTo (1 / 2 ^ 22) p e.payload := by
  obtain ⟨el, code, -, -, c1, c2, c3, c4, c5, c6, c7, c8⟩ := h
  exact ⟨single_upTo' hb c1, single_upTo' hb c2, single_upTo' hb c3, single_upTo' hb c4, c5, c6, c7, c8⟩

/-- Widening a range twice. -/
theorem widen_twice {lo hi x M N : K} (hl : |lo| ≤ M) (hh : |hi| ≤ M) (hN : N = max |lo - 1 / 2 ^ 22 * M| |hi + 1 / 2 ^ 22 * M|)
    (h1 : lo - 1 / 2 ^ 22 * M - N / 2 ^ 14 ≤ x) (h2 : x ≤ hi + 1 / 2 ^ 22 * M + N / 2 ^ 14) :
    lo - M / 2 ^ 13 ≤ x ∧ x ≤ hi + M / 2 ^ 13 := by
  have hM0 : 0 ≤ M := (abs_nonneg _).trans hl
  have e0 : |1 / 2 ^ 22 * M| = 1 / 2 ^ 22 * M := abs_of_nonneg (mul_nonneg (by positivity) hM0)
  have hM : N ≤ (1 + 1 / 2 ^ 22) * M := by
    rw [hN]
    refine max_le ?_ ?_
    · refine (abs_sub _ _).trans ?_
      rw [e0]; linarith
    · refine (abs_add_le _ _).trans ?_
      rw [e0]; linarith
  norm_num at hM h1 h2 ⊢
  constructor <;> linarith

end CenCalVM
