/-
Properties C44 and C61 to C64: the application cencalvmisosurface.
-/
import Verif.Lemmas.IsoRun
import Verif.Props.QueryApp
import Mathlib.Analysis.SpecialFunctions.Log.Base

set_option linter.unusedSectionVars false

namespace CenCalVM
namespace IsoApp
open QueryApp (exEnv exEnvErr Env optWords lastArg Conv)
variable {K : Type} [Field K] [LinearOrder K]

/-- Settings of the examples: with the extended model, the speed is 2000 down to -89600 and 3000 below. -/
def exOpts : Options ℚ :=
  { defaults with filenameIn := "in", filenameOut := "out", filenameDB := "det", filenameDBExt := "ext", vs := 2500, elevMin := -100000 }
/-- The ending and the lines, to compare. -/
def shown : Outcome (Result ℚ) → Option (Ending × List (Line ℚ))
  | .ok r => some (r.ending, r.lines)
  | _ => none
/-- The query object of the examples. -/
def exIso : VMQuery ℚ :=
  { VMQuery.init exGeom with db := some exDb, dbExt := some exDbExt, filename := "det", filenameExt := "ext" }
/-- The elevation found, to compare. -/
def foundOf : Outcome (Option ℚ × VMQuery ℚ × Files) → Option (Option ℚ)
  | .ok r => some r.1
  | _ => none
/-- The values of a query, to compare. -/
def vsOf (q : VMQuery ℚ) (i : Nat) (lon lat e : ℚ) : Option (List ℚ) :=
  valsOf (VMQuery.query exFmt { q with queryVals := [some i] } (fun _ => "") 1 lon lat e)

theorem valueAt_of {q : VMQuery ℚ} {i : Nat} {lon lat e v : ℚ} (h : vsOf q i lon lat e = some [v]) : ValueAt exFmt q i lon lat e v := by
  unfold vsOf at h
  cases hq : VMQuery.query exFmt { q with queryVals := [some i] } (fun _ => "") 1 lon lat e with
  | ub => rw [hq] at h; cases h
  | exc m => rw [hq] at h; cases h
  | ok r =>
    obtain ⟨r1, r2, r3⟩ := r
    rw [hq] at h
    unfold valsOf at h
    simp only [Option.some.injEq] at h
    subst h
    exact ⟨r1, r2, hq⟩

/-! ### C44 -/

section
variable [IsStrictOrderedRing K] [FloorRing K]

/-- C44, what holds, for limits more than 12.5 apart and whatever was queried before: what the search reports is the upper
limit, where the target is reached; or an elevation between the limits where it is reached, at most 12.5 below a place
between the limits where it is not; or 1e6, and then neither limit reaches the target and the lower one is outside the model.
Missing: limits closer together (`C44_false`); at the upper limit there need be no place without the target above
(`C44_false_top`). -/
theorem C44_partial {fmt : Fmt K} {q q' : VMQuery K} {fs fs' : Files} {target lon lat upper lower e : K} (hw : 12.5 < upper - lower)
    (h : searchVs .exact fmt q fs target lon lat upper lower = .ok (some e, q', fs')) :
    (e = upper ∧ ∃ v, ValueAt fmt q 1 lon lat upper v ∧ target ≤ v) ∨
    (lower ≤ e ∧ e < upper ∧ (∃ v, ValueAt fmt q 1 lon lat e v ∧ target ≤ v) ∧
      ∃ e' v', e < e' ∧ e' ≤ upper ∧ e' - e ≤ 12.5 ∧ ValueAt fmt q 1 lon lat e' v' ∧ v' < target) ∨
    (e = 1000000 ∧ (∃ v, ValueAt fmt q 1 lon lat lower v ∧ v < 0 ∧ v < target) ∧ ∃ v, ValueAt fmt q 1 lon lat upper v ∧ v < target) := by
  have h' : searchVs .exact fmt (asking q 1 q.err) fs target lon lat upper lower = .ok (some e, q', fs') := h
  obtain ⟨-, vU, vL, vM, a1, a2, a3, hd⟩ := searchVs_back h' (searches_exact hw)
  rcases hd with ⟨h1, -⟩ | ⟨e', h1, h2⟩
  · cases h1
  · cases h1; exact h2

/-- C44: the search gives up (`exit(1)`) only if the target is reached neither at the limits nor half-way, and the lower limit
is in the model. -/
theorem C44_gives_up {fmt : Fmt K} {q q' : VMQuery K} {fs fs' : Files} {target lon lat upper lower : K} (hw : 12.5 < upper - lower)
    (h : searchVs .exact fmt q fs target lon lat upper lower = .ok (none, q', fs')) :
    (∃ v, ValueAt fmt q 1 lon lat upper v ∧ v < target) ∧ (∃ v, ValueAt fmt q 1 lon lat ((upper + lower) / 2) v ∧ v < target) ∧
      ∃ v, ValueAt fmt q 1 lon lat lower v ∧ v < target ∧ 0 ≤ v := by
  have h' : searchVs .exact fmt (asking q 1 q.err) fs target lon lat upper lower = .ok (none, q', fs') := h
  obtain ⟨-, vU, vL, vM, a1, a2, a3, hd⟩ := searchVs_back h' (searches_exact hw)
  rcases hd with ⟨-, h1, h2, h3, h4⟩ | ⟨e', h1, -⟩
  · exact ⟨⟨vU, a1, h1⟩, ⟨vM, a3, h2⟩, vL, a2, h3, h4⟩
  · cases h1

/-- C44: the search ends, if the speeds between the limits are defined. -/
theorem C44_ends {fmt : Fmt K} {q : VMQuery K} {target lon lat upper lower : K} (hlu : lower < upper)
    (hv : ∀ e, lower ≤ e → e ≤ upper → ∃ v, ValueAt fmt q 1 lon lat e v) (fs : Files) :
    ∃ r, searchVs .exact fmt q fs target lon lat upper lower = .ok r := by
  unfold searchVs
  rw [niters_eq hlu, Outcome.bind_ok, setQueryVals_vs, Outcome.bind_ok]
  exact searchLoop_total (q := q) _ q.err fs (middleOk_exact lower upper) trivial trivial hlu.le hv

/-- C44: an iteration that goes on halves the bracket and stays in it. -/
theorem C44_halves {fmt : Fmt K} {q q' : VMQuery K} {fs fs' : Files} {target lon lat upper lower u l e : K} (hlu : lower < upper)
    (h : searchRound .exact fmt target lon lat upper lower q fs = .ok (.next u l e, q', fs')) :
    lower ≤ l ∧ u ≤ upper ∧ u - l = (upper - lower) / 2 ∧ e = l := by
  unfold searchRound at h
  cases hu : valueAt fmt q fs lon lat upper with
  | ub => rw [hu] at h; cases h
  | exc m => rw [hu] at h; cases h
  | ok ru =>
  rw [hu, Outcome.bind_ok] at h
  cases hl : valueAt fmt ru.2.1 ru.2.2 lon lat lower with
  | ub => rw [hl] at h; cases h
  | exc m => rw [hl] at h; cases h
  | ok rl =>
  rw [hl, Outcome.bind_ok] at h
  cases hm : valueAt fmt rl.2.1 rl.2.2 lon lat (Arith.exact.middle upper lower) with
  | ub => rw [hm] at h; cases h
  | exc m => rw [hm] at h; cases h
  | ok rm =>
  rw [hm, Outcome.bind_ok] at h
  simp only [Outcome.ok.injEq, Prod.mk.injEq] at h
  rw [middle_exact] at h
  obtain ⟨rfl, h3⟩ := decideRound_next h.1
  rcases h3 with ⟨rfl, rfl, -⟩ | ⟨rfl, rfl, -⟩
  · exact ⟨by linarith, le_rfl, by ring, rfl⟩
  · exact ⟨le_rfl, by linarith, by ring, rfl⟩

end

/-- The number of iterations is the expression of the code, over the real numbers. -/
theorem niters_real {upper lower : ℝ} (h : lower < upper) :
    niters .exact upper lower = .ok (1 + ⌈Real.log ((upper - lower) / 25) / Real.log 2⌉) := by
  rw [niters_eq h]
  have hpos : (0 : ℝ) ≤ (upper - lower) / 25 := div_nonneg (by linarith) (by norm_num)
  have := Real.ceil_logb_natCast (b := 2) hpos
  unfold Real.logb at this
  rw [← this]
  norm_num

/-- A search that finds the top of the extended model within 12.5 m. -/
example : foundOf (searchVs .exact exFmt exIso (fun _ => "") 2500 220 40 0 (-100000)) = some (some (-22940625 / 256)) := by decide +kernel
example : foundOf (searchVs .exact exFmt exIso (fun _ => "") 3500 220 40 0 (-100000)) = some none := by decide +kernel
example : (12.5 : ℚ) < 0 - (-100000) := by norm_num
example : ∃ v, ValueAt exFmt exIso 1 220 40 (-89599) v ∧ v < 2500 := ⟨2000, valueAt_of (by decide +kernel), by norm_num⟩
example : ∃ v, ValueAt exFmt exIso 1 220 40 (-89601) v ∧ 2500 ≤ v := ⟨3000, valueAt_of (by decide +kernel), by norm_num⟩

/-- C44 is false for limits at most 12.5 apart: the lower limit is reported without a query, though the speed does not reach
the target there. -/
theorem C44_false : foundOf (searchVs .exact exFmt exIso (fun _ => "") 2500 220 40 (-100) (-112.5)) = some (some (-112.5)) ∧
    ValueAt exFmt exIso 1 220 40 (-112.5) 2000 ∧ ValueAt exFmt exIso 1 220 40 (-100) 2000 :=
  ⟨by decide +kernel, valueAt_of (by decide +kernel), valueAt_of (by decide +kernel)⟩

/-- C44 is false at the upper limit: it is reported if it reaches the target, however far the next place without it. -/
theorem C44_false_top : foundOf (searchVs .exact exFmt exIso (fun _ => "") 2500 220 40 (-90000) (-100000)) = some (some (-90000)) ∧
    ValueAt exFmt exIso 1 220 40 (-90000) 3000 ∧ ValueAt exFmt exIso 1 220 40 (-89700) 3000 :=
  ⟨by decide +kernel, valueAt_of (by decide +kernel), valueAt_of (by decide +kernel)⟩

/-- Limits in the wrong order are undefined (conversion of a logarithm that does not exist). -/
theorem C44_false_order [IsStrictOrderedRing K] [FloorRing K] (fmt : Fmt K) (q : VMQuery K) (fs : Files) (target lon lat : K) {upper lower : K} (h : upper - lower ≤ 0) :
    searchVs .exact fmt q fs target lon lat upper lower = .ub := by
  unfold searchVs niters
  rw [if_neg (show ¬ 0 < Arith.exact.rd (Arith.exact.rd (upper - lower) / 25) from
    not_lt.2 (show (upper - lower) / 25 ≤ 0 from div_nonpos_of_nonpos_of_nonneg h (by norm_num)))]; rfl

/-! ### C61 -/

section
variable [IsStrictOrderedRing K] [FloorRing K]

/-- C61, what holds: if the databases open, the input can be read, the output can be written to the end and every location
followed by something has answers without error, then either there is one line for each, in order, with the difference between
the elevation of the ground and what a search may report, and the exit code is 0 unless closing fails; or the program exits
with 1 at the first location where the target is out of range, after passing the lines before to the output stream. -/
theorem C61_partial {env : Env K} {o : Options K} {q : VMQuery K} (hnf : env.nf.real [] = none) (hw : ∀ n, env.outGood n = true)
    (hq : Configured env o q) {text : List Char} (hi : env.input o.filenameIn = some text) (ho : env.canWrite o.filenameOut = true)
    {ls : List (K × K)} (hl : LocsText env.nf text ls) (ha : ∀ l ∈ ls, Answered id 12.5 env.fmt o q l) :
    (∃ c lines, run .exact env o = .ok ⟨.ret c, lines⟩ ∧ List.Forall₂ (LineFor id 12.5 env.fmt o q) ls lines ∧ (c = 0 ∨ c = 1) ∧
      (c = 0 ↔ ¬ CloseFails env o)) ∨
    ∃ k l lines, run .exact env o = .ok ⟨.exit, lines⟩ ∧ ls[k]? = some l ∧ OutOfRange id env.fmt o q l ∧
      List.Forall₂ (LineFor id 12.5 env.fmt o q) (ls.take k) lines :=
  run_spec exact_step hnf hw hq hi ho hl fun l h => located_exact (ha l h)

/-- C61: a database that cannot be opened is noticed at the first location, by an exception that is not caught, and without
locations by exit code 1 (closing not failing). -/
theorem C61_unopened {env : Env K} {o : Options K} (hw : env.outGood 0 = true) (hq : ∀ q, ¬ Configured env o q)
    (h1 : env.closeFail = false) (h2 : env.closeFailExt = false)
    {text : List Char} (hi : env.input o.filenameIn = some text) (ho : env.canWrite o.filenameOut = true) {ls : List (K × K)}
    (hl : LocsText env.nf text ls) : run .exact env o = .ok ⟨if ls = [] then .ret 1 else .abort, []⟩ := by
  obtain ⟨q, hq', hc | ⟨-, hs⟩⟩ := setup_cases env o
  · exact absurd hc (hq q)
  have hp := pending_readLoc (s := Stream.ofText text) (old := (0, 0)) rfl hl
  unfold run
  rw [hq', Outcome.bind_ok, hi]
  dsimp only
  rw [ho, if_pos rfl]
  unfold loop
  unfold Pending at hp
  by_cases hg : (readLoc env.nf (Stream.ofText text) (0, 0)).1.good = true
  · rw [if_pos hg] at hp
    obtain ⟨-, ls', rfl, -⟩ := hp
    rw [hg, show env.outGood ([] : List (Line K)).length = true from hw, if_pos (show (true && true) = true from rfl)]
    have : locate Arith.exact env.fmt o q (fun _ => "") (readLoc env.nf (Stream.ofText text) (0, 0)).2.1 (readLoc env.nf (Stream.ofText text) (0, 0)).2.2 =
        .exc "Could not get elevation." := by
      unfold locate queryElev
      rw [setQueryVals_elev, Outcome.bind_ok, if_pos (show (asking q 8 q.err).err.status ≠ .OK by
        rw [show (asking q 8 q.err).err = q.err from rfl, hs]; decide)]
      rfl
    rw [this]
    simp
  · rw [if_neg hg] at hp
    subst hp
    have : (readLoc env.nf (Stream.ofText text) (0, 0)).1.good = false := by simpa using hg
    rw [this]
    unfold finish leave VMQuery.destroy VMQuery.close VMQuery.closeErr
    simp [h1, h2, hs]

end

theorem exText_locs : LocsText exNumFmt "220 40\n221 40\n".toList [(220, 40), (221, 40)] := by
  have h1 : readLoc exNumFmt (Stream.ofText "220 40\n221 40\n".toList) (0, 0) = (⟨"\n221 40\n".toList, false, false⟩, 220, 40) := by
    decide +kernel
  have h2 : readLoc exNumFmt (Stream.ofText "\n221 40\n".toList) (0, 0) = (⟨"\n".toList, false, false⟩, 221, 40) := by decide +kernel
  have h3 : (readLoc exNumFmt (Stream.ofText "\n".toList) (0, 0)).1.good = false := by decide +kernel
  have a1 := readLoc_good (nf := exNumFmt) (s := Stream.ofText "220 40\n221 40\n".toList) (old := (0, 0)) (by rw [h1]; rfl)
  have a2 := readLoc_good (nf := exNumFmt) (s := Stream.ofText "\n221 40\n".toList) (old := (0, 0)) (by rw [h2]; rfl)
  rw [h1] at a1
  rw [h2] at a2
  refine .cons a1.2.1 a1.2.2 (.cons a2.2.1 a2.2.2 (.nil ?_))
  intro l t' h
  rw [readLoc_eq (s := Stream.ofText "\n".toList) rfl h] at h3
  cases t' with
  | nil => rfl
  | cons a b => cases h3

example : Configured (exEnv "220 40\n221 40\n") exOpts exIso :=
  ⟨exDb, some exDbExt, rfl, Or.inr ⟨by decide, exDbExt, rfl, rfl⟩, rfl⟩
example : shown (run .exact (exEnv "220 40\n221 40\n") exOpts) = some (.ret 0, [⟨220, 40, 104925075 / 2048⟩, ⟨221, 40, 104925075 / 2048⟩]) := by
  decide +kernel
example : shown (run .exact (exEnv "220 40\n221 40\n") { exOpts with vs := 3500 }) = some (.exit, []) := by decide +kernel
example : shown (run .exact (exEnv "220 40\n221 40\n") { exOpts with filenameDB := "missing" }) = some (.abort, []) := by decide +kernel
example : shown (run .exact (exEnv "") { exOpts with filenameDB := "missing" }) = some (.ret 1, []) := by decide +kernel

/-- C61 is false: a last location without a line end is not answered, with exit code 0. -/
theorem C61_false : shown (run .exact (exEnv "220 40\n221 40") exOpts) = some (.ret 0, [⟨220, 40, 104925075 / 2048⟩]) := by decide +kernel

/-- C61 is false: an error in the elevation of the ground is overwritten by a warning of a later query, and the location
answered from an elevation of 0. -/
theorem C61_false_masked :
    shown (run .exact (exEnvErr "220 40\n") { exOpts with filenameDBExt := "" }) = some (.ret 0, [⟨220, 40, -999⟩]) ∧
    shown (run .exact (exEnvErr "220 40\n") exOpts) = some (.ret 1, []) := ⟨by decide +kernel, by decide +kernel⟩

/-! ### C62 -/

/-- C62, what holds, without squashing: the number written is -999, or the depth below the ground of a place not below the
lowest elevation where the speed reaches the target, and which is the ground or at most 12.5 below a place, not above the
ground, where it does not. -/
theorem C62_partial {fmt : Fmt K} {o : Options K} {q : VMQuery K} {l : K × K} {line : Line K} (hs : o.squashLimit = 1000000)
    (h : LineFor id 12.5 fmt o q l line) :
    ∃ g, Ground id fmt q l.1 l.2 g ∧
      (line.dist = -999 ∨
        ((∃ v, ValueAt fmt q 1 l.1 l.2 (g - line.dist) v ∧ o.vs ≤ v) ∧
          (line.dist = 0 ∨ (o.elevMin ≤ g - line.dist ∧ g - line.dist < g ∧
            ∃ e' v', g - line.dist < e' ∧ e' ≤ g ∧ e' - (g - line.dist) ≤ 12.5 ∧ ValueAt fmt q 1 l.1 l.2 e' v' ∧ v' < o.vs)))) := by
  obtain ⟨-, g, e, base, hg, hb, hr, hd⟩ := h
  rw [if_pos hs] at hb
  subst hb
  rw [sub_zero, sub_zero] at hr
  simp only [id] at hr hd
  refine ⟨g, hg, ?_⟩
  by_cases he : e = 1000000
  · rw [if_pos he] at hd; exact Or.inl hd
  · rw [if_neg he] at hd
    right
    have hge : g - line.dist = e := by rw [hd]; ring
    rw [hge]
    rcases hr with ⟨rfl, hv⟩ | ⟨h1, h2, h3, h4⟩ | ⟨h1, -⟩
    · exact ⟨hv, Or.inl (by rw [hd, sub_self])⟩
    · exact ⟨h3, Or.inr ⟨h1, h2, h4⟩⟩
    · exact absurd h1 he

theorem exIso_ground : Ground id exFmt exIso 220 40 (-38370) :=
  ⟨-38370, valueAt_of (by decide +kernel), Or.inl ⟨0, by omega, by norm_num, ⟨2000, valueAt_of (by decide +kernel), by norm_num⟩,
    fun j h => by omega⟩⟩

/-- C62 is false with squashing, where elevations are relative to the ground: the number written is 12863.9..., but the target
is not reached at that depth, nor 1 km around it; it is at a depth of 51233 (the elevation of the ground, -38370, is added once
too often). -/
theorem C62_false_squash :
    shown (run .exact (exEnv "220 40\n") { exOpts with squashLimit := -200000 }) = some (.ret 0, [⟨220, 40, 26343315 / 2048⟩]) ∧
    ValueAt exFmt { exIso with squashTopo := true, squashLimit := -200000 } 1 220 40 (-26343315 / 2048) 2000 ∧
    ValueAt exFmt { exIso with squashTopo := true, squashLimit := -200000 } 1 220 40 (-26343315 / 2048 - 1000) 2000 ∧
    ValueAt exFmt { exIso with squashTopo := true, squashLimit := -200000 } 1 220 40 (-26343315 / 2048 - 38370) 3000 :=
  ⟨by decide +kernel, valueAt_of (by decide +kernel), valueAt_of (by decide +kernel), valueAt_of (by decide +kernel)⟩

/-! ### C63 -/

/-- C63: the elevation of the ground used for a location is `Ground`, and leaves the object asking for Vs, whatever was asked
before. -/
theorem C63 [IsStrictOrderedRing K] [FloorRing K] {fmt : Fmt K} {q q' : VMQuery K} {fs fs' : Files} {lon lat g : K} (h : queryElev .exact fmt q fs lon lat = .ok (g, q', fs')) :
    Ground id fmt q lon lat g ∧ ∃ e, q' = { q with queryVals := [some 1], err := e } := by
  have h' : queryElev .exact fmt { q with queryVals := q.queryVals } fs lon lat = .ok (g, q', fs') := h
  obtain ⟨h1, w, -, -, h2⟩ := queryElev_back exact_step h'
  exact ⟨h1, _, h2⟩

/-- C63: there is one such elevation, in exact arithmetic (`id`) or any other. -/
theorem C63_unique [IsStrictOrderedRing K] {rd : K → K} {fmt : Fmt K} {q : VMQuery K} {lon lat g g' : K} (h : Ground rd fmt q lon lat g) (h' : Ground rd fmt q lon lat g') : g = g' := by
  obtain ⟨e0, h1, h2⟩ := h
  obtain ⟨e0', h1', h2'⟩ := h'
  obtain rfl := valueAt_unique h1 h1'
  have key : ∀ (k : Nat), (∃ v, ValueAt fmt q 1 lon lat (rd (e0 - 12.5 * k)) v ∧ 0 < v) → (∃ v, ValueAt fmt q 1 lon lat (rd (e0 - 12.5 * k)) v ∧ v ≤ 0) → False := by
    rintro k ⟨v, a, b⟩ ⟨v', a', b'⟩
    obtain rfl := valueAt_unique a a'
    exact absurd b (not_lt.2 b')
  rcases h2 with ⟨k, a1, a2, a3, a4⟩ | ⟨a1, a2⟩ <;> rcases h2' with ⟨k', b1, b2, b3, b4⟩ | ⟨b1, b2⟩
  · subst a2 b2
    rcases lt_trichotomy k k' with hk | rfl | hk
    · exact (key k a3 (b4 k hk)).elim
    · rfl
    · exact (key k' b3 (a4 k' hk)).elim
  · subst a2; exact (key k a3 (b2 k a1)).elim
  · subst b2; exact (key k' b3 (a2 k' b1)).elim
  · rw [a1, b1]

/-- C63: it is at most 112.5 below the one stored, and solid if any of the elevations tried is. -/
theorem C63_solid [IsStrictOrderedRing K] {fmt : Fmt K} {q : VMQuery K} {lon lat g e0 : K} (h : Ground id fmt q lon lat g) (h0 : ValueAt fmt q 8 lon lat (-5000) e0) :
    g ≤ e0 ∧ e0 - 112.5 ≤ g ∧
      ((∃ (j : Nat) (v : K), j < 10 ∧ ValueAt fmt q 1 lon lat (e0 - 12.5 * j) v ∧ 0 < v) → ∃ v, ValueAt fmt q 1 lon lat g v ∧ 0 < v) := by
  obtain ⟨e1, h1, h2⟩ := h
  obtain rfl := valueAt_unique h0 h1
  rcases h2 with ⟨k, a1, a2, a3, a4⟩ | ⟨rfl, a2⟩
  · have hk : (k : K) ≤ 9 := by exact_mod_cast Nat.lt_succ_iff.1 a1
    have hk0 : (0 : K) ≤ k := Nat.cast_nonneg k
    refine ⟨?_, ?_, fun _ => a3⟩
    · rw [a2]; norm_num
    · rw [a2]; norm_num; linarith
  · refine ⟨le_rfl, by norm_num, ?_⟩
    rintro ⟨j, v, hj, hv, hp⟩
    obtain ⟨v', hv', hn⟩ := a2 j hj
    obtain rfl := valueAt_unique hv hv'
    exact absurd hp (not_lt.2 hn)

/-- The example location is answered, as `C61_partial` requires. -/
theorem exIso_answered : Answered id 12.5 exFmt exOpts exIso (220, 40) := by
  refine ⟨⟨-38370, valueAt_of (by decide +kernel)⟩, ?_, ?_, ?_⟩
  · rintro ⟨q', fs', vals, h, hs⟩
    have h1 : statusOf (VMQuery.query exFmt { exIso with queryVals := [some 8] } (fun _ => "") 1 220 40 (-5000)) = some .OK := by
      decide +kernel
    rw [h] at h1
    unfold statusOf at h1
    simp only [Option.some.injEq] at h1
    rw [hs] at h1
    cases h1
  · intro e
    have ho : VMQuery.Open { exIso with queryVals := [some 1] } exGeom exDb :=
      ⟨rfl, rfl, GeomCenCA.geom_lawful _ _ _, exDb_good, fun _ h => by cases h; exact exDbExt_good⟩
    obtain ⟨q', fs', vals, h1, h2⟩ := C19_partial exFmt ho exGeom_total (by
      intro v hv
      exact ⟨1, by omega, by simpa using hv⟩) (n := 31) rfl (by omega) (fun _ => "") 220 40 e
    match vals, h2 with
    | [v], _ => exact ⟨v, q', fs', h1⟩
  · intro g hg
    rw [C63_unique hg exIso_ground]
    unfold exOpts
    norm_num

/-- The ground and whether it was found, to compare. -/
def groundOf : Outcome (ℚ × VMQuery ℚ × Files) → Option ℚ
  | .ok r => some r.1
  | _ => none
example : groundOf (queryElev .exact exFmt exIso (fun _ => "") 220 40) = some (-38370) := by decide +kernel

/-! ### C64 -/

/-- C64, what holds: a command line of known options, each followed by its argument as a separate word, in any order and with
repetitions, is accepted exactly if input, output and database names and a speed other than 0 are given; each setting is that
of the last option naming it, or the default. -/
theorem C64_partial (cv : Conv K) {opts : List (Char × List Char)} (h : ∀ ov ∈ opts, ov.1 ∈ ['c', 'd', 'e', 'i', 'o', 's', 'v', 'z']) :
    parseArgs cv (opts.flatMap optWords) =
      if ((lastArg opts 'v').map cv.atof).getD 0 = 0 ∨ (lastArg opts 'i').getD "" = "" ∨ (lastArg opts 'o').getD "" = "" ∨
        (lastArg opts 'd').getD "" = "" then .error 1
      else .ok {
        vs := ((lastArg opts 'v').map cv.atof).getD 0
        filenameIn := (lastArg opts 'i').getD ""
        filenameOut := (lastArg opts 'o').getD ""
        filenameDB := (lastArg opts 'd').getD ""
        filenameDBExt := (lastArg opts 'e').getD ""
        cacheSize := ((lastArg opts 'c').map cv.atoi).getD 128
        squashLimit := ((lastArg opts 's').map cv.atof).getD 1000000
        elevMin := ((lastArg opts 'z').map cv.atof).getD (-45000) } := by
  have hlen : (opts.flatMap optWords).length = 2 * opts.length := by
    clear h
    induction opts with
    | nil => rfl
    | cons ov opts ih => rw [List.flatMap_cons, List.length_append, ih]; unfold optWords; simp; omega
  have hloop : ∀ (opts : List (Char × List Char)) (o : Options K) (n : Nat), parseLoop cv (opts.map fun ov => .arg ov.1 (String.ofList ov.2)) o n =
      .ok (opts.foldl (fun o ov => setOpt cv o ov.1 (String.ofList ov.2)) o, n + 2 * opts.length) := by
    intro opts
    induction opts with
    | nil => intro o n; rfl
    | cons ov opts ih =>
      intro o n
      rw [List.map_cons, parseLoop, ih, List.foldl_cons, List.length_cons, show n + 2 + 2 * opts.length = n + 2 * (opts.length + 1) by omega]
  have hfold : ∀ {α : Type} (f : Options K → α) (c : Char) (conv : String → α), (∀ o v, f (setOpt cv o c v) = conv v) →
      (∀ o c' v, c' ≠ c → f (setOpt cv o c' v) = f o) →
      f (opts.foldl (fun o ov => setOpt cv o ov.1 (String.ofList ov.2)) defaults) = ((lastArg opts c).map conv).getD (f defaults) := by
    intro α f c conv h1 h2
    clear h hlen
    induction opts using List.reverseRecOn with
    | nil => rfl
    | append_singleton opts ov ih =>
      rw [List.foldl_append, List.foldl_cons, List.foldl_nil]
      unfold lastArg at ih ⊢
      rw [List.filter_append]
      by_cases hc : ov.1 = c
      · rw [show List.filter (fun ov : Char × List Char => ov.1 == c) [ov] = [ov] by simp [hc], List.getLast?_append]
        subst hc
        rw [h1]
        rfl
      · rw [show List.filter (fun ov : Char × List Char => ov.1 == c) [ov] = [] by simp [hc], List.append_nil, h2 _ _ _ hc, ih]
  unfold parseArgs OptSpec.getopt
  rw [QueryApp.scan_pairs (spec := spec) (by decide) h _ (by omega), hloop]
  dsimp only
  have hid : ∀ x : Option String, x.map (fun v => v) = x := fun x => by cases x <;> rfl
  have fi := hfold Options.filenameIn 'i' (fun v => v) (fun _ _ => rfl) (fun o c v hc => by unfold setOpt; split <;> first | rfl | exact absurd rfl hc)
  have fo := hfold Options.filenameOut 'o' (fun v => v) (fun _ _ => rfl) (fun o c v hc => by unfold setOpt; split <;> first | rfl | exact absurd rfl hc)
  have fd := hfold Options.filenameDB 'd' (fun v => v) (fun _ _ => rfl) (fun o c v hc => by unfold setOpt; split <;> first | rfl | exact absurd rfl hc)
  have fe := hfold Options.filenameDBExt 'e' (fun v => v) (fun _ _ => rfl) (fun o c v hc => by unfold setOpt; split <;> first | rfl | exact absurd rfl hc)
  have fv := hfold Options.vs 'v' cv.atof (fun _ _ => rfl) (fun o c v hc => by unfold setOpt; split <;> first | rfl | exact absurd rfl hc)
  have fz := hfold Options.elevMin 'z' cv.atof (fun _ _ => rfl) (fun o c v hc => by unfold setOpt; split <;> first | rfl | exact absurd rfl hc)
  have fc := hfold Options.cacheSize 'c' cv.atoi (fun _ _ => rfl) (fun o c v hc => by unfold setOpt; split <;> first | rfl | exact absurd rfl hc)
  have fs := hfold Options.squashLimit 's' cv.atof (fun _ _ => rfl) (fun o c v hc => by unfold setOpt; split <;> first | rfl | exact absurd rfl hc)
  rw [hid] at fi fo fd fe
  generalize opts.foldl (fun o ov => setOpt cv o ov.1 (String.ofList ov.2)) defaults = r at fi fo fd fe fv fz fc fs ⊢
  obtain ⟨r1, r2, r3, r4, r5, r6, r7, r8⟩ := r
  dsimp only at fi fo fd fe fv fz fc fs ⊢
  have hz : ∀ s : String, s.length = 0 ↔ s = "" := fun s => by simp
  have g1 : r1 = _ := fv
  have g2 : r2 = _ := fi
  have g3 : r3 = _ := fo
  have g4 : r4 = _ := fd
  have g5 : r5 = _ := fe
  have g6 : r6 = _ := fc
  have g7 : r7 = _ := fs
  have g8 : r8 = _ := fz
  subst g1 g2 g3 g4 g5 g6 g7 g8
  have hiff : (1 + 2 * opts.length ≠ (opts.flatMap optWords).length + 1 ∨ ((lastArg opts 'v').map cv.atof).getD 0 = 0 ∨
      ((lastArg opts 'i').getD "").length = 0 ∨ ((lastArg opts 'o').getD "").length = 0 ∨ ((lastArg opts 'd').getD "").length = 0) ↔
      (((lastArg opts 'v').map cv.atof).getD 0 = 0 ∨ (lastArg opts 'i').getD "" = "" ∨ (lastArg opts 'o').getD "" = "" ∨
        (lastArg opts 'd').getD "" = "") := by
    rw [hz, hz, hz, hlen]
    constructor
    · rintro (h | h)
      · exact absurd (by omega) h
      · exact h
    · exact Or.inr
  by_cases hc : ((lastArg opts 'v').map cv.atof).getD 0 = 0 ∨ (lastArg opts 'i').getD "" = "" ∨ (lastArg opts 'o').getD "" = "" ∨
      (lastArg opts 'd').getD "" = ""
  · rw [if_pos hc]; exact if_pos (hiff.2 hc)
  · rw [if_neg hc]; exact if_neg (fun h => hc (hiff.1 h))

/-- C64: an option that does not exist, or without its argument, is refused (unless the help text is asked for first). -/
theorem C64_unknown (cv : Conv K) {argv : List (List Char)} (h : Opt.unknown ∈ spec.getopt argv) :
    parseArgs cv argv = .error 1 ∨ parseArgs cv argv = .error 0 := by
  unfold parseArgs
  generalize (defaults : Options K) = o
  generalize 1 = n
  generalize spec.getopt argv = os at h
  have : parseLoop cv os o n = .error 1 ∨ parseLoop cv os o n = .error 0 := by
    induction os generalizing o n with
    | nil => cases h
    | cons x os ih =>
      cases x with
      | arg c v =>
        rcases List.mem_cons.1 h with h1 | h1
        · cases h1
        · exact ih _ _ h1
      | flag c => right; rfl
      | unknown => left; rfl
  rcases this with h1 | h1 <;> rw [h1]
  · left; rfl
  · right; rfl

theorem parseLoop_append (cv : Conv K) (opts : List (Char × List Char)) (os : List Opt) (o : Options K) (n : Nat) :
    parseLoop cv ((opts.map fun ov => .arg ov.1 (String.ofList ov.2)) ++ os) o n =
      parseLoop cv os (opts.foldl (fun o ov => setOpt cv o ov.1 (String.ofList ov.2)) o) (n + 2 * opts.length) := by
  induction opts generalizing o n with
  | nil => rfl
  | cons ov opts ih =>
    rw [List.map_cons, List.cons_append, parseLoop, ih, List.foldl_cons, List.length_cons]
    congr 1
    omega

/-- C64: a word among the options and their arguments that is no option is refused. -/
theorem C64_stray (cv : Conv K) {pre post : List (Char × List Char)} {w : List Char}
    (hpre : ∀ ov ∈ pre, ov.1 ∈ ['c', 'd', 'e', 'i', 'o', 's', 'v', 'z'])
    (hpost : ∀ ov ∈ post, ov.1 ∈ ['c', 'd', 'e', 'i', 'o', 's', 'v', 'z']) (hw : w.head? ≠ some '-' ∨ w = ['-']) :
    parseArgs cv (pre.flatMap optWords ++ w :: post.flatMap optWords) = .error 1 := by
  unfold parseArgs
  rw [QueryApp.getopt_word (spec := spec) (by decide) hpre hpost hw, ← List.append_nil ((pre ++ post).map _), parseLoop_append]
  refine if_pos (Or.inl ?_)
  simp only [List.length_append, List.length_cons, QueryApp.length_optWords]
  omega

/-- C64: after any options with arguments, the option -h ends the program with exit code 0 and an option that does not exist
with exit code 1, whatever follows. -/
theorem C64_other (cv : Conv K) {pre : List (Char × List Char)} (rest : List (List Char))
    (hpre : ∀ ov ∈ pre, ov.1 ∈ ['c', 'd', 'e', 'i', 'o', 's', 'v', 'z']) {c : Char}
    (hc : c ∉ ['c', 'd', 'e', 'i', 'o', 's', 'v', 'z']) (hd : c ≠ '-') :
    parseArgs cv (pre.flatMap optWords ++ ['-', c] :: rest) = .error (if c = 'h' then 0 else 1) := by
  unfold parseArgs OptSpec.getopt
  rw [QueryApp.scan_after (spec := spec) (by decide) hpre _ _ (by rw [List.length_append, QueryApp.length_optWords]; omega), parseLoop_append]
  obtain ⟨m, hm⟩ : ∃ m, (pre.flatMap optWords ++ ['-', c] :: rest).length - pre.length = m + 1 :=
    ⟨(pre.flatMap optWords ++ ['-', c] :: rest).length - pre.length - 1, by
      rw [List.length_append, List.length_cons, QueryApp.length_optWords]; omega⟩
  rw [hm]
  have hsc : spec.scan (m + 1) (['-', c] :: rest) = (if c = 'h' then .flag c else .unknown) :: spec.scan m rest := by
    conv_lhs => unfold OptSpec.scan
    split
    · next h1 => simp at h1; exact absurd h1 hd
    · next h1 =>
      cases h1
      unfold OptSpec.letters
      rw [if_neg (show c ∉ spec.args from hc)]
      by_cases hh : c = 'h'
      · subst hh; rfl
      · rw [if_neg (show c ∉ spec.flags by simpa [spec] using hh), if_neg hh]; rfl
    · next h3 => exact absurd rfl (h3 c [])
  rw [hsc]
  by_cases hh : c = 'h'
  · rw [if_pos hh, if_pos hh]; rfl
  · rw [if_neg hh, if_neg hh]; rfl

/-- The settings read, to compare. -/
def optsOf : Except Int (Options ℚ) → Option (List String × Int × List ℚ)
  | .ok o => some ([o.filenameIn, o.filenameOut, o.filenameDB, o.filenameDBExt], o.cacheSize, [o.vs, o.squashLimit, o.elevMin])
  | .error _ => none
/-- The exit code of a command line that is not accepted. -/
def refusal : Except Int (Options ℚ) → Option Int
  | .ok _ => none
  | .error c => some c
example : optsOf (parseArgs QueryApp.exConv ([('i', "a".toList), ('v', "abc".toList), ('o', "b".toList), ('d', "m".toList), ('v', "abcd".toList)].flatMap optWords)) =
    some (["a", "b", "m", ""], 128, [4, 1000000, -45000]) := by decide +kernel
example : refusal (parseArgs QueryApp.exConv (["-i", "a", "-o", "b", "-xd", "m", "-v", "9"].map String.toList)) = some 1 := by decide +kernel
example : refusal (parseArgs QueryApp.exConv (["-i", "a", "-o", "b", "stray", "-d", "m", "-v", "9"].map String.toList)) = some 1 ∧
    refusal (parseArgs QueryApp.exConv (["-i", "a", "-h", "b", "stray"].map String.toList)) = some 0 ∧
    refusal (parseArgs QueryApp.exConv (["-i", "a", "-l", "b"].map String.toList)) = some 1 := by decide +kernel
example : Opt.unknown ∈ spec.getopt (["-i", "a", "-o", "b", "-xd", "m", "-v", "9"].map String.toList) := by decide +kernel

/-- C64 is false: an argument in the same word as its option is refused: `-ia -o b -d m -v 9`. -/
theorem C64_false_attached : refusal (parseArgs QueryApp.exConv (["-ia", "-o", "b", "-d", "m", "-v", "9"].map String.toList)) = some 1 := by
  decide +kernel

end IsoApp
end CenCalVM
