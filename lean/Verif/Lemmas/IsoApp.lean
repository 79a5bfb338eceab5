/-
Lemmas on the application cencalvmisosurface.
-/
import Verif.Spec.IsoApp
import Verif.Lemmas.QueryApp
import Mathlib.Tactic.Linarith
import Mathlib.Tactic.NormNum
import Mathlib.Tactic.FieldSimp
import Mathlib.Tactic.Ring

set_option linter.unusedSectionVars false

namespace CenCalVM
namespace IsoApp
variable {K : Type} [Field K] [LinearOrder K]

/-! ### Single values -/

/-- The query object as it is during the queries for value `i`. -/
def asking (q : VMQuery K) (i : Nat) (e : ErrorHandler) : VMQuery K := { q with queryVals := [some i], err := e }

/-- The object after some queries. -/
def Later (q : VMQuery K) (i : Nat) (er : ErrorHandler) (q' : VMQuery K) : Prop :=
  ∃ w, VMQuery.Raised w ∧ (i ≠ 8 → VMQuery.Warned w) ∧ q' = asking q i (VMQuery.mark er w)

theorem Later.refl (q : VMQuery K) (i : Nat) (er : ErrorHandler) : Later q i er (asking q i er) := ⟨none, trivial, fun _ => trivial, rfl⟩

theorem Later.trans {q : VMQuery K} {i : Nat} {er : ErrorHandler} {w : Option (Status × String)} {q' : VMQuery K} (hw : VMQuery.Raised w)
    (hw' : i ≠ 8 → VMQuery.Warned w) (h : Later q i (VMQuery.mark er w) q') : Later q i er q' := by
  obtain ⟨w2, h1, h2, rfl⟩ := h
  exact ⟨VMQuery.later w w2, VMQuery.raised_later hw h1, fun h8 => VMQuery.warned_later (hw' h8) (h2 h8), by rw [VMQuery.mark_mark]⟩

/-- A query for one value: undefined in all states of the handler, or the same value in all. -/
theorem valueAt_cases (fmt : Fmt K) (q : VMQuery K) (i : Nat) (lon lat e : K) :
    ((∀ er fs, valueAt fmt (asking q i er) fs lon lat e = .ub) ∧ ∀ v, ¬ ValueAt fmt q i lon lat e v) ∨
      ∃ v w, (VMQuery.Raised w ∧ (i ≠ 8 → VMQuery.Warned w)) ∧ ValueAt fmt q i lon lat e v ∧ (ErrorAt fmt q i lon lat e ↔ (VMQuery.mark q.err w).status = .ERROR) ∧
        ∀ er fs, ∃ fs', valueAt fmt (asking q i er) fs lon lat e = .ok (v, asking q i (VMQuery.mark er w), fs') := by
  have hsame : ({ q with queryVals := [some i] } : VMQuery K) = { { q with queryVals := [some i] } with err := q.err } := rfl
  rcases VMQuery.query_frame_warned fmt { q with queryVals := [some i] } 1 lon lat e with h | ⟨vals, w, hw, hw', h⟩
  · left
    refine ⟨fun er fs => ?_, ?_⟩
    · unfold valueAt asking
      rw [h er fs]; rfl
    · rintro v ⟨r, f, hv⟩
      rw [hsame, h q.err] at hv; cases hv
  · by_cases hv : ∃ v, vals = [v]
    · obtain ⟨v, rfl⟩ := hv
      right
      obtain ⟨f0, h0⟩ := h q.err (fun _ => "")
      refine ⟨v, w, ⟨hw, fun h8 => hw' (by simpa using fun h => h8 h.symm)⟩, ⟨_, f0, h0⟩, ⟨?_, ?_⟩, fun er fs => ?_⟩
      · rintro ⟨r, f, vals, h1, h2⟩
        rw [hsame, h0] at h1; cases h1
        exact h2
      · intro h2
        exact ⟨_, f0, _, h0, h2⟩
      · obtain ⟨fs', h1⟩ := h er fs
        refine ⟨fs', ?_⟩
        unfold valueAt asking
        rw [h1]; rfl
    · left
      refine ⟨fun er fs => ?_, ?_⟩
      · obtain ⟨fs', h1⟩ := h er fs
        unfold valueAt asking
        rw [h1, Outcome.bind_ok]
        dsimp only
        split
        · exact absurd ⟨_, rfl⟩ hv
        · rfl
      · rintro v ⟨r, f, h2⟩
        obtain ⟨f0, h0⟩ := h q.err (fun _ => "")
        rw [hsame, h0] at h2; cases h2
        exact hv ⟨v, rfl⟩

theorem valueAt_unique {fmt : Fmt K} {q : VMQuery K} {i : Nat} {lon lat e v v' : K} (h : ValueAt fmt q i lon lat e v)
    (h' : ValueAt fmt q i lon lat e v') : v = v' := by
  obtain ⟨r, f, h⟩ := h
  obtain ⟨r', f', h'⟩ := h'
  rw [h] at h'; cases h'; rfl

theorem valueAt_back {fmt : Fmt K} {q : VMQuery K} {i : Nat} {er : ErrorHandler} {fs fs' : Files} {lon lat e v : K} {q' : VMQuery K}
    (h : valueAt fmt (asking q i er) fs lon lat e = .ok (v, q', fs')) : ValueAt fmt q i lon lat e v ∧ Later q i er q' := by
  rcases valueAt_cases fmt q i lon lat e with ⟨h1, -⟩ | ⟨v', w, hw, h1, -, h2⟩
  · rw [h1] at h; cases h
  · obtain ⟨f, h3⟩ := h2 er fs
    rw [h3] at h; cases h
    exact ⟨h1, w, hw.1, hw.2, rfl⟩

theorem valueAt_forth {fmt : Fmt K} {q : VMQuery K} {i : Nat} {lon lat e v : K} (h : ValueAt fmt q i lon lat e v) (er : ErrorHandler)
    (fs : Files) : ∃ er' fs', valueAt fmt (asking q i er) fs lon lat e = .ok (v, asking q i er', fs') := by
  rcases valueAt_cases fmt q i lon lat e with ⟨-, h1⟩ | ⟨v', w, -, h1, -, h2⟩
  · exact absurd h (h1 v)
  · obtain rfl := valueAt_unique h h1
    obtain ⟨f, h3⟩ := h2 er fs
    exact ⟨_, f, h3⟩

theorem valueAt_congr {fmt : Fmt K} {q : VMQuery K} {i j : Nat} {er : ErrorHandler} {lon lat e v : K} :
    ValueAt fmt (asking q j er) i lon lat e v ↔ ValueAt fmt q i lon lat e v := by
  constructor
  · rintro ⟨r, f, h⟩
    have h1 : valueAt fmt (asking q i er) (fun _ => "") lon lat e = .ok (v, r, f) := by
      unfold valueAt
      rw [show VMQuery.query fmt (asking q i er) (fun _ => "") 1 lon lat e = _ from h]; rfl
    exact (valueAt_back h1).1
  · intro h
    obtain ⟨er', fs', h1⟩ := valueAt_forth h er (fun _ => "")
    unfold valueAt at h1
    cases h2 : VMQuery.query fmt (asking q i er) (fun _ => "") 1 lon lat e with
    | ub => rw [h2] at h1; cases h1
    | exc m => rw [h2] at h1; cases h1
    | ok r =>
      rw [h2, Outcome.bind_ok] at h1
      obtain ⟨r, f, vals⟩ := r
      dsimp only at h1
      split at h1
      · next x hx => cases h1; exact ⟨_, _, h2⟩
      · cases h1

theorem setQueryVals_vs (q : VMQuery K) : VMQuery.setQueryVals q ["Vs"] 1 = .ok (asking q 1 q.err) := rfl
theorem setQueryVals_elev (q : VMQuery K) : VMQuery.setQueryVals q ["Elevation"] 1 = .ok (asking q 8 q.err) := rfl

/-! ### The search -/

section
variable [IsStrictOrderedRing K]

/-- What the search needs of the middles between elevations of `D` from `l0` to `u0`: they are again such elevations, not outside
the two, and half-way up to `ε`. -/
def MiddleOk (ar : Arith K) (D : K → Prop) (l0 u0 ε : K) : Prop :=
  ∀ l u, D l → D u → l0 ≤ l → l ≤ u → u ≤ u0 →
    D (ar.middle u l) ∧ l ≤ ar.middle u l ∧ ar.middle u l ≤ u ∧ |ar.middle u l - (u + l) / 2| ≤ ε

theorem MiddleOk.sub {ar : Arith K} {D : K → Prop} {l0 u0 l u ε : K} (h : MiddleOk ar D l0 u0 ε) (hl : l0 ≤ l) (hu : u ≤ u0) :
    MiddleOk ar D l u ε := fun x y hx hy h1 h2 h3 => h x y hx hy (hl.trans h1) h2 (h3.trans hu)

theorem decideRound_next {t u m l vU vL vM u' l' e : K} (h : decideRound t u m l vU vL vM = .next u' l' e) :
    e = l' ∧ ((u' = u ∧ l' = m ∧ vU < t ∧ t ≤ vM) ∨ (u' = m ∧ l' = l ∧ vM < t ∧ t ≤ vL)) := by
  unfold decideRound at h
  split at h
  · next h1 => cases h; exact ⟨rfl, Or.inl ⟨rfl, rfl, h1⟩⟩
  · split at h
    · next h1 => cases h; exact ⟨rfl, Or.inr ⟨rfl, rfl, h1⟩⟩
    · split at h
      · cases h
      · split at h <;> cases h

theorem decideRound_bracket {t u m l vU vL vM : K} (h1 : vU < t) (h2 : t ≤ vL) : ∃ u' l', decideRound t u m l vU vL vM = .next u' l' l' := by
  unfold decideRound
  by_cases hm : t ≤ vM
  · rw [if_pos ⟨h1, hm⟩]; exact ⟨_, _, rfl⟩
  · rw [if_neg (fun h => hm h.2), if_pos ⟨not_le.1 hm, h2⟩]; exact ⟨_, _, rfl⟩

/-- One iteration, in terms of the speeds. -/
theorem searchRound_back {ar : Arith K} {fmt : Fmt K} {q : VMQuery K} {er : ErrorHandler} {fs fs' : Files} {t lon lat u l : K} {r : Round K} {q' : VMQuery K}
    (h : searchRound ar fmt t lon lat u l (asking q 1 er) fs = .ok (r, q', fs')) :
    ∃ vU vL vM, ValueAt fmt q 1 lon lat u vU ∧ ValueAt fmt q 1 lon lat l vL ∧ ValueAt fmt q 1 lon lat (ar.middle u l) vM ∧
      r = decideRound t u (ar.middle u l) l vU vL vM ∧ Later q 1 er q' := by
  unfold searchRound at h
  cases hu : valueAt fmt (asking q 1 er) fs lon lat u with
  | ub => rw [hu] at h; cases h
  | exc m => rw [hu] at h; cases h
  | ok ru =>
  obtain ⟨vU, q1, f1⟩ := ru
  obtain ⟨a1, w1, r1, s1, rfl⟩ := valueAt_back hu
  rw [hu, Outcome.bind_ok] at h
  dsimp only at h
  cases hl : valueAt fmt (asking q 1 (VMQuery.mark er w1)) f1 lon lat l with
  | ub => rw [hl] at h; cases h
  | exc m => rw [hl] at h; cases h
  | ok rl =>
  obtain ⟨vL, q2, f2⟩ := rl
  obtain ⟨a2, w2, r2, s2, rfl⟩ := valueAt_back hl
  rw [hl, Outcome.bind_ok] at h
  dsimp only at h
  cases hm : valueAt fmt (asking q 1 (VMQuery.mark (VMQuery.mark er w1) w2)) f2 lon lat (ar.middle u l) with
  | ub => rw [hm] at h; cases h
  | exc m => rw [hm] at h; cases h
  | ok rm =>
  obtain ⟨vM, q3, f3⟩ := rm
  obtain ⟨a3, hlt⟩ := valueAt_back hm
  rw [hm, Outcome.bind_ok] at h
  cases h
  exact ⟨vU, vL, vM, a1, a2, a3, rfl, (hlt.trans r2 s2).trans r1 s1⟩

theorem searchRound_forth {ar : Arith K} {fmt : Fmt K} {q : VMQuery K} {t lon lat u l vU vL vM : K} (hu : ValueAt fmt q 1 lon lat u vU)
    (hl : ValueAt fmt q 1 lon lat l vL) (hm : ValueAt fmt q 1 lon lat (ar.middle u l) vM) (er : ErrorHandler) (fs : Files) :
    ∃ er' fs', searchRound ar fmt t lon lat u l (asking q 1 er) fs =
      .ok (decideRound t u (ar.middle u l) l vU vL vM, asking q 1 er', fs') := by
  unfold searchRound
  obtain ⟨e1, f1, h1⟩ := valueAt_forth hu er fs
  obtain ⟨e2, f2, h2⟩ := valueAt_forth hl e1 f1
  obtain ⟨e3, f3, h3⟩ := valueAt_forth hm e2 f2
  refine ⟨e3, f3, ?_⟩
  rw [h1, Outcome.bind_ok]
  dsimp only
  rw [h2, Outcome.bind_ok]
  dsimp only
  rw [h3, Outcome.bind_ok]

/-- From a bracket the search goes on to the end and reports the lower end of the last bracket. -/
theorem searchLoop_bracket {ar : Arith K} {D : K → Prop} {ε : K} {fmt : Fmt K} {q : VMQuery K} {t lon lat : K} (n : Nat) :
    ∀ {u l vU vL : K} {er : ErrorHandler} {fs : Files} {r : Option K × VMQuery K × Files}, MiddleOk ar D l u ε → D l → D u →
      l ≤ u → ValueAt fmt q 1 lon lat u vU → vU < t →
      ValueAt fmt q 1 lon lat l vL → t ≤ vL → searchLoop ar fmt t lon lat n u l l (asking q 1 er) fs = .ok r →
      Later q 1 er r.2.1 ∧
      ∃ e, r.1 = some e ∧ l ≤ e ∧ e < u ∧ (∃ v, ValueAt fmt q 1 lon lat e v ∧ t ≤ v) ∧
        ∃ e' v', e < e' ∧ e' ≤ u ∧ e' - e ≤ (u - l) / 2 ^ n + 2 * ε * (1 - 1 / 2 ^ n) ∧ ValueAt fmt q 1 lon lat e' v' ∧ v' < t := by
  induction n with
  | zero =>
    intro u l vU vL er fs r hmid dl du hlu hu htu hl htl h
    unfold searchLoop at h
    cases h
    have hne : l < u := lt_of_le_of_ne hlu (by rintro rfl; rw [valueAt_unique hl hu] at htl; exact absurd htu (not_lt.2 htl))
    exact ⟨Later.refl q 1 er, l, rfl, le_refl l, hne, ⟨vL, hl, htl⟩, u, vU, hne, le_refl u, by simp, hu, htu⟩
  | succ n ih =>
    intro u l vU vL er fs r hmid dl du hlu hu htu hl htl h
    unfold searchLoop at h
    cases hr : searchRound ar fmt t lon lat u l (asking q 1 er) fs with
    | ub => rw [hr] at h; cases h
    | exc m => rw [hr] at h; cases h
    | ok rr =>
    obtain ⟨rd, q', fs'⟩ := rr
    obtain ⟨vU', vL', vM, a1, a2, a3, rfl, w, hw, hw', rfl⟩ := searchRound_back hr
    obtain rfl := valueAt_unique hu a1
    obtain rfl := valueAt_unique hl a2
    rw [hr, Outcome.bind_ok] at h
    obtain ⟨dm, hml, hmu, hme⟩ := hmid l u dl du le_rfl hlu le_rfl
    obtain ⟨u', l', hd⟩ := decideRound_bracket (vM := vM) (u := u) (m := ar.middle u l) (l := l) htu htl
    rw [hd] at h
    dsimp only at h
    generalize hM : ar.middle u l = M at *
    have key : ∀ x : K, x ≤ (u - l) / 2 + ε → x / 2 ^ n + 2 * ε * (1 - 1 / 2 ^ n) ≤ (u - l) / 2 ^ (n + 1) + 2 * ε * (1 - 1 / 2 ^ (n + 1)) := by
      intro x hx
      have e1 : (u - l) / 2 ^ (n + 1) + 2 * ε * (1 - 1 / 2 ^ (n + 1)) = ((u - l) / 2 + ε) / 2 ^ n + 2 * ε * (1 - 1 / 2 ^ n) := by
        rw [pow_succ]; field_simp; ring
      rw [e1]
      exact add_le_add_left (div_le_div_of_nonneg_right hx (by positivity)) _
    have hme' := abs_le.1 hme
    rcases (decideRound_next hd).2 with ⟨rfl, rfl, b1, b2⟩ | ⟨rfl, rfl, b1, b2⟩
    · obtain ⟨hst, e, h1, h2, h3, h4, e', v', h5, h6, h7, h8⟩ := ih (hmid.sub hml le_rfl) dm du hmu hu htu a3 b2 h
      exact ⟨hst.trans hw hw', e, h1, hml.trans h2, h3, h4, e', v', h5, h6, h7.trans (key _ (by linarith [hme'.1])), h8⟩
    · obtain ⟨hst, e, h1, h2, h3, h4, e', v', h5, h6, h7, h8⟩ := ih (hmid.sub le_rfl hmu) dl dm hml a3 b1 hl htl h
      exact ⟨hst.trans hw hw', e, h1, h2, h3.trans_le hmu, h4, e', v', h5, h6.trans hmu, h7.trans (key _ (by linarith [hme'.2])), h8⟩

/-- A search of at least one iteration. -/
theorem searchLoop_back {ar : Arith K} {D : K → Prop} {ε : K} {fmt : Fmt K} {q : VMQuery K} {t lon lat u l e0 : K} {n : Nat} {er : ErrorHandler} {fs : Files}
    {r : Option K × VMQuery K × Files} (hmid : MiddleOk ar D l u ε) (dl : D l) (du : D u) (hlu : l ≤ u)
    (h : searchLoop ar fmt t lon lat (n + 1) u l e0 (asking q 1 er) fs = .ok r) :
    Later q 1 er r.2.1 ∧ ∃ vU vL vM, ValueAt fmt q 1 lon lat u vU ∧ ValueAt fmt q 1 lon lat l vL ∧
      ValueAt fmt q 1 lon lat (ar.middle u l) vM ∧
      ((r.1 = none ∧ vU < t ∧ vM < t ∧ vL < t ∧ 0 ≤ vL) ∨
       (r.1 = some 1000000 ∧ vU < t ∧ vM < t ∧ vL < t ∧ vL < 0) ∨
       (r.1 = some u ∧ t ≤ vU ∧ ¬ (vM < t ∧ t ≤ vL)) ∨
       (((vU < t ∧ t ≤ vM) ∨ (vM < t ∧ t ≤ vL)) ∧ ∃ e, r.1 = some e ∧ l ≤ e ∧ e < u ∧ (∃ v, ValueAt fmt q 1 lon lat e v ∧ t ≤ v) ∧
        ∃ e' v', e < e' ∧ e' ≤ u ∧ e' - e ≤ (u - l) / 2 ^ (n + 1) + 2 * ε * (1 - 1 / 2 ^ (n + 1)) ∧ ValueAt fmt q 1 lon lat e' v' ∧ v' < t)) := by
  unfold searchLoop at h
  cases hr : searchRound ar fmt t lon lat u l (asking q 1 er) fs with
  | ub => rw [hr] at h; cases h
  | exc m => rw [hr] at h; cases h
  | ok rr =>
  obtain ⟨rd, q', fs'⟩ := rr
  obtain ⟨vU, vL, vM, a1, a2, a3, rfl, w, hw, hw', rfl⟩ := searchRound_back hr
  rw [hr, Outcome.bind_ok] at h
  obtain ⟨dm, hml, hmu, hme⟩ := hmid l u dl du le_rfl hlu le_rfl
  dsimp only at h
  generalize ar.middle u l = M at *
  have hme' := abs_le.1 hme
  have key : ∀ x : K, x ≤ (u - l) / 2 + ε → x / 2 ^ n + 2 * ε * (1 - 1 / 2 ^ n) ≤ (u - l) / 2 ^ (n + 1) + 2 * ε * (1 - 1 / 2 ^ (n + 1)) := by
    intro x hx
    have e1 : (u - l) / 2 ^ (n + 1) + 2 * ε * (1 - 1 / 2 ^ (n + 1)) = ((u - l) / 2 + ε) / 2 ^ n + 2 * ε * (1 - 1 / 2 ^ n) := by
      rw [pow_succ]; field_simp; ring
    rw [e1]
    exact add_le_add_left (div_le_div_of_nonneg_right hx (by positivity)) _
  by_cases c1 : t > vU ∧ t ≤ vM
  · have hd : decideRound t u M l vU vL vM = .next u M M := by unfold decideRound; rw [if_pos c1]
    rw [hd] at h
    obtain ⟨hst, e, h1, h2, h3, h4, e', v', h5, h6, h7, h8⟩ := searchLoop_bracket n (hmid.sub hml le_rfl) dm du hmu a1 c1.1 a3 c1.2 h
    exact ⟨hst.trans hw hw', vU, vL, vM, a1, a2, a3, Or.inr (Or.inr (Or.inr ⟨Or.inl c1, e, h1, hml.trans h2, h3, h4, e', v', h5, h6,
      h7.trans (key _ (by linarith [hme'.1])), h8⟩))⟩
  by_cases c2 : t > vM ∧ t ≤ vL
  · have hd : decideRound t u M l vU vL vM = .next M l l := by unfold decideRound; rw [if_neg c1, if_pos c2]
    rw [hd] at h
    obtain ⟨hst, e, h1, h2, h3, h4, e', v', h5, h6, h7, h8⟩ := searchLoop_bracket n (hmid.sub le_rfl hmu) dl dm hml a3 c2.1 a2 c2.2 h
    exact ⟨hst.trans hw hw', vU, vL, vM, a1, a2, a3, Or.inr (Or.inr (Or.inr ⟨Or.inr c2, e, h1, h2, h3.trans_le hmu, h4, e', v', h5, h6.trans hmu,
      h7.trans (key _ (by linarith [hme'.2])), h8⟩))⟩
  by_cases c3 : t ≤ vU
  · have hd : decideRound t u M l vU vL vM = .done u := by unfold decideRound; rw [if_neg c1, if_neg c2, if_pos c3]
    rw [hd] at h
    cases h
    exact ⟨⟨w, hw, hw', rfl⟩, vU, vL, vM, a1, a2, a3, Or.inr (Or.inr (Or.inl ⟨rfl, c3, c2⟩))⟩
  have b1 : vU < t := not_le.1 c3
  have b2 : vM < t := not_le.1 fun hm => c1 ⟨b1, hm⟩
  have b3 : vL < t := not_le.1 fun hm => c2 ⟨b2, hm⟩
  by_cases c4 : vL < 0
  · have hd : decideRound t u M l vU vL vM = .done 1000000 := by unfold decideRound; rw [if_neg c1, if_neg c2, if_neg c3, if_pos c4]
    rw [hd] at h
    cases h
    exact ⟨⟨w, hw, hw', rfl⟩, vU, vL, vM, a1, a2, a3, Or.inr (Or.inl ⟨rfl, b1, b2, b3, c4⟩)⟩
  · have hd : decideRound t u M l vU vL vM = .exit := by unfold decideRound; rw [if_neg c1, if_neg c2, if_neg c3, if_neg c4]
    rw [hd] at h
    cases h
    exact ⟨⟨w, hw, hw', rfl⟩, vU, vL, vM, a1, a2, a3, Or.inl ⟨rfl, b1, b2, b3, not_lt.1 c4⟩⟩

/-- The search ends if the speeds between the limits are defined. -/
theorem searchLoop_total {ar : Arith K} {D : K → Prop} {ε : K} {fmt : Fmt K} {q : VMQuery K} {t lon lat : K} (n : Nat) :
    ∀ {u l e0 : K} (er : ErrorHandler) (fs : Files), MiddleOk ar D l u ε → D l → D u → l ≤ u →
    (∀ e, l ≤ e → e ≤ u → ∃ v, ValueAt fmt q 1 lon lat e v) → ∃ r, searchLoop ar fmt t lon lat n u l e0 (asking q 1 er) fs = .ok r := by
  induction n with
  | zero => intro u l e0 er fs _ _ _ _ _; exact ⟨_, rfl⟩
  | succ n ih =>
    intro u l e0 er fs hmid dl du hlu hv
    obtain ⟨dm, hml, hmu, -⟩ := hmid l u dl du le_rfl hlu le_rfl
    obtain ⟨vU, a1⟩ := hv u hlu le_rfl
    obtain ⟨vL, a2⟩ := hv l le_rfl hlu
    obtain ⟨vM, a3⟩ := hv _ hml hmu
    obtain ⟨er', fs', h⟩ := searchRound_forth (t := t) a1 a2 a3 er fs
    unfold searchLoop
    rw [h, Outcome.bind_ok]
    dsimp only
    cases hd : decideRound t u (ar.middle u l) l vU vL vM with
    | done e => exact ⟨_, rfl⟩
    | exit => exact ⟨_, rfl⟩
    | next u' l' e =>
      dsimp only
      rcases (decideRound_next hd).2 with ⟨h1, h2, -⟩ | ⟨h1, h2, -⟩
      · rw [h1, h2]; exact ih er' fs' (hmid.sub hml le_rfl) dm du hmu fun e h1 h2 => hv e (hml.trans h1) h2
      · rw [h1, h2]; exact ih er' fs' (hmid.sub le_rfl hmu) dl dm hml fun e h1 h2 => hv e h1 (h2.trans hmu)

variable [FloorRing K]

theorem middle_exact (u l : K) : (Arith.exact : Arith K).middle u l = (u + l) / 2 := by
  show (0.5 : K) * (u + l) = _
  norm_num; ring

theorem middleOk_exact (l0 u0 : K) : MiddleOk Arith.exact (fun _ => True) l0 u0 0 := by
  intro l u _ _ _ h _
  rw [middle_exact]
  exact ⟨trivial, by linarith, by linarith, by simp⟩

theorem niters_eq {u l : K} (h : l < u) : niters .exact u l = .ok (1 + Int.clog 2 ((u - l) / 25)) :=
  if_pos (show (0 : K) < (u - l) / 25 from div_pos (by linarith) (by norm_num))

/-- Enough iterations for a bracket of at most 12.5, and not more. -/
theorem niters_width {u l : K} (h : 12.5 < u - l) : ∃ n : Nat, (1 + Int.clog 2 ((u - l) / 25)).toNat = n + 1 ∧
    (u - l) / 2 ^ (n + 1) ≤ 12.5 ∧ 6.25 < (u - l) / 2 ^ (n + 1) := by
  have hpos : (0 : K) < (u - l) / 25 := by
    have : (0 : K) < u - l := lt_trans (by norm_num) h
    positivity
  have h1 := Int.self_le_zpow_clog (R := K) (b := 2) (by norm_num) ((u - l) / 25)
  have h2 := Int.zpow_pred_clog_lt_self (R := K) (b := 2) (by norm_num) hpos
  have h0 : 0 ≤ Int.clog 2 ((u - l) / 25) := by
    by_contra hc
    have hc : Int.clog 2 ((u - l) / 25) ≤ -1 := by omega
    have h3 : ((2 : Nat) : K) ^ Int.clog 2 ((u - l) / 25) ≤ ((2 : Nat) : K) ^ (-1 : Int) := zpow_le_zpow_right₀ (by norm_num) hc
    have h4 : (u - l) / 25 ≤ 1 / 2 := by
      refine (h1.trans h3).trans ?_
      norm_num
    norm_num at h
    linarith
  obtain ⟨n, hn⟩ := Int.eq_ofNat_of_zero_le h0
  rw [hn] at h1 h2 ⊢
  refine ⟨n, by omega, ?_, ?_⟩
  · rw [div_le_iff₀ (by positivity), pow_succ]
    have : (u - l) / 25 ≤ 2 ^ n := by simpa using h1
    norm_num
    linarith
  · rw [lt_div_iff₀ (by positivity), pow_succ]
    have h5 : ((2 : Nat) : K) ^ (((n : Nat) : Int) - 1) = 2 ^ n / 2 := by
      rw [zpow_sub_one₀ (by norm_num)]; simp; ring
    rw [h5] at h2
    norm_num
    linarith

end

end IsoApp
end CenCalVM
