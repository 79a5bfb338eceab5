/-
Lemmas about the conversion of a location with numbers that may be infinite or not a number.
-/
import Verif.Model.Ieee
import Verif.Lemmas.GeomFloat

set_option linter.unusedSectionVars false

namespace CenCalVM
namespace Num
variable {K : Type} [Field K] [LinearOrder K] {rd : K → K}

theorem ofExact_eq_fin {x v : K} : ofExact rd x = .fin v ↔ |rd x| ≤ maxDouble ∧ rd x = v := by
  unfold ofExact; split <;> simp_all

theorem ofExact_ne_nan (x : K) : ofExact rd x ≠ .nan := by
  unfold ofExact; split <;> simp

theorem add_eq_fin {a b : Num K} {v : K} :
    add rd a b = .fin v ↔ ∃ x y, a = .fin x ∧ b = .fin y ∧ ofExact rd (x + y) = .fin v := by
  constructor
  · intro h
    cases a <;> cases b <;> simp only [add] at h <;> first | exact ⟨_, _, rfl, rfl, h⟩ | cases h | (split at h <;> cases h)
  · rintro ⟨x, y, rfl, rfl, h⟩
    exact h

theorem neg_eq_fin {a : Num K} {v : K} : neg a = .fin v ↔ a = .fin (-v) := by
  cases a <;> simp [neg, neg_eq_iff_eq_neg]

theorem sub_eq_fin {a b : Num K} {v : K} :
    sub rd a b = .fin v ↔ ∃ x y, a = .fin x ∧ b = .fin y ∧ ofExact rd (x - y) = .fin v := by
  unfold sub
  rw [add_eq_fin]
  constructor
  · rintro ⟨x, y, ha, hb, h⟩
    exact ⟨x, -y, ha, neg_eq_fin.1 hb, by rwa [sub_neg_eq_add]⟩
  · rintro ⟨x, y, ha, hb, h⟩
    exact ⟨x, -y, ha, neg_eq_fin.2 (by rwa [neg_neg]), by rwa [← sub_eq_add_neg]⟩

theorem mul_eq_fin {a : Num K} {c v : K} : mul rd a c = .fin v ↔ ∃ x, a = .fin x ∧ ofExact rd (x * c) = .fin v := by
  constructor
  · intro h
    cases a <;> simp only [mul] at h <;> first | exact ⟨_, rfl, h⟩ | cases h | (split at h <;> cases h)
  · rintro ⟨x, rfl, h⟩
    exact h

/-- A sum is not a number only if a summand is not or both are infinite, with different signs. -/
theorem add_eq_nan {a b : Num K} (ha : a ≠ .nan) (hb : b ≠ .nan) (h : add rd a b = .nan) : ∃ s, a = .inf s ∧ b = .inf (!s) := by
  cases a with
  | nan => exact absurd rfl ha
  | fin x =>
    cases b with
    | nan => exact absurd rfl hb
    | fin y => exact absurd h (ofExact_ne_nan _)
    | inf t => cases h
  | inf s =>
    cases b with
    | nan => exact absurd rfl hb
    | fin y => cases h
    | inf t =>
      refine ⟨s, rfl, ?_⟩
      cases s <;> cases t <;> simp_all [add]

theorem sub_fin_ne_nan {a : Num K} (ha : a ≠ .nan) (y : K) : sub rd a (.fin y) ≠ .nan := by
  intro h
  obtain ⟨s, -, h2⟩ := add_eq_nan ha (by simp [neg]) h
  simp [neg] at h2

theorem mul_ne_nan {a : Num K} (ha : a ≠ .nan) {c : K} (hc : c ≠ 0) : mul rd a c ≠ .nan := by
  cases a with
  | nan => exact absurd rfl ha
  | fin x => exact ofExact_ne_nan _
  | inf s => simp [mul, hc]

theorem neg_ne_nan {a : Num K} (ha : a ≠ .nan) : neg a ≠ .nan := by
  cases a <;> simp_all [neg]

end Num

namespace GeomCenCA
open Num
variable {K : Type} [Field K] [LinearOrder K] [IsStrictOrderedRing K] [FloorRing K]

section
variable {rd : K → K}

/-- A coordinate along the first root axis is finite only if it was computed from finite numbers, and then without overflow. -/
theorem rootPNum_fin {f : Frame K} {x y : Num K} {p : K} (h : rootPNum rd f x y = .fin p) :
    ∃ x' y', x = .fin x' ∧ y = .fin y' ∧ p = rootPFl rd f x' y' := by
  obtain ⟨u, v, hu, hv, h3⟩ := sub_eq_fin.1 h
  obtain ⟨u', hu', e1⟩ := mul_eq_fin.1 hu
  obtain ⟨v', hv', e2⟩ := mul_eq_fin.1 hv
  obtain ⟨x', a, hx, ha, e3⟩ := sub_eq_fin.1 hu'
  obtain ⟨y', b, hy, hb, e4⟩ := sub_eq_fin.1 hv'
  cases ha; cases hb
  refine ⟨x', y', hx, hy, ?_⟩
  rw [ofExact_eq_fin] at h3 e1 e2 e3 e4
  unfold rootPFl
  rw [e3.2, e4.2, e1.2, e2.2, h3.2]

theorem rootQNum_fin {f : Frame K} {x y : Num K} {p : K} (h : rootQNum rd f x y = .fin p) :
    ∃ x' y', x = .fin x' ∧ y = .fin y' ∧ p = rootQFl rd f x' y' := by
  obtain ⟨u, v, hu, hv, h3⟩ := add_eq_fin.1 h
  obtain ⟨u', hu', e1⟩ := mul_eq_fin.1 hu
  obtain ⟨v', hv', e2⟩ := mul_eq_fin.1 hv
  obtain ⟨x', a, hx, ha, e3⟩ := sub_eq_fin.1 hu'
  obtain ⟨y', b, hy, hb, e4⟩ := sub_eq_fin.1 hv'
  cases ha; cases hb
  refine ⟨x', y', hx, hy, ?_⟩
  rw [ofExact_eq_fin] at h3 e1 e2 e3 e4
  unfold rootQFl
  rw [e3.2, e4.2, e1.2, e2.2, h3.2]

theorem rootRNum_fin {elev : Num K} {r : K} (h : rootRNum rd elev = .fin r) : ∃ e, elev = .fin e ∧ r = rootRFl rd e := by
  obtain ⟨u, v, hu, hv, h3⟩ := add_eq_fin.1 h
  obtain ⟨u', hu', e1⟩ := mul_eq_fin.1 hu
  obtain ⟨x', a, hx, ha, e3⟩ := sub_eq_fin.1 hu'
  cases ha; cases hv
  refine ⟨x', hx, ?_⟩
  rw [ofExact_eq_fin] at h3 e1 e3
  unfold rootRFl
  rw [e3.2, e1.2, h3.2]

end

variable {ri : IntRound K}

theorem maxDouble_exact : fl ri 53 (maxDouble : K) = maxDouble :=
  dbl_exact (2 ^ 53 - 1) (971 : ℕ) (by unfold maxDouble; rw [zpow_natCast]; push_cast; congr 1; norm_num) (by norm_num)

theorem neg_maxDouble_exact : fl ri 53 (-maxDouble : K) = -maxDouble :=
  dbl_exact (-(2 ^ 53 - 1)) (971 : ℕ) (by unfold maxDouble; rw [zpow_natCast, ← neg_mul]; push_cast; congr 1; norm_num) (by norm_num)

/-- Rounding does not overflow. -/
theorem abs_fl_le {x : K} (h : |x| ≤ maxDouble) : |fl ri 53 x| ≤ maxDouble := by
  rw [abs_le] at h ⊢
  have h1 := fl_mono (ri := ri) (prec := 53) (by norm_num) h.1
  have h2 := fl_mono (ri := ri) (prec := 53) (by norm_num) h.2
  rw [neg_maxDouble_exact] at h1
  rw [maxDouble_exact] at h2
  exact ⟨h1, h2⟩

theorem ofExact_fin {x : K} (h : |x| ≤ maxDouble) : ofExact (fl ri 53) x = .fin (fl ri 53 x) :=
  ofExact_eq_fin.2 ⟨abs_fl_le h, rfl⟩

theorem le_maxDouble {x : K} (h : x ≤ 2 ^ 1023) : x ≤ maxDouble := by
  refine h.trans ?_
  unfold maxDouble
  have h1 : (2 : K) ^ 1023 = 2 ^ 52 * 2 ^ 971 := by rw [← pow_add]
  rw [h1]
  exact mul_le_mul_of_nonneg_right (by norm_num) (by positivity)

/-- Finite coordinates in the closed root interval are converted. -/
theorem tickNum_ok {p : K} (h0 : 0 ≤ p) (h1 : p ≤ ROOTLEN) {l : Nat} (hl : l ≤ 31) :
    tickNum (fl ri 53) (.fin p) l = .ok (tickFl (fl ri 53) p l) := by
  have hR : (0 : K) < ROOTLEN := rootLen_pos
  have e1 : p / edgeLenFl (fl ri 53) l = p / ROOTLEN * 2 ^ (l : ℤ) := by rw [edgeLenFl_eq, div_edgeLen]
  have hp : (2 : K) ^ l ≤ 2 ^ 31 := pow_le_pow_right₀ (by norm_num) hl
  have b0 : 0 ≤ p / edgeLenFl (fl ri 53) l := by rw [e1]; positivity
  have b1 : p / edgeLenFl (fl ri 53) l ≤ 2 ^ 31 := by
    rw [e1, zpow_natCast]
    have : p / ROOTLEN ≤ 1 := (div_le_one hR).2 h1
    calc p / ROOTLEN * 2 ^ l ≤ 1 * 2 ^ l := mul_le_mul_of_nonneg_right this (by positivity)
      _ ≤ 2 ^ 31 := by rwa [one_mul]
  have c0 : 0 ≤ fl ri 53 (p / edgeLenFl (fl ri 53) l) := by
    rcases b0.lt_or_eq with h | h
    · exact (fl_pos (by norm_num) h).le
    · rw [← h]; simp [fl]
  have c1 : fl ri 53 (p / edgeLenFl (fl ri 53) l) ≤ 2 ^ 31 := by
    have := fl_mono (ri := ri) (prec := 53) (by norm_num) b1
    rwa [dbl_exact (x := (2 : K) ^ 31) 1 31 (by push_cast; norm_cast) (by norm_num)] at this
  have hf : ofExact (fl ri 53) (p / edgeLenFl (fl ri 53) l) = .fin (fl ri 53 (p / edgeLenFl (fl ri 53) l)) := by
    apply ofExact_fin
    rw [abs_of_nonneg b0]
    exact le_maxDouble (b1.trans (pow_le_pow_right₀ (by norm_num) (by norm_num)))
  unfold tickNum
  simp only [Num.div, hf]
  rw [if_pos ⟨by linarith, lt_of_le_of_lt c1 (by norm_num)⟩]
  rfl

/-- The test of the code on finite numbers. -/
theorem lt_fin (x y : K) : Num.lt (.fin x) (.fin y) = decide (x < y) := rfl

/-- A product of an infinite number with a constant other than zero. -/
theorem mul_inf (s : Bool) {c : K} (hc : c ≠ 0) (rd : K → K) : mul rd (.inf s) c = .inf (if c < 0 then !s else s) := by
  simp [mul, hc]

/-- A product with a constant of magnitude at most one is infinite only if the other factor is. -/
theorem mul_eq_inf {a : Num K} (ha : ∀ x, a = .fin x → |x| ≤ maxDouble) {c : K} (hc : |c| ≤ 1) {s : Bool}
    (h : mul (fl ri 53) a c = .inf s) : ∃ t, a = .inf t := by
  cases a with
  | nan => cases h
  | inf t => exact ⟨t, rfl⟩
  | fin x =>
    have h1 := ofExact_fin (ri := ri) (abs_mul_le_of_le_one (ha x rfl) hc)
    simp only [mul] at h
    rw [h1] at h
    cases h

theorem sub_fin_le {a b : Num K} {v : K} (h : sub (fl ri 53) a b = .fin v) : |v| ≤ maxDouble := by
  obtain ⟨x, y, -, -, h3⟩ := sub_eq_fin.1 h
  rw [ofExact_eq_fin] at h3
  rw [← h3.2]; exact h3.1

/-- Outside the closed root interval, as the code tests it. -/
def Outs (p : Num K) : Prop := p.lt (.fin 0) = true ∨ Num.lt (.fin ROOTLEN) p = true

theorem outs_inf (s : Bool) : Outs (.inf s : Num K) := by
  cases s <;> simp [Outs, Num.lt]

theorem not_outs_nan : ¬ Outs (.nan : Num K) := by simp [Outs, Num.lt]

theorem outs_fin (p : K) : Outs (.fin p) ↔ p < 0 ∨ ROOTLEN < p := by simp [Outs, Num.lt]

/-- The conversion, by the places of the three coordinates. -/
theorem toAddrNum_out {f : Frame K} {rd : K → K} {project : Num K → Num K → Outcome (Num K × Num K)} {lon lat elev x y : Num K}
    (h : project lon lat = .ok (x, y)) (ho : Outs (rootPNum rd f x y) ∨ Outs (rootQNum rd f x y) ∨ Outs (rootRNum rd elev))
    (a : Addr) (hl : a.level ≤ 31) :
    lonLatElevToAddrNum rd f project a lon lat elev = .ok ({ a with x := -1, y := -1, z := -1 }, 1) := by
  unfold lonLatElevToAddrNum
  rw [if_pos (by omega), h]
  simp only
  rw [if_pos]
  simp only [Bool.or_eq_true]
  unfold Outs at ho
  tauto

theorem toAddrNum_in {f : Frame K} {rd : K → K} {project : Num K → Num K → Outcome (Num K × Num K)} {lon lat elev x y : Num K}
    (h : project lon lat = .ok (x, y)) (ho : ¬ (Outs (rootPNum rd f x y) ∨ Outs (rootQNum rd f x y) ∨ Outs (rootRNum rd elev)))
    (a : Addr) (hl : a.level ≤ 31) :
    lonLatElevToAddrNum rd f project a lon lat elev =
      match tickNum rd (rootPNum rd f x y) a.level, tickNum rd (rootQNum rd f x y) a.level, tickNum rd (rootRNum rd elev) a.level with
        | .ok i, .ok j, .ok k => .ok ({ a with x := i, y := j, z := k }, 0)
        | _, _, _ => .ub := by
  unfold lonLatElevToAddrNum
  rw [if_pos (by omega), h]
  dsimp only
  rw [if_neg]
  · rfl
  · simp only [Bool.or_eq_true]
    unfold Outs at ho
    tauto

theorem tickNum_fin {rd : K → K} {p : Num K} {l : Nat} {t : BitVec 32} (h : tickNum rd p l = .ok t) : ∃ v, p = .fin v := by
  cases p with
  | fin v => exact ⟨v, rfl⟩
  | inf s => simp [tickNum, Num.div] at h
  | nan => simp [tickNum, Num.div] at h

/-- Coordinates that are all finite and inside give the address of the geometry on finite numbers. -/
theorem toAddrNum_fin {f : Frame K} {project : Num K → Num K → Outcome (Num K × Num K)} {lon lat : Num K} {x y elev : K}
    (h : project lon lat = .ok (.fin x, .fin y))
    (hp : rootPNum (fl ri 53) f (.fin x) (.fin y) = .fin (rootPFl (fl ri 53) f x y))
    (hq : rootQNum (fl ri 53) f (.fin x) (.fin y) = .fin (rootQFl (fl ri 53) f x y))
    (hr : rootRNum (fl ri 53) (.fin elev) = .fin (rootRFl (fl ri 53) elev))
    {proj : Projector K} {lo la : K} (hproj : proj.project lo la = .ok (x, y)) (a : Addr) (hl : a.level ≤ 31) :
    lonLatElevToAddrNum (fl ri 53) f project a lon lat (.fin elev) = lonLatElevToAddrFl (fl ri 53) f proj a lo la elev := by
  unfold lonLatElevToAddrFl
  rw [if_pos (by omega), hproj]
  simp only
  by_cases ho : Outs (rootPNum (fl ri 53) f (.fin x) (.fin y)) ∨ Outs (rootQNum (fl ri 53) f (.fin x) (.fin y)) ∨
      Outs (rootRNum (fl ri 53) (.fin elev))
  · rw [toAddrNum_out h ho a hl, if_pos]
    rw [hp, hq, hr, outs_fin, outs_fin, outs_fin] at ho
    simp only [gt_iff_lt]
    tauto
  · rw [toAddrNum_in h ho a hl]
    rw [hp, hq, hr, outs_fin, outs_fin, outs_fin] at ho
    simp only [not_or, not_lt] at ho
    obtain ⟨⟨p0, p1⟩, ⟨q0, q1⟩, r0, r1⟩ := ho
    rw [if_neg (by simp only [not_or, not_lt, gt_iff_lt]; tauto), hp, hq, hr, tickNum_ok p0 p1 hl, tickNum_ok q0 q1 hl,
      tickNum_ok r0 r1 hl]

end GeomCenCA
end CenCalVM
