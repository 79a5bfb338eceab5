/-
Grading with rounding, compared with exact arithmetic.
-/
import Verif.Spec.GradeFloat
import Verif.Lemmas.GradeRun
import Verif.Lemmas.Float

set_option linter.unusedSectionVars false

namespace CenCalVM
namespace VsGrader
variable {K : Type} [Field K] [LinearOrder K] [IsStrictOrderedRing K]

/-- A rounding changes numbers by at most the factor `g`. -/
def Near (g : K) (f : K → K) : Prop := ∀ x, ∃ c, c ≤ g ∧ 1 ≤ g * c ∧ f x = c * x

/-- The roundings of the grading. -/
structure _root_.CenCalVM.Rd.Near (g : K) (rd : Rd K) : Prop where
  one : 1 ≤ g
  single : VsGrader.Near g rd.single
  double : VsGrader.Near g rd.double
  both : VsGrader.Near g fun x => rd.single (rd.double x)

theorem fl_near [FloorRing K] {ri : IntRound K} {prec : Nat} (x : K) :
    ∃ c, |c - 1| ≤ 1 / 2 ^ (prec - 1) ∧ fl ri prec x = c * x := by
  by_cases hx : x = 0
  · subst hx
    exact ⟨1, by simp, by simp⟩
  · refine ⟨fl ri prec x / x, ?_, by field_simp⟩
    have h := fl_error (ri := ri) (prec := prec) x
    have e : fl ri prec x / x - 1 = (fl ri prec x - x) / x := by field_simp
    rw [e, abs_div, div_le_iff₀ (abs_pos.2 hx)]
    calc _ ≤ _ := h
      _ = _ := by ring

theorem _root_.CenCalVM.Rd.Binary.near [FloorRing K] {rs rdb : IntRound K} {rd : Rd K} (h : rd.Binary rs rdb) : rd.Near (1 + 1 / 2 ^ 22 : K) := by
  have key : ∀ c : K, |c - 1| ≤ 1 / 2 ^ (24 - 1) → c ≤ 1 + 1 / 2 ^ 22 ∧ 1 ≤ (1 + 1 / 2 ^ 22) * c := by
    intro c hc
    have := abs_le.1 hc
    norm_num at this ⊢
    exact ⟨by linarith, by linarith⟩
  have mono : ∀ c : K, |c - 1| ≤ 1 / 2 ^ (53 - 1) → |c - 1| ≤ 1 / 2 ^ (24 - 1) := fun c hc => hc.trans (by norm_num)
  refine ⟨by norm_num, fun x => ?_, fun x => ?_, fun x => ?_⟩
  · obtain ⟨c, h1, h2⟩ := fl_near (ri := rs) (prec := 24) x
    exact ⟨c, (key c h1).1, (key c h1).2, by rw [h.1, h2]⟩
  · obtain ⟨c, h1, h2⟩ := fl_near (ri := rdb) (prec := 53) x
    exact ⟨c, (key c (mono c h1)).1, (key c (mono c h1)).2, by rw [h.2, h2]⟩
  · obtain ⟨c, h1, h2⟩ := fl_near (ri := rdb) (prec := 53) x
    obtain ⟨c', h3, h4⟩ := fl_near (ri := rs) (prec := 24) (fl rdb 53 x)
    have a1 := abs_le.1 h1
    have a2 := abs_le.1 h3
    norm_num at a1 a2
    refine ⟨c' * c, ?_, ?_, by show rd.single (rd.double x) = _; rw [h.1, h.2, h4, h2]; ring⟩
    · have : c' * c ≤ (8388609 / 8388608) * (4503599627370497 / 4503599627370496) :=
        mul_le_mul (by linarith) (by linarith) (by linarith) (by norm_num)
      refine this.trans ?_
      norm_num
    · have : (8388607 / 8388608) * (4503599627370495 / 4503599627370496) ≤ c' * c :=
        mul_le_mul (by linarith) (by linarith) (by norm_num) (by linarith)
      have h3 := mul_le_mul_of_nonneg_left this (show (0 : K) ≤ 1 + 1 / 2 ^ 22 by norm_num)
      refine le_trans ?_ h3
      norm_num

theorem Near.pos_factor {g c : K} (hg : 1 ≤ g) (h : 1 ≤ g * c) : 0 < c := by
  by_contra hc
  have : g * c ≤ 0 := mul_nonpos_of_nonneg_of_nonpos (by linarith) (not_lt.1 hc)
  linarith

theorem Near.within {g : K} {f : K → K} (h : Near g f) {x : K} (hx : 0 ≤ x) : Within g (f x) x := by
  obtain ⟨c, h1, h2, h3⟩ := h x
  rw [h3]
  exact ⟨mul_le_mul_of_nonneg_right h1 hx, by rw [← mul_assoc]; exact le_mul_of_one_le_left hx h2⟩

theorem Near.nonneg {g : K} {f : K → K} (hg : 1 ≤ g) (h : Near g f) {x : K} (hx : 0 ≤ x) : 0 ≤ f x := by
  obtain ⟨c, h1, h2, h3⟩ := h x
  rw [h3]
  exact mul_nonneg (Near.pos_factor hg h2).le hx

theorem Near.pos {g : K} {f : K → K} (hg : 1 ≤ g) (h : Near g f) {x : K} (hx : 0 < x) : 0 < f x := by
  obtain ⟨c, h1, h2, h3⟩ := h x
  rw [h3]
  exact mul_pos (Near.pos_factor hg h2) hx

theorem Near.nonpos {g : K} {f : K → K} (hg : 1 ≤ g) (h : Near g f) {x : K} (hx : x ≤ 0) : f x ≤ 0 := by
  obtain ⟨c, h1, h2, h3⟩ := h x
  rw [h3]
  exact mul_nonpos_of_nonneg_of_nonpos (Near.pos_factor hg h2).le hx

/-! ### Agreement up to a factor -/

theorem Within.refl {r a : K} (hr : 1 ≤ r) (ha : 0 ≤ a) : Within r a a :=
  ⟨le_mul_of_one_le_left ha hr, le_mul_of_one_le_left ha hr⟩

theorem Within.mono {r r' a b : K} (hr : r ≤ r') (ha : 0 ≤ a) (hb : 0 ≤ b) (h : Within r a b) : Within r' a b :=
  ⟨h.1.trans (mul_le_mul_of_nonneg_right hr hb), h.2.trans (mul_le_mul_of_nonneg_right hr ha)⟩

theorem Within.trans {r r' a b c : K} (hr : 0 ≤ r) (hr' : 0 ≤ r') (h : Within r a b) (h' : Within r' b c) : Within (r * r') a c := by
  constructor
  · calc a ≤ r * b := h.1
      _ ≤ r * (r' * c) := mul_le_mul_of_nonneg_left h'.1 hr
      _ = r * r' * c := by ring
  · calc c ≤ r' * b := h'.2
      _ ≤ r' * (r * a) := mul_le_mul_of_nonneg_left h.2 hr'
      _ = r * r' * a := by ring

theorem Within.min_add {r x y m x' y' m' : K} (hr : 0 ≤ r) (hx : Within r x' x) (hy : Within r y' y) (hm : Within r m' m) :
    Within r (min x' (y' + m')) (min x (y + m)) := by
  have h1 : y' + m' ≤ r * (y + m) := by rw [mul_add]; exact add_le_add hy.1 hm.1
  have h2 : y + m ≤ r * (y' + m') := by rw [mul_add]; exact add_le_add hy.2 hm.2
  constructor
  · rw [mul_min_of_nonneg _ _ hr]; exact min_le_min hx.1 h1
  · rw [mul_min_of_nonneg _ _ hr]; exact min_le_min hx.2 h2

/-! ### Limiting a point -/

section
variable {g : K} {rd : Rd K} {m : K}

/-- Limiting a point with rounding. -/
theorem limitPoint_near (h : rd.Near g) (hm : 0 ≤ m) {l : Line K} {i j : Nat} (hi : 0 ≤ (l.data i).vs) (hj : 0 ≤ (l.data j).vs) :
    0 ≤ ((limitPoint rd m l i j).data i).vs ∧
      Within (g ^ 2) ((limitPoint rd m l i j).data i).vs (min (l.data i).vs ((l.data j).vs + m)) := by
  have hg := h.one
  have hg0 : 0 ≤ g := by linarith
  have hg2 : g ≤ g ^ 2 := by rw [pow_two]; exact le_mul_of_one_le_left hg0 hg
  have hym : 0 ≤ (l.data j).vs + m := add_nonneg hj hm
  unfold limitPoint
  split
  · rename_i hgt
    simp only [Function.update_self, reduce]
    have hw := h.both.within hym
    have h0 := h.both.nonneg hg hym
    have hyx : (l.data j).vs ≤ (l.data i).vs := by
      by_contra hc
      have := h.single.nonpos hg (x := (l.data i).vs - (l.data j).vs) (by linarith [not_le.1 hc])
      linarith
    have hx : (l.data j).vs + m ≤ g * (l.data i).vs := by
      have h1 := (h.single.within (x := (l.data i).vs - (l.data j).vs) (by linarith)).1
      have h2 : (l.data j).vs ≤ g * (l.data j).vs := le_mul_of_one_le_left hj hg
      rw [mul_sub] at h1
      linarith
    refine ⟨h0, ?_, ?_⟩
    · rw [mul_min_of_nonneg _ _ (by positivity)]
      refine le_min ?_ (hw.1.trans (mul_le_mul_of_nonneg_right hg2 hym))
      calc _ ≤ _ := hw.1
        _ ≤ g * (g * (l.data i).vs) := mul_le_mul_of_nonneg_left hx hg0
        _ = _ := by ring
    · exact (min_le_right _ _).trans (hw.2.trans (mul_le_mul_of_nonneg_right hg2 h0))
  · rename_i hle
    refine ⟨hi, ?_, (min_le_left _ _).trans (le_mul_of_one_le_left hi (one_le_pow₀ hg))⟩
    rw [mul_min_of_nonneg _ _ (by positivity)]
    refine le_min (le_mul_of_one_le_left hi (one_le_pow₀ hg)) ?_
    rcases le_total (l.data i).vs (l.data j).vs with hc | hc
    · calc (l.data i).vs ≤ (l.data j).vs + m := by linarith
        _ ≤ _ := le_mul_of_one_le_left hym (one_le_pow₀ hg)
    · have h1 := (h.single.within (x := (l.data i).vs - (l.data j).vs) (by linarith)).2
      have h2 : (l.data i).vs - (l.data j).vs ≤ g * m := h1.trans (mul_le_mul_of_nonneg_left (not_lt.1 hle) hg0)
      calc (l.data i).vs ≤ (l.data j).vs + g * m := by linarith
        _ ≤ g * ((l.data j).vs + m) := by
          rw [mul_add]; exact add_le_add (le_mul_of_one_le_left hj hg) le_rfl
        _ ≤ _ := mul_le_mul_of_nonneg_right hg2 hym

/-! ### A line compared with exact arithmetic -/

theorem limitDiff_near (h : rd.Near g) {m' : K} (hm : 0 ≤ m) (hm' : 0 ≤ m') {r : K} (hr : 1 ≤ r) (hmm : Within r m' m) {n : Nat}
    {d d' : Nat → Payload K} (hd : ∀ i < n, 0 ≤ (d i).vs) (hd' : ∀ i < n, 0 ≤ (d' i).vs)
    (hdd : ∀ i < n, Within r (d' i).vs (d i).vs) :
    ∀ i < n, 0 ≤ ((limitDiff rd m' n d').data i).vs ∧ 0 ≤ ((limitDiff .exact m n d).data i).vs ∧
      Within (r * g ^ (4 * n)) ((limitDiff rd m' n d').data i).vs ((limitDiff .exact m n d).data i).vs := by
  have hg := h.one
  have hg0 : 0 ≤ g := by linarith
  have hr0 : 0 ≤ r := by linarith
  -- what a step does
  let S : K → Line K → Line K → Prop := fun q l' l => ∀ i < n, 0 ≤ (l'.data i).vs ∧ 0 ≤ (l.data i).vs ∧
    Within q (l'.data i).vs (l.data i).vs
  have step : ∀ q, r ≤ q → ∀ l' l, S q l' l → ∀ a b, a < n → b < n →
      S (q * g ^ 2) (limitPoint rd m' l' a b) (limitPoint .exact m l a b) := by
    intro q hq l' l hS a b ha hb i hi
    have hq0 : 0 ≤ q := by linarith
    by_cases hia : i = a
    · subst hia
      obtain ⟨a1, a2, a3⟩ := hS i hi
      obtain ⟨b1, b2, b3⟩ := hS b hb
      obtain ⟨c1, c2⟩ := limitPoint_near h hm' a1 b1
      rw [limitPoint_vs]
      refine ⟨c1, le_min a2 (add_nonneg b2 hm), ?_⟩
      rw [mul_comm]
      exact c2.trans (by positivity) hq0 (Within.min_add hq0 a3 b3 (hmm.mono hq hm' hm))
    · rw [(limitPoint_other hia).1, (limitPoint_other hia).1]
      obtain ⟨a1, a2, a3⟩ := hS i hi
      exact ⟨a1, a2, a3.mono (le_mul_of_one_le_right hq0 (one_le_pow₀ hg)) a1 a2⟩
  have hle : ∀ k, r ≤ r * (g ^ 2) ^ k := fun k => le_mul_of_one_le_right hr0 (one_le_pow₀ (one_le_pow₀ hg))
  have up : ∀ k < n, S (r * (g ^ 2) ^ k) (sweepUp rd m' ⟨d', fun _ => false⟩ k) (sweepUp .exact m ⟨d, fun _ => false⟩ k) := by
    intro k
    induction k with
    | zero => intro _ i hi; rw [pow_zero, mul_one]; exact ⟨hd' i hi, hd i hi, hdd i hi⟩
    | succ k ih =>
      intro hk
      rw [pow_succ, ← mul_assoc]
      exact step _ (hle k) _ _ (ih (by omega)) _ _ hk (by omega)
  have down : ∀ k < n, ∀ j l' l, S (r * (g ^ 2) ^ j) l' l → S (r * (g ^ 2) ^ (j + k)) (sweepDown rd m' k l') (sweepDown .exact m k l) := by
    intro k
    induction k with
    | zero => exact fun _ j l' l hS => hS
    | succ k ih =>
      intro hk j l' l hS
      have := ih (by omega) (j + 1) _ _ (by
        have := step _ (hle j) _ _ hS k (k + 1) (by omega) hk
        rw [mul_assoc, ← pow_succ] at this
        exact this)
      rw [show j + (k + 1) = j + 1 + k by omega]
      exact this
  intro i hi
  obtain ⟨a1, a2, a3⟩ := down (n - 1) (by omega) (n - 1) _ _ (up (n - 1) (by omega)) i hi
  refine ⟨a1, a2, a3.mono (mul_le_mul_of_nonneg_left ?_ hr0) a1 a2⟩
  rw [← pow_mul]
  exact pow_le_pow_right₀ hg (by omega)

/-! ### What happens to a single point: it is reduced at most twice -/

theorem limitDiff_twice {n : Nat} {P : Payload K → Prop} {Q : Payload K → Payload K → Prop} (hrefl : ∀ p, P p → Q p p)
    (hstep : ∀ l i j, i < n → j < n → (i = j + 1 ∨ j = i + 1) → (∀ k < n, P (l.data k)) →
      P ((limitPoint rd m l i j).data i) ∧ Q (l.data i) ((limitPoint rd m l i j).data i))
    {d : Nat → Payload K} (hd : ∀ i < n, P (d i)) :
    ∀ i < n, P ((limitDiff rd m n d).data i) ∧ ∃ p, P p ∧ Q (d i) p ∧ Q p ((limitDiff rd m n d).data i) := by
  have hP : ∀ l : Line K, ∀ a b, a < n → b < n → (a = b + 1 ∨ b = a + 1) → (∀ k < n, P (l.data k)) →
      ∀ k < n, P ((limitPoint rd m l a b).data k) := by
    intro l a b ha hb hab hl k hk
    by_cases hka : k = a
    · subst hka; exact (hstep l k b hk hb hab hl).1
    · rw [(limitPoint_other hka).1]; exact hl k hk
  have up : ∀ k < n, (∀ i < n, P ((sweepUp rd m ⟨d, fun _ => false⟩ k).data i)) ∧
      ∀ i < n, Q (d i) ((sweepUp rd m ⟨d, fun _ => false⟩ k).data i) := by
    intro k
    induction k with
    | zero => exact fun _ => ⟨hd, fun i hi => hrefl _ (hd i hi)⟩
    | succ k ih =>
      intro hk
      obtain ⟨i1, i2⟩ := ih (by omega)
      refine ⟨hP _ _ _ hk (by omega) (Or.inl rfl) i1, fun i hi => ?_⟩
      unfold sweepUp
      by_cases hik : i = k + 1
      · subst hik
        have := (hstep _ (k + 1) k hk (by omega) (Or.inl rfl) i1).2
        rw [sweepUp_after m _ (Nat.lt_succ_self k)] at this
        exact this
      · rw [(limitPoint_other hik).1]; exact i2 i hi
  have down : ∀ k < n, ∀ l : Line K, (∀ i < n, P (l.data i)) → (∀ i < n, P ((sweepDown rd m k l).data i)) ∧
      ∀ i < n, Q (l.data i) ((sweepDown rd m k l).data i) := by
    intro k
    induction k with
    | zero => exact fun _ l hl => ⟨hl, fun i hi => hrefl _ (hl i hi)⟩
    | succ k ih =>
      intro hk l hl
      have h1 := hP l k (k + 1) (by omega) hk (Or.inr rfl) hl
      obtain ⟨i1, i2⟩ := ih (by omega) _ h1
      refine ⟨i1, fun i hi => ?_⟩
      unfold sweepDown
      by_cases hik : i = k
      · subst hik
        rw [sweepDown_after m le_rfl]
        exact (hstep l i (i + 1) (by omega) hk (Or.inr rfl) hl).2
      · have := i2 i hi
        rw [(limitPoint_other hik).1] at this
        exact this
  intro i hi
  obtain ⟨u1, u2⟩ := up (n - 1) (by omega)
  obtain ⟨v1, v2⟩ := down (n - 1) (by omega) _ u1
  exact ⟨v1 i hi, _, u1 i hi, u2 i hi, v2 i hi⟩

/-! ### The properties of a point -/

theorem Proportional.refl {r : K} (hr : 1 ≤ r) (a v : K) : Proportional r a v a v := ⟨1, hr, by linarith, by ring⟩

theorem Proportional.mono {r r' a v a' v' : K} (hr0 : 1 ≤ r) (hr : r ≤ r') (h : Proportional r a v a' v') : Proportional r' a v a' v' := by
  obtain ⟨c, h1, h2, h3⟩ := h
  exact ⟨c, h1.trans hr, h2.trans (mul_le_mul_of_nonneg_right hr (Near.pos_factor hr0 h2).le), h3⟩

theorem Proportional.trans {r r' a v a' v' a'' v'' : K} (hr : 1 ≤ r) (hr' : 1 ≤ r') (hv : v' ≠ 0) (h : Proportional r a v a' v')
    (h' : Proportional r' a' v' a'' v'') : Proportional (r * r') a v a'' v'' := by
  obtain ⟨c, h1, h2, h3⟩ := h
  obtain ⟨c', h1', h2', h3'⟩ := h'
  refine ⟨c * c', mul_le_mul h1 h1' (Near.pos_factor hr' h2').le (by linarith), ?_, ?_⟩
  · calc (1 : K) = 1 * 1 := by ring
      _ ≤ (r * c) * (r' * c') := mul_le_mul h2 h2' (by norm_num) (by linarith)
      _ = _ := by ring
  · apply mul_right_cancel₀ hv
    calc a'' * v * v' = (a'' * v') * v := by ring
      _ = c' * v'' * (a' * v) := by rw [h3']; ring
      _ = _ := by rw [h3]; ring

theorem ReducedUpTo.refl {r t : K} (hr : 1 ≤ r) (ht : 1 ≤ t) {p : Payload K} (hp : 0 ≤ p.vs) : ReducedUpTo r t p p :=
  ⟨le_mul_of_one_le_left hp hr, .refl ht _ _, .refl ht _ _, .refl ht _ _, .refl ht _ _, rfl, rfl, rfl⟩

theorem ReducedUpTo.trans {r t r' t' : K} {p q s : Payload K} (hr' : 0 ≤ r') (ht : 1 ≤ t) (ht' : 1 ≤ t') (hq : q.vs ≠ 0)
    (h : ReducedUpTo r t p q) (h' : ReducedUpTo r' t' q s) : ReducedUpTo (r * r') (t * t') p s := by
  refine ⟨?_, h.vp.trans ht ht' hq h'.vp, h.density.trans ht ht' hq h'.density, h.qp.trans ht ht' hq h'.qp, h.qs.trans ht ht' hq h'.qs,
    h'.depth.trans h.depth, h'.faultBlock.trans h.faultBlock, h'.zone.trans h.zone⟩
  calc s.vs ≤ r' * q.vs := h'.le
    _ ≤ r' * (r * p.vs) := mul_le_mul_of_nonneg_left h.le hr'
    _ = _ := by ring

/-- Reducing a payload. -/
theorem reduce_prop (h : rd.Near g) {v w a : K} (hv : 0 < v) (hw : 0 < w) :
    Proportional (g ^ 3) a v (rd.single (rd.double (a * rd.double (w / v)))) (rd.single w) := by
  have hg := h.one
  obtain ⟨c1, a1, b1, e1⟩ := h.both (a * rd.double (w / v))
  obtain ⟨c2, a2, b2, e2⟩ := h.double (w / v)
  obtain ⟨c3, a3, b3, e3⟩ := h.single w
  have p1 := Near.pos_factor hg b1
  have p2 := Near.pos_factor hg b2
  have p3 := Near.pos_factor hg b3
  simp only at e1
  refine ⟨c1 * c2 / c3, ?_, ?_, ?_⟩
  · rw [div_le_iff₀ p3]
    calc c1 * c2 ≤ g * g := mul_le_mul a1 a2 p2.le (by linarith)
      _ = g * g * 1 := by ring
      _ ≤ g * g * (g * c3) := mul_le_mul_of_nonneg_left b3 (by positivity)
      _ = _ := by ring
  · rw [← mul_div_assoc, le_div_iff₀ p3]
    calc 1 * c3 ≤ g := by linarith
      _ = g * (1 * 1) := by ring
      _ ≤ g * ((g * c1) * (g * c2)) := mul_le_mul_of_nonneg_left (mul_le_mul b1 b2 (by norm_num) (by linarith)) (by linarith)
      _ = _ := by ring
  · rw [e1, e2, e3]
    field_simp

theorem limitPoint_reduced (h : rd.Near g) (hm : 0 ≤ m) {l : Line K} {i j : Nat} (hi : 0 < (l.data i).vs) (hj : 0 < (l.data j).vs) :
    0 < ((limitPoint rd m l i j).data i).vs ∧ ReducedUpTo (g ^ 2) (g ^ 3) (l.data i) ((limitPoint rd m l i j).data i) := by
  have hg := h.one
  have hn := limitPoint_near h hm hi.le hj.le
  have hle : ((limitPoint rd m l i j).data i).vs ≤ g ^ 2 * (l.data i).vs :=
    hn.2.1.trans (mul_le_mul_of_nonneg_left (min_le_left _ _) (by positivity))
  have hpos : 0 < ((limitPoint rd m l i j).data i).vs := by
    have h1 : 0 < min (l.data i).vs ((l.data j).vs + m) := lt_min hi (by linarith)
    by_contra hc
    have h2 := hn.2.2
    have h3 : g ^ 2 * ((limitPoint rd m l i j).data i).vs ≤ 0 := mul_nonpos_of_nonneg_of_nonpos (by positivity) (not_lt.1 hc)
    linarith
  refine ⟨hpos, ?_⟩
  unfold limitPoint at hle hpos ⊢
  split
  · rename_i hgt
    rw [if_pos hgt] at hle hpos
    simp only [Function.update_self] at hle hpos ⊢
    have hw : 0 < rd.double ((l.data j).vs + m) := h.double.pos hg (by linarith)
    exact ⟨hle, reduce_prop h hi hw, reduce_prop h hi hw, reduce_prop h hi hw, reduce_prop h hi hw, rfl, rfl, rfl⟩
  · exact .refl (one_le_pow₀ hg) (one_le_pow₀ hg) hi.le

theorem limitDiff_reduced (h : rd.Near g) (hm : 0 ≤ m) {n : Nat} {d : Nat → Payload K} (hd : ∀ i < n, 0 < (d i).vs) :
    ∀ i < n, 0 < ((limitDiff rd m n d).data i).vs ∧ ReducedUpTo (g ^ 4) (g ^ 6) (d i) ((limitDiff rd m n d).data i) := by
  have hg := h.one
  intro i hi
  obtain ⟨h1, p, h2, h3, h4⟩ := limitDiff_twice (P := fun p => 0 < p.vs) (Q := ReducedUpTo (g ^ 2) (g ^ 3))
    (fun p hp => .refl (one_le_pow₀ hg) (one_le_pow₀ hg) hp.le)
    (fun l i j hi hj _ hl => limitPoint_reduced h hm (hl i hi) (hl j hj)) hd i hi
  refine ⟨h1, ?_⟩
  have := h3.trans (by positivity) (one_le_pow₀ hg) (one_le_pow₀ hg) h2.ne' h4
  rw [← pow_add, ← pow_add] at this
  exact this

/-! ### Neighbours of a line -/

theorem limitDiff_boundedUpTo (h : rd.Near g) (hm : 0 ≤ m) {n : Nat} {d : Nat → Payload K} (hd : ∀ i < n, 0 ≤ (d i).vs) :
    BoundedUpTo (g ^ 4) m n fun i => ((limitDiff rd m n d).data i).vs := by
  have hg := h.one
  have hg1 : ∀ k, 1 ≤ g ^ k := fun k => one_le_pow₀ hg
  have hstep : ∀ l : Line K, (∀ i < n, 0 ≤ (l.data i).vs) → ∀ a b, a < n → b < n → ∀ i < n, 0 ≤ ((limitPoint rd m l a b).data i).vs := by
    intro l hl a b ha hb i hi
    by_cases hia : i = a
    · subst hia; exact (limitPoint_near h hm (hl i hi) (hl b hb)).1
    · rw [(limitPoint_other hia).1]; exact hl i hi
  have up : ∀ k < n, (∀ i < n, 0 ≤ ((sweepUp rd m ⟨d, fun _ => false⟩ k).data i).vs) ∧
      ∀ i < k, ((sweepUp rd m ⟨d, fun _ => false⟩ k).data (i + 1)).vs ≤ g ^ 2 * (((sweepUp rd m ⟨d, fun _ => false⟩ k).data i).vs + m) := by
    intro k
    induction k with
    | zero => exact fun _ => ⟨hd, fun i hi => absurd hi (Nat.not_lt_zero i)⟩
    | succ k ih =>
      intro hk
      obtain ⟨i1, i2⟩ := ih (by omega)
      refine ⟨hstep _ i1 _ _ hk (by omega), fun i hi => ?_⟩
      unfold sweepUp
      rw [(limitPoint_other (k := i) (by omega)).1]
      by_cases hik : i = k
      · subst hik
        exact (limitPoint_near h hm (i1 (i + 1) hk) (i1 i (by omega))).2.1.trans
          (mul_le_mul_of_nonneg_left (min_le_right _ _) (by positivity))
      · rw [(limitPoint_other (k := i + 1) (by omega)).1]
        exact i2 i (by omega)
  have down : ∀ k < n, ∀ l : Line K, (∀ i < n, 0 ≤ (l.data i).vs) →
      (∀ i, i + 1 < n → (l.data (i + 1)).vs ≤ (if k ≤ i + 1 then g ^ 4 else g ^ 2) * ((l.data i).vs + m)) →
      (∀ i, k ≤ i → i + 1 < n → (l.data i).vs ≤ g ^ 4 * ((l.data (i + 1)).vs + m)) →
      BoundedUpTo (g ^ 4) m n fun i => ((sweepDown rd m k l).data i).vs := by
    intro k
    induction k with
    | zero =>
      intro _ l hl h1 h2 i hi
      have := h1 i hi
      rw [if_pos (by omega)] at this
      exact ⟨this, h2 i (by omega) hi⟩
    | succ k ih =>
      intro hk l hl h1 h2
      unfold sweepDown
      have hn := limitPoint_near h hm (hl k (by omega)) (hl (k + 1) hk)
      have hym : 0 ≤ (l.data (k + 1)).vs + m := add_nonneg (hl _ hk) hm
      have hx0 := hl k (by omega)
      refine ih (by omega) _ (hstep l hl _ _ (by omega) hk) (fun i hi => ?_) (fun i hki hi => ?_)
      · by_cases h3 : i = k
        · -- the neighbour after the point
          subst h3
          rw [(limitPoint_other (k := i + 1) (by omega)).1, if_pos (by omega)]
          have h4 := h1 i hi
          rw [if_pos le_rfl] at h4
          rcases le_total (l.data i).vs ((l.data (i + 1)).vs + m) with hc | hc
          · -- the point is not reduced by much
            unfold limitPoint at hn ⊢
            split
            · rename_i hgt
              rw [if_pos hgt] at hn
              simp only [Function.update_self] at hn ⊢
              have h6 : (l.data (i + 1)).vs ≤ (l.data i).vs := by
                by_contra hc3
                have := h.single.nonpos hg (x := (l.data i).vs - (l.data (i + 1)).vs) (by linarith [not_le.1 hc3])
                linarith
              have h7 := hn.2.2
              rw [min_eq_left hc] at h7
              calc (l.data (i + 1)).vs ≤ (l.data i).vs := h6
                _ ≤ g ^ 2 * _ := h7
                _ ≤ g ^ 4 * _ := mul_le_mul_of_nonneg_right (pow_le_pow_right₀ hg (by norm_num)) hn.1
                _ ≤ _ := mul_le_mul_of_nonneg_left (by linarith) (by positivity)
            · exact h4
          · have h7 := hn.2.2
            rw [min_eq_right hc] at h7
            calc (l.data (i + 1)).vs ≤ (l.data (i + 1)).vs + m := by linarith
              _ ≤ g ^ 2 * _ := h7
              _ ≤ g ^ 4 * _ := mul_le_mul_of_nonneg_right (pow_le_pow_right₀ hg (by norm_num)) hn.1
              _ ≤ _ := mul_le_mul_of_nonneg_left (by linarith) (by positivity)
        · rw [(limitPoint_other (k := i) h3).1]
          by_cases h5 : i + 1 = k
          · -- the neighbour before the point
            subst h5
            rw [if_pos le_rfl]
            have h4 := h1 i hi
            rw [if_neg (by omega)] at h4
            calc _ ≤ g ^ 2 * min (l.data (i + 1)).vs ((l.data (i + 1 + 1)).vs + m) := hn.2.1
              _ ≤ g ^ 2 * (l.data (i + 1)).vs := mul_le_mul_of_nonneg_left (min_le_left _ _) (by positivity)
              _ ≤ g ^ 2 * (g ^ 2 * ((l.data i).vs + m)) := mul_le_mul_of_nonneg_left h4 (by positivity)
              _ = _ := by ring
          · rw [(limitPoint_other (k := i + 1) h5).1]
            have h4 := h1 i hi
            by_cases h6 : k ≤ i
            · rw [if_pos (by omega)] at h4 ⊢; exact h4
            · rw [if_neg (by omega)] at h4
              rw [if_neg (by omega)]; exact h4
      · by_cases h3 : i = k
        · subst h3
          rw [(limitPoint_other (k := i + 1) (by omega)).1]
          calc _ ≤ _ := hn.2.1
            _ ≤ g ^ 2 * ((l.data (i + 1)).vs + m) := mul_le_mul_of_nonneg_left (min_le_right _ _) (by positivity)
            _ ≤ _ := mul_le_mul_of_nonneg_right (pow_le_pow_right₀ hg (by norm_num)) hym
        · rw [(limitPoint_other (k := i) h3).1, (limitPoint_other (k := i + 1) (by omega)).1]
          exact h2 i (by omega) hi
  rcases Nat.eq_zero_or_pos n with rfl | hn
  · intro i hi; omega
  obtain ⟨u1, u2⟩ := up (n - 1) (by omega)
  refine down (n - 1) (by omega) _ u1 (fun i hi => ?_) (fun i h1 h2 => by omega)
  refine (u2 i (by omega)).trans (mul_le_mul_of_nonneg_right ?_ (add_nonneg (u1 i (by omega)) hm))
  split
  · exact pow_le_pow_right₀ hg (by norm_num)
  · exact le_rfl

/-! ### Least values -/

/-- The roundings keep the order and leave `c` alone. -/
structure _root_.CenCalVM.Rd.Keeps (rd : Rd K) (c : K) : Prop where
  single : ∀ x y, x ≤ y → rd.single x ≤ rd.single y
  double : ∀ x y, x ≤ y → rd.double x ≤ rd.double y
  fix : rd.single (rd.double c) = c

theorem limitDiff_floor {c : K} (h : rd.Keeps c) (hm : 0 ≤ m) {n : Nat} {d : Nat → Payload K} (hd : ∀ i < n, c ≤ (d i).vs) :
    ∀ i < n, c ≤ ((limitDiff rd m n d).data i).vs := by
  refine limitDiff_ind (P := fun l => ∀ i < n, c ≤ (l.data i).vs) ?_ hd
  intro l a b ha hb _ hl i hi
  by_cases hia : i = a
  · subst hia
    unfold limitPoint
    split
    · simp only [Function.update_self, reduce]
      rw [← h.fix]
      exact h.single _ _ (h.double _ _ (by linarith [hl b hb]))
    · exact hl i hi
  · rw [(limitPoint_other hia).1]; exact hl i hi

/-! ### The three passes -/

theorem passes_near (h : rd.Near g) {mh mv mh' mv' : K} (hh : 0 ≤ mh) (hv : 0 ≤ mv) (hh' : 0 ≤ mh') (hv' : 0 ≤ mv') {r : K}
    (hr : 1 ≤ r) (hmh : Within r mh' mh) (hmv : Within r mv' mv) {nL nW nH : Nat} {V V' : Nat → Nat → Nat → Payload K}
    (h0 : ∀ l < nL, ∀ w < nW, ∀ h < nH, 0 ≤ (V l w h).vs) (h0' : ∀ l < nL, ∀ w < nW, ∀ h < nH, 0 ≤ (V' l w h).vs)
    (hV : ∀ l < nL, ∀ w < nW, ∀ h < nH, Within r (V' l w h).vs (V l w h).vs) :
    ∀ l < nL, ∀ w < nW, ∀ h < nH, 0 ≤ (passes rd mh' mv' nL nW nH V' l w h).vs ∧ 0 ≤ (passes .exact mh mv nL nW nH V l w h).vs ∧
      Within (r * g ^ (4 * (nL + nW + nH))) (passes rd mh' mv' nL nW nH V' l w h).vs (passes .exact mh mv nL nW nH V l w h).vs := by
  have hg := h.one
  have hg1 : ∀ k, 1 ≤ g ^ k := fun k => one_le_pow₀ hg
  have hr0 : 0 ≤ r := by linarith
  have hrk : ∀ k, r ≤ r * g ^ k := fun k => le_mul_of_one_le_right hr0 (hg1 k)
  have s1 := fun l hl w hw => limitDiff_near h hv hv' hr hmv (h0 l hl w hw) (h0' l hl w hw) (hV l hl w hw)
  have s2 := fun w hw i hi => limitDiff_near h hh hh' (hr.trans (hrk (4 * nH))) (hmh.mono (hrk _) hh' hh)
    (d := fun l => passHt .exact mv nH V l w i) (d' := fun l => passHt rd mv' nH V' l w i)
    (fun l hl => (s1 l hl w hw i hi).2.1) (fun l hl => (s1 l hl w hw i hi).1) (fun l hl => (s1 l hl w hw i hi).2.2)
  have s3 := fun l hl i hi => limitDiff_near h hh hh' (hr.trans ((hrk (4 * nH)).trans (le_mul_of_one_le_right (by positivity) (hg1 (4 * nL)))))
    (hmh.mono ((hrk (4 * nH)).trans (le_mul_of_one_le_right (by positivity) (hg1 (4 * nL)))) hh' hh)
    (d := fun w => passLen .exact mh nL (passHt .exact mv nH V) l w i) (d' := fun w => passLen rd mh' nL (passHt rd mv' nH V') l w i)
    (fun w hw => (s2 w hw i hi l hl).2.1) (fun w hw => (s2 w hw i hi l hl).1) (fun w hw => (s2 w hw i hi l hl).2.2)
  intro l hl w hw i hi
  obtain ⟨a1, a2, a3⟩ := s3 l hl i hi w hw
  refine ⟨a1, a2, ?_⟩
  rw [mul_assoc, mul_assoc, ← pow_add, ← pow_add, show 4 * nH + (4 * nL + 4 * nW) = 4 * (nL + nW + nH) by ring] at a3
  exact a3

theorem passes_reduced (h : rd.Near g) {mh mv : K} (hh : 0 ≤ mh) (hv : 0 ≤ mv) {nL nW nH : Nat} {V : Nat → Nat → Nat → Payload K}
    (h0 : ∀ l < nL, ∀ w < nW, ∀ h < nH, 0 < (V l w h).vs) :
    ∀ l < nL, ∀ w < nW, ∀ h < nH, 0 < (passes rd mh mv nL nW nH V l w h).vs ∧
      ReducedUpTo (g ^ 12) (g ^ 18) (V l w h) (passes rd mh mv nL nW nH V l w h) := by
  have hg := h.one
  have hg1 : ∀ k, 1 ≤ g ^ k := fun k => one_le_pow₀ hg
  have s1 := fun l hl w hw => limitDiff_reduced h hv (h0 l hl w hw)
  have s2 := fun w hw i hi => limitDiff_reduced h hh (d := fun l => passHt rd mv nH V l w i) (fun l hl => (s1 l hl w hw i hi).1)
  have s3 := fun l hl i hi => limitDiff_reduced h hh (d := fun w => passLen rd mh nL (passHt rd mv nH V) l w i)
    (fun w hw => (s2 w hw i hi l hl).1)
  intro l hl w hw i hi
  obtain ⟨a1, a2⟩ := s1 l hl w hw i hi
  obtain ⟨b1, b2⟩ := s2 w hw i hi l hl
  obtain ⟨c1, c2⟩ := s3 l hl i hi w hw
  refine ⟨c1, ?_⟩
  have := (a2.trans (by positivity) (hg1 6) (hg1 6) a1.ne' b2).trans (by positivity) (one_le_mul_of_one_le_of_one_le (hg1 6) (hg1 6)) (hg1 6) b1.ne' c2
  simp only [← pow_add] at this
  exact this

theorem passes_floor {c : K} (h : rd.Keeps c) {mh mv : K} (hh : 0 ≤ mh) (hv : 0 ≤ mv) {nL nW nH : Nat} {V : Nat → Nat → Nat → Payload K}
    (hc : ∀ l < nL, ∀ w < nW, ∀ h < nH, c ≤ (V l w h).vs) :
    ∀ l < nL, ∀ w < nW, ∀ h < nH, c ≤ (passes rd mh mv nL nW nH V l w h).vs := by
  have s1 := fun l hl w hw => limitDiff_floor h hv (hc l hl w hw)
  have s2 := fun w hw i hi => limitDiff_floor h hh (d := fun l => passHt rd mv nH V l w i) (fun l hl => s1 l hl w hw i hi)
  have s3 := fun l hl i hi => limitDiff_floor h hh (d := fun w => passLen rd mh nL (passHt rd mv nH V) l w i) (fun w hw => s2 w hw i hi l hl)
  exact fun l hl w hw i hi => s3 l hl i hi w hw

theorem fl_double_of_single [FloorRing K] {rs rdb : IntRound K} {c : K} (hc : fl rs 24 c = c) : fl rdb 53 c = c := by
  by_cases h0 : c = 0
  · subst h0; simp
  have h := hc
  unfold fl at h
  rw [if_neg h0] at h
  set z : ℤ := rs.toInt (c / 2 ^ (Int.log 2 |c| - ((24 - 1 : ℕ) : ℤ))) with hz
  have hp := two_zpow_pos (K := K) (Int.log 2 |c| - ((24 - 1 : ℕ) : ℤ))
  have hlt : |z| < 2 ^ 53 := by
    have h1 := (log_bounds h0).2
    have h2 : (|z| : K) * 2 ^ (Int.log 2 |c| - ((24 - 1 : ℕ) : ℤ)) = |c| := by
      rw [← abs_of_pos hp, ← abs_mul, h]
    have h3 : (2 : K) ^ (Int.log 2 |c| + 1) = 2 ^ 24 * 2 ^ (Int.log 2 |c| - ((24 - 1 : ℕ) : ℤ)) := by
      rw [← zpow_natCast, ← zpow_add₀ (by norm_num)]
      congr 1
      norm_num
      ring
    rw [h3] at h1
    nth_rewrite 1 [← h2] at h1
    have h4 := lt_of_mul_lt_mul_right h1 hp.le
    have h5 : |z| < 2 ^ 24 := by exact_mod_cast h4
    linarith [show (2 : ℤ) ^ 24 < 2 ^ 53 by norm_num]
  have := fl_exact (K := K) (ri := rdb) (prec := 53) (by norm_num) (e := Int.log 2 |c| - ((24 - 1 : ℕ) : ℤ)) hlt
  rwa [h] at this

theorem _root_.CenCalVM.Rd.Binary.keeps [FloorRing K] {rs rdb : IntRound K} {rd : Rd K} (h : rd.Binary rs rdb) {c : K} (hc : fl rs 24 c = c) :
    rd.Keeps c := by
  refine ⟨fun x y hxy => ?_, fun x y hxy => ?_, ?_⟩
  · rw [h.1]; exact fl_mono (by norm_num) hxy
  · rw [h.2]; exact fl_mono (by norm_num) hxy
  · rw [h.1, h.2, fl_double_of_single hc, hc]

end
end VsGrader
end CenCalVM
