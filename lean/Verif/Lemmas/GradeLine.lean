/-
Limiting the difference along a line.
-/
import Verif.Spec.Rounding
import Verif.Model.VsGrader
import Mathlib.Tactic.Linarith
import Mathlib.Tactic.FieldSimp
import Mathlib.Tactic.Ring

set_option linter.unusedSectionVars false

namespace CenCalVM
namespace VsGrader
variable {K : Type} [Field K] [LinearOrder K] [IsStrictOrderedRing K]


section steps
variable {rd : Rd K} {m : K} {n : Nat}

/-- A property kept by every limitation of a point by a neighbour is kept by the first sweep. -/
theorem sweepUp_ind {P : Line K → Prop}
    (hP : ∀ l i j, i < n → j < n → (i = j + 1 ∨ j = i + 1) → P l → P (limitPoint rd m l i j))
    {l : Line K} (h : P l) {k : Nat} (hk : k < n) : P (sweepUp rd m l k) := by
  induction k with
  | zero => exact h
  | succ k ih => exact hP _ _ _ hk (by omega) (Or.inl rfl) (ih (by omega))

/-- The same for the second sweep. -/
theorem sweepDown_ind {P : Line K → Prop}
    (hP : ∀ l i j, i < n → j < n → (i = j + 1 ∨ j = i + 1) → P l → P (limitPoint rd m l i j))
    {l : Line K} (h : P l) {k : Nat} (hk : k < n) : P (sweepDown rd m k l) := by
  induction k generalizing l with
  | zero => exact h
  | succ k ih => exact ih (hP _ _ _ (by omega) hk (Or.inr rfl) h) (by omega)

theorem limitDiff_ind {P : Line K → Prop}
    (hP : ∀ l i j, i < n → j < n → (i = j + 1 ∨ j = i + 1) → P l → P (limitPoint rd m l i j))
    {d : Nat → Payload K} (h : P ⟨d, fun _ => false⟩) : P (limitDiff rd m n d) := by
  unfold limitDiff
  cases n with
  | zero => exact h
  | succ n => exact sweepDown_ind hP (sweepUp_ind hP h (by simp)) (by simp)

theorem limitPoint_other {l : Line K} {i j k : Nat} (h : k ≠ i) :
    (limitPoint rd m l i j).data k = l.data k ∧ (limitPoint rd m l i j).changed k = l.changed k := by
  unfold limitPoint
  split
  · simp [Function.update_of_ne h]
  · exact ⟨rfl, rfl⟩

theorem limitPoint_vs (l : Line K) (i j : Nat) :
    ((limitPoint .exact m l i j).data i).vs = min (l.data i).vs ((l.data j).vs + m) := by
  unfold limitPoint
  split
  · rename_i h
    simp only [Rd.exact_single] at h
    simp only [Function.update_self, reduce, Rd.exact_single, Rd.exact_double]
    rw [min_eq_right (by linarith)]
  · rename_i h
    simp only [Rd.exact_single] at h
    rw [min_eq_left (by linarith)]

theorem limitPoint_le (l : Line K) (i j k : Nat) : ((limitPoint .exact m l i j).data k).vs ≤ (l.data k).vs := by
  by_cases h : k = i
  · subst h; rw [limitPoint_vs]; exact min_le_left _ _
  · rw [(limitPoint_other h).1]

end steps

/-! ### Neighbours -/

theorem sweepUp_after {rd : Rd K} (m : K) (l : Line K) {k i : Nat} (h : k < i) : (sweepUp rd m l k).data i = l.data i := by
  induction k with
  | zero => rfl
  | succ k ih =>
    unfold sweepUp
    rw [(limitPoint_other (by omega)).1, ih (by omega)]

/-- After the first sweep values do not increase too fast. -/
theorem sweepUp_step (m : K) (l : Line K) {k i : Nat} (h : i < k) :
    ((sweepUp .exact m l k).data (i + 1)).vs ≤ ((sweepUp .exact m l k).data i).vs + m := by
  induction k with
  | zero => omega
  | succ k ih =>
    unfold sweepUp
    rw [(limitPoint_other (k := i) (by omega)).1]
    by_cases hi : i = k
    · subst hi
      rw [limitPoint_vs]
      exact min_le_right _ _
    · rw [(limitPoint_other (k := i + 1) (by omega)).1]
      exact ih (by omega)

theorem sweepDown_after {rd : Rd K} (m : K) {l : Line K} {k i : Nat} (h : k ≤ i) : (sweepDown rd m k l).data i = l.data i := by
  induction k generalizing l with
  | zero => rfl
  | succ k ih =>
    unfold sweepDown
    rw [ih (by omega), (limitPoint_other (by omega)).1]

/-- The second sweep keeps the bound on increases and bounds decreases. -/
theorem sweepDown_step {m : K} (hm : 0 ≤ m) {k N : Nat} (hkN : k ≤ N) {l : Line K}
    (hup : ∀ i < N, (l.data (i + 1)).vs ≤ (l.data i).vs + m)
    (hdn : ∀ i, k ≤ i → i < N → (l.data i).vs ≤ (l.data (i + 1)).vs + m) :
    ∀ i < N, ((sweepDown .exact m k l).data (i + 1)).vs ≤ ((sweepDown .exact m k l).data i).vs + m ∧
      ((sweepDown .exact m k l).data i).vs ≤ ((sweepDown .exact m k l).data (i + 1)).vs + m := by
  induction k generalizing l with
  | zero => exact fun i hi => ⟨hup i hi, hdn i (by omega) hi⟩
  | succ k ih =>
    unfold sweepDown
    refine ih (by omega) ?_ ?_
    · intro i hi
      by_cases h1 : i = k
      · subst h1
        rw [limitPoint_vs, (limitPoint_other (k := i + 1) (by omega)).1]
        have := hup i hi
        rcases le_total (l.data i).vs ((l.data (i + 1)).vs + m) with h | h
        · rw [min_eq_left h]; exact this
        · rw [min_eq_right h]; linarith
      · rw [(limitPoint_other (k := i) h1).1]
        exact (limitPoint_le _ _ _ _).trans (hup i hi)
    · intro i hi hiN
      by_cases h1 : i = k
      · subst h1
        rw [limitPoint_vs, (limitPoint_other (k := i + 1) (by omega)).1]
        exact min_le_right _ _
      · rw [(limitPoint_other (k := i) h1).1, (limitPoint_other (k := i + 1) (by omega)).1]
        exact hdn i (by omega) hiN

theorem limitDiff_step {m : K} (hm : 0 ≤ m) {n : Nat} {d : Nat → Payload K} {i : Nat} (hi : i + 1 < n) :
    ((limitDiff .exact m n d).data (i + 1)).vs ≤ ((limitDiff .exact m n d).data i).vs + m ∧
      ((limitDiff .exact m n d).data i).vs ≤ ((limitDiff .exact m n d).data (i + 1)).vs + m := by
  unfold limitDiff
  exact sweepDown_step hm le_rfl (fun i hi => sweepUp_step _ _ hi) (fun i h1 h2 => by omega) i (by omega)

/-! ### Least reduction -/

theorem limitDiff_le {m : K} {n : Nat} {d : Nat → Payload K} (i : Nat) : ((limitDiff .exact m n d).data i).vs ≤ (d i).vs := by
  refine limitDiff_ind (P := fun l => (l.data i).vs ≤ (d i).vs) ?_ le_rfl
  intro l a b _ _ _ h
  exact (limitPoint_le _ _ _ _).trans h

theorem limitDiff_minorant {m : K} {n : Nat} {d : Nat → Payload K} {f : Nat → K}
    (hf : ∀ i, i + 1 < n → |f (i + 1) - f i| ≤ m) (hfd : ∀ i < n, f i ≤ (d i).vs) {i : Nat} (hi : i < n) :
    f i ≤ ((limitDiff .exact m n d).data i).vs := by
  refine limitDiff_ind (n := n) (P := fun l => ∀ i < n, f i ≤ (l.data i).vs) ?_ hfd i hi
  intro l a b ha hb hab h k hk
  by_cases hka : k = a
  · subst hka
    rw [limitPoint_vs]
    refine le_min (h k hk) ?_
    have hb' := h b hb
    rcases hab with rfl | rfl
    · have := abs_le.1 (hf b ha); linarith [this.2]
    · have := abs_le.1 (hf k hb); linarith [this.1]
  · rw [(limitPoint_other hka).1]; exact h k hk

/-- A line that respects the maximum difference is left alone. -/
theorem limitDiff_id {m : K} {n : Nat} {d : Nat → Payload K}
    (hd : ∀ i, i + 1 < n → |(d (i + 1)).vs - (d i).vs| ≤ m) : limitDiff .exact m n d = ⟨d, fun _ => false⟩ := by
  refine limitDiff_ind (n := n) (P := fun l => l = ⟨d, fun _ => false⟩) ?_ rfl
  rintro l a b ha hb hab rfl
  unfold limitPoint
  rw [if_neg]
  rcases hab with rfl | rfl
  · have := abs_le.1 (hd b ha); simp only [Rd.exact_single]; linarith [this.2]
  · have := abs_le.1 (hd a hb); simp only [Rd.exact_single]; linarith [this.1]

/-! ### The other properties -/

/-- `q` is `p` with its speed reduced, and the other properties in proportion. -/
structure Scaled (p q : Payload K) : Prop where
  le : q.vs ≤ p.vs
  vp : q.vp * p.vs = p.vp * q.vs
  density : q.density * p.vs = p.density * q.vs
  qp : q.qp * p.vs = p.qp * q.vs
  qs : q.qs * p.vs = p.qs * q.vs
  depth : q.depth = p.depth
  faultBlock : q.faultBlock = p.faultBlock
  zone : q.zone = p.zone
  same : q.vs = p.vs → q = p

theorem Scaled.refl (p : Payload K) : Scaled p p := ⟨le_rfl, rfl, rfl, rfl, rfl, rfl, rfl, rfl, fun _ => rfl⟩

theorem Scaled.trans {p q r : Payload K} (h0 : 0 ≤ r.vs) (h1 : Scaled p q) (h2 : Scaled q r) : Scaled p r := by
  have key : ∀ {a b c x y z : K}, 0 ≤ z → z ≤ y → y ≤ x → b * x = a * y → c * y = b * z → (z = y → c = b) → c * x = a * z := by
    intro a b c x y z hz hzy hyx h1 h2 h3
    by_cases hy : y = 0
    · have : z = y := by rw [hy] at hzy; rw [hy]; exact le_antisymm hzy hz
      rw [h3 this, h1, this]
    · apply mul_right_cancel₀ hy
      calc c * x * y = (c * y) * x := by ring
        _ = b * z * x := by rw [h2]
        _ = (b * x) * z := by ring
        _ = a * y * z := by rw [h1]
        _ = a * z * y := by ring
  refine ⟨h2.le.trans h1.le, key h0 h2.le h1.le h1.vp h2.vp fun h => by rw [h2.same h],
    key h0 h2.le h1.le h1.density h2.density fun h => by rw [h2.same h],
    key h0 h2.le h1.le h1.qp h2.qp fun h => by rw [h2.same h],
    key h0 h2.le h1.le h1.qs h2.qs fun h => by rw [h2.same h], h2.depth.trans h1.depth,
    h2.faultBlock.trans h1.faultBlock, h2.zone.trans h1.zone, fun h => ?_⟩
  have e1 : r.vs = q.vs := le_antisymm h2.le (by rw [h]; exact h1.le)
  have e2 : q.vs = p.vs := by rw [← e1, h]
  rw [h2.same e1, h1.same e2]

theorem reduce_scaled {p : Payload K} {vs : K} (h : vs < p.vs) (hp : p.vs ≠ 0) : Scaled p (reduce .exact p vs) := by
  refine ⟨h.le, ?_, ?_, ?_, ?_, rfl, rfl, rfl, fun he => absurd he h.ne⟩ <;>
    · simp only [reduce, Rd.exact_single, Rd.exact_double]; field_simp

/-- All points are scaled, and the flags tell which. -/
theorem limitDiff_scaled {m : K} (hm : 0 ≤ m) {n : Nat} {d : Nat → Payload K} (hd : ∀ i < n, 0 ≤ (d i).vs) {i : Nat} (hi : i < n) :
    0 ≤ ((limitDiff .exact m n d).data i).vs ∧ Scaled (d i) ((limitDiff .exact m n d).data i) ∧
      ((limitDiff .exact m n d).changed i = true ↔ ((limitDiff .exact m n d).data i).vs < (d i).vs) := by
  refine limitDiff_ind (n := n) (P := fun l => ∀ i < n, 0 ≤ (l.data i).vs ∧ Scaled (d i) (l.data i) ∧
      (l.changed i = true ↔ (l.data i).vs < (d i).vs)) ?_ (fun i hi => ⟨hd i hi, Scaled.refl _, by simp⟩) i hi
  intro l a b ha hb _ h k hk
  by_cases hka : k = a
  · subst hka
    obtain ⟨h1, h2, h3⟩ := h k hk
    have h0 : 0 ≤ ((limitPoint .exact m l k b).data k).vs := by
      rw [limitPoint_vs]; exact le_min h1 (add_nonneg (h b hb).1 hm)
    refine ⟨h0, ?_⟩
    unfold limitPoint at h0 ⊢
    split
    · rename_i hgt
      simp only [Rd.exact_single] at hgt
      have hlt : (l.data b).vs + m < (l.data k).vs := by linarith
      have hb0 : 0 ≤ (l.data b).vs + m := add_nonneg (h b hb).1 hm
      simp only [Function.update_self, Rd.exact_double]
      refine ⟨Scaled.trans hb0 h2 (reduce_scaled hlt (by linarith [lt_of_le_of_lt hb0 hlt] |> fun h : (l.data k).vs > 0 => h.ne')), ?_⟩
      exact iff_of_true trivial (lt_of_lt_of_le hlt h2.le)
    · exact ⟨h2, h3⟩
  · obtain ⟨e1, e2⟩ := limitPoint_other (rd := .exact) (m := m) (l := l) (j := b) hka
    rw [e1, e2]; exact h k hk

/-- Points without a flag are left alone (for any values). -/
theorem limitDiff_unchanged {rd : Rd K} {m : K} {n : Nat} {d : Nat → Payload K} {i : Nat}
    (h : (limitDiff rd m n d).changed i = false) : (limitDiff rd m n d).data i = d i := by
  revert h
  refine limitDiff_ind (P := fun l => l.changed i = false → l.data i = d i) ?_ (fun _ => rfl)
  intro l a b _ _ _ h
  by_cases hka : i = a
  · subst hka
    unfold limitPoint
    split
    · simp
    · exact h
  · obtain ⟨e1, e2⟩ := limitPoint_other (rd := rd) (m := m) (l := l) (j := b) hka
    rw [e1, e2]; exact h

/-- Only the points of the line matter. -/
theorem limitDiff_congr {rd : Rd K} {m : K} {n : Nat} {d d' : Nat → Payload K} (h : ∀ i < n, d i = d' i) {i : Nat} (hi : i < n) :
    (limitDiff rd m n d).data i = (limitDiff rd m n d').data i := by
  have step : ∀ l l' : Line K, (∀ i < n, l.data i = l'.data i) → ∀ a b, a < n → b < n →
      ∀ i < n, (limitPoint rd m l a b).data i = (limitPoint rd m l' a b).data i := by
    intro l l' hl a b ha hb i hi
    by_cases hia : i = a
    · subst hia
      unfold limitPoint
      rw [hl i hi, hl b hb]
      split
      · simp [Function.update_self]
      · exact hl i hi
    · rw [(limitPoint_other hia).1, (limitPoint_other hia).1]; exact hl i hi
  have up : ∀ k < n, ∀ i < n, (sweepUp rd m ⟨d, fun _ => false⟩ k).data i = (sweepUp rd m ⟨d', fun _ => false⟩ k).data i := by
    intro k
    induction k with
    | zero => exact fun _ => h
    | succ k ih => exact fun hk => step _ _ (ih (by omega)) _ _ hk (by omega)
  have down : ∀ k < n, ∀ l l' : Line K, (∀ i < n, l.data i = l'.data i) →
      ∀ i < n, (sweepDown rd m k l).data i = (sweepDown rd m k l').data i := by
    intro k
    induction k with
    | zero => exact fun _ _ _ h => h
    | succ k ih => exact fun hk l l' hl => ih (by omega) _ _ (step _ _ hl _ _ (by omega) hk)
  exact down (n - 1) (by omega) _ _ (up (n - 1) (by omega)) i hi

end VsGrader
end CenCalVM
