/-
Properties C104 and C105: locations with coordinates that are infinite or not a number, and overflow.
-/
import Verif.Lemmas.Ieee
import Verif.Props.Float

set_option linter.unusedSectionVars false

namespace CenCalVM
open GeomCenCA

section
variable {K : Type} [Field K] [LinearOrder K] [IsStrictOrderedRing K] [FloorRing K]

/-! ### C104 -/

/-- C104, first part: only finite numbers are given an octant, and then the octant that the geometry on finite numbers (C80 to C85)
computes.  Nothing is assumed about the arguments, the projection or the rotation. -/
theorem C104_octant (ri : IntRound K) (f : Frame K) (project : Num K → Num K → Outcome (Num K × Num K)) {lon lat elev : Num K}
    {a b : Addr} (h : lonLatElevToAddrNum (fl ri 53) f project a lon lat elev = .ok (b, 0)) :
    ∃ x y e : K, project lon lat = .ok (.fin x, .fin y) ∧ elev = .fin e ∧
      ∀ (proj : Projector K) (lo la : K), proj.project lo la = .ok (x, y) →
        lonLatElevToAddrFl (fl ri 53) f proj a lo la e = .ok (b, 0) := by
  have hl : a.level ≤ 31 := by
    by_contra hc
    rw [lonLatElevToAddrNum, if_neg (by omega)] at h
    cases h
  cases hp : project lon lat with
  | exc m => rw [lonLatElevToAddrNum, if_pos (by omega), hp] at h; cases h
  | ub => rw [lonLatElevToAddrNum, if_pos (by omega), hp] at h; cases h
  | ok xy =>
    obtain ⟨x, y⟩ := xy
    by_cases ho : Outs (rootPNum (fl ri 53) f x y) ∨ Outs (rootQNum (fl ri 53) f x y) ∨ Outs (rootRNum (fl ri 53) elev)
    · rw [toAddrNum_out hp ho a hl] at h
      cases h
    · have h' := h
      rw [toAddrNum_in hp ho a hl] at h'
      split at h'
      · rename_i i j k t1 t2 t3
        obtain ⟨p, ep⟩ := tickNum_fin t1
        obtain ⟨q, eq⟩ := tickNum_fin t2
        obtain ⟨r, er⟩ := tickNum_fin t3
        obtain ⟨x', y', rfl, rfl, rfl⟩ := rootPNum_fin ep
        obtain ⟨x2, y2, g1, g2, rfl⟩ := rootQNum_fin eq
        cases g1; cases g2
        obtain ⟨e, rfl, rfl⟩ := rootRNum_fin er
        refine ⟨x', y', e, rfl, rfl, fun proj lo la hproj => ?_⟩
        rw [← h]
        exact (toAddrNum_fin hp ep eq er hproj a hl).symm
      · cases h'

/-- C104, second part: a location that has no coordinate that is not a number is converted, whatever overflows, and it is outside the
model if a coordinate is infinite.  The rotation is by no multiple of a right angle.

What is missing is in `C104_false`: a coordinate that is not a number makes the conversion undefined. -/
theorem C104_partial (ri : IntRound K) {f : Frame K} (hc0 : f.cosAz ≠ 0) (hs0 : f.sinAz ≠ 0) (hc : |f.cosAz| ≤ 1) (hs : |f.sinAz| ≤ 1)
    {project : Num K → Num K → Outcome (Num K × Num K)} {lon lat elev x y : Num K} (hproj : project lon lat = .ok (x, y))
    (hx : x ≠ .nan) (hy : y ≠ .nan) (he : elev ≠ .nan) (a : Addr) (hl : a.level ≤ 31) :
    (∃ b code, lonLatElevToAddrNum (fl ri 53) f project a lon lat elev = .ok (b, code)) ∧
      ((∃ s, x = .inf s ∨ y = .inf s ∨ elev = .inf s) →
        lonLatElevToAddrNum (fl ri 53) f project a lon lat elev = .ok ({ a with x := -1, y := -1, z := -1 }, 1)) := by
  have key : Outs (rootPNum (fl ri 53) f x y) ∨ Outs (rootQNum (fl ri 53) f x y) ∨ Outs (rootRNum (fl ri 53) elev) ∨
      ∃ p q r, rootPNum (fl ri 53) f x y = .fin p ∧ rootQNum (fl ri 53) f x y = .fin q ∧ rootRNum (fl ri 53) elev = .fin r := by
    have hX : Num.sub (fl ri 53) x (.fin f.xNWRoot) ≠ .nan := Num.sub_fin_ne_nan hx _
    have hY : Num.sub (fl ri 53) y (.fin f.yNWRoot) ≠ .nan := Num.sub_fin_ne_nan hy _
    have hr : rootRNum (fl ri 53) elev ≠ .nan := by
      intro h
      obtain ⟨s, -, h2⟩ := Num.add_eq_nan (Num.mul_ne_nan (Num.sub_fin_ne_nan he _) (by norm_num [VERTEXAG])) (by simp) h
      cases h2
    -- a coordinate is not a number only if both differences are infinite, and then the other one is infinite
    have hpn : rootPNum (fl ri 53) f x y = .nan → Outs (rootQNum (fl ri 53) f x y) := by
      intro h
      obtain ⟨s, h1, h2⟩ := Num.add_eq_nan (Num.mul_ne_nan hX hc0) (Num.neg_ne_nan (Num.mul_ne_nan hY hs0)) h
      have h3 : Num.mul (fl ri 53) (Num.sub (fl ri 53) y (.fin f.yNWRoot)) f.sinAz = .inf s := by
        cases hm : Num.mul (fl ri 53) (Num.sub (fl ri 53) y (.fin f.yNWRoot)) f.sinAz <;> rw [hm] at h2 <;> simp_all [Num.neg]
      obtain ⟨u, hu⟩ := mul_eq_inf (fun v hv => sub_fin_le hv) hc h1
      obtain ⟨v, hv⟩ := mul_eq_inf (fun v hv => sub_fin_le hv) hs h3
      unfold rootQNum
      rw [hu, mul_inf _ hc0] at h1
      rw [hv, mul_inf _ hs0] at h3
      rw [hu, hv, mul_inf _ hc0, mul_inf _ hs0]
      simp only [Num.inf.injEq] at h1 h3
      have : (if f.sinAz < 0 then !u else u) = (if f.cosAz < 0 then !v else v) := by
        revert h1 h3
        split_ifs <;> cases u <;> cases v <;> cases s <;> simp
      rw [this]
      simp only [Num.add, if_true]
      exact outs_inf _
    have hqn : rootQNum (fl ri 53) f x y = .nan → Outs (rootPNum (fl ri 53) f x y) := by
      intro h
      obtain ⟨s, h1, h3⟩ := Num.add_eq_nan (Num.mul_ne_nan hX hs0) (Num.mul_ne_nan hY hc0) h
      obtain ⟨u, hu⟩ := mul_eq_inf (fun v hv => sub_fin_le hv) hs h1
      obtain ⟨v, hv⟩ := mul_eq_inf (fun v hv => sub_fin_le hv) hc h3
      unfold rootPNum
      rw [hu, mul_inf _ hs0] at h1
      rw [hv, mul_inf _ hc0] at h3
      rw [hu, hv, mul_inf _ hc0, mul_inf _ hs0]
      simp only [Num.inf.injEq] at h1 h3
      have : (if f.cosAz < 0 then !u else u) = !(if f.sinAz < 0 then !v else v) := by
        revert h1 h3
        split_ifs <;> cases u <;> cases v <;> cases s <;> simp
      rw [this]
      simp only [Num.sub, Num.neg, Num.add, if_true]
      exact outs_inf _
    cases hp : rootPNum (fl ri 53) f x y with
    | nan => exact .inr (.inl (hpn hp))
    | inf s => exact .inl (outs_inf s)
    | fin p =>
      cases hq : rootQNum (fl ri 53) f x y with
      | nan => rw [← hp]; exact .inl (hqn hq)
      | inf s => exact .inr (.inl (outs_inf s))
      | fin q =>
        cases hr' : rootRNum (fl ri 53) elev with
        | nan => exact absurd hr' hr
        | inf s => exact .inr (.inr (.inl (outs_inf s)))
        | fin r => exact .inr (.inr (.inr ⟨p, q, r, rfl, rfl, rfl⟩))
  constructor
  · by_cases ho : Outs (rootPNum (fl ri 53) f x y) ∨ Outs (rootQNum (fl ri 53) f x y) ∨ Outs (rootRNum (fl ri 53) elev)
    · exact ⟨_, _, toAddrNum_out hproj ho a hl⟩
    · obtain ⟨p, q, r, ep, eq, er⟩ : ∃ p q r, rootPNum (fl ri 53) f x y = .fin p ∧ rootQNum (fl ri 53) f x y = .fin q ∧
          rootRNum (fl ri 53) elev = .fin r := by tauto
      obtain ⟨x', y', rfl, rfl, rfl⟩ := rootPNum_fin ep
      obtain ⟨x2, y2, g1, g2, rfl⟩ := rootQNum_fin eq
      cases g1; cases g2
      obtain ⟨e, rfl, rfl⟩ := rootRNum_fin er
      rw [toAddrNum_fin hproj ep eq er (proj := ⟨fun _ _ => .ok (x', y'), fun _ _ => .ub⟩) (lo := 0) (la := 0) rfl a hl,
        lonLatElevToAddrFl, if_pos (by omega)]
      simp only
      split <;> exact ⟨_, _, rfl⟩
  · rintro ⟨s, hinf⟩
    refine toAddrNum_out hproj ?_ a hl
    rcases key with h | h | h | ⟨p, q, r, ep, eq, er⟩
    · exact .inl h
    · exact .inr (.inl h)
    · exact .inr (.inr h)
    · obtain ⟨x', y', rfl, rfl, -⟩ := rootPNum_fin ep
      obtain ⟨e, rfl, -⟩ := rootRNum_fin er
      simp at hinf

/-- C104 is false of an elevation that is not a number: at every place where some elevation is inside the model the conversion is
undefined. -/
theorem C104_nan_elev (ri : IntRound K) (f : Frame K) (project : Num K → Num K → Outcome (Num K × Num K)) {lon lat elev : Num K}
    {a b : Addr} (h : lonLatElevToAddrNum (fl ri 53) f project a lon lat elev = .ok (b, 0)) :
    lonLatElevToAddrNum (fl ri 53) f project a lon lat .nan = .ub := by
  have hl : a.level ≤ 31 := by
    by_contra hc
    rw [lonLatElevToAddrNum, if_neg (by omega)] at h
    cases h
  obtain ⟨x, y, e, hp, rfl, -⟩ := C104_octant ri f project h
  have ho : ¬ (Outs (rootPNum (fl ri 53) f (.fin x) (.fin y)) ∨ Outs (rootQNum (fl ri 53) f (.fin x) (.fin y)) ∨
      Outs (rootRNum (fl ri 53) (.fin e))) := by
    intro ho
    rw [toAddrNum_out hp ho a hl] at h
    cases h
  have hn : rootRNum (fl ri 53) (.nan : Num K) = .nan := rfl
  rw [toAddrNum_in hp (by rw [hn]; simp only [not_or] at ho ⊢; exact ⟨ho.1, ho.2.1, not_outs_nan⟩) a hl, hn]
  have ht : tickNum (fl ri 53) (.nan : Num K) a.level = .ub := rfl
  rw [ht]
  split
  · rename_i h3; cases h3
  · rfl

/-- Nor is it true of a place that is not a number: with every elevation of the model the conversion is undefined. -/
theorem C104_nan_place (ri : IntRound K) (f : Frame K) (project : Num K → Num K → Outcome (Num K × Num K)) {lon lat x y : Num K}
    (hp : project lon lat = .ok (x, y)) (hn : x = .nan ∨ y = .nan) {elev : K} (h0 : -396800 ≤ elev) (h1 : elev ≤ 12800) (a : Addr)
    (hl : a.level ≤ 31) : lonLatElevToAddrNum (fl ri 53) f project a lon lat (.fin elev) = .ub := by
  have hP : rootPNum (fl ri 53) f x y = .nan := by
    unfold rootPNum
    rcases hn with rfl | rfl
    · cases y <;> rfl
    · have e : Num.mul (fl ri 53) (Num.sub (fl ri 53) .nan (.fin f.yNWRoot)) f.sinAz = .nan := rfl
      rw [e]
      generalize Num.mul (fl ri 53) (Num.sub (fl ri 53) x (.fin f.xNWRoot)) f.cosAz = u
      cases u <;> rfl
  have hQ : rootQNum (fl ri 53) f x y = .nan := by
    unfold rootQNum
    rcases hn with rfl | rfl
    · cases y <;> rfl
    · have e : Num.mul (fl ri 53) (Num.sub (fl ri 53) .nan (.fin f.yNWRoot)) f.cosAz = .nan := rfl
      rw [e]
      generalize Num.mul (fl ri 53) (Num.sub (fl ri 53) x (.fin f.xNWRoot)) f.sinAz = u
      cases u <;> rfl
  have ex : ∀ m : ℤ, |m| < 2 ^ 53 → fl ri 53 (m : K) = m := fun m hm => fl_int (by norm_num) hm
  have mono : ∀ {u v : K}, u ≤ v → fl ri 53 u ≤ fl ri 53 v := fun h => fl_mono (by norm_num) h
  have hR : ¬ Outs (rootRNum (fl ri 53) (.fin elev)) := by
    intro ho
    cases hr : rootRNum (fl ri 53) (.fin elev) with
    | nan => rw [hr] at ho; exact not_outs_nan ho
    | inf s =>
      have a1 : |elev - 12800| ≤ 409600 := by rw [abs_le]; constructor <;> linarith
      have a2 : |fl ri 53 (elev - 12800)| ≤ 409600 := by
        rw [abs_le] at a1 ⊢
        have b1 := mono a1.1
        have b2 := mono a1.2
        have c1 := ex (-409600) (by norm_num)
        have c2 := ex 409600 (by norm_num)
        push_cast at c1 c2
        rw [c1] at b1; rw [c2] at b2
        exact ⟨b1, b2⟩
      have a3 : |fl ri 53 (elev - 12800) * 4| ≤ 1638400 := by rw [abs_mul, abs_of_pos (by norm_num : (0 : K) < 4)]; linarith
      have a4 : |fl ri 53 (fl ri 53 (elev - 12800) * 4)| ≤ 1638400 := by
        rw [abs_le] at a3 ⊢
        have b1 := mono a3.1
        have b2 := mono a3.2
        have c1 := ex (-1638400) (by norm_num)
        have c2 := ex 1638400 (by norm_num)
        push_cast at c1 c2
        rw [c1] at b1; rw [c2] at b2
        exact ⟨b1, b2⟩
      have big : ∀ {v : K}, v ≤ 4000000 → v ≤ Num.maxDouble := fun h => le_maxDouble (h.trans (by
        calc (4000000 : K) ≤ 2 ^ 22 := by norm_num
          _ ≤ 2 ^ 1023 := pow_le_pow_right₀ (by norm_num) (by norm_num)))
      have e1 : Num.sub (fl ri 53) (.fin elev) (.fin (MAXELEV : K)) = .fin (fl ri 53 (elev - 12800)) := by
        have : Num.sub (fl ri 53) (.fin elev) (.fin (MAXELEV : K)) = Num.ofExact (fl ri 53) (elev + -MAXELEV) := rfl
        rw [this, ← sub_eq_add_neg]
        exact ofExact_fin (big (by unfold MAXELEV; linarith))
      have e2 : Num.mul (fl ri 53) (.fin (fl ri 53 (elev - 12800))) (VERTEXAG : K) = .fin (fl ri 53 (fl ri 53 (elev - 12800) * 4)) :=
        ofExact_fin (big (by unfold VERTEXAG; linarith))
      have e3 : Num.add (fl ri 53) (.fin (fl ri 53 (fl ri 53 (elev - 12800) * 4))) (.fin (ROOTLEN : K)) =
          .fin (fl ri 53 (fl ri 53 (fl ri 53 (elev - 12800) * 4) + ROOTLEN)) := by
        refine ofExact_fin (big ?_)
        refine (abs_add_le _ _).trans ?_
        unfold ROOTLEN
        rw [abs_of_pos (by norm_num : (0 : K) < 1638400)]
        linarith
      unfold rootRNum at hr
      rw [e1, e2, e3] at hr
      cases hr
    | fin r =>
      obtain ⟨e', he, rfl⟩ := rootRNum_fin hr
      cases he
      rw [hr, outs_fin] at ho
      unfold rootRFl at ho
      have m1 : fl ri 53 (-409600 : K) ≤ fl ri 53 (elev - MAXELEV) := mono (by unfold MAXELEV; linarith)
      have m2 : fl ri 53 (elev - MAXELEV) ≤ fl ri 53 (0 : K) := mono (by unfold MAXELEV; linarith)
      have c1 := ex (-409600) (by norm_num)
      have c2 := ex 0 (by norm_num)
      have c3 := ex (-1638400) (by norm_num)
      have c4 := ex 1638400 (by norm_num)
      push_cast at c1 c2 c3 c4
      rw [c1] at m1
      rw [c2] at m2
      have n1 : fl ri 53 (-1638400 : K) ≤ fl ri 53 (fl ri 53 (elev - MAXELEV) * VERTEXAG) := mono (by unfold VERTEXAG; linarith)
      have n2 : fl ri 53 (fl ri 53 (elev - MAXELEV) * VERTEXAG) ≤ fl ri 53 (0 : K) := mono (by unfold VERTEXAG; linarith)
      rw [c3] at n1
      rw [c2] at n2
      have o1 : fl ri 53 (0 : K) ≤ fl ri 53 (fl ri 53 (fl ri 53 (elev - MAXELEV) * VERTEXAG) + ROOTLEN) :=
        mono (by unfold ROOTLEN; linarith)
      have o2 : fl ri 53 (fl ri 53 (fl ri 53 (elev - MAXELEV) * VERTEXAG) + ROOTLEN) ≤ fl ri 53 (1638400 : K) :=
        mono (by unfold ROOTLEN; linarith)
      rw [c2] at o1
      rw [c4] at o2
      rcases ho with h | h
      · linarith
      · exact absurd (lt_of_lt_of_le h o2) (by unfold ROOTLEN; exact lt_irrefl _)
  rw [toAddrNum_in hp (by rw [hP, hQ]; simp only [not_or]; exact ⟨not_outs_nan, not_outs_nan, hR⟩) a hl, hP]
  have ht : tickNum (fl ri 53) (.nan : Num K) a.level = .ub := rfl
  rw [ht]

/-! ### C105 -/

/-- C105: overflow plays no role for locations within `2^1000` m of the root corner: the conversion is then exactly that of the
geometry on numbers without bounds (C80 to C85). -/
theorem C105 (ri : IntRound K) {f : Frame K} (hc : |f.cosAz| ≤ 1) (hs : |f.sinAz| ≤ 1)
    {project : Num K → Num K → Outcome (Num K × Num K)} {lon lat : Num K} {x y elev : K}
    (h : project lon lat = .ok (.fin x, .fin y)) (hx : |x - f.xNWRoot| ≤ 2 ^ 1000) (hy : |y - f.yNWRoot| ≤ 2 ^ 1000)
    (he : |elev - 12800| ≤ 2 ^ 1000) {proj : Projector K} {lo la : K} (hproj : proj.project lo la = .ok (x, y)) (a : Addr) :
    lonLatElevToAddrNum (fl ri 53) f project a lon lat (.fin elev) = lonLatElevToAddrFl (fl ri 53) f proj a lo la elev := by
  by_cases hl : a.level ≤ 31
  swap
  · rw [lonLatElevToAddrNum, lonLatElevToAddrFl, if_neg (by omega), if_neg (by omega)]
  have pw : ∀ n, |fl ri 53 (2 ^ n : K)| = 2 ^ n ∧ fl ri 53 (-2 ^ n : K) = -2 ^ n := by
    intro n
    rw [dbl_exact (x := (2 : K) ^ n) 1 n (by rw [zpow_natCast]; push_cast; ring) (by norm_num),
      dbl_exact (x := -(2 : K) ^ n) (-1) n (by rw [zpow_natCast]; push_cast; ring) (by norm_num), abs_of_pos (by positivity)]
    exact ⟨rfl, rfl⟩
  have step : ∀ {u : K} {n : ℕ}, |u| ≤ 2 ^ n → |fl ri 53 u| ≤ 2 ^ n := by
    intro u n hu
    obtain ⟨e1, e2⟩ := pw n
    rw [abs_le] at hu ⊢
    have b1 := fl_mono (ri := ri) (prec := 53) (by norm_num) hu.1
    have b2 := fl_mono (ri := ri) (prec := 53) (by norm_num) hu.2
    rw [e2] at b1
    rw [abs_of_pos (fl_pos (by norm_num) (by positivity))] at e1
    rw [e1] at b2
    exact ⟨b1, b2⟩
  have ofE : ∀ {u : K} {n : ℕ}, n ≤ 1023 → |u| ≤ 2 ^ n → Num.ofExact (fl ri 53) u = .fin (fl ri 53 u) := fun hn hu =>
    ofExact_fin (le_maxDouble (hu.trans (pow_le_pow_right₀ (by norm_num) hn)))
  have esub : ∀ {u v : K} {n : ℕ}, n ≤ 1023 → |u - v| ≤ 2 ^ n → Num.sub (fl ri 53) (.fin u) (.fin v) = .fin (fl ri 53 (u - v)) := by
    intro u v n hn hu
    rw [sub_eq_add_neg] at hu ⊢
    exact ofE hn hu
  have dbl : (2 : K) ^ 1000 + 2 ^ 1000 = 2 ^ 1001 := by rw [← two_mul, ← pow_succ']
  have sum2 : ∀ {u v : K}, |u| ≤ 2 ^ 1000 → |v| ≤ 2 ^ 1000 → |u + v| ≤ 2 ^ 1001 := fun h1 h2 => by
    rw [← dbl]; exact (abs_add_le _ _).trans (add_le_add h1 h2)
  have dif2 : ∀ {u v : K}, |u| ≤ 2 ^ 1000 → |v| ≤ 2 ^ 1000 → |u - v| ≤ 2 ^ 1001 := fun h1 h2 => by
    rw [← dbl]; exact (abs_sub _ _).trans (add_le_add h1 h2)
  have x1 := step hx
  have y1 := step hy
  have e1 := step he
  refine toAddrNum_fin h ?_ ?_ ?_ hproj a hl
  · unfold rootPNum
    rw [esub (by norm_num) hx, esub (by norm_num) hy]
    have a1 := abs_mul_le_of_le_one x1 hc
    have a2 := abs_mul_le_of_le_one y1 hs
    simp only [Num.mul]
    rw [ofE (by norm_num) a1, ofE (by norm_num) a2, esub (n := 1001) (by norm_num) (dif2 (step a1) (step a2))]
    rfl
  · unfold rootQNum
    rw [esub (by norm_num) hx, esub (by norm_num) hy]
    have a1 := abs_mul_le_of_le_one x1 hs
    have a2 := abs_mul_le_of_le_one y1 hc
    simp only [Num.mul]
    rw [ofE (by norm_num) a1, ofE (by norm_num) a2]
    simp only [Num.add]
    rw [ofE (n := 1001) (by norm_num) (sum2 (step a1) (step a2))]
    rfl
  · unfold rootRNum
    rw [esub (n := 1000) (by norm_num) (by unfold MAXELEV; exact he)]
    have a1 : |fl ri 53 (elev - 12800) * 4| ≤ 2 ^ 1002 := by
      rw [abs_mul, abs_of_pos (by norm_num : (0 : K) < 4)]
      have : (2 : K) ^ 1002 = 2 ^ 1000 * 4 := by rw [pow_add (2 : K) 1000 2]; norm_num
      rw [this]
      exact mul_le_mul_of_nonneg_right e1 (by norm_num)
    have a2 : |fl ri 53 (fl ri 53 (elev - 12800) * 4) + ROOTLEN| ≤ 2 ^ 1003 := by
      have h3 : (2 : K) ^ 1003 = 2 ^ 1002 + 2 ^ 1002 := by rw [← two_mul, ← pow_succ']
      have h4 : |(ROOTLEN : K)| ≤ 2 ^ 1002 := by
        unfold ROOTLEN
        rw [abs_of_pos (by norm_num : (0 : K) < 1638400)]
        calc (1638400 : K) ≤ 2 ^ 21 := by norm_num
          _ ≤ 2 ^ 1002 := pow_le_pow_right₀ (by norm_num) (by norm_num)
      rw [h3]
      exact (abs_add_le _ _).trans (add_le_add (step a1) h4)
    simp only [Num.mul]
    have r1 : Num.ofExact (fl ri 53) (fl ri 53 (elev - MAXELEV) * VERTEXAG) = .fin (fl ri 53 (fl ri 53 (elev - 12800) * 4)) :=
      ofE (by norm_num) a1
    rw [r1]
    simp only [Num.add]
    rw [ofE (by norm_num) a2]
    rfl

end

/-- The identity projection of any numbers. -/
def exProjNum : Num ℚ → Num ℚ → Outcome (Num ℚ × Num ℚ) := fun a b => .ok (a, b)

/-- C104 is false of the code: a location whose elevation is not a number is neither given an octant nor reported as outside. -/
theorem C104_false : ¬ ∀ (lon lat elev : Num ℚ) (a : Addr), a.level ≤ 31 →
    (¬ ∃ x y e, lon = .fin x ∧ lat = .fin y ∧ elev = .fin e) →
    ∃ b, lonLatElevToAddrNum (fl IntRound.nearest 53) exFrame exProjNum a lon lat elev = .ok (b, 1) := by
  intro h
  obtain ⟨b, hb⟩ := h (.fin 220) (.fin 40) .nan ⟨⟨0, 0, 0, 5⟩, .leaf⟩ (by decide) (by rintro ⟨x, y, e, -, -, h⟩; cases h)
  have h2 : lonLatElevToAddrNum (fl IntRound.nearest 53) exFrame exProjNum ⟨⟨0, 0, 0, 5⟩, .leaf⟩ (.fin 220) (.fin 40) .nan = .ub := by
    decide +kernel
  rw [h2] at hb
  cases hb

/-- A location with an octant; the same place with both coordinates infinite, where the first root coordinate is not a number and the
second is infinite; and at a height that overflows. -/
example : lonLatElevToAddrNum (fl IntRound.nearest 53) exFrame exProjNum ⟨⟨0, 0, 0, 16⟩, .leaf⟩ (.fin 220) (.fin 40) (.fin (-100)) =
      .ok (⟨⟨0x00020000#32, 0x00040000#32, 0x7bf80000#32, 16⟩, .leaf⟩, 0) ∧
    rootPNum (fl IntRound.nearest 53) exFrame (.inf false) (.inf false) = .nan ∧
    rootQNum (fl IntRound.nearest 53) exFrame (.inf false) (.inf false) = .inf false ∧
    lonLatElevToAddrNum (fl IntRound.nearest 53) exFrame exProjNum ⟨⟨0, 0, 0, 16⟩, .leaf⟩ (.inf false) (.inf false) (.fin (-100)) =
      .ok (⟨⟨-1, -1, -1, 16⟩, .leaf⟩, 1) ∧
    exFrame.cosAz ≠ 0 ∧ exFrame.sinAz ≠ 0 ∧ |exFrame.cosAz| ≤ 1 ∧ |exFrame.sinAz| ≤ 1 := by
  decide +kernel

example : rootRNum (fl IntRound.nearest 53) (.fin (2 ^ 1023 : ℚ)) = .inf false ∧
    lonLatElevToAddrNum (fl IntRound.nearest 53) exFrame exProjNum ⟨⟨0, 0, 0, 16⟩, .leaf⟩ (.fin 220) (.fin 40) (.fin (2 ^ 1023)) =
      .ok (⟨⟨-1, -1, -1, 16⟩, .leaf⟩, 1) := by
  decide +kernel

/-- The rotation of the code meets the hypotheses. -/
example : GeomCenCA.frame.cosAz ≠ 0 ∧ GeomCenCA.frame.sinAz ≠ 0 ∧ |GeomCenCA.frame.cosAz| ≤ 1 ∧ |GeomCenCA.frame.sinAz| ≤ 1 := by
  have h0 : 0 < azR := by unfold azR; positivity
  have h1 : azR < Real.pi / 2 := by unfold azR; linarith [Real.pi_pos]
  refine ⟨(Real.cos_pos_of_mem_Ioo ⟨by linarith, h1⟩).ne', (Real.sin_pos_of_pos_of_lt_pi h0 (by linarith [Real.pi_pos])).ne', ?_, ?_⟩
  · exact Real.abs_cos_le_one _
  · exact Real.abs_sin_le_one _

/-- A place that is not a number, at an elevation of the model. -/
example : exProjNum .nan (.fin 40) = .ok (.nan, .fin 40) ∧ (-396800 : ℚ) ≤ -100 ∧ (-100 : ℚ) ≤ 12800 ∧
    lonLatElevToAddrNum (fl IntRound.nearest 53) exFrame exProjNum ⟨⟨0, 0, 0, 16⟩, .leaf⟩ .nan (.fin 40) (.fin (-100)) = .ub := by
  decide +kernel

/-- The bounds of C105. -/
example : |220 - exFrame.xNWRoot| ≤ 2 ^ 1000 ∧ |40 - exFrame.yNWRoot| ≤ 2 ^ 1000 ∧ |(-100 : ℚ) - 12800| ≤ 2 ^ 1000 ∧
    exProjNum (.fin 220) (.fin 40) = .ok (.fin 220, .fin 40) ∧ exProj.project 220 40 = .ok (220, 40) := by
  decide +kernel

end CenCalVM
