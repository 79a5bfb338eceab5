/-
Lemmas about WAVERES queries in the precision of float and double.
-/
import Verif.Lemmas.Float
import Verif.Lemmas.QuerySpec
import Verif.Spec.QueryFloat

set_option linter.unusedSectionVars false

namespace CenCalVM
open VMQuery
variable {K : Type} [Field K] [LinearOrder K] [IsStrictOrderedRing K]

section
variable [FloorRing K]

/-- A rounded number is not changed by rounding again to as many digits or more. -/
theorem fl_fl {ri rj : IntRound K} {n m : ℕ} (hn : 0 < n) (hnm : n ≤ m) (x : K) : fl rj m (fl ri n x) = fl ri n x := by
  by_cases hx : x = 0
  · simp [hx]
  have hm : 0 < m := hn.trans_le hnm
  obtain ⟨-, h2⟩ := log_bounds hx
  unfold fl
  rw [if_neg hx]
  set e := Int.log 2 |x| - ((n - 1 : ℕ) : ℤ) with he
  set z := ri.toInt (x / 2 ^ e) with hz
  have hpos := two_zpow_pos (K := K) e
  have h3 : (2 : K) ^ (Int.log 2 |x| + 1) = 2 ^ n * 2 ^ e := by
    rw [← zpow_natCast (2 : K) n, ← zpow_add₀ (by norm_num)]; congr 1; omega
  rw [h3, abs_lt] at h2
  have h4 : z ≤ 2 ^ n := by
    refine ri.of_le ?_
    rw [div_le_iff₀ hpos]; push_cast; exact h2.2.le
  have h5 : -2 ^ n ≤ z := by
    refine ri.le_of_le ?_
    rw [le_div_iff₀ hpos]; push_cast; linarith [h2.1]
  have hle : (2 : ℤ) ^ n ≤ 2 ^ m := pow_le_pow_right₀ (by norm_num) hnm
  have one : (1 : ℤ) < 2 ^ m := one_lt_pow₀ (by norm_num) hm.ne'
  have hpow : (2 : K) ^ n * 2 ^ e = 2 ^ (e + n) := by
    rw [← zpow_natCast (2 : K) n, ← zpow_add₀ (by norm_num), add_comm]
  have key : fl rj m ((z : K) * 2 ^ e) = (z : K) * 2 ^ e := by
    rcases h4.lt_or_eq with h6 | h6
    · rcases h5.lt_or_eq with h7 | h7
      · exact fl_exact hm (by rw [abs_lt]; constructor <;> linarith)
      · have : (z : K) * 2 ^ e = ((-1 : ℤ) : K) * 2 ^ (e + n) := by
          rw [← h7, ← hpow]; push_cast; ring
        rw [this]
        exact fl_exact hm (by simpa using one)
    · have : (z : K) * 2 ^ e = ((1 : ℤ) : K) * 2 ^ (e + n) := by
        rw [h6, ← hpow]; push_cast; ring
      rw [this]
      exact fl_exact hm (by simpa using one)
  unfold fl at key
  exact key

/-- Halving is exact. -/
theorem fl_half {ri : IntRound K} {n : ℕ} (x : K) : fl ri n (1 / 2 * x) = 1 / 2 * fl ri n x := by
  have h := fl_scale (ri := ri) (prec := n) x (-1)
  have e : (2 : K) ^ (-1 : ℤ) = 1 / 2 := by norm_num
  rw [e] at h
  rw [mul_comm, h, mul_comm]

theorem fl_double {ri : IntRound K} {n : ℕ} (x : K) : fl ri n (x + x) = fl ri n x + fl ri n x := by
  have h := fl_scale (ri := ri) (prec := n) x 1
  have e : (2 : K) ^ (1 : ℤ) = 2 := by norm_num
  rw [e] at h
  rw [← mul_two, h, mul_two]

theorem waveMean_eq {ri rj : IntRound K} {rd : Rd K} (h : rd.Binary ri rj) (c l : K) : waveMean rd c l = 1 / 2 * fl ri 24 (c + l) := by
  unfold waveMean
  rw [h.1, h.2, fl_half, fl_fl (by norm_num) (by norm_num), fl_half, fl_fl (by norm_num) le_rfl]

theorem waveMean_near {ri rj : IntRound K} {rd : Rd K} (h : rd.Binary ri rj) {c l : K} (hc : fl ri 24 c = c) (hl : fl ri 24 l = l) :
    min c l ≤ waveMean rd c l ∧ waveMean rd c l ≤ max c l ∧ |waveMean rd c l - (c + l) / 2| ≤ 1 / 2 ^ 23 * |(c + l) / 2| := by
  have key : ∀ {c l : K}, fl ri 24 c = c → fl ri 24 l = l → c ≤ l → c ≤ waveMean rd c l ∧ waveMean rd c l ≤ l := by
    intro c l hc hl hcl
    rw [waveMean_eq h]
    have h1 := fl_mono (ri := ri) (prec := 24) (by norm_num) (show c + c ≤ c + l by linarith)
    have h2 := fl_mono (ri := ri) (prec := 24) (by norm_num) (show c + l ≤ l + l by linarith)
    rw [fl_double, hc] at h1
    rw [fl_double, hl] at h2
    constructor <;> linarith
  have herr : |waveMean rd c l - (c + l) / 2| ≤ 1 / 2 ^ 23 * |(c + l) / 2| := by
    rw [waveMean_eq h]
    have h1 := fl_error (ri := ri) (prec := 24) (c + l)
    have e1 : 1 / 2 * fl ri 24 (c + l) - (c + l) / 2 = 1 / 2 * (fl ri 24 (c + l) - (c + l)) := by ring
    have e2 : |(1 : K) / 2| = 1 / 2 := abs_of_pos (by norm_num)
    rw [e1, abs_mul, e2, abs_div, abs_two]
    have e3 : |c + l| / 2 ^ (24 - 1) = 1 / 2 ^ 23 * |c + l| := by ring
    rw [e3] at h1
    linarith
  rcases le_total c l with hcl | hcl
  · rw [min_eq_left hcl, max_eq_right hcl]
    exact ⟨(key hc hl hcl).1, (key hc hl hcl).2, herr⟩
  · rw [min_eq_right hcl, max_eq_left hcl]
    have hsym : waveMean rd c l = waveMean rd l c := by unfold waveMean; rw [add_comm]
    rw [hsym]
    rw [hsym] at herr
    exact ⟨(key hl hc hcl).1, (key hl hc hcl).2, herr⟩

theorem waveAverage_near {ri rj : IntRound K} {rd : Rd K} (h : rd.Binary ri rj) {db : Db K} (hs : db.Single ri) {c l : Entry K}
    (hc : c ∈ db.entries) (hl : l ∈ db.entries) : NearMeanPayload (1 / 2 ^ 23) c.payload l.payload (waveAverage rd c.payload l.payload) := by
  refine ⟨fun r hr => ?_, rfl, rfl⟩
  have h1 := waveMean_near h (hs c hc r hr) (hs l hl r hr)
  simp only [Payload.reals, List.mem_cons, List.not_mem_nil, or_false] at hr
  rcases hr with rfl | rfl | rfl | rfl | rfl | rfl <;> exact h1

theorem keepsSame_single {ri rj : IntRound K} {rd : Rd K} (h : rd.Binary ri rj) {db : Db K} (hs : db.Single ri) : Rd.KeepsSame rd db := by
  intro e he
  obtain ⟨h1, -, -⟩ := waveAverage_near h hs he he
  have h2 : ∀ r ∈ Payload.reals (K := K), r (waveAverage rd e.payload e.payload) = r e.payload := fun r hr => by
    obtain ⟨a, b, -⟩ := h1 r hr
    rw [min_self] at a
    rw [max_self] at b
    exact le_antisymm b a
  simp only [Payload.reals, List.forall_mem_cons] at h2
  obtain ⟨e1, e2, e3, e4, e5, e6, -⟩ := h2
  have : ∀ p p' : Payload K, p.vp = p'.vp → p.vs = p'.vs → p.density = p'.density → p.qp = p'.qp → p.qs = p'.qs → p.depth = p'.depth →
      p.faultBlock = p'.faultBlock → p.zone = p'.zone → p = p' := by
    rintro ⟨⟩ ⟨⟩; simp only; intros; congr
  exact this _ _ e1 e2 e3 e4 e5 e6 rfl rfl

/-- What one database answers to a WAVERES query. -/
theorem waveAnswer_upTo {q : VMQuery K} {g : Geom K} {ri rj : IntRound K} (hrd : q.rd.Binary ri rj) (hq : q.queryFn = .WAVERES)
    (hlen : ∀ n, 0 < g.edgeLen n) {T : K} (hT : T = g.vertExag * q.queryRes) (hTd : fl rj 53 T = T) {d : Db K} (hd : d.Good)
    (hda : d.AncestorClosed) (hds : d.Single ri) {a : Addr} (ha : a.toKey.Aligned) :
    WaveAnswerUpTo (1 / 2 ^ 52) (1 / 2 ^ 23) g T a.toKey d (ansP q g d a) := by
  -- comparing a rounded quotient with the period
  have down : ∀ x, q.rd.double x < T → x < T := fun x hx => by
    by_contra hge
    have := fl_mono (ri := rj) (prec := 53) (by norm_num) (not_lt.1 hge)
    rw [hTd] at this
    rw [hrd.2] at hx
    exact absurd hx (not_lt.2 this)
  have up : ∀ x, T < q.rd.double x → T < x := fun x hx => by
    by_contra hge
    have := fl_mono (ri := rj) (prec := 53) (by norm_num) (not_lt.1 hge)
    rw [hTd] at this
    rw [hrd.2] at hx
    exact absurd hx (not_lt.2 this)
  have err : ∀ x, |q.rd.double x - x| ≤ 1 / 2 ^ 52 * |x| := fun x => by
    rw [hrd.2]
    have := fl_error (ri := rj) (prec := 53) x
    have e : |x| / 2 ^ (53 - 1) = 1 / 2 ^ 52 * |x| := by ring
    rwa [e] at this
  rcases (ansP_walk hq g hd hda ha).2 with ⟨h1, h2⟩ | ⟨⟨e, he, hA⟩, h2⟩
  · refine Or.inl ⟨fun e he => ?_, h2⟩
    have h3 := h1 e he
    unfold Acceptable at h3
    rw [hq, not_or, not_and_or, not_not, not_le, ← hT] at h3
    refine ⟨?_, h3.2.imp id (up _)⟩
    cases ht : e.addr.type with
    | leaf => exact absurd ht h3.1
    | interior => rfl
  · refine Or.inr ⟨⟨e, he, ?_⟩, ?_⟩
    · rintro ⟨ht, hcoarse⟩
      unfold Acceptable at hA
      rw [hq, ht, ← hT] at hA
      rcases hA with hA | ⟨hA1, hA2⟩
      · cases hA
      · rcases hcoarse with h | h
        · exact hA1 h
        · have := abs_le.1 (err (g.edgeLen e.addr.level / e.payload.vs))
          linarith [this.1]
    · have h3 := h2 (keepsSame_single hrd hds)
      rw [← hT] at h3
      refine walkUp_imp h3 (fun f _ hf => ?_) (fun f _ hf => ?_) (fun c hc l hl p hp => ?_)
      · obtain ⟨f1, f2, f3⟩ := hf
        have f4 := down _ f2
        rw [div_lt_iff₀ f1] at f4
        exact ⟨f1, by rw [mul_comm]; exact f4, f3⟩
      · rintro ⟨f1, f2, f3⟩
        refine hf ⟨f1, ?_, f3⟩
        have hpos := div_pos (hlen f.addr.level) f1
        have h5 := abs_le.1 (err (g.edgeLen f.addr.level / f.payload.vs))
        rw [abs_of_pos hpos] at h5
        have h6 : g.edgeLen f.addr.level / f.payload.vs * (1 + 1 / 2 ^ 52) < T := by
          rw [div_mul_eq_mul_div, div_lt_iff₀ f1]; linarith [mul_comm T f.payload.vs]
        linarith [h5.2]
      · rw [hp]; exact waveAverage_near hrd hds hc hl

end

end CenCalVM
