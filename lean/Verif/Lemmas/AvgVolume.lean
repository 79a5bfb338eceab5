/-
Octants filled with material of one kind: the average is the volume-weighted mean.
-/
import Verif.Lemmas.AvgLocal
import Verif.Spec.AvgVolume
import Mathlib.Algebra.BigOperators.Group.List.Basic
import Mathlib.Algebra.Order.BigOperators.Group.List
import Mathlib.Tactic.Ring
import Mathlib.Tactic.LinearCombination
import Mathlib.Tactic.FieldSimp

set_option linter.unusedSectionVars false

namespace CenCalVM
namespace Key

/-- A tick moved up by `h` or not. -/
def upTick (v : BitVec 32) (h : Nat) (b : Bool) : BitVec 32 := if b then BitVec.ofNat 32 (v.toNat + h) else v

/-- The eight cells into which an octant is divided. -/
def kid (k : Key) (a b c : Bool) : Key :=
  ⟨upTick k.x (2 ^ (30 - k.level)) a, upTick k.y (2 ^ (30 - k.level)) b, upTick k.z (2 ^ (30 - k.level)) c, k.level + 1⟩

/-- The eight of them. -/
def kids (k : Key) : List Key :=
  [kid k false false false, kid k true false false, kid k false true false, kid k true true false,
    kid k false false true, kid k true false true, kid k false true true, kid k true true true]

theorem upTick_toNat {v : BitVec 32} {l : Nat} (hl : l < 31) (hv : v.toNat < 2 ^ 31) (b : Bool) :
    (upTick v (2 ^ (30 - l)) b).toNat = v.toNat + (if b then 2 ^ (30 - l) else 0) := by
  have h1 : 2 ^ (30 - l) ≤ 2 ^ 30 := Nat.pow_le_pow_right (by omega) (by omega)
  unfold upTick
  cases b
  · rfl
  · simp only [if_true, BitVec.toNat_ofNat]
    rw [Nat.mod_eq_of_lt (by omega)]

theorem half_add {l : Nat} (hl : l < 31) : 2 ^ (31 - l) = 2 ^ (30 - l) + 2 ^ (30 - l) := by
  rw [show 31 - l = (30 - l) + 1 by omega, Nat.pow_succ]; omega

theorem tick_end {v l : Nat} (hl : l ≤ 31) (hv : v < 2 ^ 31) (hd : 2 ^ (31 - l) ∣ v) : v + 2 ^ (31 - l) ≤ 2 ^ 31 := by
  obtain ⟨c, rfl⟩ := hd
  have h31 : (2 : Nat) ^ 31 = 2 ^ (31 - l) * 2 ^ l := by rw [← Nat.pow_add]; congr 1; omega
  rw [h31] at hv ⊢
  have hc : c < 2 ^ l := Nat.lt_of_mul_lt_mul_left hv
  calc 2 ^ (31 - l) * c + 2 ^ (31 - l) = 2 ^ (31 - l) * (c + 1) := by ring
    _ ≤ _ := Nat.mul_le_mul_left _ hc

theorem kid_axis {v : BitVec 32} {l : Nat} (hl : l < 31) (hv : v.toNat < 2 ^ 31) (hd : 2 ^ (31 - l) ∣ v.toNat) (b : Bool) :
    (upTick v (2 ^ (30 - l)) b).toNat < 2 ^ 31 ∧ 2 ^ (31 - (l + 1)) ∣ (upTick v (2 ^ (30 - l)) b).toNat ∧
      axisIn v.toNat (2 ^ (31 - l)) (upTick v (2 ^ (30 - l)) b).toNat (2 ^ (31 - (l + 1))) := by
  have h1 := half_add hl
  have h2 := tick_end hl.le hv hd
  have h3 : (0 : Nat) < 2 ^ (30 - l) := Nat.two_pow_pos _
  rw [upTick_toNat hl hv, show 31 - (l + 1) = 30 - l by omega]
  have h4 : 2 ^ (30 - l) ∣ v.toNat := Dvd.dvd.trans ⟨2, by omega⟩ hd
  refine ⟨by split <;> omega, ?_, ?_⟩
  · split
    · exact Nat.dvd_add h4 (Nat.dvd_refl _)
    · simpa using h4
  · unfold axisIn
    split <;> omega

theorem kid_octant {k : Key} (h : k.Octant) (hl : k.level < 31) (a b c : Bool) :
    (kid k a b c).Octant ∧ (kid k a b c).level = k.level + 1 ∧ k.Contains (kid k a b c) := by
  have hx := kid_axis hl h.x_lt h.x_dvd a
  have hy := kid_axis hl h.y_lt h.y_dvd b
  have hz := kid_axis hl h.z_lt h.z_dvd c
  exact ⟨⟨hl, hx.1, hy.1, hz.1, hx.2.1, hy.2.1, hz.2.1⟩, rfl, hx.2.2, hy.2.2, hz.2.2⟩

theorem axis_kid {v w : BitVec 32} {l : Nat} (hl : l < 31) (hv : v.toNat < 2 ^ 31) (hd : 2 ^ (31 - l) ∣ v.toNat)
    (hw : 2 ^ (31 - (l + 1)) ∣ w.toNat) (h : axisIn v.toNat (2 ^ (31 - l)) w.toNat (2 ^ (31 - (l + 1)))) :
    ∃ b, w = upTick v (2 ^ (30 - l)) b := by
  have h1 := half_add hl
  rw [show 31 - (l + 1) = 30 - l by omega] at hw h
  have h4 : 2 ^ (30 - l) ∣ v.toNat := Dvd.dvd.trans ⟨2, by omega⟩ hd
  have h3 : (0 : Nat) < 2 ^ (30 - l) := Nat.two_pow_pos _
  obtain ⟨i, hi⟩ := h4
  obtain ⟨j, hj⟩ := hw
  unfold axisIn at h
  have hij : j = i ∨ j = i + 1 := by
    have a1 : i ≤ j := by
      have := h.1; rw [hi, hj] at this; exact Nat.le_of_mul_le_mul_left this h3
    have a2 : j ≤ i + 1 := by
      have : 2 ^ (30 - l) * j ≤ 2 ^ (30 - l) * (i + 1) := by rw [Nat.mul_succ, ← hi, ← hj]; omega
      exact Nat.le_of_mul_le_mul_left this h3
    omega
  rcases hij with rfl | rfl
  · exact ⟨false, BitVec.eq_of_toNat_eq (by rw [upTick_toNat hl hv, hi, hj]; simp)⟩
  · exact ⟨true, BitVec.eq_of_toNat_eq (by rw [upTick_toNat hl hv, hi, hj]; simp [Nat.mul_succ])⟩

theorem mem_kids {k j : Key} (h : k.Octant) (hl : k.level < 31) : j ∈ kids k ↔ j.Octant ∧ j.level = k.level + 1 ∧ k.Contains j := by
  constructor
  · intro hj
    simp only [kids, List.mem_cons, List.not_mem_nil, or_false] at hj
    rcases hj with rfl | rfl | rfl | rfl | rfl | rfl | rfl | rfl <;> exact kid_octant h hl _ _ _
  · rintro ⟨ho, hjl, hc1, hc2, hc3⟩
    have hs : j.size = 2 ^ (31 - (k.level + 1)) := by unfold size; rw [hjl]
    rw [hs] at hc1 hc2 hc3
    obtain ⟨a, ha⟩ := axis_kid hl h.x_lt h.x_dvd (by rw [← hs]; exact ho.x_dvd) hc1
    obtain ⟨b, hb⟩ := axis_kid hl h.y_lt h.y_dvd (by rw [← hs]; exact ho.y_dvd) hc2
    obtain ⟨c, hc⟩ := axis_kid hl h.z_lt h.z_dvd (by rw [← hs]; exact ho.z_dvd) hc3
    have : j = kid k a b c := Key.ext' ha hb hc hjl
    rw [this]
    cases a <;> cases b <;> cases c <;> simp [kids]

theorem upTick_ne {v : BitVec 32} {l : Nat} (hl : l < 31) (hv : v.toNat < 2 ^ 31) {a b : Bool}
    (h : upTick v (2 ^ (30 - l)) a = upTick v (2 ^ (30 - l)) b) : a = b := by
  have h1 := congrArg BitVec.toNat h
  rw [upTick_toNat hl hv, upTick_toNat hl hv] at h1
  have h3 : (0 : Nat) < 2 ^ (30 - l) := Nat.two_pow_pos _
  cases a <;> cases b <;> simp at h1 ⊢

theorem kids_nodup {k : Key} (h : k.Octant) (hl : k.level < 31) : (kids k).Nodup := by
  have hinj : ∀ a b c a' b' c', kid k a b c = kid k a' b' c' → (a, b, c) = (a', b', c') := by
    intro a b c a' b' c' he
    rw [upTick_ne hl h.x_lt (congrArg Key.x he), upTick_ne hl h.y_lt (congrArg Key.y he),
      upTick_ne hl h.z_lt (congrArg Key.z he)]
  have : kids k = ([(false, false, false), (true, false, false), (false, true, false), (true, true, false), (false, false, true),
      (true, false, true), (false, true, true), (true, true, true)] : List (Bool × Bool × Bool)).map fun t => kid k t.1 t.2.1 t.2.2 := rfl
  rw [this]
  refine List.Nodup.map ?_ (by decide)
  rintro ⟨a, b, c⟩ ⟨a', b', c'⟩ he
  exact hinj _ _ _ _ _ _ he

theorem contains_refl {k : Key} : k.Contains k := by unfold Contains axisIn; omega

/-- Of two octants containing a third, one contains the other. -/
theorem contains_total {a b j : Key} (ha : a.Octant) (hb : b.Octant) (hj : j.Octant) (h1 : a.Contains j) (h2 : b.Contains j)
    (hl : a.level ≤ b.level) : a.Contains b := by
  rw [contains_iff_trunc ha hj] at h1
  rw [contains_iff_trunc hb hj] at h2
  rw [contains_iff_trunc ha hb]
  exact ⟨hl, by rw [← h2.2, trunc_trunc _ hl]; exact h1.2⟩

/-- An octant inside `k` and smaller lies in exactly the cell of `k` found by truncation. -/
theorem kid_contains {k j e : Key} (h : k.Octant) (he : e.Octant) (hlt : k.level < e.level) (hj : j ∈ kids k) :
    j.Contains e ↔ j = e.trunc (k.level + 1) := by
  have hl : k.level < 31 := by have := he.level_le; omega
  obtain ⟨j1, j2, j3⟩ := (mem_kids h hl).1 hj
  rw [contains_iff_trunc j1 he, j2]
  exact ⟨fun h => h.2.symm, fun h => ⟨hlt, h.symm⟩⟩

theorem trunc_mem_kids {k e : Key} (h : k.Octant) (he : e.Octant) (hk : k.Contains e) (hlt : k.level < e.level) :
    e.trunc (k.level + 1) ∈ kids k := by
  have hl : k.level < 31 := by have := he.level_le; omega
  rw [mem_kids h hl]
  have ho : (e.trunc (k.level + 1)).Octant := he.trunc (by omega)
  refine ⟨ho, rfl, ?_⟩
  rw [contains_iff_trunc h ho]
  refine ⟨Nat.le_succ _, ?_⟩
  rw [trunc_trunc _ (Nat.le_succ _)]
  exact ((contains_iff_trunc h he).1 hk).2

/-- A cell of level 31 in an octant. -/
theorem finest_in {k : Key} (h : k.Octant) : ({ k with level := 31 } : Key).Octant ∧ k.Contains { k with level := 31 } := by
  have hs : ({ k with level := 31 } : Key).size = 1 := rfl
  have hk : 1 ≤ k.size := Nat.two_pow_pos _
  refine ⟨⟨le_rfl, h.x_lt, h.y_lt, h.z_lt, ?_, ?_, ?_⟩, ?_⟩
  · rw [hs]; exact Nat.one_dvd _
  · rw [hs]; exact Nat.one_dvd _
  · rw [hs]; exact Nat.one_dvd _
  · unfold Contains axisIn
    rw [hs]
    simp only
    omega

end Key

open Key FileApps
variable {K : Type} [Field K] [LinearOrder K] [IsStrictOrderedRing K]

theorem sum_ite_mem {β : Type} [DecidableEq β] (v : K) (b : β) : ∀ l : List β, l.Nodup →
    (l.map fun j => if j = b then v else 0).sum = if b ∈ l then v else 0
  | [], _ => by simp
  | a :: l, h => by
    rw [List.nodup_cons] at h
    rw [List.map_cons, List.sum_cons, sum_ite_mem v b l h.2]
    by_cases hb : a = b
    · subst hb; simp [h.1]
    · simp [hb, Ne.symm hb]

/-- Adding up over the cells of `k` is adding up over what lies in `k`. -/
theorem sum_kids {k : Key} (h : k.Octant) (hl : k.level < 31) (v : Entry K → K) : ∀ l : List (Entry K),
    (∀ e ∈ l, e.addr.toKey.Octant) → (∀ e ∈ l, k.Contains e.addr.toKey → k.level < e.addr.level) →
    ((kids k).map fun j => ((l.filter fun e => decide (j.Contains e.addr.toKey)).map v).sum).sum =
      ((l.filter fun e => decide (k.Contains e.addr.toKey)).map v).sum
  | [], _, _ => by simp
  | e :: l, ho, hlt => by
    have ih := sum_kids h hl v l (fun y hy => ho y (List.mem_cons_of_mem _ hy)) fun y hy => hlt y (List.mem_cons_of_mem _ hy)
    have he := ho e List.mem_cons_self
    have hstep : ∀ j : Key, (((e :: l).filter fun e => decide (j.Contains e.addr.toKey)).map v).sum =
        (if j.Contains e.addr.toKey then v e else 0) + ((l.filter fun e => decide (j.Contains e.addr.toKey)).map v).sum := by
      intro j
      by_cases hj : j.Contains e.addr.toKey
      · rw [List.filter_cons_of_pos (by simpa using hj), if_pos hj]; simp
      · rw [List.filter_cons_of_neg (by simpa using hj), if_neg hj]; simp
    rw [hstep k, ← ih]
    have hm : ((kids k).map fun j => (((e :: l).filter fun e => decide (j.Contains e.addr.toKey)).map v).sum) =
        (kids k).map fun j => (if j.Contains e.addr.toKey then v e else 0) + ((l.filter fun e => decide (j.Contains e.addr.toKey)).map v).sum :=
      List.map_congr_left fun j _ => hstep j
    rw [hm, List.sum_map_add]
    congr 1
    by_cases hk : k.Contains e.addr.toKey
    · have hlt' := hlt e List.mem_cons_self hk
      rw [if_pos hk]
      have : ((kids k).map fun j => if j.Contains e.addr.toKey then v e else 0) =
          (kids k).map fun j => if j = e.addr.toKey.trunc (k.level + 1) then v e else 0 := by
        refine List.map_congr_left fun j hj => ?_
        simp only [kid_contains h he hlt' hj]
      rw [this, sum_ite_mem _ _ _ (kids_nodup h hl), if_pos (trunc_mem_kids h he hk hlt')]
    · rw [if_neg hk]
      have : ((kids k).map fun j => if j.Contains e.addr.toKey then v e else 0) = (kids k).map fun _ => (0 : K) := by
        refine List.map_congr_left fun j hj => ?_
        have hj' := (mem_kids h hl).1 hj
        rw [if_neg fun hc => hk (contains_trans hj'.2.2 hc)]
      rw [this]; simp

theorem SolidPrecedence.isMean {b : Bool} {ps : List (Payload K)} {p : Payload K} (h : SolidPrecedence ps p) (hne : ps ≠ [])
    (hk : ∀ c ∈ ps, OfKind b c) : IsMean ps p := by
  obtain ⟨c, hc⟩ := List.exists_mem_of_ne_nil _ hne
  cases b
  · have h1 : ∀ c ∈ ps, ¬ 0 < c.vs ∧ 0 < c.vp := hk
    have := h.water (fun c hc => (h1 c hc).1) ⟨c, hc, (h1 c hc).2⟩
    rwa [List.filter_eq_self.2 fun c hc => by simpa using (h1 c hc).2] at this
  · have h1 : ∀ c ∈ ps, 0 < c.vs := hk
    have := h.solid ⟨c, hc, h1 c hc⟩
    rwa [List.filter_eq_self.2 fun c hc => by simpa using h1 c hc] at this

theorem list_sum_pos {l : List K} (h : ∀ x ∈ l, 0 < x) (hne : l ≠ []) : 0 < l.sum := by
  induction l with
  | nil => exact absurd rfl hne
  | cons a l ih =>
    rw [List.sum_cons]
    have ha := h a List.mem_cons_self
    cases l with
    | nil => simpa using ha
    | cons b l => exact add_pos ha (ih (fun x hx => h x (List.mem_cons_of_mem _ hx)) (by simp))

theorem list_sum_nonpos {l : List K} (h : ∀ x ∈ l, x ≤ 0) : l.sum ≤ 0 := by
  induction l with
  | nil => simp
  | cons a l ih =>
    rw [List.sum_cons]
    exact add_nonpos (h a List.mem_cons_self) (ih fun x hx => h x (List.mem_cons_of_mem _ hx))

theorem size_pos (k : Key) : (0 : K) < (k.size : K) ^ 3 := by
  have : 0 < k.size := Nat.two_pow_pos _
  positivity

theorem ofKind_of_sum {b : Bool} {ps : List (Payload K)} {p : Payload K} (hm : IsMean ps p) (hne : ps ≠ []) (hk : ∀ c ∈ ps, OfKind b c) :
    OfKind b p := by
  have hlen : (0 : K) < (ps.length : K) := by
    have := List.length_pos_iff.2 hne
    exact_mod_cast this
  cases b
  · have h1 : ∀ c ∈ ps, ¬ 0 < c.vs ∧ 0 < c.vp := hk
    refine ⟨?_, ?_⟩
    · rw [hm Payload.vs (by simp [Payload.reals]), not_lt]
      refine div_nonpos_of_nonpos_of_nonneg (list_sum_nonpos fun x hx => ?_) hlen.le
      obtain ⟨c, hc, rfl⟩ := List.mem_map.1 hx
      exact not_lt.1 (h1 c hc).1
    · rw [hm Payload.vp (by simp [Payload.reals])]
      refine div_pos (list_sum_pos (fun x hx => ?_) (by simpa using hne)) hlen
      obtain ⟨c, hc, rfl⟩ := List.mem_map.1 hx
      exact (h1 c hc).2
  · have h1 : ∀ c ∈ ps, 0 < c.vs := hk
    show 0 < p.vs
    rw [hm Payload.vs (by simp [Payload.reals])]
    refine div_pos (list_sum_pos (fun x hx => ?_) (by simpa using hne)) hlen
    obtain ⟨c, hc, rfl⟩ := List.mem_map.1 hx
    exact h1 c hc

theorem Db.covers_self {db : Db K} {e : Entry K} (he : e ∈ db.entries) {k : Key} (hk : e.addr.toKey = k) : db.Covers k :=
  fun _ _ _ hc => ⟨e, he, by rw [hk]; exact hc⟩

theorem Db.covers_kids {db : Db K} {k : Key} (hk : k.Octant) (hl : k.level < 31) (h : ∀ j ∈ kids k, db.Covers j) : db.Covers k := by
  intro j hj hjl hc
  have hlt : k.level < j.level := by omega
  exact h _ (trunc_mem_kids hk hj hc hlt) j hj hjl ((kid_contains hk hj hlt (trunc_mem_kids hk hj hc hlt)).2 rfl)

theorem FileApps.AverageOf.volume {db out : Db K} (hdb : db.Good) (hno : db.NonOverlapping) (h : AverageOf db out) (b : Bool) :
    ∀ (n : Nat) (k : Key), 31 < k.level + n → db.Covers k → (∀ e ∈ db.entries, k.Contains e.addr.toKey → OfKind b e.payload) →
      ∀ x ∈ out.entries, x.addr.toKey = k → OfKind b x.payload ∧
        ∀ r ∈ Payload.reals (K := K), r x.payload * (k.size : K) ^ 3 = db.volumeSum r k
  | 0, k, hn, _, _, x, hx, hk => by
      have := (h.good.octants x hx).level_le
      have e : x.addr.toKey.level = k.level := by rw [hk]
      omega
  | n + 1, k, hn, hcov, hkind, x, hx, hk => by
      have hko : k.Octant := by rw [← hk]; exact h.good.octants x hx
      by_cases hin : x ∈ db.entries
      · refine ⟨hkind x hin (by rw [hk]; exact contains_refl), fun r _ => ?_⟩
        have hf : (db.entries.filter fun e => decide (k.Contains e.addr.toKey)) = [x] := by
          refine sorted_eq_of_mem (hdb.sorted.filter _) (List.pairwise_singleton _ _) fun y => ?_
          simp only [List.mem_filter, decide_eq_true_eq, List.mem_singleton]
          constructor
          · rintro ⟨h1, h2⟩
            exact (hno x hin y h1 (by rw [hk]; exact h2)).symm
          · rintro rfl
            exact ⟨hin, by rw [hk]; exact contains_refl⟩
        unfold Db.volumeSum
        rw [hf]
        simp [hk]
      · obtain ⟨hty, ⟨-, e0, he0, hke0, hne0⟩, hsp⟩ := h.others x hx hin
        rw [hk] at hke0 hne0 hsp
        have he0o := hdb.octants e0 he0
        have hlt0 : k.level < e0.addr.level := by
          obtain ⟨h1, h2⟩ := (contains_iff_trunc hko he0o).1 hke0
          rcases Nat.lt_or_eq_of_le h1 with h3 | h3
          · exact h3
          · exfalso; apply hne0; rw [← h2, h3]; exact he0o.trunc_self
        have hl31 : k.level < 31 := by
          have : e0.addr.level ≤ 31 := he0o.level_le
          omega
        -- no stored octant contains `k`
        have hnot : ∀ e ∈ db.entries, ¬ e.addr.toKey.Contains k := fun e he hc => by
          have h1 := hno e he e0 he0 (contains_trans hc hke0)
          subst h1
          have h2 := ((contains_iff_trunc he0o hko).1 hc).1
          have h3 : e.addr.level ≤ k.level := h2
          omega
        have hbelow : ∀ e ∈ db.entries, k.Contains e.addr.toKey → k.level < e.addr.level := fun e he hc => by
          have heo := hdb.octants e he
          obtain ⟨h1, h2⟩ := (contains_iff_trunc hko heo).1 hc
          rcases Nat.lt_or_eq_of_le h1 with h3 | h3
          · exact h3
          · exfalso; apply hnot e he
            have h4 : k = e.addr.toKey := by rw [← h2, h3]; exact heo.trunc_self
            rw [← h4]; exact contains_refl
        -- all eight cells of `k` are there
        have hch : ((out.childrenOf k).map fun c => c.addr.toKey).Perm (kids k) := by
          have hnd : ((out.childrenOf k).map fun c => c.addr.toKey).Nodup := by
            have hs : (out.childrenOf k).Pairwise fun a b => a.addr.toKey.zkey < b.addr.toKey.zkey := h.good.sorted.filter _
            rw [List.nodup_iff_pairwise_ne, List.pairwise_map]
            exact hs.imp fun {a b} hab he => by rw [he] at hab; exact lt_irrefl _ hab
          rw [List.perm_ext_iff_of_nodup hnd (kids_nodup hko hl31)]
          intro j
          simp only [Db.childrenOf, List.mem_map, List.mem_filter, decide_eq_true_eq]
          rw [mem_kids hko hl31]
          constructor
          · rintro ⟨c, ⟨hc, h1, h2⟩, rfl⟩
            exact ⟨h.good.octants c hc, h1, h2⟩
          · rintro ⟨hjo, hjl, hkj⟩
            obtain ⟨hfo, hjf⟩ := finest_in hjo
            obtain ⟨e, he, hef⟩ := hcov _ hfo rfl (contains_trans hkj hjf)
            have heo := hdb.octants e he
            have hje : j.Contains e.addr.toKey := by
              rcases Nat.lt_or_ge e.addr.level j.level with hlt | hge
              · exfalso
                refine hnot e he (contains_total heo hko hfo hef (contains_trans hkj hjf) ?_)
                show e.addr.level ≤ k.level
                omega
              · exact contains_total hjo heo hfo hjf hef hge
            have : (∃ y ∈ db.entries, y.addr.toKey = j) ∨ db.ProperAncestor j := by
              by_cases hq : j = e.addr.toKey
              · exact Or.inl ⟨e, he, hq.symm⟩
              · exact Or.inr ⟨hjo, e, he, hje, hq⟩
            obtain ⟨c, hc, hcj⟩ := (h.keys j).2 this
            exact ⟨c, ⟨hc, by rw [hcj]; exact ⟨hjl, hkj⟩⟩, hcj⟩
        have hlen : (out.childrenOf k).length = 8 := by
          have := hch.length_eq
          rw [List.length_map] at this
          rw [this]; rfl
        have hrec : ∀ c ∈ out.childrenOf k, OfKind b c.payload ∧ ∀ r ∈ Payload.reals (K := K),
            r c.payload * (c.addr.toKey.size : K) ^ 3 = db.volumeSum r c.addr.toKey := by
          intro c hc
          simp only [Db.childrenOf, List.mem_filter, decide_eq_true_eq] at hc
          obtain ⟨hc, h1, h2⟩ := hc
          exact volume hdb hno h b n c.addr.toKey (by omega) (fun j a1 a2 a3 => hcov j a1 a2 (contains_trans h2 a3))
            (fun e a1 a2 => hkind e a1 (contains_trans h2 a2)) c hc rfl
        have hcne : (out.childrenOf k).map Entry.payload ≠ [] := by
          intro h0
          have := congrArg List.length h0
          rw [List.length_map, hlen] at this
          cases this
        have hck : ∀ c ∈ (out.childrenOf k).map Entry.payload, OfKind b c := by
          intro c hc
          obtain ⟨y, hy, rfl⟩ := List.mem_map.1 hc
          exact (hrec y hy).1
        have hmean := hsp.isMean hcne hck
        refine ⟨ofKind_of_sum hmean hcne hck, fun r hr => ?_⟩
        have hsize : ∀ c ∈ out.childrenOf k, (k.size : K) ^ 3 = 8 * (c.addr.toKey.size : K) ^ 3 := by
          intro c hc
          simp only [Db.childrenOf, List.mem_filter, decide_eq_true_eq] at hc
          have h1 : c.addr.toKey.level = k.level + 1 := hc.2.1
          have h2 : k.size = c.addr.toKey.size + c.addr.toKey.size := by
            unfold Key.size
            rw [h1, show 31 - (k.level + 1) = 30 - k.level by omega]
            exact half_add hl31
          rw [h2]; push_cast; ring
        rw [hmean r hr, List.map_map, List.length_map, hlen]
        have e1 : ((out.childrenOf k).map (r ∘ Entry.payload)).sum / ((8 : Nat) : K) * (k.size : K) ^ 3 =
            ((out.childrenOf k).map fun c => db.volumeSum r c.addr.toKey).sum := by
          have : ((out.childrenOf k).map fun c => db.volumeSum r c.addr.toKey) =
              (out.childrenOf k).map fun c => (r ∘ Entry.payload) c * ((k.size : K) ^ 3 / 8) := by
            refine List.map_congr_left fun c hc => ?_
            rw [← (hrec c hc).2 r hr, hsize c hc]
            simp only [Function.comp]
            field_simp
          rw [this, List.sum_map_mul_right]
          push_cast
          ring
        rw [e1]
        have e2 : ((out.childrenOf k).map fun c => db.volumeSum r c.addr.toKey) =
            ((out.childrenOf k).map fun c => c.addr.toKey).map fun j => db.volumeSum r j := by rw [List.map_map]; rfl
        rw [e2, (hch.map _).sum_eq]
        exact sum_kids hko hl31 _ _ hdb.octants hbelow

end CenCalVM
