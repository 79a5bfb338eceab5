/-
Values of the averages.
-/
import Verif.Lemmas.AvgResult
import Mathlib.Algebra.Order.BigOperators.Group.List
import Mathlib.Algebra.BigOperators.Group.List.Lemmas
import Mathlib.Algebra.Order.Field.Basic
import Mathlib.Tactic.FieldSimp

set_option linter.unusedSectionVars false

namespace CenCalVM
namespace AvgEngine
variable {K : Type} [Field K] [LinearOrder K] [IsStrictOrderedRing K]

theorem reals_cases {P : (Payload K → K) → Prop} (h1 : P Payload.vp) (h2 : P Payload.vs) (h3 : P Payload.density)
    (h4 : P Payload.qp) (h5 : P Payload.qs) (h6 : P Payload.depth) : ∀ f ∈ Payload.reals (K := K), P f := by
  intro f hf
  simp only [Payload.reals, List.mem_cons, List.not_mem_nil, or_false] at hf
  rcases hf with rfl | rfl | rfl | rfl | rfl | rfl <;> assumption

theorem vs_mem : Payload.vs ∈ Payload.reals (K := K) := by simp [Payload.reals]
theorem vp_mem : Payload.vp ∈ Payload.reals (K := K) := by simp [Payload.reals]

theorem reals_add (rd : K → K) (a b : Payload K) :
    ∀ f ∈ Payload.reals (K := K), f (addPayload rd a b) = rd (f a + f b) :=
  reals_cases rfl rfl rfl rfl rfl rfl

theorem reals_replace (a b : Payload K) : ∀ f ∈ Payload.reals (K := K), f (replacePayload a b) = f b :=
  reals_cases rfl rfl rfl rfl rfl rfl

theorem reals_final (rd : K → K) (a : Payload K) {n : Nat} (hn : 0 < n) :
    ∀ f ∈ Payload.reals (K := K), f (finalPayload rd a n) = rd (f a / n) := by
  unfold finalPayload; rw [if_pos hn]
  exact reals_cases rfl rfl rfl rfl rfl rfl

theorem reals_final_zero (rd : K → K) (a : Payload K) : ∀ f ∈ Payload.reals (K := K), f (finalPayload rd a 0) = -999 :=
  reals_cases rfl rfl rfl rfl rfl rfl

/-! ### Rounding -/

theorem _root_.CenCalVM.RoundsWithin.pos {rd : K → K} {ε : K} (h : RoundsWithin rd ε) {x : K} (hx : 0 < x) : 0 < rd x := by
  have h1 := (abs_le.1 (h.near x)).1
  rw [abs_of_pos hx] at h1
  nlinarith [h.lt_one]

theorem _root_.CenCalVM.RoundsWithin.nonpos {rd : K → K} {ε : K} (h : RoundsWithin rd ε) {x : K} (hx : x ≤ 0) : rd x ≤ 0 := by
  have h1 := (abs_le.1 (h.near x)).2
  rw [abs_of_nonpos hx] at h1
  nlinarith [h.lt_one]

theorem RoundsWithin_id {rd : K → K} (h : ∀ x, rd x = x) : RoundsWithin rd (0 : K) :=
  ⟨le_rfl, one_pos, fun x => by rw [h, sub_self, abs_zero, zero_mul]⟩

theorem abs_sum_le (f : Payload K → K) (ps : List (Payload K)) : |(ps.map f).sum| ≤ (ps.map fun c => |f c|).sum := by
  induction ps with
  | nil => simp
  | cons p ps ih =>
    rw [List.map_cons, List.sum_cons, List.map_cons, List.sum_cons]
    exact (abs_add_le _ _).trans (by linarith)

theorem absSum_nonneg (f : Payload K → K) (ps : List (Payload K)) : 0 ≤ (ps.map fun c => |f c|).sum :=
  (abs_nonneg _).trans (abs_sum_le f ps)

/-- One addition. -/
theorem round_add {rd : K → K} {ε : K} (h : RoundsWithin rd ε) {s t u v a : K} (ht : |t| ≤ a) (hv : |v| = u)
    {n : Nat} (hs : |s - t| ≤ ((1 + ε) ^ n - 1) * a) :
    |rd (s + v) - (t + v)| ≤ ((1 + ε) ^ (n + 1) - 1) * (a + u) := by
  have h0 := h.nonneg
  have hn := h.near (s + v)
  have hu : 0 ≤ u := hv ▸ abs_nonneg v
  have ha : 0 ≤ a := (abs_nonneg t).trans ht
  have h1 : |s + v| ≤ |s - t| + (a + u) := by
    have e : s + v = (s - t) + (t + v) := by ring
    calc |s + v| ≤ |s - t| + |t + v| := by rw [e]; exact abs_add_le _ _
      _ ≤ |s - t| + (|t| + |v|) := by gcongr; exact abs_add_le _ _
      _ ≤ _ := by rw [hv]; gcongr
  have h2 : |rd (s + v) - (t + v)| ≤ |rd (s + v) - (s + v)| + |s - t| := by
    have e : rd (s + v) - (t + v) = (rd (s + v) - (s + v)) + (s - t) := by ring
    rw [e]; exact abs_add_le _ _
  have hpow : (1 : K) ≤ (1 + ε) ^ n := one_le_pow₀ (by linarith)
  calc _ ≤ ε * |s + v| + |s - t| := by linarith
    _ ≤ ε * (|s - t| + (a + u)) + |s - t| := by gcongr
    _ = (1 + ε) * |s - t| + ε * (a + u) := by ring
    _ ≤ (1 + ε) * (((1 + ε) ^ n - 1) * a) + ε * (a + u) := by gcongr
    _ ≤ (1 + ε) * (((1 + ε) ^ n - 1) * (a + u)) + ε * (a + u) := by (gcongr; linarith)
    _ = _ := by ring

/-- The division. -/
theorem round_div {rd : K → K} {ε : K} (h : RoundsWithin rd ε) {s t a m : K} (hm : 0 < m) (ht : |t| ≤ a)
    {n : Nat} (hs : |s - t| ≤ ((1 + ε) ^ n - 1) * a) :
    |rd (s / m) - t / m| ≤ ((1 + ε) ^ (n + 1) - 1) * (a / m) := by
  have h0 := h.nonneg
  have hq : |s / m - t / m| ≤ ((1 + ε) ^ n - 1) * (a / m) := by
    rw [← sub_div, abs_div, abs_of_pos hm, ← mul_div_assoc]; gcongr
  have ht' : |t / m| ≤ a / m := by rw [abs_div, abs_of_pos hm]; gcongr
  have := round_add h (v := 0) (u := 0) ht' abs_zero hq
  simpa using this

/-- The solid ones. -/
def solidOf (ps : List (Payload K)) : List (Payload K) := ps.filter fun c => decide (0 < c.vs)
/-- The ones with a positive Vp. -/
def wetOf (ps : List (Payload K)) : List (Payload K) := ps.filter fun c => decide (0 < c.vp)

theorem sum_pos_of {f : Payload K → K} {ps : List (Payload K)} (hne : ps ≠ []) (h : ∀ p ∈ ps, 0 < f p) :
    0 < (ps.map f).sum := by
  apply List.sum_pos
  · intro x hx
    obtain ⟨p, hp, rfl⟩ := List.mem_map.1 hx
    exact h p hp
  · simpa using hne

theorem sum_nonpos_of {f : Payload K → K} {ps : List (Payload K)} (h : ∀ p ∈ ps, f p ≤ 0) :
    (ps.map f).sum ≤ 0 := by
  induction ps with
  | nil => simp
  | cons p ps ih =>
    rw [List.map_cons, List.sum_cons]
    have := h p (by simp)
    have := ih (fun p hp => h p (by simp [hp]))
    linarith

/-- What the running sums are after some children, of which those in `ps` count. -/
structure SumOf (rd : K → K) (ε : K) (acc : Payload K × Nat) (ps : List (Payload K)) : Prop where
  num : acc.2 = ps.length
  sum : ∀ f ∈ Payload.reals (K := K),
    |f acc.1 - (ps.map f).sum| ≤ ((1 + ε) ^ ps.length - 1) * (ps.map fun c => |f c|).sum
  pos : ∀ f ∈ Payload.reals (K := K), ps ≠ [] → (∀ c ∈ ps, 0 < f c) → 0 < f acc.1
  nonpos : ∀ f ∈ Payload.reals (K := K), (∀ c ∈ ps, f c ≤ 0) → f acc.1 ≤ 0

theorem SumOf.add {rd : K → K} {ε : K} (h : RoundsWithin rd ε) {acc : Payload K × Nat} {ps : List (Payload K)}
    (hs : SumOf rd ε acc ps) (hz : ps = [] → ∀ f ∈ Payload.reals (K := K), f acc.1 = 0) (p : Payload K) :
    SumOf rd ε (addPayload rd acc.1 p, acc.2 + 1) (ps ++ [p]) where
  num := by simp [hs.num]
  sum := fun f hf => by
    rw [reals_add rd _ _ f hf]
    have := round_add h (abs_sum_le f ps) (v := f p) rfl (hs.sum f hf)
    simpa using this
  pos := fun f hf _ hp => by
    rw [reals_add rd _ _ f hf]
    apply h.pos
    have h1 := hp p (by simp)
    by_cases hne : ps = []
    · rw [hz hne f hf, zero_add]; exact h1
    · exact add_pos (hs.pos f hf hne fun c hc => hp c (by simp [hc])) h1
  nonpos := fun f hf hp => by
    rw [reals_add rd _ _ f hf]
    apply h.nonpos
    have h1 := hp p (by simp)
    have h2 := hs.nonpos f hf fun c hc => hp c (by simp [hc])
    linarith

theorem SumOf.single {rd : K → K} {ε : K} (h : RoundsWithin rd ε) (a p : Payload K) :
    SumOf rd ε (replacePayload a p, 1) [p] where
  num := rfl
  sum := fun f hf => by
    rw [reals_replace _ _ f hf]
    simp only [List.map_cons, List.map_nil, List.sum_cons, List.sum_nil, add_zero, sub_self, abs_zero,
      List.length_cons, List.length_nil, zero_add, pow_one]
    rw [add_sub_cancel_left]
    exact mul_nonneg h.nonneg (abs_nonneg _)
  pos := fun f hf _ hp => by rw [reals_replace _ _ f hf]; exact hp p (by simp)
  nonpos := fun f hf hp => by rw [reals_replace _ _ f hf]; exact hp p (by simp)

theorem fold_zero (rd : K → K) (es : List (Entry K)) (hs : solidOf (es.map Entry.payload) = [])
    (hw : wetOf (es.map Entry.payload) = []) : ∀ f ∈ Payload.reals (K := K), f (fold rd es).1 = 0 := by
  induction es using List.reverseRecOn with
  | nil => exact reals_cases rfl rfl rfl rfl rfl rfl
  | append_singleton es e ih =>
    rw [fold_append]
    simp only [solidOf, wetOf, List.map_append, List.filter_append, List.append_eq_nil_iff] at hs hw ih
    have h1 : ¬ 0 < e.payload.vs := by have := hs.2; simpa using this
    have h2 : ¬ 0 < e.payload.vp := by have := hw.2; simpa using this
    unfold accumulate
    rw [if_neg h1, if_neg h2]
    exact ih hs.1 hw.1

theorem fold_spec {rd : K → K} {ε : K} (h : RoundsWithin rd ε) (es : List (Entry K)) :
    (solidOf (es.map Entry.payload) = [] → SumOf rd ε (fold rd es) (wetOf (es.map Entry.payload))) ∧
    (solidOf (es.map Entry.payload) ≠ [] → SumOf rd ε (fold rd es) (solidOf (es.map Entry.payload))) := by
  induction es using List.reverseRecOn with
  | nil =>
    refine ⟨fun _ => ⟨rfl, ?_, fun _ _ hne => absurd rfl hne, ?_⟩, fun h => absurd rfl h⟩
    · intro f hf
      rw [fold_zero rd [] rfl rfl f hf]; simp [wetOf]
    · intro f hf _
      rw [fold_zero rd [] rfl rfl f hf]
  | append_singleton es e ih =>
    rw [fold_append]
    have hS : solidOf ((es ++ [e]).map Entry.payload) =
        solidOf (es.map Entry.payload) ++ solidOf [e.payload] := by simp [solidOf]
    have hW : wetOf ((es ++ [e]).map Entry.payload) = wetOf (es.map Entry.payload) ++ wetOf [e.payload] := by
      simp [wetOf]
    rw [hS, hW]
    by_cases hne : solidOf (es.map Entry.payload) = []
    · have h1 := ih.1 hne
      have hvs : (fold rd es).1.vs ≤ 0 := by
        apply h1.nonpos _ vs_mem
        intro p hp
        by_contra hcon
        have hp' : p ∈ solidOf (es.map Entry.payload) := by
          simp only [solidOf, wetOf, List.mem_filter, decide_eq_true_eq] at hp ⊢
          exact ⟨hp.1, not_le.1 hcon⟩
        rw [hne] at hp'; simp at hp'
      by_cases hs : 0 < e.payload.vs
      · have he : solidOf [e.payload] = [e.payload] := by simp [solidOf, hs]
        rw [he, hne]
        refine ⟨fun h => by simp at h, fun _ => ?_⟩
        unfold accumulate
        rw [if_pos hs, if_neg (not_lt.2 hvs)]
        exact SumOf.single h _ _
      · have he : solidOf [e.payload] = [] := by simp [solidOf, not_lt.1 hs]
        rw [he, hne]
        refine ⟨fun _ => ?_, fun h => by simp at h⟩
        unfold accumulate
        rw [if_neg hs]
        by_cases hp : 0 < e.payload.vp
        · have hw : wetOf [e.payload] = [e.payload] := by simp [wetOf, hp]
          rw [if_pos hp, if_pos hvs, hw]
          exact h1.add h (fun h0 => fold_zero rd es hne h0) _
        · have hw : wetOf [e.payload] = [] := by simp [wetOf, not_lt.1 hp]
          rw [if_neg hp, hw, List.append_nil]
          exact h1
    · have h1 := ih.2 hne
      have hvs : 0 < (fold rd es).1.vs := by
        apply h1.pos _ vs_mem hne
        intro p hp
        simp only [solidOf, List.mem_filter, decide_eq_true_eq] at hp
        exact hp.2
      refine ⟨fun h => absurd (List.append_eq_nil_iff.1 h).1 hne, fun _ => ?_⟩
      unfold accumulate
      by_cases hs : 0 < e.payload.vs
      · have he : solidOf [e.payload] = [e.payload] := by simp [solidOf, hs]
        rw [he, if_pos hs, if_pos hvs]
        exact h1.add h (fun h0 => absurd h0 hne) _
      · have he : solidOf [e.payload] = [] := by simp [solidOf, not_lt.1 hs]
        rw [he, if_neg hs, List.append_nil]
        by_cases hp : 0 < e.payload.vp
        · rw [if_pos hp, if_neg (not_le.2 hvs)]; exact h1
        · rw [if_neg hp]; exact h1

theorem finalPayload_block (rd : K → K) (a : Payload K) (n : Nat) :
    (finalPayload rd a n).faultBlock = -999 ∧ (finalPayload rd a n).zone = -999 := by
  unfold finalPayload; split <;> exact ⟨rfl, rfl⟩

/-- The value made of the running sums. -/
theorem SumOf.final {rd : K → K} {ε : K} (h : RoundsWithin rd ε) {acc : Payload K × Nat} {ps : List (Payload K)}
    (hs : SumOf rd ε acc ps) (hne : ps ≠ []) {n : Nat} (hn : ps.length ≤ n) :
    IsMeanUpTo ((1 + ε) ^ (n + 1) - 1) ps (finalPayload rd acc.1 acc.2) ∧
    (∀ f ∈ Payload.reals (K := K), (∀ c ∈ ps, 0 < f c) → 0 < f (finalPayload rd acc.1 acc.2)) ∧
    (∀ f ∈ Payload.reals (K := K), (∀ c ∈ ps, f c ≤ 0) → f (finalPayload rd acc.1 acc.2) ≤ 0) := by
  have hl := List.length_pos_of_ne_nil hne
  have hm : (0 : K) < (ps.length : K) := by exact_mod_cast hl
  have hn0 : 0 < acc.2 := by rw [hs.num]; exact hl
  refine ⟨fun f hf => ?_, fun f hf hp => ?_, fun f hf hp => ?_⟩
  · rw [reals_final rd _ hn0 f hf, hs.num]
    refine (round_div h hm (abs_sum_le f ps) (hs.sum f hf)).trans ?_
    have h0 := h.nonneg
    have : (1 + ε) ^ (ps.length + 1) ≤ (1 + ε) ^ (n + 1) := pow_le_pow_right₀ (by linarith) (by omega)
    have h2 := absSum_nonneg f ps
    gcongr
  · rw [reals_final rd _ hn0 f hf]
    exact h.pos (div_pos (hs.pos f hf hne hp) (by exact_mod_cast hn0))
  · rw [reals_final rd _ hn0 f hf]
    exact h.nonpos (div_nonpos_of_nonpos_of_nonneg (hs.nonpos f hf hp) (Nat.cast_nonneg _))

/-- The running sums give the solid-precedence mean up to rounding. -/
theorem meanOf_upTo {rd : K → K} {ε : K} (h : RoundsWithin rd ε) {n : Nat} (es : List (Entry K)) (hn : es.length ≤ n) :
    SolidPrecedenceUpTo ((1 + ε) ^ (n + 1) - 1) (es.map Entry.payload) (meanOf rd es) := by
  obtain ⟨h1, h2⟩ := fold_spec h es
  have hS : ∀ ps : List (Payload K), (∀ c ∈ ps, ¬ 0 < c.vs) → solidOf ps = [] := by
    intro ps h
    simp only [solidOf, List.filter_eq_nil_iff, decide_eq_true_eq]; exact h
  have hW : ∀ ps : List (Payload K), (∀ c ∈ ps, ¬ 0 < c.vp) → wetOf ps = [] := by
    intro ps h
    simp only [wetOf, List.filter_eq_nil_iff, decide_eq_true_eq]; exact h
  have hlen : ∀ q : Payload K → Bool, ((es.map Entry.payload).filter q).length ≤ n := by
    intro q
    refine (List.length_filter_le _ _).trans ?_
    rw [List.length_map]; exact hn
  refine ⟨?_, ?_, ?_, (finalPayload_block _ _ _).1, (finalPayload_block _ _ _).2⟩
  · rintro ⟨c, hc, hv⟩
    have hmem : c ∈ solidOf (es.map Entry.payload) := by simp only [solidOf, List.mem_filter, decide_eq_true_eq]; exact ⟨hc, hv⟩
    have hne : solidOf (es.map Entry.payload) ≠ [] := List.ne_nil_of_mem hmem
    obtain ⟨a1, a2, -⟩ := (h2 hne).final h hne (hlen _)
    refine ⟨a2 _ vs_mem fun d hd => ?_, a1⟩
    simp only [solidOf, List.mem_filter, decide_eq_true_eq] at hd
    exact hd.2
  · rintro hs ⟨c, hc, hv⟩
    have hmem : c ∈ wetOf (es.map Entry.payload) := by simp only [wetOf, List.mem_filter, decide_eq_true_eq]; exact ⟨hc, hv⟩
    have hne : wetOf (es.map Entry.payload) ≠ [] := List.ne_nil_of_mem hmem
    obtain ⟨a1, a2, a3⟩ := (h1 (hS _ hs)).final h hne (hlen _)
    refine ⟨not_lt.2 (a3 _ vs_mem fun d hd => ?_), a2 _ vp_mem fun d hd => ?_, a1⟩
    · simp only [wetOf, List.mem_filter, decide_eq_true_eq] at hd
      exact not_lt.1 (hs d hd.1)
    · simp only [wetOf, List.mem_filter, decide_eq_true_eq] at hd
      exact hd.2
  · intro hs hw f hfm
    have hn := (h1 (hS _ hs)).num
    rw [hW _ hw] at hn
    unfold meanOf
    rw [hn]
    exact reals_final_zero _ _ f hfm

theorem IsMeanUpTo.exact {ps : List (Payload K)} {p : Payload K} (h : IsMeanUpTo 0 ps p) : IsMean ps p := by
  intro f hf
  have := h f hf
  rw [zero_mul] at this
  exact sub_eq_zero.1 (abs_eq_zero.1 (le_antisymm this (abs_nonneg _)))

/-- The running sums give the solid-precedence mean. -/
theorem meanOf_spec {rd : K → K} (h : ∀ x, rd x = x) (es : List (Entry K)) :
    SolidPrecedence (es.map Entry.payload) (meanOf rd es) := by
  have hu := meanOf_upTo (RoundsWithin_id h) es le_rfl
  rw [add_zero, one_pow, sub_self] at hu
  exact ⟨fun h1 => IsMeanUpTo.exact (hu.solid h1).2, fun h1 h2 => IsMeanUpTo.exact (hu.water h1 h2).2.2, hu.noData, hu.block, hu.zone⟩

theorem IsMeanUpTo.perm {δ : K} {ps ps' : List (Payload K)} {p : Payload K} (h : ps.Perm ps') (hm : IsMeanUpTo δ ps p) :
    IsMeanUpTo δ ps' p := by
  intro f hf
  rw [← (h.map f).sum_eq, ← h.length_eq, ← (h.map fun c => |f c|).sum_eq]
  exact hm f hf

theorem SolidPrecedenceUpTo.perm {δ : K} {ps ps' : List (Payload K)} {p : Payload K} (h : ps.Perm ps')
    (hm : SolidPrecedenceUpTo δ ps p) : SolidPrecedenceUpTo δ ps' p where
  solid := fun ⟨c, hc, hv⟩ =>
    have := hm.solid ⟨c, h.mem_iff.2 hc, hv⟩
    ⟨this.1, IsMeanUpTo.perm (h.filter _) this.2⟩
  water := fun hs ⟨c, hc, hv⟩ =>
    have := hm.water (fun d hd => hs d (h.mem_iff.1 hd)) ⟨c, h.mem_iff.2 hc, hv⟩
    ⟨this.1, this.2.1, IsMeanUpTo.perm (h.filter _) this.2.2⟩
  noData := fun hs hw => hm.noData (fun d hd => hs d (h.mem_iff.1 hd)) (fun d hd => hw d (h.mem_iff.1 hd))
  block := hm.block
  zone := hm.zone

theorem IsMean.perm {ps ps' : List (Payload K)} {p : Payload K} (h : ps.Perm ps') (hm : IsMean ps p) : IsMean ps' p := by
  intro f hf
  rw [hm f hf, (h.map f).sum_eq, h.length_eq]

theorem SolidPrecedence.perm {ps ps' : List (Payload K)} {p : Payload K} (h : ps.Perm ps')
    (hm : SolidPrecedence ps p) : SolidPrecedence ps' p where
  solid := fun ⟨c, hc, hv⟩ => IsMean.perm (h.filter _) (hm.solid ⟨c, h.mem_iff.2 hc, hv⟩)
  water := fun hs ⟨c, hc, hv⟩ => 
    IsMean.perm (h.filter _) (hm.water (fun d hd => hs d (h.mem_iff.1 hd)) ⟨c, h.mem_iff.2 hc, hv⟩)
  noData := fun hs hw => hm.noData (fun d hd => hs d (h.mem_iff.1 hd)) (fun d hd => hw d (h.mem_iff.1 hd))
  block := hm.block
  zone := hm.zone

/-! ### Bounds -/

theorem mean_bounds {f : Payload K → K} {ps : List (Payload K)} (hne : ps ≠ []) {lo hi : K}
    (h : ∀ p ∈ ps, lo ≤ f p ∧ f p ≤ hi) :
    lo ≤ (ps.map f).sum / (ps.length : K) ∧ (ps.map f).sum / (ps.length : K) ≤ hi := by
  have hpos : (0 : K) < ps.length := by exact_mod_cast List.length_pos_of_ne_nil hne
  have hsum : lo * ps.length ≤ (ps.map f).sum ∧ (ps.map f).sum ≤ hi * ps.length := by
    clear hne hpos
    induction ps with
    | nil => simp
    | cons p ps ih =>
      have := h p (by simp)
      have := ih (fun p hp => h p (by simp [hp]))
      rw [List.map_cons, List.sum_cons, List.length_cons]
      push_cast
      constructor <;> nlinarith
  rw [le_div_iff₀ hpos, div_le_iff₀ hpos]
  exact hsum

/-- What the input octants below a subtree say about its root. -/
structure Ranges (g : Seg K) : Prop where
  solid : (∃ e ∈ g.leaves, 0 < e.payload.vs) → 0 < g.root.payload.vs ∧ ∀ f ∈ Payload.reals (K := K), ∀ lo hi,
    (∀ e ∈ g.leaves, 0 < e.payload.vs → lo ≤ f e.payload ∧ f e.payload ≤ hi) →
      lo ≤ f g.root.payload ∧ f g.root.payload ≤ hi
  notSolid : (∀ e ∈ g.leaves, ¬ 0 < e.payload.vs) → ¬ 0 < g.root.payload.vs
  water : (∀ e ∈ g.leaves, ¬ 0 < e.payload.vs) → (∃ e ∈ g.leaves, 0 < e.payload.vp) → 0 < g.root.payload.vp ∧
    ∀ f ∈ Payload.reals (K := K), ∀ lo hi,
    (∀ e ∈ g.leaves, 0 < e.payload.vp → lo ≤ f e.payload ∧ f e.payload ≤ hi) →
      lo ≤ f g.root.payload ∧ f g.root.payload ≤ hi
  noData : (∀ e ∈ g.leaves, ¬ 0 < e.payload.vs) → (∀ e ∈ g.leaves, ¬ 0 < e.payload.vp) →
    ¬ 0 < g.root.payload.vp ∧ (g.nodes ≠ [] → ∀ f ∈ Payload.reals (K := K), f g.root.payload = -999)

theorem Built.ranges {rd : K → K} (hrd : ∀ x, rd x = x) {g : Seg K} (h : Built rd g) : Ranges g := by
  induction h with
  | leaf e ho hl =>
    simp only [Seg.leaf]
    constructor <;> simp
    · intro hv
      refine ⟨hv, fun f _ lo hi h => h hv⟩
    · intro _ hp
      refine ⟨hp, fun f _ lo hi h => h hp⟩
  | node a cs ho ht hne hcs hch ih =>
    have hm := meanOf_spec hrd (cs.map Seg.root)
    have hroot : (Seg.node rd a cs).root.payload = meanOf rd (cs.map Seg.root) := rfl
    have hlv : ∀ e, e ∈ (Seg.node rd a cs).leaves ↔ ∃ c ∈ cs, e ∈ c.leaves := fun e => List.mem_flatMap
    have hps : ∀ p, p ∈ (cs.map Seg.root).map Entry.payload ↔ ∃ c ∈ cs, c.root.payload = p := by
      intro p; simp
    -- a child is solid exactly if there is a solid octant below it
    have hsol : ∀ c ∈ cs, 0 < c.root.payload.vs → ∃ e ∈ c.leaves, 0 < e.payload.vs := by
      intro c hc hv
      by_contra hcon
      push Not at hcon
      exact (ih c hc).notSolid (fun e he => not_lt.2 (hcon e he)) hv
    have hnone : (∀ e ∈ (Seg.node rd a cs).leaves, ¬ 0 < e.payload.vs) →
        ∀ c ∈ cs, ∀ e ∈ c.leaves, ¬ 0 < e.payload.vs := by
      intro h c hc e he
      exact h e ((hlv e).2 ⟨c, hc, he⟩)
    have hns : (∀ e ∈ (Seg.node rd a cs).leaves, ¬ 0 < e.payload.vs) →
        ∀ p ∈ (cs.map Seg.root).map Entry.payload, ¬ 0 < p.vs := by
      intro h p hp
      obtain ⟨c, hc, rfl⟩ := (hps p).1 hp
      exact (ih c hc).notSolid (hnone h c hc)
    have hnw : (∀ e ∈ (Seg.node rd a cs).leaves, ¬ 0 < e.payload.vs) →
        (∀ e ∈ (Seg.node rd a cs).leaves, ¬ 0 < e.payload.vp) →
        ∀ p ∈ (cs.map Seg.root).map Entry.payload, ¬ 0 < p.vp := by
      intro h h' p hp
      obtain ⟨c, hc, rfl⟩ := (hps p).1 hp
      exact ((ih c hc).noData (hnone h c hc) (fun e he => h' e ((hlv e).2 ⟨c, hc, he⟩))).1
    refine ⟨?_, ?_, ?_, ?_⟩
    · rintro ⟨e, he, hv⟩
      obtain ⟨c, hc, hec⟩ := (hlv e).1 he
      have hcv := ((ih c hc).solid ⟨e, hec, hv⟩).1
      have hmean := hm.solid ⟨c.root.payload, (hps _).2 ⟨c, hc, rfl⟩, hcv⟩
      have hmem : c.root.payload ∈ ((cs.map Seg.root).map Entry.payload).filter fun c => decide (0 < c.vs) := by
        rw [List.mem_filter]; exact ⟨(hps _).2 ⟨c, hc, rfl⟩, by simpa using hcv⟩
      have hne' := List.ne_nil_of_mem hmem
      rw [hroot]
      refine ⟨?_, fun f hf lo hi hb => ?_⟩
      · rw [hmean _ vs_mem]
        apply div_pos
        · apply sum_pos_of hne'
          intro p hp
          simpa using (List.mem_filter.1 hp).2
        · exact_mod_cast List.length_pos_of_ne_nil hne'
      · rw [hmean f hf]
        apply mean_bounds hne'
        intro p hp
        obtain ⟨hp1, hp2⟩ := List.mem_filter.1 hp
        obtain ⟨d, hd, rfl⟩ := (hps p).1 hp1
        have hp2' : 0 < d.root.payload.vs := by simpa using hp2
        exact ((ih d hd).solid (hsol d hd hp2')).2 f hf lo hi
          (fun e he hv => hb e ((hlv e).2 ⟨d, hd, he⟩) hv)
    · intro hno
      have hp := hns hno
      rw [hroot]
      by_cases hw : ∃ c ∈ (cs.map Seg.root).map Entry.payload, 0 < c.vp
      · rw [hm.water hp hw _ vs_mem]
        have : ((((cs.map Seg.root).map Entry.payload).filter fun c => decide (0 < c.vp)).map Payload.vs).sum ≤ 0 := by
          apply sum_nonpos_of
          intro p hpm
          exact not_lt.1 (hp p (List.mem_filter.1 hpm).1)
        rw [not_lt]
        exact div_nonpos_of_nonpos_of_nonneg this (Nat.cast_nonneg _)
      · push Not at hw
        rw [hm.noData hp (fun c hc => not_lt.2 (hw c hc)) _ vs_mem]
        norm_num
    · rintro hno ⟨e, he, hv⟩
      obtain ⟨c, hc, hec⟩ := (hlv e).1 he
      have hcv := ((ih c hc).water (hnone hno c hc) ⟨e, hec, hv⟩).1
      have hmean := hm.water (hns hno) ⟨c.root.payload, (hps _).2 ⟨c, hc, rfl⟩, hcv⟩
      have hmem : c.root.payload ∈ ((cs.map Seg.root).map Entry.payload).filter fun c => decide (0 < c.vp) := by
        rw [List.mem_filter]; exact ⟨(hps _).2 ⟨c, hc, rfl⟩, by simpa using hcv⟩
      have hne' := List.ne_nil_of_mem hmem
      rw [hroot]
      refine ⟨?_, fun f hf lo hi hb => ?_⟩
      · rw [hmean _ vp_mem]
        apply div_pos
        · apply sum_pos_of hne'
          intro p hp
          simpa using (List.mem_filter.1 hp).2
        · exact_mod_cast List.length_pos_of_ne_nil hne'
      · rw [hmean f hf]
        apply mean_bounds hne'
        intro p hp
        obtain ⟨hp1, hp2⟩ := List.mem_filter.1 hp
        obtain ⟨d, hd, rfl⟩ := (hps p).1 hp1
        have hp2' : 0 < d.root.payload.vp := by simpa using hp2
        have hex : ∃ e ∈ d.leaves, 0 < e.payload.vp := by
          by_contra hcon
          push Not at hcon
          exact ((ih d hd).noData (hnone hno d hd) (fun e he => not_lt.2 (hcon e he))).1 hp2'
        exact ((ih d hd).water (hnone hno d hd) hex).2 f hf lo hi
          (fun e he hv => hb e ((hlv e).2 ⟨d, hd, he⟩) hv)
    · intro hno hnw'
      have hall := hm.noData (hns hno) (hnw hno hnw')
      rw [hroot]
      refine ⟨?_, fun _ => hall⟩
      rw [hall _ vp_mem]; norm_num

end AvgEngine
end CenCalVM
