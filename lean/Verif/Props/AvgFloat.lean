/-
C86 to C88: averages computed with numbers of type `float`.
-/
import Verif.Lemmas.AvgFloat
import Verif.Props.AvgVolume

set_option linter.unusedSectionVars false

namespace CenCalVM
open AvgEngine FileApps Key
variable {K : Type} [Field K] [LinearOrder K] [IsStrictOrderedRing K] [FloorRing K]

/-- Results have the precision of `float`. -/
def Single (ri : IntRound K) (env : Env K) : Prop := env.rd = fl ri 24

theorem single_upTo {ri : IntRound K} {env : Env K} (he : env.Reliable) (hs : Single ri env) {db : Db K} (hdb : db.Good)
    (hne : db.entries ≠ []) (hno : db.NonOverlapping) (hroot : db.BelowRoot) :
    ∃ s, average env db = .ok s () ∧ AverageUpTo (10 / 2 ^ 23 : K) db s.out := by
  obtain ⟨s, g, h, ht, -⟩ := average_tree' he hdb hne hno hroot
  refine averageBy he hdb hne hno hroot ⟨s, h, fun x hx hn => ?_⟩
  have ha : db.ProperAncestor x.addr.toKey := by
    rcases ht.entries hx with hin | ⟨-, ha⟩
    · exact absurd hin hn
    · exact ha
  rw [ht.mean_eq hx ha, hs]
  have hu := meanOf_upTo (fl_roundsWithin ri (prec := 24) (by omega)) (s.out.childrenOf x.addr.toKey)
    (Db.childrenOf_length ht.good (ht.octants x hx))
  have hb : (1 + 1 / 2 ^ (24 - 1) : K) ^ (8 + 1) - 1 ≤ 10 / 2 ^ 23 := by norm_num
  have hle : ∀ ps p, IsMeanUpTo ((1 + 1 / 2 ^ (24 - 1) : K) ^ (8 + 1) - 1) ps p → IsMeanUpTo (10 / 2 ^ 23 : K) ps p := by
    intro ps p hp f hf
    refine (hp f hf).trans (mul_le_mul_of_nonneg_right hb ?_)
    exact div_nonneg (absSum_nonneg f ps) (Nat.cast_nonneg _)
  exact ⟨fun a => ⟨(hu.solid a).1, hle _ _ (hu.solid a).2⟩,
    fun a b => ⟨(hu.water a b).1, (hu.water a b).2.1, hle _ _ (hu.water a b).2.2⟩, hu.noData, hu.block, hu.zone⟩

/-- C86: if sums and quotients are rounded to the precision of `float`, in whatever direction, every octant made by the averaging is
solid if one of its children is, else water if one of its children is; each of its real values differs from the arithmetic mean of
those of its solid (else water) children by at most ten times 2^-23 times the mean of their absolute values; and it has no data if no
child has. -/
theorem C86 {ri : IntRound K} {env : Env K} (he : env.Reliable) (hs : Single ri env) {db : Db K} (hdb : db.Good)
    (hne : db.entries ≠ []) (hno : db.NonOverlapping) (hroot : db.BelowRoot) :
    ∃ s, average env db = .ok s () ∧ ∀ x ∈ s.out.entries, x ∉ db.entries →
      SolidPrecedenceUpTo (10 / 2 ^ 23) ((s.out.childrenOf x.addr.toKey).map Entry.payload) x.payload := by
  obtain ⟨s, h, hs⟩ := single_upTo he hs hdb hne hno hroot
  exact ⟨s, h, fun x hx hn => (hs.others x hx hn).2.2⟩

/-- An environment in which nothing fails and results are rounded to the nearest number of type `float`. -/
def exEnv32 : Env ℚ := { exEnv with rd := fl IntRound.nearest 24 }
theorem exEnv32_reliable : exEnv32.Reliable := ⟨fun _ => rfl, fun _ => rfl, fun _ => rfl⟩
theorem exEnv32_single : Single IntRound.nearest exEnv32 := rfl

/-- Eight octants of level 1 with rock of a shear velocity of about 1500.1 m/s, a number of type `float`. -/
def exUniform : Db ℚ := ⟨(kids ⟨0, 0, 0, 0⟩).map fun k => ⟨⟨k, .leaf⟩, exPay (12288819 / 8192) 1⟩⟩
theorem exUniform_good : exUniform.Good := ⟨by unfold Db.Octants; decide +kernel, by unfold Db.Sorted; decide +kernel⟩
theorem exUniform_ne : exUniform.entries ≠ [] := by simp [exUniform, kids]
theorem exUniform_nonOverlapping : exUniform.NonOverlapping := by unfold Db.NonOverlapping; decide +kernel
theorem exUniform_belowRoot : exUniform.BelowRoot := by unfold Db.BelowRoot; decide +kernel

/-- The shear velocities of a run that ends normally. -/
def vsOf (r : Run (Engine ℚ) Unit) : Option (List ℚ) := (outOf r).map fun l => l.map fun x => x.payload.vs

/-- The average is off by one unit in the last place. -/
example : exEnv32.Reliable ∧ Single IntRound.nearest exEnv32 ∧ exUniform.Good ∧ exUniform.entries ≠ [] ∧ exUniform.NonOverlapping ∧
    exUniform.BelowRoot ∧ fl IntRound.nearest 24 (12288819 / 8192 : ℚ) = 12288819 / 8192 ∧
    vsOf (average exEnv32 exUniform) = some (12288818 / 8192 :: List.replicate 8 (12288819 / 8192)) :=
  ⟨exEnv32_reliable, exEnv32_single, exUniform_good, exUniform_ne, exUniform_nonOverlapping, exUniform_belowRoot,
    by decide +kernel, by decide +kernel⟩

theorem exactFacts {env : Env K} (he : env.Reliable) (hx : env.Exact) {db : Db K} (hdb : db.Good) (hne : db.entries ≠ [])
    (hno : db.NonOverlapping) (hroot : db.BelowRoot) :
    ∃ s, average env db = .ok s () ∧ AverageOf db s.out ∧ ExactFacts db s.out := by
  obtain ⟨s, h, hA⟩ := averageOf he hx hdb hne hno hroot
  obtain ⟨s', h', hB⟩ := C29 he hx hdb hne hno
  rw [h] at h'; cases h'
  refine ⟨s, h, hA, fun x hxm => ?_, fun x hxm hv f hf B hb => ?_⟩
  · by_cases hin : x ∈ db.entries
    · constructor
      · intro hv; exact ⟨x, hin, contains_refl, hv⟩
      · rintro ⟨e, e1, e2, e3⟩
        rw [hno x hin e e1 e2]; exact e3
    · exact (hB x hxm hin).1
  · by_cases hin : x ∈ db.entries
    · apply hb
      refine ⟨hin, contains_refl, ?_⟩
      by_cases hs : 0 < x.payload.vs
      · exact Or.inl hs
      · refine Or.inr ⟨hv.resolve_left hs, fun d d1 d2 => ?_⟩
        rw [← hno x hin d d1 d2]; exact hs
    · obtain ⟨-, b2, b3⟩ := hB x hxm hin
      by_cases hc : ∃ e, db.Contributes x.addr.toKey e
      · have := b2 hc f hf (-B) B fun e he => abs_le.1 (hb e he)
        exact abs_le.2 this
      · exfalso
        have h1 := b3 hc _ vs_mem
        have h2 := b3 hc _ vp_mem
        rw [h1, h2] at hv
        rcases hv with hv | hv <;> norm_num at hv

/-- C87: averaging with results rounded to the precision of `float` makes the same octants as averaging in exact arithmetic; the same
ones are solid; and each real value differs by at most 2^-14 times any bound on the absolute values of the input octants that
contribute to it. -/
theorem C87 {ri : IntRound K} {env env' : Env K} (he : env.Reliable) (hs : Single ri env) (he' : env'.Reliable) (hx' : env'.Exact)
    {db : Db K} (hdb : db.Good) (hne : db.entries ≠ []) (hno : db.NonOverlapping) (hroot : db.BelowRoot) :
    ∃ s s', average env db = .ok s () ∧ average env' db = .ok s' () ∧
      s.out.entries.map Entry.addr = s'.out.entries.map Entry.addr ∧
      ∀ x ∈ s.out.entries, ∀ x' ∈ s'.out.entries, x.addr = x'.addr → (0 < x.payload.vs ↔ 0 < x'.payload.vs) ∧
        ∀ f ∈ Payload.reals (K := K), ∀ B, 0 ≤ B → (∀ e, db.Contributes x.addr.toKey e → |f e.payload| ≤ B) →
          |f x.payload - f x'.payload| ≤ B / 2 ^ 14 := by
  obtain ⟨s, h, hA⟩ := single_upTo he hs hdb hne hno hroot
  obtain ⟨s', h', hA', hF⟩ := exactFacts he' hx' hdb hne hno hroot
  refine ⟨s, s', h, h', ?_, fun x hx x' hxm hxx => ?_⟩
  · have hm : ∀ {m m' : List (Payload K) → Payload K → Prop} {o o' : Db K}, AverageBy m db o → AverageBy m' db o' →
        ∀ a, a ∈ o.entries.map Entry.addr → a ∈ o'.entries.map Entry.addr := by
      intro m m' o o' hO hO' a ha
      obtain ⟨x, hx, rfl⟩ := List.mem_map.1 ha
      by_cases hin : x ∈ db.entries
      · exact List.mem_map.2 ⟨x, hO'.keeps x hin, rfl⟩
      · obtain ⟨h1, h2, -⟩ := hO.others x hx hin
        obtain ⟨y, hy, hyk⟩ := (hO'.keys x.addr.toKey).2 (Or.inr h2)
        have hyn : y ∉ db.entries := fun hc => hno.not_both hc (by rw [hyk]; exact h2)
        have h3 := (hO'.others y hy hyn).1
        refine List.mem_map.2 ⟨y, hy, ?_⟩
        cases hxa : x.addr; cases hya : y.addr
        rw [hxa] at h1 hyk; rw [hya] at h3 hyk
        simp only at h1 h3 hyk
        subst h1 h3 hyk; rfl
    have hsort : ∀ {o : Db K}, o.Good → (o.entries.map Entry.addr).Pairwise fun a b => a.toKey.zkey < b.toKey.zkey := by
      intro o ho
      rw [List.pairwise_map]; exact ho.sorted
    have hnd : ∀ {o : Db K}, o.Good → (o.entries.map Entry.addr).Nodup := fun ho =>
      (hsort ho).imp fun {a b} hab hh => by rw [hh] at hab; exact lt_irrefl _ hab
    exact List.Perm.eq_of_pairwise (fun a b _ _ h1 h2 => absurd h1 (lt_asymm h2)) (hsort hA.good) (hsort hA'.good)
      ((List.perm_ext_iff_of_nodup (hnd hA.good) (hnd hA'.good)).2 fun a => ⟨hm hA hA' a, hm hA' hA a⟩)
  · have hn := hA.near (by positivity) hno hA' hF 32 x.addr.toKey (by omega) x hx x' hxm rfl (by rw [hxx])
    refine ⟨hn.solid, fun f hf B hB hb => (hn.near f hf B hB hb).trans ?_⟩
    have h1 : (1 + 10 / 2 ^ 23 : K) ^ (31 - x.addr.toKey.level) ≤ (1 + 10 / 2 ^ 23 : K) ^ 31 :=
      pow_le_pow_right₀ (by norm_num) (by omega)
    have h2 : (1 + 10 / 2 ^ 23 : K) ^ 31 ≤ 1 + 1 / 2 ^ 14 := by norm_num
    calc _ ≤ (1 / 2 ^ 14 : K) * B := mul_le_mul_of_nonneg_right (by linarith) hB
      _ = _ := by ring

/-- C87: in consequence an octant made by the averaging is solid exactly if an input octant inside it is, each real value lies
between any bounds on that of the contributing input octants inside it up to 2^-14 times the larger bound, and it is no-data if there is
no contributing octant. -/
theorem C87_range {ri : IntRound K} {env : Env K} (he : env.Reliable) (hs : Single ri env)
    {db : Db K} (hdb : db.Good) (hne : db.entries ≠ []) (hno : db.NonOverlapping) (hroot : db.BelowRoot) :
    ∃ s, average env db = .ok s () ∧ ∀ x ∈ s.out.entries, x ∉ db.entries →
      (0 < x.payload.vs ↔ ∃ e ∈ db.entries, x.addr.toKey.Contains e.addr.toKey ∧ 0 < e.payload.vs) ∧
      ((∃ e, db.Contributes x.addr.toKey e) → ∀ f ∈ Payload.reals (K := K), ∀ lo hi,
        (∀ e, db.Contributes x.addr.toKey e → lo ≤ f e.payload ∧ f e.payload ≤ hi) →
          lo - max |lo| |hi| / 2 ^ 14 ≤ f x.payload ∧ f x.payload ≤ hi + max |lo| |hi| / 2 ^ 14) ∧
      ((¬ ∃ e, db.Contributes x.addr.toKey e) → ∀ f ∈ Payload.reals (K := K), f x.payload = -999) := by
  let env' : Env K := { env with rd := id }
  have he' : env'.Reliable := ⟨he.1, he.2.1, he.2.2⟩
  have hx' : env'.Exact := fun _ => rfl
  obtain ⟨s, s', h, h', ha, hn⟩ := C87 he hs he' hx' hdb hne hno hroot
  obtain ⟨s'', h'', hB⟩ := C29 he' hx' hdb hne hno
  rw [h'] at h''; cases h''
  refine ⟨s, h, fun x hx hxn => ?_⟩
  have hmem : x.addr ∈ s'.out.entries.map Entry.addr := by rw [← ha]; exact List.mem_map.2 ⟨x, hx, rfl⟩
  obtain ⟨x', hxm, hxx⟩ := List.mem_map.1 hmem
  obtain ⟨s1, h1, hg2, hk, -, ho⟩ := C27 he hdb hne hno hroot
  rw [h] at h1; cases h1
  have hxn' : x' ∉ db.entries := by
    intro hc
    obtain ⟨o1, -⟩ := ho x' hc
    rw [← hg2.key_inj hx o1 (by rw [hxx])] at hc
    exact hxn hc
  obtain ⟨c1, c2⟩ := hn x hx x' hxm hxx.symm
  obtain ⟨b1, b2, b3⟩ := hB x' hxm hxn'
  rw [hxx] at b1 b2 b3
  refine ⟨c1.trans b1, fun hc f hf lo hi hb => ?_, fun hc f hf => ?_⟩
  swap
  · have d := c2 f hf 0 le_rfl fun e he => absurd ⟨e, he⟩ hc
    rw [zero_div] at d
    rw [← b3 hc f hf]
    exact sub_eq_zero.1 (abs_eq_zero.1 (le_antisymm d (abs_nonneg _)))
  obtain ⟨d1, d2⟩ := b2 hc f hf lo hi hb
  have d3 := c2 f hf (max |lo| |hi|) (le_max_of_le_left (abs_nonneg _)) fun e he => by
    obtain ⟨e1, e2⟩ := hb e he
    rw [abs_le]
    constructor
    · have := neg_abs_le lo
      have := le_max_left |lo| |hi|
      linarith
    · have := le_abs_self hi
      have := le_max_right |lo| |hi|
      linarith
  obtain ⟨d4, d5⟩ := abs_le.1 d3
  constructor <;> linarith

/-- The two averages of C87 of the database above differ at the root, which no input octant occupies but all eight contribute to. -/
example : exEnv32.Reliable ∧ Single IntRound.nearest exEnv32 ∧ exEnv.Reliable ∧ exEnv.Exact ∧ exUniform.Good ∧
    exUniform.entries ≠ [] ∧ exUniform.NonOverlapping ∧ exUniform.BelowRoot ∧
    (∀ e ∈ exUniform.entries, exUniform.Contributes ⟨0, 0, 0, 0⟩ e) ∧
    vsOf (average exEnv32 exUniform) ≠ vsOf (average exEnv exUniform) := by
  refine ⟨exEnv32_reliable, exEnv32_single, exEnv_reliable, exEnv_exact, exUniform_good, exUniform_ne, exUniform_nonOverlapping,
    exUniform_belowRoot, fun e he => ⟨he, ?_, Or.inl ?_⟩, by decide +kernel⟩
  · revert e; unfold Key.Contains; decide +kernel
  · revert e; decide +kernel

/-! ### C88 -/

/-- All octants have the same six real values. -/
def Db.Uniform (db : Db K) (p : Payload K) : Prop := ∀ e ∈ db.entries, ∀ f ∈ Payload.reals (K := K), f e.payload = f p

/-- C88: in exact arithmetic a uniform model of rock or water averages to itself. -/
theorem C88 {env : Env K} (he : env.Reliable) (hx : env.Exact) {db : Db K} (hdb : db.Good) (hne : db.entries ≠ [])
    (hno : db.NonOverlapping) {p : Payload K} (hu : db.Uniform p) (hp : 0 < p.vs ∨ 0 < p.vp) :
    ∃ s, average env db = .ok s () ∧ s.out.Uniform p := by
  rcases root_cases hdb hno with hroot | ⟨e0, h0, hl0⟩
  swap
  · obtain ⟨s, h, ho, -⟩ := average_root he h0 hl0
    refine ⟨s, h, fun x hx => ?_⟩
    rw [ho] at hx; simp [Db.empty] at hx
  obtain ⟨s, h, hB⟩ := C29 he hx hdb hne hno
  obtain ⟨s1, h1, hA⟩ := averageOf he hx hdb hne hno hroot
  rw [h] at h1; cases h1
  refine ⟨s, h, fun x hxm f hf => ?_⟩
  by_cases hin : x ∈ db.entries
  · exact hu x hin f hf
  obtain ⟨-, ⟨-, e, he1, he2, -⟩, -⟩ := hA.others x hxm hin
  have hc : db.Contributes x.addr.toKey e := by
    refine ⟨he1, he2, ?_⟩
    by_cases hv : 0 < p.vs
    · left; rw [hu e he1 _ vs_mem]; exact hv
    · right
      refine ⟨by rw [hu e he1 _ vp_mem]; exact hp.resolve_left hv, fun d hd _ => ?_⟩
      rw [hu d hd _ vs_mem]; exact hv
  obtain ⟨a, b⟩ := (hB x hxm hin).2.1 ⟨e, hc⟩ f hf (f p) (f p) fun d hd => by
    rw [hu d hd.1 f hf]; exact ⟨le_rfl, le_rfl⟩
  exact le_antisymm b a

example : exEnv.Reliable ∧ exEnv.Exact ∧ exUniform.Good ∧ exUniform.entries ≠ [] ∧ exUniform.NonOverlapping ∧
    exUniform.Uniform (exPay (12288819 / 8192) 1) ∧ 0 < (exPay (12288819 / 8192) 1).vs := by
  refine ⟨exEnv_reliable, exEnv_exact, exUniform_good, exUniform_ne, exUniform_nonOverlapping, ?_, by decide +kernel⟩
  intro e he f _
  obtain ⟨k, -, rfl⟩ := List.mem_map.1 he
  rfl

/-- C88 is false in the precision of `float`: there is a uniform model of rock, with values of type `float`, whose average at the
root is another number. -/
theorem C88_false : exEnv32.Reliable ∧ exUniform.Good ∧ exUniform.NonOverlapping ∧ exUniform.BelowRoot ∧
    exUniform.Uniform (exPay (12288819 / 8192) 1) ∧ (∀ f ∈ Payload.reals (K := ℚ), exEnv32.rd (f (exPay (12288819 / 8192) 1)) =
      f (exPay (12288819 / 8192) 1)) ∧
    ∃ s, average exEnv32 exUniform = .ok s () ∧ ¬ s.out.Uniform (exPay (12288819 / 8192) 1) := by
  refine ⟨exEnv32_reliable, exUniform_good, exUniform_nonOverlapping, exUniform_belowRoot, ?_, ?_, ?_⟩
  · intro e he f _
    obtain ⟨k, -, rfl⟩ := List.mem_map.1 he
    rfl
  · exact reals_cases (by decide +kernel) (by decide +kernel) (by decide +kernel) (by decide +kernel) (by decide +kernel)
      (by decide +kernel)
  · have h : vsOf (average exEnv32 exUniform) = some (12288818 / 8192 :: List.replicate 8 (12288819 / 8192)) := by decide +kernel
    unfold vsOf at h
    obtain ⟨l, h1, h2⟩ := Option.map_eq_some_iff.1 h
    obtain ⟨s, a, h3, h4⟩ := outOf_some h1
    refine ⟨s, h3, fun hu => ?_⟩
    cases l with
    | nil => simp at h2
    | cons x l =>
      have hx : x ∈ s.out.entries := by rw [h4]; simp
      have h5 := hu x hx _ vs_mem
      simp only [List.map_cons, List.cons.injEq] at h2
      rw [h2.1] at h5
      exact absurd h5 (by decide +kernel)

theorem fold_uniform {rd : K → K} {p : Payload K} (hp : 0 < p.vs ∨ 0 < p.vp)
    (hrd : ∀ f ∈ Payload.reals (K := K), ∀ j : Nat, j ≤ 8 → rd (j * f p) = j * f p) (es : List (Entry K)) (hl : es.length ≤ 8)
    (he : ∀ e ∈ es, ∀ f ∈ Payload.reals (K := K), f e.payload = f p) :
    (fold rd es).2 = es.length ∧ ∀ f ∈ Payload.reals (K := K), f (fold rd es).1 = es.length * f p := by
  induction es using List.reverseRecOn with
  | nil =>
    refine ⟨rfl, fun f hf => ?_⟩
    rw [fold_zero rd [] rfl rfl f hf]; simp
  | append_singleton es e ih =>
    rw [List.length_append, List.length_singleton] at hl ⊢
    obtain ⟨h1, h2⟩ := ih (by omega) fun e' h' => he e' (by simp [h'])
    have hep := he e (by simp)
    rw [fold_append]
    have hadd : ∀ f ∈ Payload.reals (K := K), f (addPayload rd (fold rd es).1 e.payload) = ((es.length + 1 : Nat) : K) * f p := by
      intro f hf
      rw [reals_add rd _ _ f hf, h2 f hf, hep f hf]
      have := hrd f hf (es.length + 1) (by omega)
      rw [← this]
      congr 1
      push_cast; ring
    unfold accumulate
    by_cases hv : 0 < p.vs
    · rw [if_pos (by rw [hep _ vs_mem]; exact hv)]
      by_cases h0 : es = []
      · subst h0
        rw [if_neg (by rw [h2 _ vs_mem]; simp)]
        refine ⟨rfl, fun f hf => ?_⟩
        rw [reals_replace _ _ f hf, hep f hf]; simp
      · have hlen : (0 : K) < es.length := by exact_mod_cast List.length_pos_of_ne_nil h0
        rw [if_pos (by rw [h2 _ vs_mem]; exact mul_pos hlen hv)]
        exact ⟨by rw [h1], hadd⟩
    · rw [if_neg (by rw [hep _ vs_mem]; exact hv), if_pos (by rw [hep _ vp_mem]; exact hp.resolve_left hv),
        if_pos (by rw [h2 _ vs_mem]; exact mul_nonpos_of_nonneg_of_nonpos (Nat.cast_nonneg _) (not_lt.1 hv))]
      exact ⟨by rw [h1], hadd⟩

theorem uniform_of_fold {rd : K → K} {db out : Db K} {p : Payload K} (h : AverageBy (IsFold rd) db out) (hp : 0 < p.vs ∨ 0 < p.vp)
    (hrd : ∀ f ∈ Payload.reals (K := K), ∀ j : Nat, j ≤ 8 → rd (j * f p) = j * f p) (hu : db.Uniform p) :
    ∀ (n : Nat) (k : Key), 31 < k.level + n → ∀ x ∈ out.entries, x.addr.toKey = k → ∀ f ∈ Payload.reals (K := K), f x.payload = f p
  | 0, k, hn, x, hx, hk => by
      have := (h.good.octants x hx).level_le
      have e : x.addr.toKey.level = k.level := by rw [hk]
      omega
  | n + 1, k, hn, x, hx, hk => by
      by_cases hin : x ∈ db.entries
      · exact hu x hin
      obtain ⟨-, hanc, es, h1, h2⟩ := h.others x hx hin
      have hko : k.Octant := by rw [← hk]; exact h.good.octants x hx
      rw [hk] at h1 hanc
      have hlen : es.length ≤ 8 := by
        have := congrArg List.length h1
        rw [List.length_map, List.length_map] at this
        rw [this]; exact Db.childrenOf_length h.good hko
      have hes : ∀ e ∈ es, ∀ f ∈ Payload.reals (K := K), f e.payload = f p := by
        intro e he
        have : e.payload ∈ (out.childrenOf k).map Entry.payload := by rw [← h1]; exact List.mem_map.2 ⟨e, he, rfl⟩
        obtain ⟨c, hc, hce⟩ := List.mem_map.1 this
        rw [← hce]
        simp only [Db.childrenOf, List.mem_filter, decide_eq_true_eq] at hc
        have hl : c.addr.toKey.level = k.level + 1 := hc.2.1
        exact uniform_of_fold h hp hrd hu n c.addr.toKey (by omega) c hc.1 rfl
      obtain ⟨a1, a2⟩ := fold_uniform hp hrd es hlen hes
      have hne : es ≠ [] := by
        intro h0
        rw [h0] at h1
        have hc0 : out.childrenOf k = [] := by simpa using h1.symm
        obtain ⟨-, e, he1, he2, he3⟩ := hanc
        have heo : e.addr.toKey.Octant := h.good.octants e (h.keeps e he1)
        obtain ⟨b1, b2⟩ := (contains_iff_trunc hko heo).1 he2
        have hlt : k.level < e.addr.toKey.level := by
          rcases Nat.lt_or_eq_of_le b1 with h3 | h3
          · exact h3
          · exfalso; apply he3; rw [← b2, h3]; exact heo.trunc_self
        have hl31 : k.level < 31 := by have := heo.level_le; omega
        have hmk := trunc_mem_kids hko heo he2 hlt
        obtain ⟨m1, m2, m3⟩ := (mem_kids hko hl31).1 hmk
        have hce := (kid_contains hko heo hlt hmk).2 rfl
        have : (∃ y ∈ db.entries, y.addr.toKey = e.addr.toKey.trunc (k.level + 1)) ∨
            db.ProperAncestor (e.addr.toKey.trunc (k.level + 1)) := by
          by_cases hq : e.addr.toKey.trunc (k.level + 1) = e.addr.toKey
          · exact Or.inl ⟨e, he1, hq.symm⟩
          · exact Or.inr ⟨m1, e, he1, hce, hq⟩
        obtain ⟨c, hc, hck⟩ := (h.keys _).2 this
        have : c ∈ out.childrenOf k := by
          simp only [Db.childrenOf, List.mem_filter, decide_eq_true_eq]
          exact ⟨hc, by rw [hck]; exact ⟨m2, m3⟩⟩
        rw [hc0] at this
        simp at this
      intro f hf
      have hl0 := List.length_pos_of_ne_nil hne
      have hlK : (es.length : K) ≠ 0 := by exact_mod_cast hl0.ne'
      rw [h2]
      unfold meanOf
      rw [reals_final rd _ (by rw [a1]; exact hl0) f hf, a2 f hf, a1, mul_div_cancel_left₀ _ hlK]
      have := hrd f hf 1 (by omega)
      simpa using this

/-- C88, what holds in the precision of `float`: a uniform model of rock or water averages to itself if each of its values has at most
21 binary digits, as whole numbers up to two million have. -/
theorem C88_partial {ri : IntRound K} {env : Env K} (he : env.Reliable) (hs : Single ri env) {db : Db K} (hdb : db.Good)
    (hne : db.entries ≠ []) (hno : db.NonOverlapping) (hroot : db.BelowRoot) {p : Payload K} (hu : db.Uniform p)
    (hp : 0 < p.vs ∨ 0 < p.vp) (hd : ∀ f ∈ Payload.reals (K := K), ∃ m e : ℤ, |m| < 2 ^ 21 ∧ f p = m * 2 ^ e) :
    ∃ s, average env db = .ok s () ∧ s.out.Uniform p := by
  obtain ⟨s, h, hA⟩ := averageFn he hdb hne hno hroot
  refine ⟨s, h, fun x hx f hf => uniform_of_fold hA hp ?_ hu 32 x.addr.toKey (by omega) x hx rfl f hf⟩
  intro f hf j hj
  obtain ⟨m, e, hm, hfe⟩ := hd f hf
  rw [hs, hfe]
  have e1 : (j : K) * ((m : K) * 2 ^ e) = ((j * m : ℤ) : K) * 2 ^ e := by push_cast; ring
  rw [e1]
  apply fl_exact (by omega)
  rw [abs_mul, Nat.abs_cast]
  have : (j : ℤ) ≤ 8 := by exact_mod_cast hj
  have h0 : (0 : ℤ) ≤ j := by positivity
  have hm0 := abs_nonneg m
  nlinarith

/-- Rock with values of few digits. -/
def exUniform21 : Db ℚ := ⟨(kids ⟨0, 0, 0, 0⟩).map fun k => ⟨⟨k, .leaf⟩, exPay 1500 1⟩⟩

example : exEnv32.Reliable ∧ exUniform21.Good ∧ exUniform21.entries ≠ [] ∧ exUniform21.NonOverlapping ∧ exUniform21.BelowRoot ∧
    exUniform21.Uniform (exPay 1500 1) ∧
    (∀ f ∈ Payload.reals (K := ℚ), ∃ m e : ℤ, |m| < 2 ^ 21 ∧ f (exPay 1500 1) = m * 2 ^ e) ∧
    vsOf (average exEnv32 exUniform21) = some (List.replicate 9 1500) := by
  refine ⟨exEnv32_reliable, ⟨by unfold Db.Octants; decide +kernel, by unfold Db.Sorted; decide +kernel⟩, by simp [exUniform21, kids],
    by unfold Db.NonOverlapping; decide +kernel, by unfold Db.BelowRoot; decide +kernel, ?_, ?_, by decide +kernel⟩
  · intro e he f _
    obtain ⟨k, -, rfl⟩ := List.mem_map.1 he
    rfl
  · exact reals_cases ⟨3000, 0, by decide, by norm_num [exPay]⟩ ⟨1500, 0, by decide, by norm_num [exPay]⟩
      ⟨2500, 0, by decide, by norm_num [exPay]⟩ ⟨100, 0, by decide, by norm_num [exPay]⟩ ⟨50, 0, by decide, by norm_num [exPay]⟩
      ⟨30, 0, by decide, by norm_num [exPay]⟩

end CenCalVM
