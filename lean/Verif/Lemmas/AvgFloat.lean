/-
Averages computed with rounding, compared with those of exact arithmetic.
-/
import Verif.Lemmas.AvgVolume
import Verif.Lemmas.Float
import Mathlib.Algebra.Order.Field.Power

set_option linter.unusedSectionVars false

namespace CenCalVM
open FileApps AvgEngine Key
variable {K : Type} [Field K] [LinearOrder K] [IsStrictOrderedRing K]

theorem fl_roundsWithin [FloorRing K] (ri : IntRound K) {prec : Nat} (hp : 2 ≤ prec) :
    RoundsWithin (fl ri prec) (1 / 2 ^ (prec - 1) : K) where
  nonneg := by positivity
  lt_one := by
    rw [div_lt_one (by positivity)]
    exact one_lt_pow₀ one_lt_two (by omega)
  near := fun x => by
    have := fl_error (ri := ri) (prec := prec) x
    rwa [one_div_mul_eq_div]

/-- An octant has at most eight children. -/
theorem Db.childrenOf_length {db : Db K} (h : db.Good) {k : Key} (hk : k.Octant) : (db.childrenOf k).length ≤ 8 := by
  by_cases hne : db.childrenOf k = []
  · rw [hne]; simp
  obtain ⟨c, hc⟩ := List.exists_mem_of_ne_nil _ hne
  have hl : k.level < 31 := by
    simp only [Db.childrenOf, List.mem_filter, decide_eq_true_eq] at hc
    have h1 := (h.octants c hc.1).level_le
    have h2 : c.addr.toKey.level = k.level + 1 := hc.2.1
    omega
  have hnd : ((db.childrenOf k).map fun c => c.addr.toKey).Nodup := by
    have hs : (db.childrenOf k).Pairwise fun a b => a.addr.toKey.zkey < b.addr.toKey.zkey := h.sorted.filter _
    rw [List.nodup_iff_pairwise_ne, List.pairwise_map]
    exact hs.imp fun {a b} hab he => by rw [he] at hab; exact lt_irrefl _ hab
  have hsub : ((db.childrenOf k).map fun c => c.addr.toKey) ⊆ kids k := by
    intro j hj
    obtain ⟨c, hc, rfl⟩ := List.mem_map.1 hj
    simp only [Db.childrenOf, List.mem_filter, decide_eq_true_eq] at hc
    exact (mem_kids hk hl).2 ⟨h.octants c hc.1, hc.2.1, hc.2.2⟩
  have := (hnd.subperm hsub).length_le
  rw [List.length_map] at this
  exact this

/-! ### Two averages of the same data -/

theorem forall₂_of_keys {P : Entry K → Entry K → Prop} {l l' : List (Entry K)}
    (h : l.map (fun c => c.addr.toKey) = l'.map fun c => c.addr.toKey)
    (hP : ∀ c ∈ l, ∀ c' ∈ l', c.addr.toKey = c'.addr.toKey → P c c') : List.Forall₂ P l l' := by
  induction l generalizing l' with
  | nil => cases l' with
    | nil => exact .nil
    | cons a l' => simp at h
  | cons a l ih => cases l' with
    | nil => simp at h
    | cons b l' =>
      simp only [List.map_cons, List.cons.injEq] at h
      exact .cons (hP a (by simp) b (by simp) h.1)
        (ih h.2 fun c hc c' hc' => hP c (by simp [hc]) c' (by simp [hc']))

theorem forall₂_filter {α : Type} {P : α → α → Prop} {q : α → Bool} {l l' : List α} (h : List.Forall₂ P l l')
    (hq : ∀ a b, a ∈ l → b ∈ l' → P a b → q a = q b) :
    List.Forall₂ (fun a b => P a b ∧ a ∈ l.filter q ∧ b ∈ l'.filter q) (l.filter q) (l'.filter q) := by
  have h0 : List.Forall₂ P (l.filter q) (l'.filter q) := by
    induction h with
    | nil => simp
    | @cons a b l l' hab h ih =>
      have := ih fun a b ha hb => hq a b (by simp [ha]) (by simp [hb])
      rw [List.filter_cons, List.filter_cons, hq a b (by simp) (by simp) hab]
      split
      · exact .cons hab this
      · exact this
  revert h0
  generalize l.filter q = m
  generalize l'.filter q = m'
  intro h0
  induction h0 with
  | nil => exact .nil
  | @cons a b m m' hab h ih =>
    exact .cons ⟨hab, by simp, by simp⟩ (ih.imp fun x y hxy => ⟨hxy.1, by simp [hxy.2.1], by simp [hxy.2.2]⟩)

/-- Sums of values that differ little. -/
theorem sum_near {α : Type} {f : α → K} {E B : K} {l l' : List α}
    (h : List.Forall₂ (fun a b => |f a - f b| ≤ E ∧ |f b| ≤ B) l l') :
    |(l.map f).sum - (l'.map f).sum| ≤ l'.length * E ∧ (l.map fun a => |f a|).sum ≤ l'.length * (B + E) ∧
      l.length = l'.length := by
  induction h with
  | nil => simp
  | @cons a b l l' hab h ih =>
    obtain ⟨h1, h2, h3⟩ := ih
    simp only [List.map_cons, List.sum_cons, List.length_cons]
    push_cast
    refine ⟨?_, ?_, by rw [h3]⟩
    · have e : f a + (l.map f).sum - (f b + (l'.map f).sum) = (f a - f b) + ((l.map f).sum - (l'.map f).sum) := by ring
      rw [e]
      refine (abs_add_le _ _).trans ?_
      have := hab.1
      linarith
    · have e : |f a| ≤ |f b| + |f a - f b| := by
        have : f a = f b + (f a - f b) := by ring
        conv_lhs => rw [this]
        exact abs_add_le _ _
      have := hab.1
      have := hab.2
      linarith

/-- A mean computed with rounding of values that differ little from others. -/
theorem mean_near {δ E B : K} (hδ : 0 ≤ δ) {ps ps' : List (Payload K)} {p p' : Payload K} {f : Payload K → K}
    (hf : f ∈ Payload.reals (K := K)) (hne : ps' ≠ []) (hm : IsMeanUpTo δ ps p) (hm' : IsMean ps' p')
    (h : List.Forall₂ (fun a b => |f a - f b| ≤ E ∧ |f b| ≤ B) ps ps') :
    |f p - f p'| ≤ δ * (B + E) + E := by
  obtain ⟨h1, h2, h3⟩ := sum_near h
  have hn : (0 : K) < ps'.length := by exact_mod_cast List.length_pos_of_ne_nil hne
  have a1 := hm f hf
  rw [h3] at a1
  rw [hm' f hf]
  have a2 : |(ps.map f).sum / (ps'.length : K) - (ps'.map f).sum / ps'.length| ≤ E := by
    rw [← sub_div, abs_div, abs_of_pos hn, div_le_iff₀ hn]; linarith
  have a3 : (ps.map fun c => |f c|).sum / (ps'.length : K) ≤ B + E := by
    rw [div_le_iff₀ hn]; linarith
  have e : f p - (ps'.map f).sum / ps'.length = (f p - (ps.map f).sum / ps'.length) +
      ((ps.map f).sum / ps'.length - (ps'.map f).sum / ps'.length) := by ring
  rw [e]
  refine (abs_add_le _ _).trans ?_
  have : δ * ((ps.map fun c => |f c|).sum / (ps'.length : K)) ≤ δ * (B + E) := by gcongr
  linarith

theorem exists_solid {P : Entry K → Entry K → Prop} {l l' : List (Entry K)} (h : List.Forall₂ P l l')
    (hP : ∀ a b, P a b → (0 < a.payload.vs ↔ 0 < b.payload.vs)) :
    (∃ c ∈ l.map Entry.payload, 0 < c.vs) ↔ ∃ c ∈ l'.map Entry.payload, 0 < c.vs := by
  induction h with
  | nil => simp
  | cons hab _ ih => simp only [List.map_cons, List.exists_mem_cons_iff, ih, hP _ _ hab]

theorem exists_wet {P : Entry K → Entry K → Prop} {l l' : List (Entry K)} (h : List.Forall₂ P l l')
    (hP : ∀ a b, P a b → ¬ 0 < b.payload.vs → (0 < a.payload.vp ↔ 0 < b.payload.vp))
    (hno : ∀ c ∈ l'.map Entry.payload, ¬ 0 < c.vs) :
    (∃ c ∈ l.map Entry.payload, 0 < c.vp) ↔ ∃ c ∈ l'.map Entry.payload, 0 < c.vp := by
  induction h with
  | nil => simp
  | cons hab _ ih =>
    simp only [List.map_cons, List.forall_mem_cons] at hno
    simp only [List.map_cons, List.exists_mem_cons_iff, ih hno.2, hP _ _ hab hno.1]

/-- Two values of an octant: of the same kind, and near each other. -/
structure NearAt (db : Db K) (δ : K) (k : Key) (p p' : Payload K) : Prop where
  solid : 0 < p.vs ↔ 0 < p'.vs
  water : ¬ 0 < p'.vs → (0 < p.vp ↔ 0 < p'.vp)
  near : ∀ f ∈ Payload.reals (K := K), ∀ B, 0 ≤ B → (∀ e, db.Contributes k e → |f e.payload| ≤ B) →
    |f p - f p'| ≤ ((1 + δ) ^ (31 - k.level) - 1) * B

/-- What is known of the exact averages. -/
structure ExactFacts (db out : Db K) : Prop where
  solid : ∀ x ∈ out.entries, (0 < x.payload.vs ↔ ∃ e ∈ db.entries, x.addr.toKey.Contains e.addr.toKey ∧ 0 < e.payload.vs)
  bound : ∀ x ∈ out.entries, 0 < x.payload.vs ∨ 0 < x.payload.vp → ∀ f ∈ Payload.reals (K := K), ∀ B,
    (∀ e, db.Contributes x.addr.toKey e → |f e.payload| ≤ B) → |f x.payload| ≤ B

theorem Db.contributes_up {db : Db K} {k c : Key} (hc : k.Contains c)
    (h : (∃ e ∈ db.entries, c.Contains e.addr.toKey ∧ 0 < e.payload.vs) ∨
      ∀ e ∈ db.entries, k.Contains e.addr.toKey → ¬ 0 < e.payload.vs) {e : Entry K} (he : db.Contributes c e) :
    db.Contributes k e := by
  obtain ⟨h1, h2, h3⟩ := he
  refine ⟨h1, contains_trans hc h2, ?_⟩
  rcases h with ⟨d, d1, d2, d3⟩ | h
  · rcases h3 with h3 | ⟨h3, h4⟩
    · exact Or.inl h3
    · exact absurd d3 (h4 d d1 d2)
  · rcases h3 with h3 | ⟨h3, h4⟩
    · exact Or.inl h3
    · exact Or.inr ⟨h3, h⟩

theorem Db.Good.key_inj {db : Db K} (h : db.Good) {x y : Entry K} (hx : x ∈ db.entries) (hy : y ∈ db.entries)
    (hk : x.addr.toKey = y.addr.toKey) : x = y := by
  exact List.inj_on_of_nodup_map (sorted_nodup h.sorted) hx hy hk

theorem children_keys {m m' : List (Payload K) → Payload K → Prop} {db out out' : Db K} (h : AverageBy m db out)
    (h' : AverageBy m' db out') (k : Key) :
    (out.childrenOf k).map (fun c => c.addr.toKey) = (out'.childrenOf k).map fun c => c.addr.toKey := by
  have hs : ∀ {o : Db K}, o.Good → ((o.childrenOf k).map fun c => c.addr.toKey).Pairwise fun a b => a.zkey < b.zkey := by
    intro o ho
    rw [List.pairwise_map]
    exact ho.sorted.filter _
  have hn : ∀ {o : Db K}, o.Good → ((o.childrenOf k).map fun c => c.addr.toKey).Nodup := fun ho =>
    (hs ho).imp fun {a b} hab he => by rw [he] at hab; exact lt_irrefl _ hab
  refine List.Perm.eq_of_pairwise (fun a b _ _ h1 h2 => absurd h1 (lt_asymm h2)) (hs h.good) (hs h'.good)
    ((List.perm_ext_iff_of_nodup (hn h.good) (hn h'.good)).2 fun j => ?_)
  have key : ∀ {o : Db K}, j ∈ (o.childrenOf k).map (fun c => c.addr.toKey) ↔ k.IsChild j ∧ ∃ x ∈ o.entries, x.addr.toKey = j := by
    intro o
    simp only [Db.childrenOf, List.mem_map, List.mem_filter, decide_eq_true_eq]
    constructor
    · rintro ⟨c, ⟨h1, h2⟩, rfl⟩; exact ⟨h2, c, h1, rfl⟩
    · rintro ⟨h2, c, h1, rfl⟩; exact ⟨c, ⟨h1, h2⟩, rfl⟩
  rw [key, key, h.keys, h'.keys]

theorem FileApps.AverageUpTo.near {db out out' : Db K} {δ : K} (hδ : 0 ≤ δ) (hno : db.NonOverlapping)
    (h : AverageUpTo δ db out) (h' : AverageOf db out') (hx' : ExactFacts db out') :
    ∀ (n : Nat) (k : Key), 31 < k.level + n → ∀ x ∈ out.entries, ∀ x' ∈ out'.entries, x.addr.toKey = k → x'.addr.toKey = k →
      NearAt db δ k x.payload x'.payload
  | 0, k, hn, x, hx, _, _, hk, _ => by
      have := (h.good.octants x hx).level_le
      have e : x.addr.toKey.level = k.level := by rw [hk]
      omega
  | n + 1, k, hn, x, hx, x', hxm, hk, hk' => by
      have hpow : ∀ j : Nat, (1 : K) ≤ (1 + δ) ^ j := fun j => one_le_pow₀ (by linarith)
      by_cases hin : x ∈ db.entries
      · have : x = x' := h'.good.key_inj (h'.keeps x hin) hxm (hk.trans hk'.symm)
        subst this
        refine ⟨Iff.rfl, fun _ => Iff.rfl, fun f _ B hB _ => ?_⟩
        rw [sub_self, abs_zero]
        exact mul_nonneg (by linarith [hpow (31 - k.level)]) hB
      obtain ⟨-, hanc, hsp⟩ := h.others x hx hin
      have hin' : x' ∉ db.entries := fun hc => hno.not_both hc (by rw [hk', ← hk]; exact hanc)
      obtain ⟨-, -, hsp'⟩ := h'.others x' hxm hin'
      rw [hk] at hsp hanc
      rw [hk'] at hsp'
      have hrel : List.Forall₂ (fun c c' : Entry K => c.addr.toKey = c'.addr.toKey ∧ c'.addr.toKey.level = k.level + 1 ∧
          k.Contains c'.addr.toKey ∧ c' ∈ out'.entries ∧ NearAt db δ c'.addr.toKey c.payload c'.payload)
          (out.childrenOf k) (out'.childrenOf k) := by
        refine forall₂_of_keys (children_keys h h' k) fun c hc c' hc' hcc => ?_
        simp only [Db.childrenOf, List.mem_filter, decide_eq_true_eq] at hc hc'
        have hl : c'.addr.toKey.level = k.level + 1 := hc'.2.1
        exact ⟨hcc, hl, hc'.2.2, hc'.1,
          near hδ hno h h' hx' n c'.addr.toKey (by omega) c hc.1 c' hc'.1 hcc rfl⟩
      -- solid children correspond
      have hmemS : (∃ c ∈ (out.childrenOf k).map Entry.payload, 0 < c.vs) ↔
          ∃ c ∈ (out'.childrenOf k).map Entry.payload, 0 < c.vs := (exists_solid hrel fun _ _ hab => hab.2.2.2.2.solid)
      have hmemW : (∀ c ∈ (out'.childrenOf k).map Entry.payload, ¬ 0 < c.vs) →
          ((∃ c ∈ (out.childrenOf k).map Entry.payload, 0 < c.vp) ↔
            ∃ c ∈ (out'.childrenOf k).map Entry.payload, 0 < c.vp) := fun hno0 =>
        exists_wet hrel (fun _ _ hab => hab.2.2.2.2.water) hno0
      -- the filtered children, their values and bounds
      have hlist : ∀ q : Payload K → Bool, (∀ c c' : Entry K, c ∈ out.childrenOf k → c' ∈ out'.childrenOf k →
            NearAt db δ c'.addr.toKey c.payload c'.payload → q c.payload = q c'.payload) →
          (∀ c' ∈ out'.childrenOf k, q c'.payload = true → (0 < c'.payload.vs ∨ 0 < c'.payload.vp) ∧
            ∀ e, db.Contributes c'.addr.toKey e → db.Contributes k e) →
          k.level < 31 → ∀ f ∈ Payload.reals (K := K), ∀ B, 0 ≤ B → (∀ e, db.Contributes k e → |f e.payload| ≤ B) →
          List.Forall₂ (fun a b => |f a - f b| ≤ ((1 + δ) ^ (30 - k.level) - 1) * B ∧ |f b| ≤ B)
            (((out.childrenOf k).map Entry.payload).filter q) (((out'.childrenOf k).map Entry.payload).filter q) := by
        intro q hq hc hlt f hf B hB hb
        rw [List.filter_map, List.filter_map, List.forall₂_map_left_iff, List.forall₂_map_right_iff]
        refine (forall₂_filter hrel fun a b ha hb hab => hq a b ha hb hab.2.2.2.2).imp ?_
        rintro a b ⟨⟨e1, e2, e3, e4, e5⟩, -, hbm⟩
        obtain ⟨hbm, hqb⟩ := List.mem_filter.1 hbm
        obtain ⟨c1, c2⟩ := hc b hbm hqb
        have e6 : 31 - b.addr.toKey.level = 30 - k.level := by omega
        refine ⟨?_, hx'.bound b e4 c1 f hf B fun e he => hb e (c2 e he)⟩
        have := e5.near f hf B hB fun e he => hb e (c2 e he)
        rwa [e6] at this
      have hfin : ∀ B : K, ((1 + δ) ^ (31 - k.level) - 1) * B =
          δ * (B + ((1 + δ) ^ (30 - k.level) - 1) * B) + ((1 + δ) ^ (30 - k.level) - 1) * B ∨ ¬ k.level < 31 := by
        intro B
        by_cases hlt : k.level < 31
        · left
          have : 31 - k.level = (30 - k.level) + 1 := by omega
          rw [this, pow_succ]; ring
        · exact Or.inr hlt
      have hlt : (∃ c, c ∈ out'.childrenOf k) → k.level < 31 := by
        rintro ⟨c, hc⟩
        simp only [Db.childrenOf, List.mem_filter, decide_eq_true_eq] at hc
        have h1 := (h'.good.octants c hc.1).level_le
        have h2 : c.addr.toKey.level = k.level + 1 := hc.2.1
        omega
      by_cases hS' : ∃ c ∈ (out'.childrenOf k).map Entry.payload, 0 < c.vs
      · obtain ⟨s1, s2⟩ := hsp.solid (hmemS.2 hS')
        have s3 := hsp'.solid hS'
        obtain ⟨p, hp, hv⟩ := hS'
        obtain ⟨c, hc, rfl⟩ := List.mem_map.1 hp
        have hl := hlt ⟨c, hc⟩
        have hvs' : 0 < x'.payload.vs := by
          rw [hx'.solid x' hxm, hk']
          simp only [Db.childrenOf, List.mem_filter, decide_eq_true_eq] at hc
          obtain ⟨e, e1, e2, e3⟩ := (hx'.solid c hc.1).1 hv
          exact ⟨e, e1, contains_trans hc.2.2 e2, e3⟩
        refine ⟨iff_of_true s1 hvs', fun hn => absurd hvs' hn, fun f hf B hB hb => ?_⟩
        rw [(hfin B).resolve_right (by simpa using hl)]
        refine mean_near hδ hf ?_ s2 s3 (hlist _ ?_ ?_ hl f hf B hB hb)
        · exact List.ne_nil_of_mem (List.mem_filter.2 ⟨hp, by simpa using hv⟩)
        · intro c c' _ _ hcc
          exact decide_eq_decide.2 hcc.solid
        · intro c' hc' hq
          have hq' : 0 < c'.payload.vs := by simpa using hq
          simp only [Db.childrenOf, List.mem_filter, decide_eq_true_eq] at hc'
          exact ⟨Or.inl hq', fun e he => Db.contributes_up hc'.2.2 (Or.inl ((hx'.solid c' hc'.1).1 hq')) he⟩
      · have hN' : ∀ c ∈ (out'.childrenOf k).map Entry.payload, ¬ 0 < c.vs := fun c hc hv => hS' ⟨c, hc, hv⟩
        have hN : ∀ c ∈ (out.childrenOf k).map Entry.payload, ¬ 0 < c.vs := fun c hc hv => hS' (hmemS.1 ⟨c, hc, hv⟩)
        by_cases hW' : ∃ c ∈ (out'.childrenOf k).map Entry.payload, 0 < c.vp
        · obtain ⟨s1, s2, s3⟩ := hsp.water hN ((hmemW hN').2 hW')
          have s4 := hsp'.water hN' hW'
          obtain ⟨p, hp, hv⟩ := hW'
          obtain ⟨c, hc, rfl⟩ := List.mem_map.1 hp
          have hl := hlt ⟨c, hc⟩
          have hne : ((out'.childrenOf k).map Entry.payload).filter (fun c => decide (0 < c.vp)) ≠ [] :=
            List.ne_nil_of_mem (List.mem_filter.2 ⟨hp, by simpa using hv⟩)
          have hlen : (0 : K) < (((out'.childrenOf k).map Entry.payload).filter (fun c => decide (0 < c.vp))).length := by
            exact_mod_cast List.length_pos_of_ne_nil hne
          have hvs' : ¬ 0 < x'.payload.vs := by
            rw [s4 _ vs_mem, not_lt]
            refine div_nonpos_of_nonpos_of_nonneg (sum_nonpos_of fun p hp => ?_) hlen.le
            exact not_lt.1 (hN' p (List.mem_filter.1 hp).1)
          have hvp' : 0 < x'.payload.vp := by
            rw [s4 _ vp_mem]
            refine div_pos (sum_pos_of hne fun p hp => ?_) hlen
            simpa using (List.mem_filter.1 hp).2
          refine ⟨iff_of_false s1 hvs', fun _ => iff_of_true s2 hvp', fun f hf B hB hb => ?_⟩
          rw [(hfin B).resolve_right (by simpa using hl)]
          refine mean_near hδ hf hne s3 s4 (hlist _ ?_ ?_ hl f hf B hB hb)
          · intro c c' hc hc' hcc
            exact decide_eq_decide.2 (hcc.water (hN' _ (List.mem_map.2 ⟨c', hc', rfl⟩)))
          · intro c' hc' hq
            have hq' : 0 < c'.payload.vp := by simpa using hq
            simp only [Db.childrenOf, List.mem_filter, decide_eq_true_eq] at hc'
            refine ⟨Or.inr hq', fun e he => Db.contributes_up hc'.2.2 (Or.inr ?_) he⟩
            intro d d1 d2 d3
            exact hvs' ((hx'.solid x' hxm).2 ⟨d, d1, by rw [hk']; exact d2, d3⟩)
        · have hM' : ∀ c ∈ (out'.childrenOf k).map Entry.payload, ¬ 0 < c.vp := fun c hc hv => hW' ⟨c, hc, hv⟩
          have hM : ∀ c ∈ (out.childrenOf k).map Entry.payload, ¬ 0 < c.vp :=
            fun c hc hv => hW' ((hmemW hN').1 ⟨c, hc, hv⟩)
          have e1 := hsp.noData hN hM
          have e2 := hsp'.noData hN' hM'
          refine ⟨?_, fun _ => ?_, fun f hf B hB _ => ?_⟩
          · rw [e1 _ vs_mem, e2 _ vs_mem]
          · rw [e1 _ vp_mem, e2 _ vp_mem]
          · rw [e1 f hf, e2 f hf, sub_self, abs_zero]
            exact mul_nonneg (by linarith [hpow (31 - k.level)]) hB

end CenCalVM
