/-
The averaged database is determined by its description, octant by octant.
-/
import Verif.Lemmas.AvgFacts
import Verif.Lemmas.QuerySpec
import Verif.Spec.FileApps

set_option linter.unusedSectionVars false

namespace CenCalVM
open FileApps
variable {K : Type} [Field K] [LinearOrder K] [IsStrictOrderedRing K]

theorem SolidPrecedence.unique {ps : List (Payload K)} {p p' : Payload K} (h : SolidPrecedence ps p) (h' : SolidPrecedence ps p') : p = p' := by
  have hr : ∀ f ∈ Payload.reals (K := K), f p = f p' := by
    by_cases hs : ∃ c ∈ ps, 0 < c.vs
    · intro f hf
      rw [h.solid hs f hf, h'.solid hs f hf]
    · push Not at hs
      by_cases hw : ∃ c ∈ ps, 0 < c.vp
      · intro f hf
        rw [h.water (fun c hc => not_lt.2 (hs c hc)) hw f hf, h'.water (fun c hc => not_lt.2 (hs c hc)) hw f hf]
      · push Not at hw
        intro f hf
        rw [h.noData (fun c hc => not_lt.2 (hs c hc)) (fun c hc => not_lt.2 (hw c hc)) f hf,
          h'.noData (fun c hc => not_lt.2 (hs c hc)) (fun c hc => not_lt.2 (hw c hc)) f hf]
  have hb := h.block.trans h'.block.symm
  have hz := h.zone.trans h'.zone.symm
  have h1 := hr Payload.vp (by simp [Payload.reals])
  have h2 := hr Payload.vs (by simp [Payload.reals])
  have h3 := hr Payload.density (by simp [Payload.reals])
  have h4 := hr Payload.qp (by simp [Payload.reals])
  have h5 := hr Payload.qs (by simp [Payload.reals])
  have h6 := hr Payload.depth (by simp [Payload.reals])
  cases p; cases p'
  simp only at *
  subst hb hz h1 h2 h3 h4 h5 h6
  rfl

theorem sorted_eq_of_mem {l l' : List (Entry K)} (h : l.Pairwise fun a b => a.addr.toKey.zkey < b.addr.toKey.zkey)
    (h' : l'.Pairwise fun a b => a.addr.toKey.zkey < b.addr.toKey.zkey) (hm : ∀ x, x ∈ l ↔ x ∈ l') : l = l' := by
  have n : l.Nodup := h.imp fun {a b} hab he => by rw [he] at hab; exact lt_irrefl _ hab
  have n' : l'.Nodup := h'.imp fun {a b} hab he => by rw [he] at hab; exact lt_irrefl _ hab
  exact List.Perm.eq_of_pairwise (fun a b _ _ h1 h2 => absurd h1 (lt_asymm h2)) h h' ((List.perm_ext_iff_of_nodup n n').2 hm)

theorem Db.NonOverlapping.not_both {db : Db K} (hno : db.NonOverlapping) {e : Entry K} (he : e ∈ db.entries) : ¬ db.ProperAncestor e.addr.toKey := by
  rintro ⟨-, e', he', hc, hne⟩
  exact hne (by rw [hno e he e' he' hc])

theorem FileApps.AverageBy.entries {mean : List (Payload K) → Payload K → Prop} {db out : Db K} (h : AverageBy mean db out) {x : Entry K} (hx : x ∈ out.entries) (hn : x ∉ db.entries) :
    x.addr.type = .interior ∧ db.ProperAncestor x.addr.toKey := ⟨(h.others x hx hn).1, (h.others x hx hn).2.1⟩

theorem FileApps.AverageBy.agree {mean : List (Payload K) → Payload K → Prop}
    (hu : ∀ ps p p', mean ps p → mean ps p' → p = p') {db db' out out' : Db K} (hno : db.NonOverlapping) (hno' : db'.NonOverlapping) (h : AverageBy mean db out)
    (h' : AverageBy mean db' out') :
    ∀ (n : Nat) (k : Key), 31 < k.level + n → (∀ e, k.Contains e.addr.toKey → (e ∈ db.entries ↔ e ∈ db'.entries)) →
      ∀ x, x.addr.toKey = k → x ∈ out.entries → x ∈ out'.entries
  | 0, k, hn, hag, x, hx, hm => by
      have := (h.good.octants x hm).level_le
      have e : x.addr.toKey.level = k.level := by rw [hx]
      omega
  | n + 1, k, hn, hag, x, hx, hm => by
      have ho := h.good.octants x hm
      have hself : k.Contains x.addr.toKey := by
        rw [← hx, Key.contains_iff_trunc ho ho]; exact ⟨le_rfl, ho.trunc_self⟩
      by_cases hin : x ∈ db.entries
      · exact h'.keeps x ((hag x hself).1 hin)
      · obtain ⟨ht, hko, e, he, hke, hne⟩ : x.addr.type = .interior ∧ db.ProperAncestor x.addr.toKey :=
          h.entries hm hin
        rw [hx] at hko hke hne
        have he' := (hag e hke).1 he
        obtain ⟨x', hm', hx'⟩ := (h'.keys k).2 (Or.inr ⟨hko, e, he', hke, hne⟩)
        have hin' : x' ∉ db'.entries := fun hc =>
          hno'.not_both hc (by rw [hx']; exact ⟨hko, e, he', hke, hne⟩)
        have ht' := (h'.entries hm' hin').1
        have ha : x.addr = x'.addr := by
          have hkk : x.addr.toKey = x'.addr.toKey := hx.trans hx'.symm
          cases hxa : x.addr; cases hxa' : x'.addr
          rw [hxa] at hkk ht; rw [hxa'] at hkk ht'
          simp only at hkk ht ht'
          subst hkk ht ht'; rfl
        have hch : out.childrenOf k = out'.childrenOf k := by
          refine sorted_eq_of_mem (h.good.sorted.filter _) (h'.good.sorted.filter _) fun c => ?_
          simp only [Db.childrenOf, List.mem_filter, decide_eq_true_eq]
          constructor
          · rintro ⟨hc, hl, hkc⟩
            refine ⟨agree hu hno hno' h h' n c.addr.toKey (by omega) (fun y hy => hag y (Key.contains_trans hkc hy)) c rfl hc, hl, hkc⟩
          · rintro ⟨hc, hl, hkc⟩
            refine ⟨agree hu hno' hno h' h n c.addr.toKey (by omega) (fun y hy => (hag y (Key.contains_trans hkc hy)).symm) c rfl hc, hl, hkc⟩
        have hp := (h.others x hm hin).2.2
        have hp' := (h'.others x' hm' hin').2.2
        rw [hx] at hp; rw [hx', ← hch] at hp'
        have : x = x' := by
          cases x; cases x'
          simp only at ha
          subst ha
          have := hu _ _ _ hp hp'
          simp only at this
          subst this; rfl
        rw [this]; exact hm'

theorem FileApps.AverageOf.agree {db db' out out' : Db K} (hno : db.NonOverlapping) (hno' : db'.NonOverlapping) (h : AverageOf db out)
    (h' : AverageOf db' out') :
    ∀ (n : Nat) (k : Key), 31 < k.level + n → (∀ e, k.Contains e.addr.toKey → (e ∈ db.entries ↔ e ∈ db'.entries)) →
      ∀ x, x.addr.toKey = k → x ∈ out.entries → x ∈ out'.entries :=
  AverageBy.agree (mean := SolidPrecedence) (fun _ _ _ => SolidPrecedence.unique) hno hno' h h'

end CenCalVM
