/-
Lemmas about averaged databases for WAVERES queries.
-/
import Verif.Lemmas.Octree
import Verif.Lemmas.QuerySpec
import Verif.Spec.FileApps

set_option linter.unusedSectionVars false

namespace CenCalVM
open FileApps
variable {K : Type} [Field K] [LinearOrder K] [IsStrictOrderedRing K]

/-- Of two octants containing a cell, the coarser contains the finer. -/
theorem Key.contains_nested {a b c : Key} (ha : a.Octant) (hb : b.Octant) (hc : c.Aligned) (h1 : a.Contains c) (h2 : b.Contains c)
    (hl : a.level ≤ b.level) : a.Contains b := by
  rw [Key.contains_iff_trunc' ha.aligned hc] at h1
  rw [Key.contains_iff_trunc' hb.aligned hc] at h2
  rw [Key.contains_iff_trunc ha hb]
  exact ⟨hl, by rw [← h2.2, Key.trunc_trunc _ hl]; exact h1.2⟩

/-- The octants of an average and their ancestors are all stored. -/
theorem averageBy_closed {mean : List (Payload K) → Payload K → Prop} {db out : Db K} (h : AverageBy mean db out) : out.AncestorClosed := by
  intro x hx h0
  have hxo := h.good.octants x hx
  have hl := hxo.level_le
  have hl' : x.addr.level ≤ 31 := hl
  have hpo : (x.addr.toKey.trunc (x.addr.level - 1)).Octant := hxo.trunc (by omega)
  have hpc : (x.addr.toKey.trunc (x.addr.level - 1)).Contains x.addr.toKey := by
    rw [Key.contains_iff_trunc hpo hxo]; exact ⟨by show x.addr.level - 1 ≤ x.addr.level; omega, rfl⟩
  have hpa : db.ProperAncestor (x.addr.toKey.trunc (x.addr.level - 1)) := by
    rcases (h.keys x.addr.toKey).1 ⟨x, hx, rfl⟩ with ⟨e, he, hek⟩ | ⟨-, e, he, hec, -⟩
    · refine ⟨hpo, e, he, by rw [hek]; exact hpc, fun hh => ?_⟩
      have h1 : x.addr.level - 1 = e.addr.level := congrArg Key.level hh
      have h2 : e.addr.level = x.addr.level := congrArg Key.level hek
      omega
    · refine ⟨hpo, e, he, Key.contains_trans hpc hec, fun hh => ?_⟩
      have h1 : x.addr.level - 1 = e.addr.level := congrArg Key.level hh
      have heo : e.addr.toKey.Octant := by rw [← hh]; exact hpo
      have h2 : x.addr.level ≤ e.addr.level := ((Key.contains_iff_trunc hxo heo).1 hec).1
      omega
  obtain ⟨y, hy, hyk⟩ := (h.keys _).2 (Or.inr hpa)
  refine ⟨y, hy, ?_, by rw [hyk]; exact hpc⟩
  have : y.addr.level = x.addr.level - 1 := congrArg Key.level hyk
  omega

/-- Among the octants of an average around a cell in an input octant, the input octant is the smallest, and the others are averages
around it. -/
theorem averageBy_finest {mean : List (Payload K) → Payload K → Prop} {db out : Db K} (d2 : AverageBy mean db out) (hgood : db.Good)
    (hno : db.NonOverlapping) {a : Key} (halg : a.Aligned) {e : Entry K} (he1 : e ∈ db.entries) (hea : e.addr.toKey.Contains a) :
    out.Finest a e ∧ ∀ x ∈ out.entries, x.addr.toKey.Contains a → x.addr.toKey.Contains e.addr.toKey ∧ (x = e ∨ x ∉ db.entries) := by
  have heo := hgood.octants e he1
  have hout := d2.good.octants
  have hfin : out.Finest a e := by
    refine ⟨d2.keeps e he1, hea, fun y hy hyc => ?_⟩
    by_contra hlt
    have hlt : e.addr.level < y.addr.level := by omega
    have hey : e.addr.toKey.Contains y.addr.toKey := Key.contains_nested heo (hout y hy) halg hea hyc hlt.le
    rcases (d2.keys y.addr.toKey).1 ⟨y, hy, rfl⟩ with ⟨d, hd, hdk⟩ | ⟨-, d, hd, hdc, -⟩
    · have := hno e he1 d hd (by rw [hdk]; exact hey)
      subst this
      have : e.addr.level = y.addr.level := congrArg Key.level hdk
      omega
    · have := hno e he1 d hd (Key.contains_trans hey hdc)
      subst this
      have : y.addr.level ≤ e.addr.level := ((Key.contains_iff_trunc (hout y hy) heo).1 hdc).1
      omega
  refine ⟨hfin, fun x hx hxa => ?_⟩
  have hxe : x.addr.toKey.Contains e.addr.toKey := Key.contains_nested (hout x hx) heo halg hxa hea (hfin.2.2 x hx hxa)
  refine ⟨hxe, ?_⟩
  by_cases hxm : x ∈ db.entries
  · exact Or.inl (hno x hxm e he1 hxe)
  · exact Or.inr hxm

end CenCalVM
