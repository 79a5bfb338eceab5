/-
A FIXEDRES query on an averaged database, at a cell that holds smaller input octants.
-/
import Verif.Props.AvgLocal
import Verif.Spec.EndToEnd

set_option linter.unusedSectionVars false

namespace CenCalVM
open FileApps
variable {K : Type} [Field K] [LinearOrder K] [IsStrictOrderedRing K]

/-- The answer is the payload of the octant the averaging made for the cell. -/
theorem fixedres_interior {g : Geom K} (hg : g.Lawful) {db out : Db K} {mean : List (Payload K) → Payload K → Prop}
    (hmean : ∀ l p, mean l p → p.faultBlock = -999 ∧ p.zone = -999) (d2 : AverageBy mean db out) (hgood : db.Good)
    (hno : db.NonOverlapping) {fmt : Fmt K} {q : VMQuery K} (hq : q.Open g out) (hfn : q.queryFn = .FIXEDRES) {m : Nat}
    (hm : g.level (g.vertExag * q.queryRes) = .ok (m : Int)) {lon lat elev : K} (hs : NotSquashed q elev) {a : Addr}
    (ha : CellOf g m lon lat elev a) {e : Entry K} (he1 : e ∈ db.entries) (he2 : a.toKey.Contains e.addr.toKey)
    (hlt : m < e.addr.level) :
    ∃ x ∈ out.entries, x ∉ db.entries ∧ x.addr.toKey = a.toKey ∧ PayloadOf fmt q lon lat elev x.payload ∧
      x.payload.faultBlock = -999 ∧ x.payload.zone = -999 := by
  have hal : a.level = m := (hg.keeps _ _ _ _ _ _ ha).1
  have halg := hg.aligned _ _ _ _ _ ha
  have heo := hgood.octants e he1
  obtain ⟨-, htr⟩ := (Key.contains_iff_trunc' halg heo.aligned).1 he2
  have hao : a.toKey.Octant := by rw [← htr]; exact heo.trunc (by have := heo.level_le; show a.level ≤ 31; omega)
  have hpa : db.ProperAncestor a.toKey := ⟨hao, e, he1, he2, fun hh => by
    have : a.level = e.addr.level := congrArg Key.level hh
    omega⟩
  obtain ⟨x, hx, hxk⟩ := (d2.keys a.toKey).2 (Or.inr hpa)
  have hxn : x ∉ db.entries := fun hc => hno.not_both hc (by rw [hxk]; exact hpa)
  obtain ⟨hblock, hzone⟩ := hmean _ _ (d2.others x hx hxn).2.2
  have hxl : x.addr.level = m := by
    have : x.addr.level = a.level := congrArg Key.level hxk
    omega
  have hpay : PayloadOf fmt q lon lat elev (VMQuery.bothP q g out (a, 0)) :=
    (VMQuery.payloadOf_plain hq.lawful hq.geom_eq hq.db_eq hs).2
      ⟨m, (a, 0), by unfold LookupLevel; rw [hfn]; exact hm, ha, rfl⟩
  have hxf : out.Finest a.toKey x := ⟨hx, by rw [hxk, Key.contains_iff_trunc hao hao]; exact ⟨le_rfl, hao.trunc_self⟩, fun y hy hyc => by
    have h1 := ((Key.contains_iff_trunc' (d2.good.octants y hy).aligned halg).1 hyc).1
    have h2 : y.addr.level ≤ a.level := h1
    omega⟩
  have huniq : ∀ p0, FromFinest (fun e => e.addr.level ≤ m ∧ (e.addr.level = m ∨ e.addr.type = .leaf)) a.toKey
      out p0 → p0 = x.payload := by
    rintro p0 (⟨y, hy, -, rfl⟩ | ⟨hno', -⟩)
    · rw [Db.finest_unique d2.good halg hy hxf]
    · exact absurd ⟨by omega, Or.inl hxl⟩ (hno' x hxf)
  have hres : VMQuery.bothP q g out (a, 0) = x.payload := by
    rcases C11 hq hfn hm hs hpay with ⟨a', hca, -, hC⟩ | ⟨⟨a', code, hca, hcode⟩, -⟩
    · have haa : a' = a := by
        have h1 : g.lonLatElevToAddr _ lon lat elev = .ok (a', 0) := hca
        have h2 : g.lonLatElevToAddr _ lon lat elev = .ok (a, 0) := ha
        rw [h1] at h2; cases h2; rfl
      subst haa
      rcases hC with ⟨hF, -⟩ | ⟨p0, y, hF, hp0, -, -⟩
      · exact huniq _ hF
      · exfalso; rw [huniq p0 hF, hblock] at hp0; exact absurd hp0 (by decide)
    · exfalso
      have h2 : g.lonLatElevToAddr _ lon lat elev = .ok (a, 0) := ha
      rw [hca] at h2; cases h2; exact hcode rfl
  rw [hres] at hpay
  exact ⟨x, hx, hxn, hxk, hpay, hblock, hzone⟩

/-- Which octants decide the average over a cell, when the points ingested there are the octants stored there. -/
theorem decides_contributes {db : Db K} {k : Key} {es : Entry K → Prop} (h : ∀ e, es e ↔ e ∈ db.entries ∧ k.Contains e.addr.toKey) (y : Entry K) :
    Decides es y ↔ db.Contributes k y := by
  unfold Decides Db.Contributes
  simp only [h]
  constructor
  · rintro ⟨⟨h1, h2⟩, h3⟩
    exact ⟨h1, h2, h3.imp id fun h => ⟨h.1, fun d hd hc => h.2 d ⟨hd, hc⟩⟩⟩
  · rintro ⟨h1, h2, h3⟩
    exact ⟨⟨h1, h2⟩, h3.imp id fun h => ⟨h.1, fun d hd => h.2 d hd.1 hd.2⟩⟩

end CenCalVM
