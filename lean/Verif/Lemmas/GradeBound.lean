/-
What the three passes establish.
-/
import Verif.Lemmas.GradeExtract

set_option linter.unusedSectionVars false

namespace CenCalVM
namespace VsGrader
variable {K : Type} [Field K] [LinearOrder K] [IsStrictOrderedRing K] [FloorRing K]

theorem limitDiff_bounded {m : K} (hm : 0 ≤ m) (n : Nat) (d : Nat → Payload K) :
    Bounded m n fun i => ((limitDiff .exact m n d).data i).vs := by
  intro i hi
  obtain ⟨h1, h2⟩ := limitDiff_step (d := d) hm hi
  exact abs_le.2 ⟨by linarith, by linarith⟩

/-- Limiting neighbouring lines keeps their distance. -/
theorem limitDiff_neighbours {m c : K} (hm : 0 ≤ m) {n : Nat} {d d' : Nat → Payload K}
    (h : ∀ i < n, |(d' i).vs - (d i).vs| ≤ c) {i : Nat} (hi : i < n) :
    |((limitDiff .exact m n d').data i).vs - ((limitDiff .exact m n d).data i).vs| ≤ c := by
  have half : ∀ {d d' : Nat → Payload K}, (∀ i < n, |(d' i).vs - (d i).vs| ≤ c) →
      ((limitDiff .exact m n d).data i).vs - c ≤ ((limitDiff .exact m n d').data i).vs := by
    intro d d' h
    refine limitDiff_minorant (f := fun i => ((limitDiff .exact m n d).data i).vs - c) (fun i hi => ?_) (fun i hi => ?_) hi
    · have := limitDiff_bounded hm n d i hi
      simpa using this
    · have h1 := limitDiff_le (m := m) (n := n) (d := d) i
      have h2 := (abs_le.1 (h i hi)).1
      linarith
  have h1 := half h
  have h2 := half (d := d') (d' := d) fun i hi => by rw [abs_sub_comm]; exact h i hi
  exact abs_le.2 ⟨by linarith, by linarith⟩

/-- The three passes. -/
def passes (rd : Rd K) (mh mv : K) (nL nW nH : Nat) (V : Nat → Nat → Nat → Payload K) : Nat → Nat → Nat → Payload K :=
  passWidth rd mh nW (passLen rd mh nL (passHt rd mv nH V))

theorem passes_bounded {mh mv : K} (hh : 0 ≤ mh) (hv : 0 ≤ mv) (nL nW nH : Nat) (V : Nat → Nat → Nat → Payload K) :
    Bounded3 mh mv nL nW nH fun l w h => (passes .exact mh mv nL nW nH V l w h).vs := by
  have a1 : ∀ l w, Bounded mv nH fun h => (passHt .exact mv nH V l w h).vs := fun l w => limitDiff_bounded hv nH _
  have b1 : ∀ w h, Bounded mh nL fun l => (passLen .exact mh nL (passHt .exact mv nH V) l w h).vs := fun w h => limitDiff_bounded hh nL _
  have b2 : ∀ l < nL, ∀ w, Bounded mv nH fun h => (passLen .exact mh nL (passHt .exact mv nH V) l w h).vs := by
    intro l hl w h hlt
    exact limitDiff_neighbours hh (fun l _ => a1 l w h hlt) hl
  refine ⟨fun w hw h hlt l hl => ?_, fun l hl h hlt => limitDiff_bounded hh nW _, fun l hl w hw h hlt => ?_⟩
  · exact limitDiff_neighbours hh (fun w _ => b1 w h l hl) hw
  · exact limitDiff_neighbours hh (fun w _ => b2 l hl w h hlt) hw

theorem passes_le {mh mv : K} {nL nW nH : Nat} {V : Nat → Nat → Nat → Payload K} (l w h : Nat) :
    (passes .exact mh mv nL nW nH V l w h).vs ≤ (V l w h).vs :=
  (limitDiff_le w).trans ((limitDiff_le l).trans (limitDiff_le h))

theorem passes_minorant {mh mv : K} {nL nW nH : Nat} {V : Nat → Nat → Nat → Payload K} {f : Nat → Nat → Nat → K}
    (hf : Bounded3 mh mv nL nW nH f) (hfV : ∀ l < nL, ∀ w < nW, ∀ h < nH, f l w h ≤ (V l w h).vs) :
    ∀ l < nL, ∀ w < nW, ∀ h < nH, f l w h ≤ (passes .exact mh mv nL nW nH V l w h).vs := by
  intro l hl w hw h hh
  refine limitDiff_minorant (f := fun w => f l w h) (hf.width l hl h hh) (fun w hw => ?_) hw
  refine limitDiff_minorant (f := fun l => f l w h) (hf.len w hw h hh) (fun l hl => ?_) hl
  exact limitDiff_minorant (f := fun h => f l w h) (hf.ht l hl w hw) (fun h hh => hfV l hl w hw h hh) hh

theorem passes_scaled {mh mv : K} (hh : 0 ≤ mh) (hv : 0 ≤ mv) {nL nW nH : Nat} {V : Nat → Nat → Nat → Payload K}
    (h0 : ∀ l < nL, ∀ w < nW, ∀ h < nH, 0 ≤ (V l w h).vs) : ∀ l < nL, ∀ w < nW, ∀ h < nH,
      0 ≤ (passes .exact mh mv nL nW nH V l w h).vs ∧ Scaled (V l w h) (passes .exact mh mv nL nW nH V l w h) := by
  have s1 : ∀ l < nL, ∀ w < nW, ∀ h < nH, 0 ≤ (passHt .exact mv nH V l w h).vs ∧ Scaled (V l w h) (passHt .exact mv nH V l w h) := by
    intro l hl w hw h hlt
    obtain ⟨a, b, -⟩ := limitDiff_scaled hv (h0 l hl w hw) hlt
    exact ⟨a, b⟩
  have s2 : ∀ l < nL, ∀ w < nW, ∀ h < nH, 0 ≤ (passLen .exact mh nL (passHt .exact mv nH V) l w h).vs ∧
      Scaled (V l w h) (passLen .exact mh nL (passHt .exact mv nH V) l w h) := by
    intro l hl w hw h hlt
    obtain ⟨a, b, -⟩ := limitDiff_scaled hh (d := fun l => passHt .exact mv nH V l w h) (fun l hl => (s1 l hl w hw h hlt).1) hl
    exact ⟨a, Scaled.trans a (s1 l hl w hw h hlt).2 b⟩
  intro l hl w hw h hlt
  obtain ⟨a, b, -⟩ := limitDiff_scaled hh (d := fun w => passLen .exact mh nL (passHt .exact mv nH V) l w h)
    (fun w hw => (s2 l hl w hw h hlt).1) hw
  exact ⟨a, Scaled.trans a (s2 l hl w hw h hlt).2 b⟩

/-- A volume that respects the bounds is left alone. -/
theorem passes_id {mh mv : K} {nL nW nH : Nat} {V : Nat → Nat → Nat → Payload K}
    (hV : Bounded3 mh mv nL nW nH fun l w h => (V l w h).vs) :
    ∀ l < nL, ∀ w < nW, ∀ h < nH, passes .exact mh mv nL nW nH V l w h = V l w h := by
  have s1 : ∀ l < nL, ∀ w < nW, ∀ h < nH, passHt .exact mv nH V l w h = V l w h := by
    intro l hl w hw h hlt
    unfold passHt
    rw [limitDiff_id (hV.ht l hl w hw)]
  have s2 : ∀ l < nL, ∀ w < nW, ∀ h < nH, passLen .exact mh nL (passHt .exact mv nH V) l w h = V l w h := by
    intro l hl w hw h hlt
    unfold passLen
    rw [limitDiff_congr (d' := fun l => V l w h) (fun l hl => s1 l hl w hw h hlt) hl, limitDiff_id (d := fun l => V l w h) (hV.len w hw h hlt)]
  intro l hl w hw h hlt
  show (limitDiff .exact mh nW fun w => passLen .exact mh nL (passHt .exact mv nH V) l w h).data w = V l w h
  rw [limitDiff_congr (d' := fun w => V l w h) (fun w hw => s2 l hl w hw h hlt) hw, limitDiff_id (d := fun w => V l w h) (hV.width l hl h hlt)]

/-! ### Cells of the points -/

theorem pointCell_unique {s : Grid K} {n l w h : Nat} {a a' : Addr} (h1 : PointCell s n l w h a) (h2 : PointCell s n l w h a') :
    a = a' := by
  obtain ⟨lon, lat, elev, p1, c1⟩ := h1
  obtain ⟨lon', lat', elev', p2, c2⟩ := h2
  have e := (loc_of_pointAt p1).symm.trans (loc_of_pointAt p2)
  cases e
  have e := c1.symm.trans c2
  cases e
  rfl

open Classical in
/-- The key of the cell of a point. -/
noncomputable def pointKey (s : Grid K) (n l w h : Nat) : Key :=
  if hx : ∃ a, PointCell s n l w h a then hx.choose.toKey else ⟨0, 0, 0, 0⟩

theorem pointKey_eq {s : Grid K} {n l w h : Nat} {a : Addr} (ha : PointCell s n l w h a) : pointKey s n l w h = a.toKey := by
  unfold pointKey
  have hx : ∃ a, PointCell s n l w h a := ⟨a, ha⟩
  rw [dif_pos hx, pointCell_unique hx.choose_spec ha]

theorem pointAddr_cell {s : Grid K} {n : Nat} (hlv : s.geom.level s.resHoriz = .ok (n : Int)) {lon lat elev : K} {a : Addr}
    (h : CellOf s.geom n lon lat elev a) : pointAddr s lon lat elev = .ok a := by
  unfold pointAddr
  rw [hlv]
  simp only
  rw [if_neg (by omega)]
  simp only [Int.toNat_natCast]
  unfold CellOf at h
  rw [h]

/-- All points of the grid lie inside the model, in different cells. -/
structure Separate (s : Grid K) (n nL nW nH : Nat) : Prop where
  inside : ∀ l < nL, ∀ w < nW, ∀ h < nH, ∃ a, PointCell s n l w h a
  distinct : ∀ l < nL, ∀ w < nW, ∀ h < nH, ∀ l' < nL, ∀ w' < nW, ∀ h' < nH, ∀ a a', PointCell s n l w h a →
    PointCell s n l' w' h' a' → a.toKey = a'.toKey → l = l' ∧ w = w' ∧ h = h'

theorem gridCells {s : Grid K} {n nL nW nH : Nat} (hg : s.geom.Lawful) (hlv : s.geom.level s.resHoriz = .ok (n : Int))
    (hs : Separate s n nL nW nH) : GridCells s nL nW nH n (pointKey s n) := by
  refine ⟨?_, ?_, ?_, ?_⟩
  · intro l hl w hw h hh
    obtain ⟨a, ha⟩ := hs.inside l hl w hw h hh
    rw [pointKey_eq ha]
    obtain ⟨lon, lat, elev, p, c⟩ := ha
    exact ⟨lon, lat, elev, a, loc_of_pointAt p, pointAddr_cell hlv c, rfl⟩
  · intro l hl w hw h hh
    obtain ⟨a, ha⟩ := hs.inside l hl w hw h hh
    rw [pointKey_eq ha]
    obtain ⟨lon, lat, elev, p, c⟩ := ha
    exact hg.aligned _ _ _ _ _ c
  · intro l hl w hw h hh
    obtain ⟨a, ha⟩ := hs.inside l hl w hw h hh
    rw [pointKey_eq ha]
    obtain ⟨lon, lat, elev, p, c⟩ := ha
    exact (hg.keeps _ _ _ _ _ _ c).1
  · intro l hl l' hl' w hw w' hw' h hh h' hh' he
    obtain ⟨a, ha⟩ := hs.inside l hl w hw h hh
    obtain ⟨a', ha'⟩ := hs.inside l' hl' w' hw' h' hh'
    rw [pointKey_eq ha, pointKey_eq ha'] at he
    exact hs.distinct l hl w hw h hh l' hl' w' hw' h' hh' a a' ha ha' he

theorem pointPayload_iff {s : Grid K} {n : Nat} {db : Db K} (hd : db.Sorted) {l w h : Nat} {a : Addr} (ha : PointCell s n l w h a)
    {p : Payload K} : PointPayload s n db l w h p ↔ db.payloadAt (pointKey s n l w h) = some p := by
  rw [pointKey_eq ha]
  constructor
  · rintro ⟨a', ha', e, he, hk, rfl⟩
    rw [pointCell_unique ha ha', ← hk]
    exact Db.mem_payloadAt hd he
  · intro hp
    unfold Db.payloadAt at hp
    cases hl : db.lookup a.toKey with
    | none => rw [hl] at hp; cases hp
    | some e =>
      rw [hl] at hp
      cases hp
      obtain ⟨h1, h2⟩ := Db.lookup_some hl
      exact ⟨a, ha, e, h1, h2, rfl⟩

theorem sorted_of_addrs {db db' : Db K} (h : db'.entries.map (·.addr) = db.entries.map (·.addr)) (hs : db.Sorted) : db'.Sorted := by
  have key : ∀ l : List (Entry K), (l.Pairwise fun a b => a.addr.zkey < b.addr.zkey) ↔
      (l.map (·.addr)).Pairwise fun a b => a.zkey < b.zkey := fun l => by rw [List.pairwise_map]
  unfold Db.Sorted at hs ⊢
  rw [key] at hs ⊢
  rw [h]
  exact hs

theorem OnGrid.separate {s : Grid K} {n nL nW nH : Nat} {db : Db K} (h : OnGrid s n nL nW nH db) : Separate s n nL nW nH := by
  refine ⟨fun l hl w hw i hi => ?_, h.distinct⟩
  obtain ⟨p, a, ha, -⟩ := h.stored l hl w hw i hi
  exact ⟨a, ha⟩

/-- Grading in terms of the payloads stored for the points. -/
theorem grade_points {s : Grid K} {n nL nW nH : Nat} (hg : s.geom.Lawful) (hlv : s.geom.level s.resHoriz = .ok (n : Int))
    (hnL : s.numLen = .ok nL) (hnW : s.numWidth = .ok nW) (hnH : s.numHt = .ok nH) (hs : Separate s n nL nW nH) {db db' : Db K}
    (hd : db.Sorted) (hl : db.OneLevel n) {junk : Payload K} (h : grade s junk db = .ok db' ()) :
    OnGrid s n nL nW nH db ∧ OnGrid s n nL nW nH db' ∧ db'.entries.map (·.addr) = db.entries.map (·.addr) ∧
      ∃ V, (∀ l < nL, ∀ w < nW, ∀ h < nH, ∀ p, PointPayload s n db l w h p ↔ p = V l w h) ∧
        ∀ l < nL, ∀ w < nW, ∀ h < nH, ∀ p, PointPayload s n db' l w h p ↔
          p = passes s.rd (s.rd.double (s.gradientMax * s.resHoriz)) (s.rd.double (s.gradientMax * s.resVert)) nL nW nH V l w h := by
  obtain ⟨V, h1, h2, h3, h4⟩ := grade_ok (gridCells hg hlv hs) hnL hnW hnH hl h
  have hd' := sorted_of_addrs h4 hd
  have e1 : ∀ l < nL, ∀ w < nW, ∀ h < nH, ∀ p, PointPayload s n db l w h p ↔ p = V l w h := by
    intro l hl w hw i hi p
    obtain ⟨a, ha⟩ := hs.inside l hl w hw i hi
    rw [pointPayload_iff hd ha, h1 l hl w hw i hi]
    exact ⟨fun h => (Option.some.inj h).symm, fun h => by rw [h]⟩
  have e2 : ∀ l < nL, ∀ w < nW, ∀ h < nH, ∀ p, PointPayload s n db' l w h p ↔
      p = passes s.rd (s.rd.double (s.gradientMax * s.resHoriz)) (s.rd.double (s.gradientMax * s.resVert)) nL nW nH V l w h := by
    intro l hl w hw i hi p
    obtain ⟨a, ha⟩ := hs.inside l hl w hw i hi
    rw [pointPayload_iff hd' ha, h2 l hl w hw i hi]
    exact ⟨fun h => (Option.some.inj h).symm, fun h => by rw [h]; rfl⟩
  exact ⟨⟨hd, hl, fun l hl w hw i hi => ⟨_, (e1 l hl w hw i hi _).2 rfl⟩, hs.distinct⟩,
    ⟨hd', oneLevel_of_addrs h4 hl, fun l hl w hw i hi => ⟨_, (e2 l hl w hw i hi _).2 rfl⟩, hs.distinct⟩, h4, V, e1, e2⟩

theorem grade_runs {s : Grid K} {n nL nW nH : Nat} (hg : s.geom.Lawful) (hlv : s.geom.level s.resHoriz = .ok (n : Int))
    (hnL : s.numLen = .ok nL) (hnW : s.numWidth = .ok nW) (hnH : s.numHt = .ok nH) {db : Db K} (ho : OnGrid s n nL nW nH db)
    (junk : Payload K) : ∃ db', grade s junk db = .ok db' () := by
  refine grade_total (gridCells hg hlv ho.separate) hnL hnW hnH ho.level fun l hl w hw i hi => ?_
  obtain ⟨p, hp⟩ := ho.stored l hl w hw i hi
  have ⟨a, ha, _⟩ := hp
  rw [(pointPayload_iff ho.sorted ha).1 hp]
  rfl

end VsGrader
end CenCalVM
