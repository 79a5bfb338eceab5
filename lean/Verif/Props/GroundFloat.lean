/-
Properties C112 and C113: the ground elevation and squashing with the geometry and the sums in double precision, in any rounding direction.
-/
import Verif.Lemmas.GroundFloat
import Verif.Props.QueryValues

set_option linter.unusedSectionVars false

namespace CenCalVM
open VMQuery GeomCenCA
section
variable {K : Type} [Field K] [LinearOrder K] [IsStrictOrderedRing K] [FloorRing K]

/-! ### C112 -/

/-- C112: the elevation answered in double precision.  `m` is the exact middle of the vertical extent of the octant the elevation is
taken from.  The elevation is `m` plus the depth of the octant up to a fraction 2^-52, exactly that if the depth is ordinary, and -999 if
there is no such octant. -/
theorem C112 {ri rs rdb : IntRound K} {fmt : Fmt K} {q q' : VMQuery K} {f : Frame K} {proj : Projector K} {level : K → Outcome Int}
    {db : Db K} (ho : q.Open (geomFl (fl ri 53) f proj level) db) (hb : q.rd.Binary rs rdb) {fs fs' : Files} {n : Int}
    {lon lat elev : K} {vals : List K} (h : query fmt q fs n lon lat elev = .ok (q', fs', vals)) (hok : q'.err.status ≠ .ERROR)
    {i : Nat} (hi : q.queryVals[i]? = some (some 8)) :
    ∃ z a code, vals[i]? = some z ∧
      lonLatElevToAddrFl (fl ri 53) f proj { x := 0, y := 0, z := 0, level := 31, type := .leaf } lon lat elev = .ok (a, code) ∧
      (((∀ e d, ¬ GroundOctant db q.dbExt a.toKey e d) ∧ z = -999) ∨
        ∃ e d m, GroundOctant db q.dbExt a.toKey e d ∧ 4 * (12800 - m) = 1638400 - axisMiddle e.addr.z.toNat e.addr.toKey.size ∧
          |z - (m + e.payload.depth)| ≤ |m + e.payload.depth| / 2 ^ 52 ∧
          ∀ rt : IntRound K, OrdinaryDepth rt e.payload.depth → z = m + e.payload.depth) := by
  obtain ⟨-, -, hu, f₁, -, -, hv₁, hq₁⟩ := (query_iff ho.lawful ho.geom_eq ho.db_eq).1 h
  have hm₁ : some 8 ∈ q.queryVals := List.mem_of_getElem? hi
  cases hE : elevAt q.rd (geomFl (fl ri 53) f proj level) db q.dbExt lon lat elev false with
  | ub => exact absurd hE (hu hm₁)
  | exc m =>
    rw [hE] at hq₁
    unfold copyErr at hq₁
    simp only [hm₁, if_true] at hq₁
    exact absurd (by rw [hq₁]; rfl) hok
  | ok r =>
    rw [hE] at hv₁
    obtain ⟨a, code, hc, hz⟩ := elevAt_false ho.lawful ho.good ho.goodExt hE
    refine ⟨r.1, a, code, by rw [hv₁, List.getElem?_map, hi]; rfl, hc, ?_⟩
    rcases hz with hz | ⟨e, d, c, hgo, hcc, hz⟩
    · exact Or.inl hz
    · obtain ⟨hd, hmem⟩ := groundOctant_good ho.good ho.goodExt hgo
      obtain ⟨c1, c2⟩ := centroidElev_double (hd.octants e hmem).level_le hcc
      rw [hb.2] at hz
      refine Or.inr ⟨e, d, c.2.2, hgo, c1, ?_, fun rt hr => ?_⟩
      · rw [hz]; exact fl_error _
      · rw [hz]; exact (fine_sum c2 hr.fine).1

/-! ### C113 -/

/-- C113: squashing in double precision when the depths stored are ordinary and the elevation asked for is a multiple of 2^-32 m: the
ground found is that of exact sums, and the model is consulted exactly that much higher. -/
theorem C113 {ri rs rdb rt : IntRound K} {fmt : Fmt K} {q : VMQuery K} {f : Frame K} {proj : Projector K} {level : K → Outcome Int}
    {db : Db K} (ho : q.Open (geomFl (fl ri 53) f proj level) db) (hb : q.rd.Binary rs rdb) (hd : db.OrdinaryDepths rt)
    (hdx : ∀ x, q.dbExt = some x → x.OrdinaryDepths rt) {lon lat elev : K} (he : Fine elev)
    (hsq : q.squashTopo = true) (hlim : q.squashLimit < elev) {p : Payload K} (hp : PayloadOf fmt q lon lat elev p) :
    ∃ z, SquashGround Rd.exact (geomFl (fl ri 53) f proj level) db q.dbExt lon lat elev z ∧
      PayloadOf fmt { q with squashTopo := false } lon lat (if z = -999 then elev else elev + z) p := by
  obtain ⟨z, hz, h⟩ := C20 ho hsq hlim hp
  obtain ⟨h1, h2⟩ := squashGround_exact hb (f := f) (proj := proj) (lv := level) (ri := ri) ho.good ho.goodExt hd hdx
    (lon := lon) (lat := lat) (elev := elev) (z := z)
  refine ⟨z, h1.1 hz, ?_⟩
  rw [hb.2, fine_sum' (h2 hz) he] at h
  exact h

/-- C113 without these assumptions: the model is consulted at the sum of the elevation and the ground used, up to a fraction 2^-52, and the
ground used is, up to a fraction 2^-52, the depth of the ground octant plus the middle `m` of the vertical extent of this octant or of the
place one cell below (`t` is the lower end of that place). -/
theorem C113_upTo {ri rs rdb : IntRound K} {fmt : Fmt K} {q : VMQuery K} {f : Frame K} {proj : Projector K} {level : K → Outcome Int}
    {db : Db K} (ho : q.Open (geomFl (fl ri 53) f proj level) db) (hb : q.rd.Binary rs rdb) {lon lat elev : K}
    (hsq : q.squashTopo = true) (hlim : q.squashLimit < elev) {p : Payload K} (hp : PayloadOf fmt q lon lat elev p) :
    ∃ z z', SquashGround q.rd (geomFl (fl ri 53) f proj level) db q.dbExt lon lat elev z ∧
      PayloadOf fmt { q with squashTopo := false } lon lat z' p ∧
      (z = -999 → z' = elev) ∧ (z ≠ -999 → |z' - (elev + z)| ≤ |elev + z| / 2 ^ 52) ∧
      (z = -999 ∨ ∃ a code e d m t,
        lonLatElevToAddrFl (fl ri 53) f proj { x := 0, y := 0, z := 0, level := 31, type := .leaf } lon lat elev = .ok (a, code) ∧
        GroundOctant db q.dbExt a.toKey e d ∧ (t = e.addr.z.toNat ∨ t = (e.addr.z.toNat + (2 ^ 32 - e.addr.toKey.size)) % 2 ^ 32) ∧
        4 * (12800 - m) = 1638400 - axisMiddle t e.addr.toKey.size ∧
        |z - (m + e.payload.depth)| ≤ |m + e.payload.depth| / 2 ^ 52) := by
  obtain ⟨z, hz, h⟩ := C20 ho hsq hlim hp
  refine ⟨z, _, hz, h, fun h0 => if_pos h0, fun h0 => ?_, ?_⟩
  · rw [if_neg h0, hb.2]; exact fl_error _
  · obtain ⟨a, code, hc, ⟨-, h0⟩ | ⟨e, d, c, b, code', hgo, hcc, -, hd⟩⟩ := hz
    · exact Or.inl h0
    · obtain ⟨hg, hmem⟩ := groundOctant_good ho.good ho.goodExt hgo
      have hoct := hg.octants e hmem
      right
      rw [hb.2] at hd
      rcases hd with ⟨-, rfl⟩ | ⟨-, c', hc', rfl⟩
      · exact ⟨a, code, e, d, c.2.2, _, hc, hgo, Or.inl rfl, (centroidElev_double hoct.level_le hcc).1, fl_error _⟩
      · refine ⟨a, code, e, d, c'.2.2, _, hc, hgo, Or.inr rfl, ?_, fl_error _⟩
        have hs : e.addr.toKey.size ≤ 2 ^ 31 := Nat.pow_le_pow_right (by norm_num) (by omega)
        have h1 := (centroidElev_double (a := { e.addr with z := BitVec.ofInt 32 ((e.addr.z.toNat : Int) - e.addr.toKey.size) })
          hoct.level_le hc').1
        have h2 : (BitVec.ofInt 32 ((e.addr.z.toNat : Int) - e.addr.toKey.size)).toNat =
            (e.addr.z.toNat + (2 ^ 32 - e.addr.toKey.size)) % 2 ^ 32 := by
          rw [BitVec.toNat_ofInt]
          generalize e.addr.toKey.size = s at *
          norm_num at *
          omega
        rw [← h2]
        exact h1

end

/-- The geometry of the examples in double precision. -/
def exGeomD : Geom ℚ := geomFl (fl IntRound.nearest 53) exFrame exProj fun _ => .ub

/-- The example database; the depth 0.1 of the leaf, as a `float`, is not a multiple of 2^-26. -/
def exDbD (depth : ℚ) : Db ℚ := ⟨[⟨⟨⟨0, 0, 0, 0⟩, .interior⟩, exPay 1600 (-999)⟩,
  ⟨⟨⟨0, 0, 0x40000000, 1⟩, .interior⟩, exPay 1800 (-999)⟩,
  ⟨⟨⟨0, 0, 0x60000000, 2⟩, .leaf⟩, { exPay 2000 1 with depth := depth }⟩]⟩

/-- A query object on this database. -/
def exQD (depth : ℚ) : VMQuery ℚ :=
  { VMQuery.init exGeomD with db := some (exDbD depth), rd := ⟨fl IntRound.nearest 24, fl IntRound.nearest 53⟩ }

theorem exQD_open (depth : ℚ) : (exQD depth).Open exGeomD (exDbD depth) :=
  ⟨rfl, rfl, geomFl_lawful _ _ _, ⟨by unfold Db.Octants exDbD; simp; decide +kernel, by unfold Db.Sorted exDbD; simp; decide +kernel⟩,
    fun _ h => by cases h⟩

/-- The elevation of the example of depth 0.1 is exactly the sum. -/
example : (exQD (13421773 / 2 ^ 27)).Open exGeomD (exDbD (13421773 / 2 ^ 27)) ∧
    (exQD (13421773 / 2 ^ 27)).rd.Binary IntRound.nearest IntRound.nearest ∧
    OrdinaryDepth IntRound.nearest (13421773 / 2 ^ 27 : ℚ) ∧
    statusOf (query exFmt (exQD (13421773 / 2 ^ 27)) (fun _ => "") 9 220 40 (-100)) = some .OK ∧
    valsOf (query exFmt (exQD (13421773 / 2 ^ 27)) (fun _ => "") 9 220 40 (-100)) =
      some [4000, 2000, 2500, 100, 50, 13421773 / 2 ^ 27, 1, 7, -38400 + 13421773 / 2 ^ 27] :=
  ⟨exQD_open _, ⟨rfl, rfl⟩, by unfold OrdinaryDepth; decide +kernel, by decide +kernel, by decide +kernel⟩

/-- A depth of 2^-60 m is lost in the sum: the claim of an exact sum does not hold for all depths. -/
theorem C112_not_exact : valsOf (query exFmt (exQD (1 / 2 ^ 60)) (fun _ => "") 9 220 40 (-100)) =
    some [4000, 2000, 2500, 100, 50, 1 / 2 ^ 60, 1, 7, -38400] := by decide +kernel

/-- The query object with squashing. -/
def exSquashD : VMQuery ℚ := squash (exQD (13421773 / 2 ^ 27)) true (-2000)

example : exSquashD.Open exGeomD (exDbD (13421773 / 2 ^ 27)) ∧ exSquashD.rd.Binary IntRound.nearest IntRound.nearest ∧
    exSquashD.squashTopo = true ∧ exSquashD.squashLimit < -100 ∧ Fine (-100 : ℚ) ∧
    PayloadOf exFmt exSquashD 220 40 (-100) { exPay 2000 1 with depth := 13421773 / 2 ^ 27 } :=
  ⟨⟨rfl, rfl, geomFl_lawful _ _ _, (exQD_open _).good, fun _ h => by cases h⟩, ⟨rfl, rfl⟩, rfl, by decide +kernel,
    ⟨-100 * 2 ^ 32, by norm_num, by norm_num⟩, payloadOf_of_vals (by decide +kernel)⟩

example (e : Entry ℚ) (h : e ∈ (exDbD (13421773 / 2 ^ 27)).entries) : OrdinaryDepth IntRound.nearest e.payload.depth := by
  revert e; unfold OrdinaryDepth; decide +kernel

end CenCalVM
