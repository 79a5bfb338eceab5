import Verif.Spec.Column
import Verif.Lemmas.Float
import Verif.Props.QueryValues

/-! C121: in a column whose stored depths are depths below one ground elevation, the elevation answered is that
ground elevation, and squashing turns elevations into depths below it. -/

namespace CenCalVM
open VMQuery

section
variable {K : Type} [Field K] [LinearOrder K] [IsStrictOrderedRing K] [FloorRing K]

theorem Key.midElev_of_centroid {fr : Frame K} {proj : Projector K} {a : Addr} (ha : a.level ≤ 31) {c : K × K × K}
    (hc : GeomCenCA.addrToLonLatElev fr proj a = .ok c) : c.2.2 = a.toKey.midElev := by
  obtain ⟨p, q, -, -, -, h⟩ := C03_centroid ha (lon := c.1) (lat := c.2.1) (elev := c.2.2) hc
  unfold Key.midElev
  change 4 * (12800 - c.2.2) = 1638400 - axisMiddle a.toKey.z.toNat a.toKey.size at h
  rw [← h]; ring

theorem Key.HasPoint.near {k : Key} (hk : k.level ≤ 31) {u v w elev : K} (h : k.HasPoint u v w)
    (he : 4 * (12800 - elev) = 1638400 - w) : |k.midElev - elev| ≤ k.height / 2 := by
  obtain ⟨-, -, h1, h2⟩ := h
  have hs : (k.size : K) = 2 ^ (31 - k.level) := by unfold Key.size; push_cast; rfl
  have hh : (k.size : K) * (1638400 / 2 ^ 31) = 4 * k.height := by
    have h2 : (2 : K) ^ 31 = 2 ^ (31 - k.level) * 2 ^ k.level := by rw [← pow_add]; congr 1; omega
    have h3 : (2 : K) ^ (31 - k.level) ≠ 0 := by positivity
    unfold Key.height
    rw [hs, h2]
    field_simp
  have hw : w = 4 * elev + (1638400 - 51200) := by linarith
  have hm : (4 : K) * k.midElev = axisMiddle k.z.toNat k.size - 1638400 + 51200 := by
    unfold Key.midElev; ring
  have ha : (axisMiddle k.z.toNat k.size : K) = (k.z.toNat : K) * (1638400 / 2 ^ 31) + 2 * k.height := by
    unfold axisMiddle
    rw [add_mul, div_mul_eq_mul_div, hh]; ring
  rw [add_mul, hh] at h2
  rw [abs_le]
  constructor <;> linarith

/-- The octant the ground is taken from, in a column whose depths are depths below `h`, gives `h`. -/
theorem groundOctant_depthsBelow {q : VMQuery K} {fr : Frame K} {proj : Projector K} {lv : K → Outcome Int} {db : Db K}
    (ho : q.Open (GeomCenCA.geom fr proj lv) db)
    (hleaves : ∀ x, q.dbExt = some x → ∀ e ∈ x.entries, e.addr.type = .leaf)
    {u v w h : K} (hh : ∀ d, d = db ∨ q.dbExt = some d → d.DepthsBelow q.rd u v h)
    {a : Key} (ha : a.HasPoint u v w) {e : Entry K} {d : Db K} (hg : GroundOctant db q.dbExt a e d) {c : K × K × K}
    (hc : GeomCenCA.addrToLonLatElev fr proj e.addr = .ok c) :
    q.rd.double (c.2.2 + e.payload.depth) = h := by
  have key : e ∈ d.entries ∧ e.addr.type = .leaf ∧ e.addr.toKey.Contains a ∧ e.addr.level ≤ 31 ∧
      (d = db ∨ q.dbExt = some d) := by
    rcases hg with ⟨rfl, h1, h2⟩ | ⟨-, h1, h2⟩
    · exact ⟨h1.1, h2, h1.2.1, (ho.good.octants e h1.1).level_le, Or.inl rfl⟩
    · exact ⟨h2.1, hleaves d h1 e h2.1, h2.2.1, ((ho.goodExt d h1).octants e h2.1).level_le, Or.inr h1⟩
  obtain ⟨hm, ht, hk, hl, hd⟩ := key
  have hp := Key.contains_hasPoint hk ha
  rw [Key.midElev_of_centroid hl hc]
  exact hh d hd e hm ht ⟨hp.1, hp.2.1⟩

/-- C121, elevation: in a column whose depths are depths below `h`, every query answers the elevation `h`, or
-999. -/
theorem C121_elevation {fmt : Fmt K} {q q' : VMQuery K} {fr : Frame K} (hf : fr.Rigid) {proj : Projector K}
    {lv : K → Outcome Int} {db : Db K} (ho : q.Open (GeomCenCA.geom fr proj lv) db)
    (hleaves : ∀ x, q.dbExt = some x → ∀ e ∈ x.entries, e.addr.type = .leaf)
    {lon lat elev u v w h : K} (hloc : AtRootCoords fr proj lon lat elev u v w)
    (hu : inHalfOpen u) (hv : inHalfOpen v) (hw : inHalfOpen w)
    (hh : ∀ d, d = db ∨ q.dbExt = some d → d.DepthsBelow q.rd u v h)
    {fs fs' : Files} {n : Int} {vals : List K}
    (hq : query fmt q fs n lon lat elev = .ok (q', fs', vals)) (hok : q'.err.status ≠ .ERROR)
    {i : Nat} (hi : q.queryVals[i]? = some (some 8)) :
    vals[i]? = some h ∨
      (vals[i]? = some (-999) ∧ ∀ a, CellOf (GeomCenCA.geom fr proj lv) 31 lon lat elev a →
        ∀ e, ¬ GroundLeaf db q.dbExt a.toKey e) := by
  obtain ⟨z, hz, a, code, hc, hl⟩ := C22_partial ho hleaves hq hok hi
  obtain ⟨b, hb, -, -, -, hpt⟩ := C01_partial hf hloc hu hv hw ⟨⟨0, 0, 0, 31⟩, .leaf⟩ (by decide)
  change GeomCenCA.lonLatElevToAddr fr proj ⟨⟨0, 0, 0, 31⟩, .leaf⟩ lon lat elev = _ at hc
  rw [hb] at hc
  obtain rfl : b = a := by cases hc; rfl
  rcases hl with ⟨h1, h2⟩ | ⟨e, c, h1, h2, h3⟩
  · right
    refine ⟨by rw [hz, h2], fun a ha => ?_⟩
    change GeomCenCA.lonLatElevToAddr fr proj ⟨⟨0, 0, 0, 31⟩, .leaf⟩ lon lat elev = _ at ha
    rw [hb] at ha
    obtain rfl : b = a := by cases ha; rfl
    exact h1
  · left
    have : ∃ d, GroundOctant db q.dbExt b.toKey e d := by
      obtain ⟨hl, h | ⟨h1, x, hx, h2⟩⟩ := h1
      · exact ⟨db, Or.inl ⟨rfl, h, hl⟩⟩
      · exact ⟨x, Or.inr ⟨h1, hx, h2⟩⟩
    obtain ⟨d, hd⟩ := this
    rw [hz, h3, groundOctant_depthsBelow ho hleaves hh hpt hd h2]

/-- C121, squashing: in a column of the detailed model whose depths are depths below `h`, with rock at the ground, a
query above the squashing limit answers as the plain query at its elevation plus `h`. -/
theorem C121_squash {fmt : Fmt K} {q : VMQuery K} {fr : Frame K} (hf : fr.Rigid) {proj : Projector K}
    {lv : K → Outcome Int} {db : Db K} (ho : q.Open (GeomCenCA.geom fr proj lv) db)
    (hsq : q.squashTopo = true) {lon lat elev u v w h : K} (hlim : q.squashLimit < elev)
    (hloc : AtRootCoords fr proj lon lat elev u v w)
    (hu : inHalfOpen u) (hv : inHalfOpen v) (hw : inHalfOpen w)
    (hh : db.DepthsBelow q.rd u v h) (h999 : h ≠ -999)
    (hleaf : ∀ a, CellOf (GeomCenCA.geom fr proj lv) 31 lon lat elev a → ∃ e, db.Finest a.toKey e ∧ e.addr.type = .leaf)
    (hrock : ∀ b, CellOf (GeomCenCA.geom fr proj lv) 31 lon lat h b → HasRock db b.toKey) {r : K}
    (hgr : AtRootCoords fr proj lon lat h u v r) (hr : inHalfOpen r)
    {p : Payload K} (hp : PayloadOf fmt q lon lat elev p) :
    PayloadOf fmt { q with squashTopo := false } lon lat (q.rd.double (elev + h)) p := by
  obtain ⟨z, ⟨a, code, hc, hz⟩, hP⟩ := C20 ho hsq hlim hp
  obtain ⟨a', ha', -, -, -, hpt⟩ := C01_partial hf hloc hu hv hw ⟨⟨0, 0, 0, 31⟩, .leaf⟩ (by decide)
  obtain ⟨b', hb', -⟩ := C01_partial hf hgr hu hv hr ⟨⟨0, 0, 0, 31⟩, .leaf⟩ (by decide)
  change GeomCenCA.lonLatElevToAddr fr proj ⟨⟨0, 0, 0, 31⟩, .leaf⟩ lon lat elev = _ at hc
  rw [ha'] at hc
  obtain rfl : a' = a := by cases hc; rfl
  obtain ⟨e0, he0, ht0⟩ := hleaf a' ha'
  have hzh : z = h := by
    rcases hz with ⟨h1, -⟩ | ⟨e, d, c, b, code', h1, h2, h3, h4⟩
    · exact absurd (Or.inl ⟨rfl, he0, ht0⟩) (h1 e0 db)
    · have hdb : d = db ∧ db.Finest a'.toKey e ∧ e.addr.type = .leaf := by
        rcases h1 with h1 | ⟨h1, -⟩
        · exact h1
        · exact absurd ht0 (h1 e0 he0)
      obtain ⟨rfl, hfin, ht⟩ := hdb
      have hpe := Key.contains_hasPoint hfin.2.1 hpt
      have hval : q.rd.double (c.2.2 + e.payload.depth) = h := by
        rw [Key.midElev_of_centroid (ho.good.octants e hfin.1).level_le h2]
        exact hh e hfin.1 ht ⟨hpe.1, hpe.2.1⟩
      rw [hval] at h3 h4
      change GeomCenCA.lonLatElevToAddr fr proj ⟨⟨0, 0, 0, 31⟩, .leaf⟩ lon lat h = _ at h3
      rw [hb'] at h3
      obtain rfl : b' = b := by cases h3; rfl
      rcases h4 with ⟨-, h4⟩ | ⟨h4, -⟩
      · exact h4
      · exact absurd (hrock b' hb') h4
  rw [hzh, if_neg h999] at hP
  exact hP

/-- C121, depth: under the same conditions, with exact arithmetic, the payload a MAXRES query at elevation `-depth`
answers is the no-data payload or that of a leaf of the column whose stored depth differs from `depth` by at most
half the height of the leaf. -/
theorem C121 {fmt : Fmt K} {q : VMQuery K} {fr : Frame K} (hf : fr.Rigid) {proj : Projector K}
    {lv : K → Outcome Int} {db : Db K} (ho : q.Open (GeomCenCA.geom fr proj lv) db) (hfn : q.queryFn = .MAXRES)
    (hrd : q.rd.Exact)
    (hsq : q.squashTopo = true) {lon lat depth u v w h : K} (hlim : q.squashLimit < -depth)
    (hext : ∀ x, q.dbExt = some x → x.DepthsBelow q.rd u v h)
    (hloc : AtRootCoords fr proj lon lat (-depth) u v w)
    (hu : inHalfOpen u) (hv : inHalfOpen v) (hw : inHalfOpen w)
    (hh : db.DepthsBelow q.rd u v h) (h999 : h ≠ -999)
    (hleaf : ∀ a, CellOf (GeomCenCA.geom fr proj lv) 31 lon lat (-depth) a →
      ∃ e, db.Finest a.toKey e ∧ e.addr.type = .leaf)
    (hrock : ∀ b, CellOf (GeomCenCA.geom fr proj lv) 31 lon lat h b → HasRock db b.toKey) {r : K}
    (hgr : AtRootCoords fr proj lon lat h u v r) (hr : inHalfOpen r) (hin : inHalfOpen (r - 4 * depth))
    {p : Payload K} (hp : PayloadOf fmt q lon lat (-depth) p) :
    p = noDataPayload ∨ ∃ d, (d = db ∨ q.dbExt = some d) ∧ ∃ e ∈ d.entries, e.addr.type = .leaf ∧
      e.addr.toKey.HasPoint u v (r - 4 * depth) ∧ p = e.payload ∧ |p.depth - depth| ≤ e.addr.toKey.height / 2 := by
  have hP := C121_squash hf ho hsq hlim hloc hu hv hw hh h999 hleaf hrock hgr hr hp
  rw [(hrd _).2] at hP
  have ho' : VMQuery.Open { q with squashTopo := false } (GeomCenCA.geom fr proj lv) db :=
    ⟨ho.geom_eq, ho.db_eq, ho.lawful, ho.good, ho.goodExt⟩
  have hel : 4 * (12800 - (-depth + h)) = 1638400 - (r - 4 * depth) := by have := hgr.2; linarith
  rcases C10_location hf ho' hfn (⟨hgr.1, hel⟩ : AtRootCoords fr proj lon lat (-depth + h) u v (r - 4 * depth))
    hu hv hin (Or.inl rfl) hP with h1 | ⟨d, hd, e, he, ht, hpt, hpe⟩
  · exact Or.inl h1
  · refine Or.inr ⟨d, hd, e, he, ht, hpt, hpe, ?_⟩
    have hl : e.addr.level ≤ 31 := by
      rcases hd with rfl | hd
      · exact (ho.good.octants e he).level_le
      · exact ((ho.goodExt d hd).octants e he).level_le
    have hb : d.DepthsBelow q.rd u v h := by
      rcases hd with rfl | hd
      · exact hh
      · exact hext d hd
    have h2 := hb e he ht ⟨hpt.1, hpt.2.1⟩
    rw [(hrd _).2] at h2
    have h3 := Key.HasPoint.near (k := e.addr.toKey) hl hpt hel
    rw [hpe]
    have : e.payload.depth - depth = -(e.addr.toKey.midElev - (-depth + h)) := by linarith
    rw [this, abs_neg]
    exact h3

/-- C121, depth, with sums in `double` in any rounding direction: the same up to a fraction of 2^-50 of ground elevation and depth.  The
location used is the rounded sum of elevation and ground elevation, `w'` its vertical root coordinate. -/
theorem C121_double {rs rdb : IntRound K} {fmt : Fmt K} {q : VMQuery K} {fr : Frame K} (hf : fr.Rigid)
    {proj : Projector K} {lv : K → Outcome Int} {db : Db K} (ho : q.Open (GeomCenCA.geom fr proj lv) db) (hfn : q.queryFn = .MAXRES)
    (hrd : q.rd.Binary rs rdb)
    (hsq : q.squashTopo = true) {lon lat depth u v w h : K} (hlim : q.squashLimit < -depth)
    (hext : ∀ x, q.dbExt = some x → x.DepthsBelow q.rd u v h)
    (hloc : AtRootCoords fr proj lon lat (-depth) u v w)
    (hu : inHalfOpen u) (hv : inHalfOpen v) (hw : inHalfOpen w)
    (hh : db.DepthsBelow q.rd u v h) (h999 : h ≠ -999)
    (hleaf : ∀ a, CellOf (GeomCenCA.geom fr proj lv) 31 lon lat (-depth) a →
      ∃ e, db.Finest a.toKey e ∧ e.addr.type = .leaf)
    (hrock : ∀ b, CellOf (GeomCenCA.geom fr proj lv) 31 lon lat h b → HasRock db b.toKey) {r w' : K}
    (hgr : AtRootCoords fr proj lon lat h u v r) (hr : inHalfOpen r)
    (hw' : 4 * (12800 - q.rd.double (-depth + h)) = 1638400 - w') (hin : inHalfOpen w')
    {p : Payload K} (hp : PayloadOf fmt q lon lat (-depth) p) :
    p = noDataPayload ∨ ∃ d, (d = db ∨ q.dbExt = some d) ∧ ∃ e ∈ d.entries, e.addr.type = .leaf ∧
      e.addr.toKey.HasPoint u v w' ∧ p = e.payload ∧
        |p.depth - depth| ≤ e.addr.toKey.height / 2 + (|h| + |depth|) / 2 ^ 50 := by
  have hP := C121_squash hf ho hsq hlim hloc hu hv hw hh h999 hleaf hrock hgr hr hp
  have ho' : VMQuery.Open { q with squashTopo := false } (GeomCenCA.geom fr proj lv) db :=
    ⟨ho.geom_eq, ho.db_eq, ho.lawful, ho.good, ho.goodExt⟩
  rcases C10_location hf ho' hfn (⟨hgr.1, hw'⟩ : AtRootCoords fr proj lon lat (q.rd.double (-depth + h)) u v w')
    hu hv hin (Or.inl rfl) hP with h1 | ⟨d, hd, e, he, ht, hpt, hpe⟩
  · exact Or.inl h1
  · refine Or.inr ⟨d, hd, e, he, ht, hpt, hpe, ?_⟩
    have hl : e.addr.level ≤ 31 := by
      rcases hd with rfl | hd
      · exact (ho.good.octants e he).level_le
      · exact ((ho.goodExt d hd).octants e he).level_le
    have hb : d.DepthsBelow q.rd u v h := by
      rcases hd with rfl | hd
      · exact hh
      · exact hext d hd
    have h2 := hb e he ht ⟨hpt.1, hpt.2.1⟩
    have h3 := Key.HasPoint.near (k := e.addr.toKey) hl hpt hw'
    have e1 : |q.rd.double (-depth + h) - (-depth + h)| ≤ |-depth + h| / 2 ^ 52 := by
      rw [hrd.2]; exact fl_error _
    have e2 : |h - (e.addr.toKey.midElev + e.payload.depth)| ≤ |e.addr.toKey.midElev + e.payload.depth| / 2 ^ 52 := by
      rw [← h2, hrd.2]; exact fl_error _
    rw [hpe]
    generalize (e.addr.toKey.midElev : K) = m at *
    generalize q.rd.double (-depth + h) = z at *
    generalize e.payload.depth = x at *
    generalize (e.addr.toKey.height : K) / 2 = y at *
    have a1 : |-depth + h| ≤ |depth| + |h| := by
      have := abs_add_le (-depth) h
      rwa [abs_neg] at this
    have a2 : |m + x| ≤ |h| + |m + x| / 2 ^ 52 := by
      have := abs_sub_abs_le_abs_sub (m + x) h
      rw [abs_sub_comm] at this
      linarith
    have a3 : |m + x| ≤ 2 * |h| := by
      have := abs_nonneg h
      have := abs_nonneg (m + x)
      norm_num at a2 ⊢
      linarith
    obtain ⟨b1, b2⟩ := abs_le.1 h3
    obtain ⟨b3, b4⟩ := abs_le.1 e1
    obtain ⟨b5, b6⟩ := abs_le.1 e2
    have := abs_nonneg h
    have := abs_nonneg depth
    norm_num at b3 b4 b5 b6 ⊢
    rw [abs_le]
    constructor <;> linarith

/-- C121, without rock at the ground: the query answers as the plain query at its elevation plus `h` less the height of
the leaf `e₀` holding the location, so the location used is deeper by that height. -/
theorem C121_lowered {fmt : Fmt K} {q : VMQuery K} {fr : Frame K} (hf : fr.Rigid) {proj : Projector K}
    {lv : K → Outcome Int} {db : Db K} (ho : q.Open (GeomCenCA.geom fr proj lv) db) (hrd : q.rd.Exact)
    (hsq : q.squashTopo = true) {lon lat elev u v w h : K} (hlim : q.squashLimit < elev)
    (hloc : AtRootCoords fr proj lon lat elev u v w)
    (hu : inHalfOpen u) (hv : inHalfOpen v) (hw : inHalfOpen w)
    (hh : db.DepthsBelow q.rd u v h) {e₀ : Entry K}
    (hleaf : ∀ a, CellOf (GeomCenCA.geom fr proj lv) 31 lon lat elev a → db.Finest a.toKey e₀) (ht₀ : e₀.addr.type = .leaf)
    (hbot : e₀.addr.z ≠ 0) (h999 : h - e₀.addr.toKey.height ≠ -999)
    (hrock : ∀ b, CellOf (GeomCenCA.geom fr proj lv) 31 lon lat h b → ¬ HasRock db b.toKey) {r : K}
    (hgr : AtRootCoords fr proj lon lat h u v r) (hr : inHalfOpen r)
    {p : Payload K} (hp : PayloadOf fmt q lon lat elev p) :
    PayloadOf fmt { q with squashTopo := false } lon lat (elev + (h - e₀.addr.toKey.height)) p := by
  obtain ⟨z, ⟨a, code, hc, hz⟩, hP⟩ := C20 ho hsq hlim hp
  obtain ⟨a', ha', -, -, -, hpt⟩ := C01_partial hf hloc hu hv hw ⟨⟨0, 0, 0, 31⟩, .leaf⟩ (by decide)
  obtain ⟨b', hb', -⟩ := C01_partial hf hgr hu hv hr ⟨⟨0, 0, 0, 31⟩, .leaf⟩ (by decide)
  change GeomCenCA.lonLatElevToAddr fr proj ⟨⟨0, 0, 0, 31⟩, .leaf⟩ lon lat elev = _ at hc
  rw [ha'] at hc
  obtain rfl : a' = a := by cases hc; rfl
  have he0 := hleaf a' ha'
  have hzh : z = h - e₀.addr.toKey.height := by
    rcases hz with ⟨h1, -⟩ | ⟨e, d, c, b, code', h1, h2, h3, h4⟩
    · exact absurd (Or.inl ⟨rfl, he0, ht₀⟩) (h1 e₀ db)
    · have hdb : d = db ∧ db.Finest a'.toKey e ∧ e.addr.type = .leaf := by
        rcases h1 with h1 | ⟨h1, -⟩
        · exact h1
        · exact absurd ht₀ (h1 e₀ he0)
      obtain ⟨rfl, hfin, ht⟩ := hdb
      have hee : e = e₀ := Db.finest_unique ho.good (ho.lawful.aligned ⟨⟨0, 0, 0, 31⟩, .leaf⟩ a' lon lat elev ha') hfin he0
      subst hee
      have hpe := Key.contains_hasPoint hfin.2.1 hpt
      have hoct := ho.good.octants e hfin.1
      have hval : q.rd.double (c.2.2 + e.payload.depth) = h := by
        rw [Key.midElev_of_centroid hoct.level_le h2]
        exact hh e hfin.1 ht ⟨hpe.1, hpe.2.1⟩
      have hval' := hval
      rw [(hrd _).2] at hval'
      rw [hval] at h3 h4
      change GeomCenCA.lonLatElevToAddr fr proj ⟨⟨0, 0, 0, 31⟩, .leaf⟩ lon lat h = _ at h3
      rw [hb'] at h3
      obtain rfl : b' = b := by cases h3; rfl
      rcases h4 with ⟨h4, -⟩ | ⟨-, c', h5, h6⟩
      · exact absurd h4 (hrock b' hb')
      · obtain ⟨-, -, h7⟩ := C20_one_cell hoct hbot h2 h5
        rw [(hrd _).2] at h6
        rw [h6, h7, ← hval']
        unfold Key.height
        have : (1638400 : K) / 4 / 2 ^ e.addr.toKey.level = 1638400 / 2 ^ e.addr.level / 4 := by
          rw [div_right_comm]
        rw [this]; ring
  rw [hzh, if_neg h999, (hrd _).2] at hP
  exact hP

end

/-- A column of two leaves of height 102400 m; their depths are below ground at elevation 1000 m. -/
def exColDb : Db ℚ := ⟨[⟨⟨⟨0, 0, 0, 0⟩, .interior⟩, exPay 1600 (-999)⟩,
  ⟨⟨⟨0, 0, 0x40000000, 1⟩, .interior⟩, exPay 1800 (-999)⟩,
  ⟨⟨⟨0, 0, 0x40000000, 2⟩, .leaf⟩, { exPay 2900 2 with depth := 141800 }⟩,
  ⟨⟨⟨0, 0, 0x60000000, 2⟩, .leaf⟩, { exPay 2000 1 with depth := 39400 }⟩]⟩
theorem exColDb_good : exColDb.Good := ⟨by unfold Db.Octants; decide +kernel, by unfold Db.Sorted; decide +kernel⟩
/-- The query object on it, squashing. -/
def exColQ : VMQuery ℚ := squash { VMQuery.init exGeom with db := some exColDb } true (-200000)
theorem exColQ_open : exColQ.Open exGeom exColDb := ⟨rfl, rfl, exGeom_lawful, exColDb_good, fun _ h => by cases h⟩
theorem exColDb_depths : exColDb.DepthsBelow exColQ.rd (100 : ℚ) 200 1000 := by
  have : ∀ e ∈ exColDb.entries, e.addr.type = .leaf → exColQ.rd.double (e.addr.toKey.midElev + e.payload.depth) = 1000 := by
    decide +kernel
  exact fun e he ht _ => this e he ht

/-- The cells of the location at elevation -90000 and of the ground. -/
def exColCell : Addr := ⟨⟨0x00020000, 0x00040000, 0x5fe00000, 31⟩, .leaf⟩
def exColTop : Addr := ⟨⟨0x00020000, 0x00040000, 0x7c500000, 31⟩, .leaf⟩

theorem exCol_at : AtRootCoords exFrame exProj 220 40 (-90000) 100 200 1227200 := by
  unfold AtRootCoords exFrame exProj; norm_num
theorem exCol_top : AtRootCoords exFrame exProj 220 40 1000 100 200 1591200 := by
  unfold AtRootCoords exFrame exProj; norm_num
theorem exCol_cell : CellOf exGeom 31 220 40 (-90000) exColCell := by unfold CellOf; decide +kernel
theorem exCol_topCell : CellOf exGeom 31 220 40 1000 exColTop := by unfold CellOf; decide +kernel
theorem cellOf_unique {g : Geom ℚ} {n : Nat} {lon lat elev : ℚ} {a b : Addr} (h1 : CellOf g n lon lat elev a)
    (h2 : CellOf g n lon lat elev b) : a = b := by
  unfold CellOf at h1 h2; rw [h1] at h2; cases h2; rfl

example : exFrame.Rigid ∧ exColQ.Open exGeom exColDb ∧ AtRootCoords exFrame exProj 220 40 (-90000) 100 200 1227200 ∧
    exColDb.DepthsBelow exColQ.rd (100 : ℚ) 200 1000 ∧ exColQ.queryVals[8]? = some (some 8) ∧
    statusOf (query exFmt exColQ (fun _ => "") 9 220 40 (-90000)) = some .OK ∧
    valsOf (query exFmt exColQ (fun _ => "") 9 220 40 (-90000)) = some [4000, 2000, 2500, 100, 50, 39400, 1, 7, 1000] :=
  ⟨exFrame_rigid, exColQ_open, exCol_at, exColDb_depths, rfl, by decide +kernel, by decide +kernel⟩

/-- A location 90000 m deep: squashed, the upper leaf answers (its depth 39400 is within 51200 of 90000); not squashed,
the lower one. -/
example : exColQ.Open exGeom exColDb ∧ exColQ.queryFn = .MAXRES ∧ exColQ.rd.Exact ∧ exColQ.squashTopo = true ∧
    exColQ.squashLimit < -90000 ∧ exColDb.DepthsBelow exColQ.rd (100 : ℚ) 200 1000 ∧
    (∀ a, CellOf exGeom 31 220 40 (-90000) a → ∃ e, exColDb.Finest a.toKey e ∧ e.addr.type = .leaf) ∧
    (∀ b, CellOf exGeom 31 220 40 1000 b → HasRock exColDb b.toKey) ∧
    AtRootCoords exFrame exProj 220 40 1000 100 200 1591200 ∧ inHalfOpen (1591200 : ℚ) ∧
    inHalfOpen (1591200 - 4 * 90000 : ℚ) ∧
    PayloadOf exFmt exColQ 220 40 (-90000) { exPay 2000 1 with depth := 39400 } ∧
    PayloadOf exFmt { exColQ with squashTopo := false } 220 40 (-90000) { exPay 2900 2 with depth := 141800 } := by
  refine ⟨exColQ_open, rfl, Rd.exact_exact, rfl, by decide +kernel, exColDb_depths, ?_, ?_, exCol_top,
    by norm_num [inHalfOpen], by norm_num [inHalfOpen], payloadOf_of_vals (by decide +kernel),
    payloadOf_of_vals (by decide +kernel)⟩
  · intro a ha
    rw [cellOf_unique ha exCol_cell]
    exact ⟨⟨⟨⟨0, 0, 0x40000000, 2⟩, .leaf⟩, { exPay 2900 2 with depth := 141800 }⟩,
      Db.search_finest exColDb_good.octants (exGeom_lawful.aligned _ _ _ _ _ exCol_cell) (by decide +kernel), rfl⟩
  · intro a ha
    rw [cellOf_unique ha exCol_topCell]
    exact ⟨⟨⟨⟨0, 0, 0x60000000, 2⟩, .leaf⟩, { exPay 2000 1 with depth := 39400 }⟩,
      Db.search_finest exColDb_good.octants (exGeom_lawful.aligned _ _ _ _ _ exCol_topCell) (by decide +kernel), rfl,
      by decide +kernel⟩

/-- The query object computing in `double`. -/
def exColQF : VMQuery ℚ := { exColQ with rd := ⟨fl IntRound.nearest 24, fl IntRound.nearest 53⟩ }

/-- A location 2^-60 m deep: the sum of elevation and ground elevation is rounded. -/
example : exColQF.Open exGeom exColDb ∧ exColQF.queryFn = .MAXRES ∧ exColQF.rd.Binary IntRound.nearest IntRound.nearest ∧
    exColQF.squashTopo = true ∧ exColQF.squashLimit < -(1 / 2 ^ 60) ∧
    (∀ e ∈ exColDb.entries, e.addr.type = .leaf → exColQF.rd.double (e.addr.toKey.midElev + e.payload.depth) = 1000) ∧
    AtRootCoords exFrame exProj 220 40 (-(1 / 2 ^ 60)) 100 200 (1587200 - 4 / 2 ^ 60) ∧
    exColQF.rd.double (-(1 / 2 ^ 60) + 1000) ≠ -(1 / 2 ^ 60) + 1000 ∧
    4 * (12800 - exColQF.rd.double (-(1 / 2 ^ 60) + 1000)) = 1638400 - (1591200 : ℚ) ∧ inHalfOpen (1591200 : ℚ) ∧
    PayloadOf exFmt exColQF 220 40 (-(1 / 2 ^ 60)) { exPay 2000 1 with depth := 39400 } :=
  ⟨⟨rfl, rfl, exGeom_lawful, exColDb_good, fun _ h => by cases h⟩, rfl, ⟨rfl, rfl⟩, rfl, by decide +kernel, by decide +kernel,
    by unfold AtRootCoords exFrame exProj; norm_num, by decide +kernel, by decide +kernel, by norm_num [inHalfOpen],
    payloadOf_of_vals (by decide +kernel)⟩

/-- The same column with no rock in the upper leaf. -/
def exWetDb : Db ℚ := ⟨[⟨⟨⟨0, 0, 0, 0⟩, .interior⟩, exPay 1600 (-999)⟩,
  ⟨⟨⟨0, 0, 0x40000000, 1⟩, .interior⟩, exPay 1800 (-999)⟩,
  ⟨⟨⟨0, 0, 0x40000000, 2⟩, .leaf⟩, { exPay 2900 2 with depth := 141800 }⟩,
  ⟨⟨⟨0, 0, 0x60000000, 2⟩, .leaf⟩, { exPay 2000 1 with vs := -999, depth := 39400 }⟩]⟩
theorem exWetDb_good : exWetDb.Good := ⟨by unfold Db.Octants; decide +kernel, by unfold Db.Sorted; decide +kernel⟩
def exWetQ : VMQuery ℚ := squash { VMQuery.init exGeom with db := some exWetDb } true (-200000)

example : exWetQ.Open exGeom exWetDb ∧ exWetQ.rd.Exact ∧ exWetDb.DepthsBelow exWetQ.rd (100 : ℚ) 200 1000 ∧
    (∀ a, CellOf exGeom 31 220 40 (-90000) a →
      exWetDb.Finest a.toKey ⟨⟨⟨0, 0, 0x40000000, 2⟩, .leaf⟩, { exPay 2900 2 with depth := 141800 }⟩) ∧
    (1000 - (⟨0, 0, 0x40000000, 2⟩ : Key).height : ℚ) ≠ -999 ∧
    (∀ b, CellOf exGeom 31 220 40 1000 b → ¬ HasRock exWetDb b.toKey) ∧
    PayloadOf exFmt exWetQ 220 40 (-90000) { exPay 2900 2 with depth := 141800 } := by
  refine ⟨⟨rfl, rfl, exGeom_lawful, exWetDb_good, fun _ h => by cases h⟩, Rd.exact_exact, ?_, ?_, by decide +kernel, ?_,
    payloadOf_of_vals (by decide +kernel)⟩
  · have : ∀ e ∈ exWetDb.entries, e.addr.type = .leaf →
        exWetQ.rd.double (e.addr.toKey.midElev + e.payload.depth) = 1000 := by decide +kernel
    exact fun e he ht _ => this e he ht
  · intro a ha
    rw [cellOf_unique ha exCol_cell]
    exact Db.search_finest exWetDb_good.octants (exGeom_lawful.aligned _ _ _ _ _ exCol_cell) (by decide +kernel)
  · intro a ha
    rw [cellOf_unique ha exCol_topCell]
    rintro ⟨f, hf, -, hv⟩
    have hal := exGeom_lawful.aligned _ _ _ _ _ exCol_topCell
    rw [Db.finest_unique exWetDb_good hal hf (Db.search_finest exWetDb_good.octants hal
      (e := ⟨⟨⟨0, 0, 0x60000000, 2⟩, .leaf⟩, { exPay 2000 1 with vs := -999, depth := 39400 }⟩) (by decide +kernel))] at hv
    exact hv rfl

end CenCalVM
