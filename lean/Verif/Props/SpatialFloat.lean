/-
Property C114: the spatial database computing in double precision, in any rounding direction.
-/
import Verif.Lemmas.Float
import Verif.Props.CenCalVMDB

set_option linter.unusedSectionVars false

namespace CenCalVM
namespace CenCalVMDB
section
variable {K : Type} [Field K] [LinearOrder K] [IsStrictOrderedRing K] [FloorRing K]

theorem dbl_error {ri : IntRound K} {x B : K} (h : |x| ≤ B) : |fl ri 53 x - x| ≤ B / 2 ^ 52 :=
  (fl_error x).trans (div_le_div_of_nonneg_right h (by positivity))

/-- The least Vp computed in double. -/
theorem leastVp_close {rs rdb : IntRound K} {rd : Rd K} (hb : rd.Binary rs rdb) {v : K} (hv : 0 ≤ v) :
    |leastVp rd v - (1360 + 116 / 100 * v)| ≤ (1360 + 116 / 100 * v) / 2 ^ 50 := by
  unfold leastVp
  rw [hb.2]
  have h1 : |fl rdb 53 (116 / 100 : K) - 116 / 100| ≤ (116 / 100) / 2 ^ 52 := dbl_error (by rw [abs_of_nonneg (by norm_num)])
  generalize fl rdb 53 (116 / 100 : K) = c at *
  rw [abs_le] at h1
  have hc : c ≤ 117 / 100 := by
    have : (116 / 100 : K) / 2 ^ 52 ≤ 1 / 100 := by norm_num
    linarith [h1.2]
  have hc0 : 0 ≤ c := by
    have : (116 / 100 : K) / 2 ^ 52 ≤ 1 / 100 := by norm_num
    linarith [h1.1]
  have h2 : |fl rdb 53 (c * v) - c * v| ≤ (117 / 100 * v) / 2 ^ 52 :=
    dbl_error (by rw [abs_of_nonneg (mul_nonneg hc0 hv)]; exact mul_le_mul_of_nonneg_right hc hv)
  generalize fl rdb 53 (c * v) = p at *
  rw [abs_le] at h2
  have e1 : c * v ≤ 116 / 100 * v + (116 / 100) / 2 ^ 52 * v := by nlinarith [h1.2]
  have e2 : 116 / 100 * v - (116 / 100) / 2 ^ 52 * v ≤ c * v := by nlinarith [h1.1]
  have hp : |1360 + p| ≤ 1360 + 118 / 100 * v := by
    rw [abs_le]
    constructor
    · have : -(116 / 100 / 2 ^ 52 * v) - 117 / 100 * v / 2 ^ 52 + 116 / 100 * v ≤ p := by linarith [h2.1]
      have e : -(116 / 100 / 2 ^ 52 * v) - 117 / 100 * v / 2 ^ 52 + 116 / 100 * v =
        (116 / 100 - 116 / 100 / 2 ^ 52 - 117 / 100 / 2 ^ 52) * v := by ring
      rw [e] at this
      have : 0 ≤ (116 / 100 - 116 / 100 / 2 ^ 52 - 117 / 100 / 2 ^ 52 : K) * v := mul_nonneg (by norm_num) hv
      linarith
    · have : p ≤ (116 / 100 + 116 / 100 / 2 ^ 52 + 117 / 100 / 2 ^ 52) * v := by linarith [h2.2]
      have h : (116 / 100 + 116 / 100 / 2 ^ 52 + 117 / 100 / 2 ^ 52 : K) * v ≤ 118 / 100 * v :=
        mul_le_mul_of_nonneg_right (by norm_num) hv
      linarith
  have h3 := dbl_error (ri := rdb) hp
  generalize fl rdb 53 (1360 + p) = r at *
  rw [abs_le] at h3 ⊢
  have hfin : (116 / 100 / 2 ^ 52 + 117 / 100 / 2 ^ 52 + 118 / 100 / 2 ^ 52 : K) * v ≤ 116 / 100 / 2 ^ 50 * v :=
    mul_le_mul_of_nonneg_right (by norm_num) hv
  have h1360 : (1360 / 2 ^ 52 : K) ≤ 1360 / 2 ^ 50 := by norm_num
  constructor <;> linarith [h2.1, h2.2, h3.1, h3.2]

/-- C114, the elevations tried: the first is the one wanted, the others are 25, 50, 100, … below it up to a fraction 2^-52. -/
theorem C114 {rs rdb : IntRound K} {fmt : Fmt K} {names : List String} {s s' : CenCalVMDB K} (hr : Returns fmt names s)
    {g : Geom K} {db : Db K} (ho : s.q.Open g db) (hb : s.q.rd.Binary rs rdb)
    {conv : K × K × K → Outcome (K × K × K)} {numVals : Int} {c : K × K × K} {err : Int} {vals tried : List K}
    (h : query fmt conv s numVals c = .ok s' (err, vals, tried)) :
    ∃ lon lat elev z, conv c = .ok (lon, lat, elev) ∧ z = max elev (-44950) ∧ tried[0]? = some z ∧ tried.length ≤ 9 ∧
      ∀ j x, tried[j + 1]? = some x → |x - (z - 25 * 2 ^ j)| ≤ |z - 25 * 2 ^ j| / 2 ^ 52 := by
  obtain ⟨⟨lon, lat, elev⟩, k, w, w1, w2, hc, hk, ht, -⟩ := query_spec ho hr.indexed h
  refine ⟨lon, lat, elev, _, hc, rfl, ?_, by rw [ht]; simp; omega, fun j x hj => ?_⟩
  · rw [ht, List.getElem?_map, List.getElem?_range (by omega)]; rfl
  · rw [ht, List.getElem?_map] at hj
    cases hjr : (List.range (k + 1))[j + 1]? with
    | none => rw [hjr] at hj; cases hj
    | some i =>
      rw [hjr] at hj
      obtain ⟨hl, hjr'⟩ := List.getElem?_eq_some_iff.1 hjr
      rw [List.getElem_range] at hjr'
      subst hjr'
      cases hj
      show |s.q.rd.double _ - _| ≤ _
      rw [hb.2]
      exact fl_error _

/-- C114, within 2^50 m of sea level the elevations tried are strictly decreasing. -/
theorem C114_decreasing {rs rdb : IntRound K} {fmt : Fmt K} {names : List String} {s s' : CenCalVMDB K} (hr : Returns fmt names s)
    {g : Geom K} {db : Db K} (ho : s.q.Open g db) (hb : s.q.rd.Binary rs rdb)
    {conv : K × K × K → Outcome (K × K × K)} {numVals : Int} {c b : K × K × K} (hconv : conv c = .ok b) (hz : b.2.2 ≤ 2 ^ 50)
    {err : Int} {vals tried : List K} (h : query fmt conv s numVals c = .ok s' (err, vals, tried)) :
    tried.Pairwise (· > ·) := by
  obtain ⟨b', k, w, w1, w2, hc, hk, ht, -⟩ := query_spec ho hr.indexed h
  rw [hconv] at hc; cases hc
  have hzz : |max b.2.2 (-44950)| ≤ 2 ^ 50 := by
    rw [abs_le]
    exact ⟨le_trans (by norm_num) (le_max_right _ _), max_le hz (by norm_num)⟩
  generalize max b.2.2 (-44950) = z at *
  have near : ∀ j : Nat, j ≤ 7 → |probe s.q.rd z (j + 1) - (z - 25 * 2 ^ j)| ≤ 1 := by
    intro j hj
    show |s.q.rd.double _ - _| ≤ _
    rw [hb.2]
    have h2 : (2 : K) ^ j ≤ 2 ^ 7 := pow_le_pow_right₀ (by norm_num) hj
    have h0 : (0 : K) < 2 ^ j := by positivity
    have hB : |z - 25 * 2 ^ j| ≤ 2 ^ 52 := by
      rw [abs_le] at hzz ⊢
      have a1 : (2 : K) ^ 50 + 25 * 2 ^ 7 ≤ 2 ^ 52 := by norm_num
      constructor <;> linarith [hzz.1, hzz.2]
    refine (dbl_error hB).trans (le_of_eq ?_)
    norm_num
  rw [ht, List.pairwise_map]
  refine List.Pairwise.imp_of_mem ?_ List.pairwise_lt_range
  intro i j hi hj hij
  have hj8 : j ≤ 8 := by have := List.mem_range.1 hj; omega
  obtain ⟨j, rfl⟩ : ∃ m, j = m + 1 := ⟨j - 1, by omega⟩
  have nj := abs_le.1 (near j (by omega))
  have hpj : (1 : K) ≤ 2 ^ j := one_le_pow₀ (by norm_num)
  show probe _ _ i > _
  cases i with
  | zero =>
    show z > _
    linarith [nj.2]
  | succ i =>
    have ni := abs_le.1 (near i (by omega))
    have hpi : (1 : K) ≤ 2 ^ i := one_le_pow₀ (by norm_num)
    have : (2 : K) ^ (i + 1) ≤ 2 ^ j := pow_le_pow_right₀ (by norm_num) (by omega)
    rw [pow_succ] at this
    linarith [nj.2, ni.1]

/-- C114, the values: with L = 1360 + 1.16 minVs in exact arithmetic, the last value named Vp is that of the underlying object, or a
positive one less than L (up to a fraction 2^-50) was replaced by L up to a fraction 2^-50; no positive one is less than L by a larger
fraction. -/
theorem C114_vp {rs rdb : IntRound K} {fmt : Fmt K} {names : List String} {s s' : CenCalVMDB K} (hr : Returns fmt names s)
    {g : Geom K} {db : Db K} (ho : s.q.Open g db) (hb : s.q.rd.Binary rs rdb) (hmin : 0 ≤ s.minVs)
    {conv : K × K × K → Outcome (K × K × K)} {numVals : Int} {c : K × K × K} {err : Int} {vals tried : List K}
    (h : query fmt conv s numVals c = .ok s' (err, vals, tried)) {L : K} (hL : L = 1360 + 116 / 100 * s.minVs)
    {i : Nat} (hi : LastNamed names 0 i) :
    ∃ lon lat elev z w v x, conv c = .ok (lon, lat, elev) ∧ tried.getLast? = some z ∧ AnswerAt fmt s.q numVals lon lat z w ∧
      w[i]? = some v ∧ vals[i]? = some x ∧ (0 < x → L - L / 2 ^ 50 ≤ x) ∧
      (x = v ∨ (0 < v ∧ v < L + L / 2 ^ 50 ∧ |x - L| ≤ L / 2 ^ 50)) := by
  obtain ⟨lon, lat, elev, z, w, h1, h2, h3, h4, -⟩ := C56 hr ho h
  obtain ⟨v, h5, h6⟩ := h4 i hi
  have hcl := leastVp_close hb hmin
  rw [← hL] at hcl
  have hcl' := abs_le.1 hcl
  refine ⟨lon, lat, elev, z, w, v, _, h1, h2, h3, h5, h6, fun hx => ?_, ?_⟩
  · split
    · linarith [hcl'.1]
    · next hn =>
      rw [if_neg hn] at hx
      have : leastVp s.q.rd s.minVs ≤ v := not_lt.1 fun hlt => hn ⟨hx, hlt⟩
      linarith [hcl'.1]
  · split
    · next hp => exact Or.inr ⟨hp.1, by linarith [hcl'.2, hp.2], hcl⟩
    · exact Or.inl rfl

end

/-- The query object of the examples, computing in double. -/
def exQR : VMQuery ℚ := { exQ with rd := ⟨fl IntRound.nearest 24, fl IntRound.nearest 53⟩ }
/-- The spatial database of the examples, computing in double, before the names are set: the minimum speed is 2500. -/
def exSpD0 : CenCalVMDB ℚ := { exSp0 true with q := exQR }
/-- The object after the names are set. -/
def exSpD : CenCalVMDB ℚ := spatialState exSpD0 (queryVals exSpD0 exSpNames 5)

theorem exSpD_ok : queryVals exSpD0 exSpNames 5 = .ok exSpD () := spatialOk_eq _ (by decide +kernel)

theorem exSpD_returns : Returns exFmt exSpNames exSpD :=
  ⟨by decide, exSpD0, exSpD, [], exSpD_ok, by simp, rfl⟩

theorem exSpD_q : exSpD.q = { exQR with queryVals := exSpNames.map VMQuery.valueIndex, err := exSpD.q.err } := by
  have h := exSpD_ok
  unfold queryVals at h
  have : VMQuery.setQueryVals exSpD0.q exSpNames 5 =
    .ok { exQR with queryVals := exSpNames.map VMQuery.valueIndex, err := exSpNames.foldl VMQuery.nameErr exQR.err } := rfl
  rw [this] at h
  dsimp only at h
  rcases throwOnError_cases { exSpD0 with q := { exQR with
    queryVals := exSpNames.map VMQuery.valueIndex, err := exSpNames.foldl VMQuery.nameErr exQR.err } } with h1 | ⟨m, h1⟩
  · rw [h1, Run.bind_ok, noteNames_eq] at h
    injection h with h
    rw [← h]
  · rw [h1, Run.bind_exc] at h; cases h

theorem exSpD_open : exSpD.q.Open exGeom exDb := by
  rw [exSpD_q]
  exact ⟨exQ_open.geom_eq, exQ_open.db_eq, exQ_open.lawful, exQ_open.good, exQ_open.goodExt⟩

theorem exSpD_binary : exSpD.q.rd.Binary IntRound.nearest IntRound.nearest := by
  rw [exSpD_q]; exact ⟨rfl, rfl⟩

/-- From 1/3 m above 12840 m, as a double, the voids are filled at doubles. -/
example : Returns exFmt exSpNames exSpD ∧ exSpD.q.Open exGeom exDb ∧ exSpD.q.rd.Binary IntRound.nearest IntRound.nearest ∧
    exSpD.minVs = 2500 ∧ LastNamed exSpNames 0 3 ∧
    spatialRes (query exFmt (fun c => .ok c) exSpD 5 (220, 40, fl IntRound.nearest 53 (12840 + 1 / 3))) =
      some (0, [2000, 2500, 2500, 4260, 100],
        [7059047902259883 / 2 ^ 39, 7059047902259883 / 2 ^ 39 - 25, 7059047902259883 / 2 ^ 39 - 50]) :=
  ⟨exSpD_returns, exSpD_open, exSpD_binary, by decide +kernel, exSp_lastVp, by decide +kernel⟩

/-- Without the bound C114_decreasing is false: 2^60 m above sea level the next double below is 128 m lower. -/
theorem C114_far : ∃ vals, spatialRes (query exFmt (fun c => .ok c) exSpD 5 (220, 40, 2 ^ 60)) =
    some (1, vals, [2 ^ 60, 2 ^ 60, 2 ^ 60, 2 ^ 60 - 128, 2 ^ 60 - 256, 2 ^ 60 - 384, 2 ^ 60 - 768, 2 ^ 60 - 1536, 2 ^ 60 - 3200]) :=
  ⟨[-999, -999, -999, -999, -999], by decide +kernel⟩

end CenCalVMDB
end CenCalVM
