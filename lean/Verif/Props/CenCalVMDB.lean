/-
Properties of the spatial database (C45, C46, C56, C57, C92, C93).
-/
import Verif.Lemmas.CenCalVMDB
import Verif.Props.Query

namespace CenCalVM
open CenCalVMDB
variable {K : Type} [Field K] [LinearOrder K]

/-! ### Example data -/

/-- The result of a query that returns. -/
def spatialRes : Run (CenCalVMDB ℚ) (Int × List ℚ × List ℚ) → Option (Int × List ℚ × List ℚ)
  | .ok _ r => some r
  | _ => none
/-- Did the call return normally? -/
def spatialOk : Run (CenCalVMDB ℚ) Unit → Bool
  | .ok _ _ => true
  | _ => false
/-- The object after the call. -/
def spatialState (d : CenCalVMDB ℚ) : Run (CenCalVMDB ℚ) Unit → CenCalVMDB ℚ
  | .ok s _ => s
  | _ => d
theorem spatialOk_eq {r : Run (CenCalVMDB ℚ) Unit} (d : CenCalVMDB ℚ) (h : spatialOk r = true) : r = .ok (spatialState d r) () := by
  cases r with
  | ok s a => rfl
  | exc m s => cases h
  | ub => cases h
theorem spatialRes_eq {r : Run (CenCalVMDB ℚ) (Int × List ℚ × List ℚ)} {a : Int × List ℚ × List ℚ} (h : spatialRes r = some a) :
    ∃ s, r = .ok s a := by
  cases r with
  | ok s b => cases h; exact ⟨s, rfl⟩
  | exc m s => cases h
  | ub => cases h

/-- Some names, in mixed case, with Vs twice. -/
def exSpNames : List String := ["VS", "density", "vs", "vP", "Qp"]
/-- The object before the names are set: the minimum speed is 2500. -/
def exSp0 (down : Bool) : CenCalVMDB ℚ := { init exGeom (fun _ => "") with q := exQ, minVs := 2500, projectDownward := down }
/-- The object after the names are set. -/
def exSp (down : Bool) : CenCalVMDB ℚ := spatialState (exSp0 down) (queryVals (exSp0 down) exSpNames 5)

theorem exSp_ok (down : Bool) : queryVals (exSp0 down) exSpNames 5 = .ok (exSp down) () := by
  refine spatialOk_eq _ ?_
  cases down <;> decide +kernel

theorem exSp_returns (down : Bool) : Returns exFmt exSpNames (exSp down) :=
  ⟨by decide, exSp0 down, exSp down, [], exSp_ok down, by simp, rfl⟩

theorem exSp_q (down : Bool) : (exSp down).q = { exQ with queryVals := exSpNames.map VMQuery.valueIndex, err := (exSp down).q.err } := by
  have h := exSp_ok down
  unfold queryVals at h
  have : VMQuery.setQueryVals (exSp0 down).q exSpNames 5 =
    .ok { exQ with queryVals := exSpNames.map VMQuery.valueIndex, err := exSpNames.foldl VMQuery.nameErr exQ.err } := rfl
  rw [this] at h
  dsimp only at h
  rcases throwOnError_cases { exSp0 down with q := { exQ with
    queryVals := exSpNames.map VMQuery.valueIndex, err := exSpNames.foldl VMQuery.nameErr exQ.err } } with h1 | ⟨m, h1⟩
  · rw [h1, Run.bind_ok, noteNames_eq] at h
    injection h with h
    rw [← h]
  · rw [h1, Run.bind_exc] at h; cases h

theorem exSp_open (down : Bool) : (exSp down).q.Open exGeom exDb := by
  rw [exSp_q]
  exact ⟨exQ_open.geom_eq, exQ_open.db_eq, exQ_open.lawful, exQ_open.good, exQ_open.goodExt⟩

theorem exSp_last : LastNamed exSpNames 1 2 :=
  ⟨⟨"vs", rfl, "Vs", rfl, by decide +kernel⟩, fun j n h1 h2 h3 => by
    have hn : n ∈ ["vP", "Qp"] := by
      have := List.mem_of_getElem? (l := exSpNames.drop 3) (i := j - 3) (a := n)
        (by rw [List.getElem?_drop]; rw [show 3 + (j - 3) = j by omega]; exact h2)
      exact this
    rw [named_vs] at h3
    revert n
    have : ∀ n ∈ ["vP", "Qp"], VMQuery.sameName n "Vs" = false := by decide +kernel
    intro n _ h3 hn
    rw [this n hn] at h3
    cases h3⟩

/-- A location forty metres above the top of the model. -/
def exSpLoc : ℚ × ℚ × ℚ := (220, 40, 12840)

/-! ### C45 -/

/-- C45, the part that holds: with downward projection on, the last value named Vs is never positive and below the
minimum.  Missing: without projection nothing is clipped, and of several values named Vs only the last is. -/
theorem C45_partial {fmt : Fmt K} {names : List String} {s s' : CenCalVMDB K} (hr : Returns fmt names s)
    (hp : s.projectDownward = true) {conv : K × K × K → Outcome (K × K × K)} {numVals : Int} {c : K × K × K} {err : Int}
    {vals tried : List K} (h : query fmt conv s numVals c = .ok s' (err, vals, tried)) (i : Nat) (hi : LastNamed names 1 i) :
    ∃ v, vals[i]? = some v ∧ ¬ (0 < v ∧ v < s.minVs) := by
  obtain ⟨b, t0, t1, v1, -, -, -, h1, -, h3, h4, -⟩ := query_parts h
  have hx := hr.indexed
  have hvs := hx.vs.eq_of_last hi
  obtain ⟨-, h5, -⟩ := adjust_ok hx.vp h3
  obtain ⟨-, h6, -⟩ := adjust_ok hx.density h4
  rw [h6 i (fun h => absurd (hi.disjoint (by omega) (by omega) h) (by omega)),
    h5 i (fun h => absurd (hi.disjoint (by omega) (by omega) h) (by omega))]
  rcases project_parts h1 with ⟨h9, -⟩ | ⟨-, -, t2, -, h12, -⟩
  · exact absurd ⟨by rw [hvs]; omega, hp⟩ h9
  · rw [hvs] at h12
    obtain ⟨⟨v, -, hv⟩, -⟩ := raise_ok h12
    refine ⟨_, hv, ?_⟩
    split
    · exact fun h => lt_irrefl _ h.2
    · next h => exact h

example : Returns exFmt exSpNames (exSp true) ∧ (exSp true).projectDownward = true ∧ (exSp true).minVs = 2500 ∧
    LastNamed exSpNames 1 2 ∧
    spatialRes (query exFmt (fun c => .ok c) (exSp true) 5 (220, 40, -100)) = some (0, [2000, 2500, 2500, 4260, 100], [-100]) :=
  ⟨exSp_returns true, by decide +kernel, by decide +kernel, exSp_last, by decide +kernel⟩

/-- C45 is false of the code: without downward projection a speed below the minimum is returned as it is. -/
theorem C45_false : ¬ ∀ (fmt : Fmt ℚ) (names : List String) (s s' : CenCalVMDB ℚ) (conv : ℚ × ℚ × ℚ → Outcome (ℚ × ℚ × ℚ))
    (numVals : Int) (c : ℚ × ℚ × ℚ) (err : Int) (vals tried : List ℚ), Returns fmt names s →
    query fmt conv s numVals c = .ok s' (err, vals, tried) → ∀ i, LastNamed names 1 i → ∀ v, vals[i]? = some v →
      ¬ (0 < v ∧ v < s.minVs) := by
  intro h
  obtain ⟨s', hs⟩ := spatialRes_eq (r := query exFmt (fun c => .ok c) (exSp false) 5 (220, 40, -100))
    (a := (0, [2000, 2500, 2000, 4260, 100], [-100])) (by decide +kernel)
  exact h exFmt exSpNames (exSp false) s' _ _ _ _ _ _ (exSp_returns false) hs 2 exSp_last 2000 rfl
    (by decide +kernel)

/-- C45 is false of the code even with downward projection: a value named Vs is clipped only where the name comes last. -/
theorem C45_false_twice : ¬ ∀ (fmt : Fmt ℚ) (names : List String) (s s' : CenCalVMDB ℚ)
    (conv : ℚ × ℚ × ℚ → Outcome (ℚ × ℚ × ℚ)) (numVals : Int) (c : ℚ × ℚ × ℚ) (err : Int) (vals tried : List ℚ),
    Returns fmt names s → s.projectDownward = true → query fmt conv s numVals c = .ok s' (err, vals, tried) →
    ∀ (i : Nat) n, names[i]? = some n → NamesValue n 1 → ∀ v, vals[i]? = some v → ¬ (0 < v ∧ v < s.minVs) := by
  intro h
  obtain ⟨s', hs⟩ := spatialRes_eq (r := query exFmt (fun c => .ok c) (exSp true) 5 (220, 40, -100))
    (a := (0, [2000, 2500, 2500, 4260, 100], [-100])) (by decide +kernel)
  exact h exFmt exSpNames (exSp true) s' _ _ _ _ _ _ (exSp_returns true) (by decide +kernel) hs 0 "VS" rfl
    ⟨"Vs", rfl, by decide +kernel⟩ 2000 rfl (by decide +kernel)

/-! ### C46 -/

/-- C46: with downward projection on and Vs among the values, a query asks the underlying object at the elevation wanted
(at least −44.95 km) and then 25, 50, 100, … below it; at most nine times; it goes on only from a Vs below zero and stops
early only at one that is not; the values returned are those of the last elevation, but for the adjustments of C45 and C56. -/
theorem C46 {fmt : Fmt K} {names : List String} {s s' : CenCalVMDB K} (hr : Returns fmt names s)
    (hp : s.projectDownward = true) {g : Geom K} {db : Db K} (ho : s.q.Open g db)
    {conv : K × K × K → Outcome (K × K × K)} {numVals : Int} {c : K × K × K} {err : Int} {vals tried : List K}
    (h : query fmt conv s numVals c = .ok s' (err, vals, tried)) (i : Nat) (hi : LastNamed names 1 i) :
    ∃ lon lat elev k w, conv c = .ok (lon, lat, elev) ∧ k ≤ 8 ∧
      tried = (List.range (k + 1)).map (probe s.q.rd (max elev (-44950))) ∧
      (∀ j < k, ∃ w' v, AnswerAt fmt s.q numVals lon lat (probe s.q.rd (max elev (-44950)) j) w' ∧ w'[i]? = some v ∧ v < 0) ∧
      AnswerAt fmt s.q numVals lon lat (probe s.q.rd (max elev (-44950)) k) w ∧ (k < 8 → ∃ v, w[i]? = some v ∧ 0 ≤ v) ∧
      vals.length = w.length ∧
      ∀ j, ¬ LastNamed names 1 j → ¬ LastNamed names 0 j → ¬ LastNamed names 2 j → vals[j]? = w[j]? := by
  have hx := hr.indexed
  obtain ⟨⟨lon, lat, elev⟩, k, w, w1, w2, hb, hk, ht, ha, hor, h3, h4⟩ := query_spec ho hx h
  rcases hor with ⟨-, i', hi', hj, hs, hw⟩ | ⟨hn, -⟩
  · rw [hi'.unique hi] at hj hs hw
    obtain ⟨-, r2, r3⟩ := raise_ok hw
    obtain ⟨-, h5, h5'⟩ := adjust_ok hx.vp h3
    obtain ⟨-, h6, h6'⟩ := adjust_ok hx.density h4
    refine ⟨lon, lat, elev, k, w, hb, hk, ht, hj, ha, hs, by rw [h6', h5', r3], fun j hj1 hj0 hj2 => ?_⟩
    rw [h6 j hj2, h5 j hj0, r2 j (fun e => hj1 (e ▸ hi))]
  · exact absurd ⟨hp, i, hi⟩ hn

/-- C46: the elevations tried are strictly decreasing, and at most nine; for sums in double see C114. -/
theorem C46_decreasing [IsStrictOrderedRing K] {fmt : Fmt K} {names : List String} {s s' : CenCalVMDB K} (hr : Returns fmt names s)
    {g : Geom K} {db : Db K} (ho : s.q.Open g db)
    {conv : K × K × K → Outcome (K × K × K)} {numVals : Int} {c : K × K × K} {err : Int} {vals tried : List K}
    (hrd : s.q.rd.Exact) (h : query fmt conv s numVals c = .ok s' (err, vals, tried)) :
    tried.Pairwise (· > ·) ∧ 1 ≤ tried.length ∧ tried.length ≤ 9 := by
  obtain ⟨b, k, w, w1, w2, hb, hk, ht, -⟩ := query_spec ho hr.indexed h
  rw [hrd.eq] at ht
  refine ⟨?_, by rw [ht]; simp, by rw [ht]; simp; omega⟩
  rw [ht, List.pairwise_map]
  refine List.pairwise_lt_range.imp ?_
  intro a b hab
  obtain ⟨b, rfl⟩ : ∃ k, b = k + 1 := ⟨b - 1, by omega⟩
  have hpow : ∀ n : Nat, (0 : K) < 2 ^ n := fun n => pow_pos two_pos n
  cases a with
  | zero =>
    have := mul_pos (by norm_num : (0 : K) < 25) (hpow b)
    show probe _ _ 0 > _
    simp only [probe, Rd.exact_double]
    linarith
  | succ a =>
    have : (2 : K) ^ a < 2 ^ b := pow_lt_pow_right₀ one_lt_two (by omega)
    show probe _ _ (a + 1) > _
    simp only [probe, Rd.exact_double]
    linarith

/-- C46: without downward projection, or without Vs among the values, only the elevation wanted is asked for, and the values
returned are those found there, but for the adjustments of C56. -/
theorem C46_off {fmt : Fmt K} {names : List String} {s s' : CenCalVMDB K} (hr : Returns fmt names s)
    {g : Geom K} {db : Db K} (ho : s.q.Open g db) (hp : s.projectDownward = false ∨ ∀ i, ¬ LastNamed names 1 i)
    {conv : K × K × K → Outcome (K × K × K)} {numVals : Int} {c : K × K × K} {err : Int} {vals tried : List K}
    (h : query fmt conv s numVals c = .ok s' (err, vals, tried)) :
    ∃ lon lat elev w, conv c = .ok (lon, lat, elev) ∧ tried = [max elev (-44950)] ∧
      AnswerAt fmt s.q numVals lon lat (max elev (-44950)) w ∧ vals.length = w.length ∧
      ∀ j, ¬ LastNamed names 0 j → ¬ LastNamed names 2 j → vals[j]? = w[j]? := by
  have hx := hr.indexed
  obtain ⟨⟨lon, lat, elev⟩, k, w, w1, w2, hb, hk, ht, ha, hor, h3, h4⟩ := query_spec ho hx h
  rcases hor with ⟨hp', i, hi, -⟩ | ⟨-, rfl, rfl⟩
  · rcases hp with hp | hp
    · rw [hp] at hp'; cases hp'
    · exact absurd hi (hp i)
  · obtain ⟨-, h5, h5'⟩ := adjust_ok hx.vp h3
    obtain ⟨-, h6, h6'⟩ := adjust_ok hx.density h4
    exact ⟨lon, lat, elev, _, hb, ht, ha, by rw [h6', h5'], fun j hj0 hj2 => by rw [h6 j hj2, h5 j hj0]⟩

example : Returns exFmt exSpNames (exSp true) ∧ (exSp true).projectDownward = true ∧ (exSp true).q.Open exGeom exDb ∧
    LastNamed exSpNames 1 2 ∧
    spatialRes (query exFmt (fun c => .ok c) (exSp true) 5 exSpLoc) =
      some (0, [2000, 2500, 2500, 4260, 100], [12840, 12815, 12790]) ∧
    spatialRes (query exFmt (fun c => .ok c) (exSp true) 5 (220, 40, 17000)) =
      some (1, [-999, -999, -999, -999, -999], [17000, 16975, 16950, 16900, 16800, 16600, 16200, 15400, 13800]) ∧
    (exSp false).projectDownward = false ∧
    spatialRes (query exFmt (fun c => .ok c) (exSp false) 5 exSpLoc) = some (1, [-999, -999, -999, -999, -999], [12840]) :=
  ⟨exSp_returns true, by decide +kernel, exSp_open true, exSp_last, by decide +kernel, by decide +kernel, by decide +kernel,
    by decide +kernel⟩

/-! ### C56 -/

/-- C56: whatever the flags, the last value named Vp and the last one named density are those of the underlying object at
the last elevation tried, with a Vp between 0 and 1360 + 1.16 minVs raised to that, and a density between 1000 and 2000
raised to 2000. -/
theorem C56 {fmt : Fmt K} {names : List String} {s s' : CenCalVMDB K} (hr : Returns fmt names s)
    {g : Geom K} {db : Db K} (ho : s.q.Open g db)
    {conv : K × K × K → Outcome (K × K × K)} {numVals : Int} {c : K × K × K} {err : Int} {vals tried : List K}
    (h : query fmt conv s numVals c = .ok s' (err, vals, tried)) :
    ∃ lon lat elev z w, conv c = .ok (lon, lat, elev) ∧ tried.getLast? = some z ∧ AnswerAt fmt s.q numVals lon lat z w ∧
      (∀ i, LastNamed names 0 i → ∃ v, w[i]? = some v ∧
        vals[i]? = some (if 0 < v ∧ v < leastVp s.q.rd s.minVs then leastVp s.q.rd s.minVs else v)) ∧
      (∀ i, LastNamed names 2 i → ∃ v, w[i]? = some v ∧ vals[i]? = some (if 1000 < v ∧ v < 2000 then 2000 else v)) ∧
      (∀ i, LastNamed names 1 i → ∀ v, w[i]? = some v →
        vals[i]? = some (if s.projectDownward = true ∧ 0 < v ∧ v < s.minVs then s.minVs else v)) := by
  have hx := hr.indexed
  obtain ⟨⟨lon, lat, elev⟩, k, w, w1, w2, hb, hk, ht, ha, hor, h3, h4⟩ := query_spec ho hx h
  obtain ⟨p5, h5, -⟩ := adjust_ok hx.vp h3
  obtain ⟨p6, h6, -⟩ := adjust_ok hx.density h4
  have hw : ∀ j, ¬ LastNamed names 1 j → w1[j]? = w[j]? := by
    intro j hj
    rcases hor with ⟨-, i', hi', -, -, hw⟩ | ⟨-, -, rfl⟩
    · exact (raise_ok hw).2.1 j (fun e => hj (e ▸ hi'))
    · rfl
  refine ⟨lon, lat, elev, _, w, hb, ?_, ha, ?_, ?_, ?_⟩
  · rw [ht, List.range_succ, List.map_append]; simp
  · intro i hi
    obtain ⟨v, h7, h8⟩ := p5 i hi
    rw [hw i (fun h => absurd (hi.disjoint (by omega) (by omega) h) (by omega))] at h7
    rw [h6 i (fun h => absurd (hi.disjoint (by omega) (by omega) h) (by omega))]
    exact ⟨v, h7, h8⟩
  · intro i hi
    obtain ⟨v, h7, h8⟩ := p6 i hi
    rw [h5 i (fun h => absurd (hi.disjoint (by omega) (by omega) h) (by omega)),
      hw i (fun h => absurd (hi.disjoint (by omega) (by omega) h) (by omega))] at h7
    exact ⟨v, h7, h8⟩
  · intro i hi v hv
    rw [h6 i (fun h => absurd (hi.disjoint (by omega) (by omega) h) (by omega)),
      h5 i (fun h => absurd (hi.disjoint (by omega) (by omega) h) (by omega))]
    rcases hor with ⟨hp, i', hi', -, -, hw⟩ | ⟨hn, -, rfl⟩
    · rw [hi'.unique hi] at hw
      obtain ⟨⟨v', h7, h8⟩, -⟩ := raise_ok hw
      rw [hv] at h7; cases h7
      rw [h8]; simp [hp]
    · have hp : ¬ s.projectDownward = true := fun h => hn ⟨h, i, hi⟩
      rw [if_neg (fun h => hp h.1)]; exact hv

theorem exSp_lastVp : LastNamed exSpNames 0 3 :=
  ⟨⟨"vP", rfl, "Vp", rfl, by decide +kernel⟩, fun j n h1 h2 h3 => by
    have hn : n ∈ ["Qp"] := List.mem_of_getElem? (l := exSpNames.drop 4) (i := j - 4) (a := n)
      (by rw [List.getElem?_drop]; rw [show 4 + (j - 4) = j by omega]; exact h2)
    rw [named_vp] at h3
    have : ∀ n ∈ ["Qp"], VMQuery.sameName n "Vp" = false := by decide +kernel
    rw [this n hn] at h3
    cases h3⟩

example : Returns exFmt exSpNames (exSp false) ∧ (exSp false).q.Open exGeom exDb ∧ LastNamed exSpNames 0 3 ∧
    LastNamed exSpNames 1 2 ∧
    spatialRes (query exFmt (fun c => .ok c) (exSp false) 5 (220, 40, -100)) = some (0, [2000, 2500, 2000, 4260, 100], [-100]) ∧
    (1360 + 116 / 100 * 2500 : ℚ) = 4260 :=
  ⟨exSp_returns false, exSp_open false, exSp_lastVp, exSp_last, by decide +kernel, by norm_num⟩

/-! ### C57 -/

/-- C57: a query that returns reports with 1 that the last underlying query left a warning, which it clears, and returns 0
otherwise; nothing but the error status of the query object changes. -/
theorem C57 {fmt : Fmt K} {s s' : CenCalVMDB K}
    {conv : K × K × K → Outcome (K × K × K)} {numVals : Int} {c : K × K × K} {err : Int} {vals tried : List K}
    (h : query fmt conv s numVals c = .ok s' (err, vals, tried)) :
    ∃ lon lat elev z e fs q w, conv c = .ok (lon, lat, elev) ∧ tried.getLast? = some z ∧
      VMQuery.query fmt { s.q with err := e } fs numVals lon lat z = .ok (q, s'.fs, w) ∧
      (err = 1 ∨ err = 0) ∧ (err = 1 ↔ q.err.status = .WARNING) ∧ s'.q.err.status ≠ .WARNING ∧
      (err = 0 → s'.q.err = q.err) ∧ s' = { s with q := { s.q with err := s'.q.err }, fs := s'.fs } := by
  obtain ⟨⟨lon, lat, elev⟩, t0, t1, v1, hb, h0, hst, h1, h2, h3, h4, he⟩ := query_parts h
  obtain ⟨e, fs, x, w, h5, h6⟩ := project_last h0 h1
  rw [h2] at h5
  have hs' : s' = { s with q := (if t1.q.err.status = .WARNING then { t1.q with err := t1.q.err.resetStatus } else t1.q), fs := t1.fs } := by
    have hq := h
    unfold query at hq
    rw [hb] at hq
    dsimp only at hq h0 h1
    rw [h0] at hq
    dsimp only at hq
    rw [if_neg hst, h1, Outcome.bind_ok, h3, Outcome.bind_ok, h4, Outcome.bind_ok] at hq
    dsimp only at hq
    by_cases hw : t1.q.err.status = .WARNING
    · rw [if_pos hw] at hq ⊢; cases hq; rfl
    · rw [if_neg hw] at hq ⊢; cases hq; rfl
  have hq1 := query_err h6
  refine ⟨lon, lat, elev, x, e, fs, t1.q, w, hb, h5, ?_⟩
  by_cases hw : t1.q.err.status = .WARNING
  · rw [if_pos hw] at he hs'
    subst he hs'
    refine ⟨h6, Or.inl rfl, by simp [hw], by simp [ErrorHandler.resetStatus], by simp, ?_⟩
    dsimp only
    rw [hq1]
  · rw [if_neg hw] at he hs'
    subst he hs'
    refine ⟨h6, Or.inr rfl, by simp [hw], hw, by simp, ?_⟩
    dsimp only
    rw [← hq1]

example : spatialRes (query exFmt (fun c => .ok c) (exSp true) 5 exSpLoc) =
      some (0, [2000, 2500, 2500, 4260, 100], [12840, 12815, 12790]) ∧
    spatialRes (query exFmt (fun c => .ok c) (exSp false) 5 exSpLoc) = some (1, [-999, -999, -999, -999, -999], [12840]) :=
  ⟨by decide +kernel, by decide +kernel⟩

/-- C57: an exception comes from the conversion of the coordinates or reports an error the first underlying query left
(or found). -/
theorem C57_exception {fmt : Fmt K} {s s' : CenCalVMDB K}
    {conv : K × K × K → Outcome (K × K × K)} {numVals : Int} {c : K × K × K} {msg : String}
    (h : query fmt conv s numVals c = .exc msg s') :
    (conv c = .exc msg ∧ s' = s) ∨
    ∃ lon lat elev q w, conv c = .ok (lon, lat, elev) ∧
      VMQuery.query fmt s.q s.fs numVals lon lat (max elev (-44950)) = .ok (q, s'.fs, w) ∧ q.err.status = .ERROR ∧
      q.err.message = msg ∧ s'.q = q := by
  unfold query at h
  split at h
  · next hc => cases h; exact Or.inl ⟨hc, rfl⟩
  · cases h
  next b hb =>
  have hz : (if b.2.2 < -44950 then -44950 else b.2.2) = max b.2.2 (-44950) := by
    split
    · next h => rw [max_eq_right h.le]
    · next h => rw [max_eq_left (not_lt.1 h)]
  dsimp only at h
  rw [hz] at h
  split at h
  · next h0 => exact absurd h0 (ask_ne_exc _ _ _ _ _ _ _ _ _)
  · cases h
  next t0 h0 =>
  obtain ⟨h1, -⟩ := ask_ok h0
  split at h
  · next hst => cases h; exact Or.inr ⟨b.1, b.2.1, b.2.2, t0.q, t0.vals, hb, h1, hst, rfl, rfl⟩
  split at h
  · next h2 => exact absurd h2 (adjusted_ne_exc _ _ _ _ _ _ _ _)
  · cases h
  split at h <;> cases h

/-- The exception of a query that raises one. -/
def spatialExc : Run (CenCalVMDB ℚ) (Int × List ℚ × List ℚ) → Option String
  | .exc m _ => some m
  | _ => none

example : spatialExc (query exFmt (fun _ => .exc "far away") (exSp true) 5 exSpLoc) = some "far away" := by decide +kernel

/-- An object on a database whose geometry cannot be inverted. -/
def exSpInv : CenCalVMDB ℚ :=
  spatialState (exSp0 true) (queryVals { exSp0 true with q := { exQ with geom := some exGeomInv } } ["Vs", "elevation"] 2)

example : spatialExc (query exFmt (fun c => .ok c) exSpInv 2 (220, 40, -100)) = some "inverse" := by decide +kernel

/-- The status after a query that returns. -/
def spatialStatus : Run (CenCalVMDB ℚ) (Int × List ℚ × List ℚ) → Option Status
  | .ok s _ => some s.q.err.status
  | _ => none

/-- The code also returns 0 when the last underlying query left an error: errors after the first underlying query are
neither reported nor cleared. -/
theorem C57_false_error : ¬ ∀ (fmt : Fmt ℚ) (s s' : CenCalVMDB ℚ) (conv : ℚ × ℚ × ℚ → Outcome (ℚ × ℚ × ℚ))
    (numVals : Int) (c : ℚ × ℚ × ℚ) (vals tried : List ℚ), query fmt conv s numVals c = .ok s' (0, vals, tried) →
      s'.q.err.status = .OK := by
  intro h
  have h1 : spatialStatus (query exFmt (fun c => .ok c) exSpInv 2 exSpLoc) = some .ERROR := by decide +kernel
  obtain ⟨s', hs⟩ := spatialRes_eq (r := query exFmt (fun c => .ok c) exSpInv 2 exSpLoc)
    (a := (0, [2500, 0], [12840, 12815, 12790])) (by decide +kernel)
  have h2 := h exFmt exSpInv s' _ _ _ _ _ hs
  rw [hs] at h1
  simp only [spatialStatus, Option.some.injEq] at h1
  rw [h1] at h2
  cases h2

/-! ### C92 -/

/-- C92: `open`, `close`, `queryType` and `queryVals` raise an exception exactly if the call of the query object they stand
for leaves the status ERROR (so never for a warning), with the message of the error, and have then had the effect of that
call only. -/
theorem C92 (fmt : Fmt K) (s : CenCalVMDB K) {c : CenCalVMDB.Call K} {f : VMQuery K → Outcome (VMQuery K)} (hf : c.setting = some f) :
    (call fmt s c = .ub ↔ f s.q = .ub) ∧
    (∀ m s', call fmt s c = .exc m s' ↔
      ∃ q, f s.q = .ok q ∧ q.err.status = .ERROR ∧ m = q.err.message ∧ s' = { s with q := q }) ∧
    ∀ q, (∃ s', call fmt s c = .ok s' () ∧ s'.q = q) ↔ f s.q = .ok q ∧ q.err.status ≠ .ERROR := by
  obtain ⟨h1, h2⟩ := call_setting fmt s hf
  cases hq : f s.q with
  | exc m => exact absurd hq (setting_ne_exc hf _ _)
  | ub =>
    rw [h1 hq]
    refine ⟨by simp, fun m s' => ⟨(nomatch ·), ?_⟩, fun q => ⟨?_, fun h => nomatch h.1⟩⟩
    · rintro ⟨q, h, -⟩; cases h
    · rintro ⟨_, h, -⟩; cases h
  | ok q =>
    obtain ⟨h3, h4⟩ := h2 q hq
    by_cases he : q.err.status = .ERROR
    · rw [h3 he]
      refine ⟨by simp, fun m s' => ⟨fun h => ?_, ?_⟩, fun q' => ⟨?_, fun ⟨h, h5⟩ => ?_⟩⟩
      · cases h; exact ⟨q, rfl, he, rfl, rfl⟩
      · rintro ⟨q', h, -, rfl, rfl⟩; cases h; rfl
      · rintro ⟨_, h, -⟩; cases h
      · cases h; exact absurd he h5
    · obtain ⟨s', h5, h6⟩ := h4 he
      rw [h5]
      refine ⟨by simp, fun m s' => ⟨(nomatch ·), fun ⟨q', h, h7, _⟩ => ?_⟩, fun q' => ⟨fun ⟨t, h, h7⟩ => ?_, fun ⟨h, _⟩ => ?_⟩⟩
      · cases h; exact absurd h7 he
      · cases h; rw [h6] at h7; subst h7; exact ⟨rfl, he⟩
      · cases h; exact ⟨s', rfl, h6⟩

/-- C92: the class offers no way to reset the status, so once there is an error, every call of `open`, `close`, `queryType`
and `queryVals` raises an exception (or is undefined), whatever calls were made in between, as long as no query is made. -/
theorem C92_sticky (fmt : Fmt K) (s s' : CenCalVMDB K) (he : s.q.err.status = .ERROR) (cs : List (CenCalVMDB.Call K))
    (hcs : ∀ c ∈ cs, ¬ c.IsQuery) (h : CenCalVMDB.run fmt s cs = some s') :
    s'.q.err.status = .ERROR ∧
    ∀ (c : CenCalVMDB.Call K) f, c.setting = some f → call fmt s' c = .ub ∨ ∃ m t, call fmt s' c = .exc m t := by
  have key : ∀ (s : CenCalVMDB K), s.q.err.status = .ERROR → ∀ (c : CenCalVMDB.Call K) f, c.setting = some f →
      call fmt s c = .ub ∨ ∃ m t, call fmt s c = .exc m t ∧ t.q.err.status = .ERROR := by
    intro s he c f hf
    obtain ⟨h1, h2⟩ := call_setting fmt s hf
    cases hq : f s.q with
    | exc m => exact absurd hq (setting_ne_exc hf _ _)
    | ub => exact .inl (h1 hq)
    | ok q =>
      have := setting_error hf hq he
      exact .inr ⟨_, _, (h2 q hq).1 this, this⟩
  have main : s'.q.err.status = .ERROR := by
    induction cs generalizing s with
    | nil => cases h; exact he
    | cons c cs ih =>
      have hc := hcs c (by simp)
      simp only [CenCalVMDB.run, Option.bind_eq_some_iff] at h
      obtain ⟨t, h1, h2⟩ := h
      refine ih t ?_ (fun c' h' => hcs c' (by simp [h'])) h2
      cases hf : c.setting with
      | some f =>
        unfold CenCalVMDB.step at h1
        rcases key s he c f hf with h3 | ⟨m, t', h3, h4⟩ <;> rw [h3] at h1 <;> cases h1
        exact h4
      | none =>
        cases c <;> simp only [Call.setting, reduceCtorEq] at hf <;>
          first
          | exact absurd trivial hc
          | (cases h1; exact he)
          | (cases h1; simp only [VMQuery.setQueryRes, VMQuery.setCacheSize, VMQuery.setCacheSizeExt]; split <;> first | rfl | exact he)
  exact ⟨main, fun c f hf => (key s' main c f hf).imp_right fun ⟨m, t, h, _⟩ => ⟨m, t, h⟩⟩

/-- The object after a value is asked for that does not exist. -/
def exSpErr : CenCalVMDB ℚ := (CenCalVMDB.step exFmt (exSp true) (.queryVals ["speed"] 1)).getD (exSp true)
/-- Then values that do. -/
def exSpErr2 : CenCalVMDB ℚ := (CenCalVMDB.step exFmt exSpErr (.queryVals exSpNames 5)).getD (exSp true)
/-- The status after a call: did it raise an exception, and what is the status? -/
def spatialCall (r : Run (CenCalVMDB ℚ) Unit) : Option (Bool × Status) :=
  match r with
  | .ok s _ => some (false, s.q.err.status)
  | .exc _ s => some (true, s.q.err.status)
  | .ub => none

example : (exSp true).q.err.status = .OK ∧ exSpErr.q.err.status = .ERROR ∧
    (∃ f, (CenCalVMDB.Call.queryType 0 : CenCalVMDB.Call ℚ).setting = some f) ∧
    spatialCall (call exFmt (exSp true) (.queryType 0)) = some (false, .OK) ∧
    spatialCall (call exFmt exSpErr (.queryType 0)) = some (true, .ERROR) ∧
    spatialCall (call exFmt exSpErr (.close false false)) = some (true, .ERROR) ∧
    spatialCall (call exFmt { exSp true with q := { (exSp true).q with err := (exSp true).q.err.warning "" } } (.queryType 0)) =
      some (false, .WARNING) :=
  ⟨by decide +kernel, by decide +kernel, ⟨_, rfl⟩, by decide +kernel, by decide +kernel, by decide +kernel, by decide +kernel⟩

/-- The full claim, that an error is reported by every later call of these, is false: a query where there is no data turns
the error into a warning and then clears it. -/
theorem C92_false : ¬ ∀ (fmt : Fmt ℚ) (s s' : CenCalVMDB ℚ), s.q.err.status = .ERROR → ∀ (cs : List (CenCalVMDB.Call ℚ)),
    CenCalVMDB.run fmt s cs = some s' → s'.q.err.status = .ERROR := by
  intro h
  have h1 : ((CenCalVMDB.run exFmt exSpErr2 [.query (fun c => .ok c) 5 (220, 40, 17000)]).map fun s => s.q.err.status) = some .OK := by
    decide +kernel
  cases h2 : CenCalVMDB.run exFmt exSpErr2 [.query (fun c => .ok c) 5 (220, 40, 17000)] with
  | none => rw [h2] at h1; cases h1
  | some s' =>
    have h3 := h exFmt exSpErr2 s' (by decide +kernel) _ h2
    rw [h2, Option.map_some, h3] at h1
    cases h1

/-! ### C93 -/

/-- C93, the part that holds, after values were set by a call that returned normally: if the caller's array has one place
for each, a query reads and writes no place outside it, and is undefined only if the conversion of the coordinates is, or a
query of the underlying object at one of the nine elevations.  Missing: after a call setting the values has raised an
exception. -/
theorem C93_partial {fmt : Fmt K} {names : List String} {s : CenCalVMDB K} (hr : Returns fmt names s)
    {conv : K × K × K → Outcome (K × K × K)} {c : K × K × K} (h : query fmt conv s names.length c = .ub) :
    conv c = .ub ∨ ∃ lon lat elev j e fs, conv c = .ok (lon, lat, elev) ∧ j ≤ 8 ∧
      VMQuery.query fmt { s.q with err := e } fs names.length lon lat (probe s.q.rd (max elev (-44950)) j) = .ub := by
  have hx := hr.indexed
  unfold query at h
  split at h
  · cases h
  · next hc => exact .inl hc
  next b hb =>
  right
  have hz : (if b.2.2 < -44950 then -44950 else b.2.2) = max b.2.2 (-44950) := by
    split
    · next h => rw [max_eq_right h.le]
    · next h => rw [max_eq_left (not_lt.1 h)]
  rw [hz] at h
  dsimp only at h
  obtain ⟨lon, lat, elev⟩ := b
  refine ⟨lon, lat, elev, ?_⟩
  dsimp only at h
  split at h
  · cases h
  · next hk =>
    refine ⟨0, s.q.err, s.fs, hb, by omega, ?_⟩
    unfold ask at hk
    split at hk
    · cases hk
    · next h1 => exact h1
    · cases hk
  next t0 h0 =>
  have h1 := (ask_ok h0).1
  have h2 := query_len h1
  split at h
  · cases h
  split at h
  · cases h
  · next hu =>
    cases hp : project fmt s names.length lon lat (max elev (-44950)) t0 with
    | exc m => rw [hp] at hu; cases hu
    | ub =>
      unfold project at hp
      split at hp
      · next hd =>
        cases hf : fill fmt s.vsVal names.length lon lat (max elev (-44950)) 8 1 t0 with
        | exc m => rw [hf] at hp; cases hp
        | ub =>
          obtain ⟨j, e, fs, h3, h4⟩ := fill_ub (q := s.q) (n := 0) hf (query_err h1) h2 hd.1 hx.vs.lt
          exact ⟨j, e, fs, hb, by omega, h4⟩
        | ok t1 =>
          rw [hf, Outcome.bind_ok] at hp
          have h3 := fill_length hf h2
          cases hra : raise t1.vals s.vsVal 0 s.minVs with
          | exc m => rw [hra] at hp; cases hp
          | ub => exact absurd hra (raise_ne_ub hd.1 (by rw [h3]; exact hx.vs.lt) _ _)
          | ok v => rw [hra] at hp; cases hp
      · cases hp
    | ok t1 =>
      rw [hp, Outcome.bind_ok] at hu
      have h3 : (t1.vals.length : Int) = names.length := by
        rcases project_parts hp with ⟨-, rfl⟩ | ⟨-, -, t2, h4, h5, -⟩
        · exact h2
        · rw [raise_length h5, fill_length h4 h2]
      cases hv : raiseVp s t1.vals with
      | exc m => rw [hv] at hu; cases hu
      | ub =>
        unfold raiseVp at hv
        split at hv
        · next h4 => exact absurd hv (raise_ne_ub h4 (by rw [h3]; exact hx.vp.lt) _ _)
        · cases hv
      | ok v1 =>
        rw [hv, Outcome.bind_ok] at hu
        have h4 : v1.length = t1.vals.length := by
          unfold raiseVp at hv
          split at hv
          · exact raise_length hv
          · cases hv; rfl
        cases hd : raiseDensity s v1 with
        | exc m => rw [hd] at hu; cases hu
        | ub =>
          unfold raiseDensity at hd
          split at hd
          · next h5 => exact absurd hd (raise_ne_ub h5 (by rw [h4, h3]; exact hx.density.lt) _ _)
          · cases hd
        | ok v2 => rw [hd] at hu; cases hu
  · split at h <;> cases h

/-- Is the outcome undefined? -/
def spatialUb : Run (CenCalVMDB ℚ) (Int × List ℚ × List ℚ) → Bool
  | .ub => true
  | _ => false

example : Returns exFmt exSpNames (exSp true) ∧
    spatialUb (query exFmt (fun _ => .ub) (exSp true) (exSpNames.length : ℕ) exSpLoc) = true ∧
    spatialUb (query exFmt (fun c => .ok c) (exSp true) (exSpNames.length : ℕ) exSpLoc) = false :=
  ⟨exSp_returns true, by decide +kernel, by decide +kernel⟩

/-- The object after an error. -/
def exSpLost : CenCalVMDB ℚ := { exSp true with q := { (exSp true).q with err := (exSp true).q.err.error "lost" } }
/-- The object after the values are then set again. -/
def exSpStale : CenCalVMDB ℚ := { exSpLost with q := { exSpLost.q with queryVals := [some 3] } }
/-- The values of an underlying query. -/
def answerOf : Outcome (VMQuery ℚ × Files × List ℚ) → Option (List ℚ)
  | .ok r => some r.2.2
  | _ => none
theorem answerOf_eq {o : Outcome (VMQuery ℚ × Files × List ℚ)} {v : List ℚ} (h : answerOf o = some v) :
    ∃ q fs, o = .ok (q, fs, v) := by
  cases o with
  | ok r => cases h; exact ⟨_, _, rfl⟩
  | exc m => cases h
  | ub => cases h

/-- The full claim is false: a call of `queryVals` that raises an exception, because of an earlier error, has changed the values
of the underlying object but not the positions remembered.  If the next query finds no data, it raises no exception, and
reads outside the array. -/
theorem C93_false : ¬ ∀ (fmt : Fmt ℚ) (s0 s : CenCalVMDB ℚ) (names : List String) (m : String)
    (conv : ℚ × ℚ × ℚ → Outcome (ℚ × ℚ × ℚ)) (c : ℚ × ℚ × ℚ), names ≠ [] → queryVals s0 names names.length = .exc m s →
    query fmt conv s names.length c = .ub → conv c = .ub ∨ ∃ lon lat elev j e fs, conv c = .ok (lon, lat, elev) ∧ j ≤ 8 ∧
      VMQuery.query fmt { s.q with err := e } fs names.length lon lat (probe s.q.rd (max elev (-44950)) j) = .ub := by
  intro h
  have h1 : queryVals exSpLost ["Qp"] (["Qp"].length : ℕ) = .exc "lost" exSpStale := rfl
  have h2 : query exFmt (fun c => .ok c) exSpStale (["Qp"].length : ℕ) (220, 40, 17000) = .ub := by
    have : spatialUb (query exFmt (fun c => .ok c) exSpStale (["Qp"].length : ℕ) (220, 40, 17000)) = true := by decide +kernel
    revert this
    cases query exFmt (fun c => .ok c) exSpStale (["Qp"].length : ℕ) (220, 40, 17000) <;> simp [spatialUb]
  have ho : exSpStale.q.geom = some exGeom ∧ exSpStale.q.db = some exDb := ⟨(exSp_open true).geom_eq, (exSp_open true).db_eq⟩
  rcases h exFmt exSpLost exSpStale ["Qp"] "lost" _ _ (by simp) h1 h2 with h3 | ⟨lon, lat, elev, j, e, fs, h3, h4, h5⟩
  · cases h3
  · cases h3
    have hm : max (17000 : ℚ) (-44950) = 17000 := by decide +kernel
    rw [hm] at h5
    have h6 : ∀ j ≤ 8, answerOf (VMQuery.query exFmt exSpStale.q (fun _ => "") (["Qp"].length : ℕ) 220 40 (probe Rd.exact 17000 j)) = some [-999] := by
      decide +kernel
    obtain ⟨q, fs', h7⟩ := answerOf_eq (h6 j h4)
    exact answered_any (exSp_open true).lawful ho.1 ho.2 ⟨q, fs', h7⟩ e fs h5

end CenCalVM
