/-
C89 to C91: grading with numbers of type `float` and `double`.
-/
import Verif.Lemmas.GradeFloat
import Verif.Props.Grade

set_option linter.unusedSectionVars false

namespace CenCalVM
open VsGrader

/-! ### Example data -/

/-- Rounding to the nearest numbers of type `float` and `double`. -/
def exRd : Rd ℚ := ⟨fl IntRound.nearest 24, fl IntRound.nearest 53⟩
/-- The example grid with a maximum gradient of 0.002 per second, a number of type `double`. -/
def exGridF : Grid ℚ := { exGrid with gradientMax := fl IntRound.nearest 53 (1 / 500), rd := exRd }

theorem exRd_binary : exGridF.rd.Binary IntRound.nearest IntRound.nearest := ⟨rfl, rfl⟩
theorem exGridF_dims : Dims exGridF 2 2 2 := by
  constructor <;> decide +kernel
theorem exGridF_cell : ∀ l < 2, ∀ w < 2, ∀ h < 2, PointCell exGridF 12 l w h (exPointAddr l w h) := by
  have key : ∀ x ∈ points 2 2 2, PointAt exGridF x.1 x.2.1 x.2.2 (exLoc x.1 x.2.1 x.2.2).1 (exLoc x.1 x.2.1 x.2.2).2.1
      (exLoc x.1 x.2.1 x.2.2).2.2 ∧ CellOf exGridF.geom 12 (exLoc x.1 x.2.1 x.2.2).1 (exLoc x.1 x.2.1 x.2.2).2.1
      (exLoc x.1 x.2.1 x.2.2).2.2 (exPointAddr x.1 x.2.1 x.2.2) := by
    unfold PointAt Steps CellOf
    decide +kernel
  exact fun l hl w hw h hh => ⟨_, _, _, key (l, w, h) (mem_points.2 ⟨hl, hw, hh⟩)⟩
theorem exGridF_onGrid (v : Nat → Nat → Nat → ℚ) : OnGrid exGridF 12 2 2 2 (exGridDb v) := onGrid_of_cells exGridF_cell v
/-- 1024 at the first point, 3000 elsewhere. -/
def exSpeedsF (l w h : Nat) : ℚ := if (l, w, h) = (0, 0, 0) then 1024 else 3000


/-- The shear wave speeds and densities a method leaves for the points of the example grid. -/
def exGradeVals (r : Run (Db ℚ) Unit) : Option (List (Option (ℚ × ℚ))) :=
  match r with
  | .ok db _ => some ((points 2 2 2).map fun x =>
      (db.lookup (exPointAddr x.1 x.2.1 x.2.2).toKey).map fun e => (e.payload.vs, e.payload.density))
  | _ => none

theorem exGrade_val {db db' : Db ℚ} (ho : OnGrid exGridF 12 2 2 2 db') {junk : Payload ℚ} (h : grade exGridF junk db = .ok db' ())
    {x : List (Option (ℚ × ℚ))} (hx : exGradeVals (grade exGridF junk db) = some x) {l w i : Nat} (hl : l < 2) (hw : w < 2) (hi : i < 2)
    {k : Nat} (hk : (points 2 2 2)[k]? = some (l, w, i)) {y : ℚ × ℚ} (hy : x[k]? = some (some y)) :
    ∀ p, PointPayload exGridF 12 db' l w i p → p.vs = y.1 ∧ p.density = y.2 := by
  intro p hp
  have hc := exGridF_cell l hl w hw i hi
  have hp' := (pointPayload_iff ho.sorted hc).1 hp
  rw [pointKey_eq hc] at hp'
  rw [h] at hx
  simp only [exGradeVals, Option.some.injEq] at hx
  rw [← hx, List.getElem?_map, hk] at hy
  simp only [Option.map_some, Option.some.injEq] at hy
  unfold Db.payloadAt at hp'
  cases he : db'.lookup (exPointAddr l w i).toKey with
  | none => rw [he] at hy; cases hy
  | some e =>
    rw [he] at hy hp'
    simp only [Option.map_some, Option.some.injEq] at hy hp'
    rw [← hp', ← hy]
    exact ⟨rfl, rfl⟩

section
variable {K : Type} [Field K] [LinearOrder K] [IsStrictOrderedRing K] [FloorRing K]

/-- What grading with rounding does, in terms of the grading with exact arithmetic. -/
theorem gradeFl {rs rdb : IntRound K} {s : Grid K} {n nL nW nH : Nat} (hg : s.geom.Lawful) (hb : s.rd.Binary rs rdb)
    (hm : 0 ≤ s.gradientMax) (hlv : s.geom.level (s.resVert * s.geom.vertExag) = .ok (n : Int)) (hd : Dims s nL nW nH) {db : Db K}
    (ho : OnGrid s n nL nW nH db) (junk : Payload K)
    (h0 : ∀ l < nL, ∀ w < nW, ∀ h < nH, ∀ p, PointPayload s n db l w h p → 0 ≤ p.vs) :
    ∃ db', grade s junk db = .ok db' () ∧ OnGrid s n nL nW nH db' ∧ db'.entries.map (·.addr) = db.entries.map (·.addr) ∧
      ∃ V V' e : Nat → Nat → Nat → Payload K,
        (∀ l < nL, ∀ w < nW, ∀ h < nH, ∀ p, PointPayload s n db l w h p ↔ p = V l w h) ∧
        (∀ l < nL, ∀ w < nW, ∀ h < nH, ∀ p, PointPayload s n db' l w h p ↔ p = V' l w h) ∧
        V' = passes s.rd (s.rd.double (s.gradientMax * s.resHoriz)) (s.rd.double (s.gradientMax * s.resVert)) nL nW nH V ∧
        e = passes .exact (s.gradientMax * s.resHoriz) (s.gradientMax * s.resVert) nL nW nH V ∧
        ∀ l < nL, ∀ w < nW, ∀ h < nH, 0 ≤ (V' l w h).vs ∧ 0 ≤ (e l w h).vs ∧
          Within ((1 + 1 / 2 ^ 22) ^ (4 * (nL + nW + nH) + 1)) (V' l w h).vs (e l w h).vs := by
  obtain ⟨db', h1, h2, h3, V, h4, h5⟩ := grade_dims hg hlv hd ho junk
  obtain ⟨m1, m2⟩ := hd.res hm
  have hn := hb.near
  have hV : ∀ l < nL, ∀ w < nW, ∀ h < nH, 0 ≤ (V l w h).vs := fun l hl w hw i hi => h0 l hl w hw i hi _ ((h4 l hl w hw i hi _).2 rfl)
  refine ⟨db', h1, h2, h3, V, _, _, h4, h5, rfl, rfl, fun l hl w hw i hi => ?_⟩
  have := passes_near hn m1 m2 (hn.double.nonneg hn.one m1) (hn.double.nonneg hn.one m2) hn.one (hn.double.within m1) (hn.double.within m2)
    hV hV (fun l hl w hw i hi => Within.refl hn.one (hV l hl w hw i hi)) l hl w hw i hi
  rw [pow_succ']
  exact this

theorem VsGrader.Bounded3.upTo {mh mv : K} {nL nW nH : Nat} {V' e : Nat → Nat → Nat → Payload K}
    (hbd : Bounded3 mh mv nL nW nH fun l w h => (e l w h).vs) (m1 : 0 ≤ mh) (m2 : 0 ≤ mv) (hone : (1 : K) ≤ 1 + 1 / 2 ^ 22)
    (h6 : ∀ l < nL, ∀ w < nW, ∀ h < nH, 0 ≤ (V' l w h).vs ∧ 0 ≤ (e l w h).vs ∧
          Within ((1 + 1 / 2 ^ 22) ^ (4 * (nL + nW + nH) + 1)) (V' l w h).vs (e l w h).vs) :
    Bounded3UpTo ((1 + 1 / 2 ^ 22) ^ (8 * (nL + nW + nH) + 2)) mh mv nL nW nH fun l w h => (V' l w h).vs := by
  have key : ∀ {a b x y m : K}, 0 ≤ m → 0 ≤ b → Within ((1 + 1 / 2 ^ 22) ^ (4 * (nL + nW + nH) + 1)) a x →
      Within ((1 + 1 / 2 ^ 22) ^ (4 * (nL + nW + nH) + 1)) b y → x ≤ y + m →
      a ≤ (1 + 1 / 2 ^ 22) ^ (8 * (nL + nW + nH) + 2) * (b + m) := by
    intro a b x y m hm hb ha hby hxy
    have hR1 : (1 : K) ≤ (1 + 1 / 2 ^ 22) ^ (4 * (nL + nW + nH) + 1) := one_le_pow₀ hone
    have hsq : (1 + 1 / 2 ^ 22 : K) ^ (8 * (nL + nW + nH) + 2) =
        (1 + 1 / 2 ^ 22) ^ (4 * (nL + nW + nH) + 1) * (1 + 1 / 2 ^ 22) ^ (4 * (nL + nW + nH) + 1) := by
      rw [← pow_add]; congr 1; omega
    rw [hsq]
    generalize (1 + 1 / 2 ^ 22 : K) ^ (4 * (nL + nW + nH) + 1) = R at *
    calc a ≤ R * x := ha.1
      _ ≤ R * (R * b + m) := mul_le_mul_of_nonneg_left (hxy.trans (add_le_add hby.2 le_rfl)) (by linarith)
      _ ≤ R * (R * b + R * m) := mul_le_mul_of_nonneg_left (add_le_add le_rfl (le_mul_of_one_le_left hm hR1)) (by linarith)
      _ = _ := by ring
  refine ⟨?_, ?_, ?_⟩
  · intro w hw i hi l hl
    obtain ⟨a1, -, a3⟩ := h6 (l + 1) hl w hw i hi
    obtain ⟨b1, -, b3⟩ := h6 l (by omega) w hw i hi
    have := abs_le.1 (hbd.len w hw i hi l hl)
    exact ⟨key m1 b1 a3 b3 (by linarith [this.2]), key m1 a1 b3 a3 (by linarith [this.1])⟩
  · intro l hl i hi w hw
    obtain ⟨a1, -, a3⟩ := h6 l hl (w + 1) hw i hi
    obtain ⟨b1, -, b3⟩ := h6 l hl w (by omega) i hi
    have := abs_le.1 (hbd.width l hl i hi w hw)
    exact ⟨key m1 b1 a3 b3 (by linarith [this.2]), key m1 a1 b3 a3 (by linarith [this.1])⟩
  · intro l hl w hw i hi
    obtain ⟨a1, -, a3⟩ := h6 l hl w hw (i + 1) hi
    obtain ⟨b1, -, b3⟩ := h6 l hl w hw i (by omega)
    have := abs_le.1 (hbd.ht l hl w hw i hi)
    exact ⟨key m2 b1 a3 b3 (by linarith [this.2]), key m2 a1 b3 a3 (by linarith [this.1])⟩

/-! ### C89 -/

/-- C89, a line: if the differences of neighbours are rounded to `float`, the reduced speeds to `double` and then to `float`, in whatever
directions, then after limiting a speed exceeds its neighbour by at most the maximum, up to a factor of (1 + 2^-22)^4, however long
the line. -/
theorem C89_line {rs rdb : IntRound K} {rd : Rd K} (hb : rd.Binary rs rdb) {m : K} (hm : 0 ≤ m) (n : Nat) (d : Nat → Payload K)
    (hd : ∀ i < n, 0 ≤ (d i).vs) :
    ∀ i, i + 1 < n →
      ((limitDiff rd m n d).data (i + 1)).vs ≤ (1 + 1 / 2 ^ 22) ^ 4 * (((limitDiff rd m n d).data i).vs + m) ∧
      ((limitDiff rd m n d).data i).vs ≤ (1 + 1 / 2 ^ 22) ^ 4 * (((limitDiff rd m n d).data (i + 1)).vs + m) :=
  limitDiff_boundedUpTo hb.near hm hd

/-- The reduced speeds are rounded. -/
example : exRd.Binary IntRound.nearest IntRound.nearest ∧ (∀ i < 3, 0 ≤ (exLine [3000, 1024, 3000] i).vs) ∧
    ((List.range 3).map fun i => ((limitDiff exRd (4 / 5) 3 (exLine [3000, 1024, 3000])).data i).vs) =
      [1024 + 6554 / 8192, 1024, 1024 + 6554 / 8192] := ⟨⟨rfl, rfl⟩, by decide +kernel, by decide +kernel⟩

/-- C89: grading a database that holds the grid with speeds that are not negative ends normally, keeps the octants, and leaves speeds
that exceed those of their neighbours, along each of the three axes, by at most the maximum gradient times the spacing along the axis,
up to a factor of (1 + 2^-22)^k with `k` eight times the sum of the numbers of points along the axes plus two. -/
theorem C89 {rs rdb : IntRound K} {s : Grid K} {n nL nW nH : Nat} (hg : s.geom.Lawful) (hb : s.rd.Binary rs rdb)
    (hm : 0 ≤ s.gradientMax) (hlv : s.geom.level (s.resVert * s.geom.vertExag) = .ok (n : Int)) (hd : Dims s nL nW nH) {db : Db K}
    (ho : OnGrid s n nL nW nH db) (junk : Payload K)
    (h0 : ∀ l < nL, ∀ w < nW, ∀ h < nH, ∀ p, PointPayload s n db l w h p → 0 ≤ p.vs) :
    ∃ db', grade s junk db = .ok db' () ∧ OnGrid s n nL nW nH db' ∧ db'.entries.map (·.addr) = db.entries.map (·.addr) ∧
      ∃ v : Nat → Nat → Nat → K, (∀ l < nL, ∀ w < nW, ∀ h < nH, ∀ p, PointPayload s n db' l w h p → p.vs = v l w h) ∧
        (∀ l < nL, ∀ w < nW, ∀ h < nH, 0 ≤ v l w h) ∧
        Bounded3UpTo ((1 + 1 / 2 ^ 22) ^ (8 * (nL + nW + nH) + 2)) (s.gradientMax * (s.resVert * s.geom.vertExag))
          (s.gradientMax * s.resVert) nL nW nH v := by
  obtain ⟨db', h1, h2, h3, V, V', e, -, h5, -, he, h6⟩ := gradeFl hg hb hm hlv hd ho junk h0
  obtain ⟨m1, m2⟩ := hd.res hm
  have hbd := passes_bounded m1 m2 nL nW nH V
  rw [← he] at hbd
  exact ⟨db', h1, h2, h3, fun l w h => (V' l w h).vs, fun l hl w hw i hi p hp => by rw [(h5 l hl w hw i hi p).1 hp],
    fun l hl w hw i hi => (h6 l hl w hw i hi).1, hbd.upTo (V' := V') (e := e) m1 m2 hb.near.one h6⟩

/-- The hypotheses hold of the example grid, whose maximum differences are about 0.8 m/s horizontally and 0.2 m/s vertically. -/
example : exGridF.geom.Lawful ∧ exGridF.rd.Binary IntRound.nearest IntRound.nearest ∧ (0 : ℚ) ≤ exGridF.gradientMax ∧
    exGridF.geom.level (exGridF.resVert * exGridF.geom.vertExag) = .ok ((12 : Nat) : Int) ∧ Dims exGridF 2 2 2 ∧
    OnGrid exGridF 12 2 2 2 (exGridDb exSpeedsF) ∧ (∀ e ∈ (exGridDb exSpeedsF).entries, 0 ≤ e.payload.vs) ∧
    exGradeSpeeds (grade exGridF (exPay 0 0) (exGridDb exSpeedsF)) = some [some 1024, some (4195123 / 4096), some (4197581 / 4096),
      some 1025, some (4197581 / 4096), some 1025, some (2100429 / 2048), some (4201677 / 4096)] :=
  ⟨exGradeGeom_lawful, exRd_binary, by decide +kernel, exGrid_level, exGridF_dims, exGridF_onGrid _, by decide +kernel, by decide +kernel⟩

/-- C89, the width, which is graded last: the factor does not depend on the size of the grid. -/
theorem C89_width {rs rdb : IntRound K} {s : Grid K} {n nL nW nH : Nat} (hg : s.geom.Lawful) (hb : s.rd.Binary rs rdb)
    (hm : 0 ≤ s.gradientMax) (hlv : s.geom.level (s.resVert * s.geom.vertExag) = .ok (n : Int)) (hd : Dims s nL nW nH) {db db' : Db K}
    (ho : OnGrid s n nL nW nH db) {junk : Payload K}
    (h0 : ∀ l < nL, ∀ w < nW, ∀ h < nH, ∀ p, PointPayload s n db l w h p → 0 ≤ p.vs) (h : grade s junk db = .ok db' ()) :
    ∀ l < nL, ∀ w, w + 1 < nW → ∀ h < nH, ∀ p q, PointPayload s n db' l w h p → PointPayload s n db' l (w + 1) h q →
      p.vs ≤ (1 + 1 / 2 ^ 22) ^ 5 * (q.vs + s.gradientMax * (s.resVert * s.geom.vertExag)) ∧
      q.vs ≤ (1 + 1 / 2 ^ 22) ^ 5 * (p.vs + s.gradientMax * (s.resVert * s.geom.vertExag)) := by
  obtain ⟨d, h1, -, -, V, V', e, h4, h5, hV', -, h6⟩ := gradeFl hg hb hm hlv hd ho junk h0
  cases h1.symm.trans h
  obtain ⟨m1, m2⟩ := hd.res hm
  have hn := hb.near
  have hone : (1 : K) ≤ 1 + 1 / 2 ^ 22 := hn.one
  have mh := hn.double.nonneg hn.one m1
  have mv := hn.double.nonneg hn.one m2
  have hV : ∀ l < nL, ∀ w < nW, ∀ h < nH, 0 ≤ (V l w h).vs := fun l hl w hw i hi => h0 l hl w hw i hi _ ((h4 l hl w hw i hi _).2 rfl)
  have hnn : ∀ {m : K}, 0 ≤ m → ∀ n (d : Nat → Payload K), (∀ i < n, 0 ≤ (d i).vs) → ∀ i < n, 0 ≤ ((limitDiff s.rd m n d).data i).vs :=
    fun hm n d hd i hi => (limitDiff_near hn hm hm le_rfl (Within.refl le_rfl hm) hd hd (fun i hi => Within.refl le_rfl (hd i hi)) i hi).1
  intro l hl w hw i hi p q hp hq
  have hline := limitDiff_boundedUpTo hn mh (d := fun w => passLen s.rd (s.rd.double (s.gradientMax * s.resHoriz)) nL
      (passHt s.rd (s.rd.double (s.gradientMax * s.resVert)) nH V) l w i)
    (fun w hw => hnn mh nL _ (fun l hl => hnn mv nH _ (fun i hi => hV l hl w hw i hi) i hi) l hl) w hw
  have e1 : p.vs = ((limitDiff s.rd (s.rd.double (s.gradientMax * s.resHoriz)) nW fun w => passLen s.rd (s.rd.double (s.gradientMax * s.resHoriz)) nL
      (passHt s.rd (s.rd.double (s.gradientMax * s.resVert)) nH V) l w i).data w).vs := by
    rw [(h5 l hl w (by omega) i hi p).1 hp, hV']; rfl
  have e2 : q.vs = ((limitDiff s.rd (s.rd.double (s.gradientMax * s.resHoriz)) nW fun w => passLen s.rd (s.rd.double (s.gradientMax * s.resHoriz)) nL
      (passHt s.rd (s.rd.double (s.gradientMax * s.resVert)) nH V) l w i).data (w + 1)).vs := by
    rw [(h5 l hl _ hw i hi q).1 hq, hV']; rfl
  have p0 : 0 ≤ p.vs := by rw [(h5 l hl w (by omega) i hi p).1 hp]; exact (h6 l hl w (by omega) i hi).1
  have q0 : 0 ≤ q.vs := by rw [(h5 l hl _ hw i hi q).1 hq]; exact (h6 l hl _ hw i hi).1
  simp only [← e1, ← e2] at hline
  have key : ∀ {a : K}, 0 ≤ a → (1 + 1 / 2 ^ 22) ^ 4 * (a + s.rd.double (s.gradientMax * s.resHoriz)) ≤
      (1 + 1 / 2 ^ 22) ^ 5 * (a + s.gradientMax * (s.resVert * s.geom.vertExag)) := by
    intro a ha
    have h7 := (hn.double.within m1).1
    calc _ ≤ (1 + 1 / 2 ^ 22) ^ 4 * ((1 + 1 / 2 ^ 22) * a + (1 + 1 / 2 ^ 22) * (s.gradientMax * s.resHoriz)) :=
          mul_le_mul_of_nonneg_left (add_le_add (le_mul_of_one_le_left ha hone) h7) (by positivity)
      _ = _ := by simp only [Grid.resHoriz]; ring
  exact ⟨hline.2.trans (key q0), hline.1.trans (key p0)⟩

example : (exGradeSpeeds (grade exGridF (exPay 0 0) (exGridDb exSpeedsF))).isSome := by decide +kernel

/-- C89, why there is a factor: with numbers of type `float` and `double` the bounds of C50 do not hold.  In the example the maximum
difference along the width is 0.8 m/s, and the difference found is 6554/8192 m/s, which is more than 0.80004 m/s. -/
theorem C89_false : ∃ db', grade exGridF (exPay 0 0) (exGridDb exSpeedsF) = .ok db' () ∧
    exGridF.gradientMax * (exGridF.resVert * exGridF.geom.vertExag) < 800001 / 1000000 ∧
    ∀ p q, PointPayload exGridF 12 db' 0 0 0 p → PointPayload exGridF 12 db' 0 1 0 q → q.vs - p.vs > 80004 / 100000 := by
  obtain ⟨db', h1, h2, -⟩ := grade_dims (s := exGridF) exGradeGeom_lawful exGrid_level exGridF_dims (exGridF_onGrid exSpeedsF) (exPay 0 0)
  refine ⟨db', h1, by decide +kernel, fun p q hp hq => ?_⟩
  have hx : exGradeVals (grade exGridF (exPay 0 0) (exGridDb exSpeedsF)) = some [some (1024, 2500), some (4195123 / 4096, 1707 / 2),
      some (4197581 / 4096, 854), some (1025, 6997333 / 8192), some (4197581 / 4096, 854), some (1025, 6997333 / 8192),
      some (2100429 / 2048, 14002859 / 16384), some (4201677 / 4096, 14005589 / 16384)] := by decide +kernel
  rw [(exGrade_val h2 h1 hx (by decide) (by decide) (by decide) (k := 0) (by decide) rfl p hp).1,
    (exGrade_val h2 h1 hx (by decide) (by decide) (by decide) (k := 2) (by decide) rfl q hq).1]
  norm_num

/-! ### C90 -/

/-- C90: whatever the size of the grid, grading leaves every positive speed positive and raises none by more than a factor of
(1 + 2^-22)^12; the quotients of the other properties by the speed change by at most a factor of (1 + 2^-22)^18; depth, fault block and
zone are kept. -/
theorem C90 {rs rdb : IntRound K} {s : Grid K} {n nL nW nH : Nat} (hg : s.geom.Lawful) (hb : s.rd.Binary rs rdb)
    (hm : 0 ≤ s.gradientMax) (hlv : s.geom.level (s.resVert * s.geom.vertExag) = .ok (n : Int)) (hd : Dims s nL nW nH) {db db' : Db K}
    (ho : OnGrid s n nL nW nH db) {junk : Payload K}
    (h0 : ∀ l < nL, ∀ w < nW, ∀ h < nH, ∀ p, PointPayload s n db l w h p → 0 < p.vs) (h : grade s junk db = .ok db' ()) :
    ∀ l < nL, ∀ w < nW, ∀ h < nH, ∀ p q, PointPayload s n db l w h p → PointPayload s n db' l w h q →
      0 < q.vs ∧ ReducedUpTo ((1 + 1 / 2 ^ 22) ^ 12) ((1 + 1 / 2 ^ 22) ^ 18) p q := by
  obtain ⟨d, h1, -, -, V, h4, h5⟩ := grade_dims hg hlv hd ho junk
  cases h1.symm.trans h
  obtain ⟨m1, m2⟩ := hd.res hm
  have hn := hb.near
  intro l hl w hw i hi p q hp hq
  rw [(h5 l hl w hw i hi q).1 hq, (h4 l hl w hw i hi p).1 hp]
  exact passes_reduced hn (hn.double.nonneg hn.one m1) (hn.double.nonneg hn.one m2)
    (fun l hl w hw i hi => h0 l hl w hw i hi _ ((h4 l hl w hw i hi _).2 rfl)) l hl w hw i hi

example : (∀ e ∈ (exGridDb exSpeedsF).entries, 0 < e.payload.vs) ∧
    exGradeVals (grade exGridF (exPay 0 0) (exGridDb exSpeedsF)) = some [some (1024, 2500), some (4195123 / 4096, 1707 / 2),
      some (4197581 / 4096, 854), some (1025, 6997333 / 8192), some (4197581 / 4096, 854), some (1025, 6997333 / 8192),
      some (2100429 / 2048, 14002859 / 16384), some (4201677 / 4096, 14005589 / 16384)] := ⟨by decide +kernel, by decide +kernel⟩

/-- C90: no speed falls below a number of type `float` that all speeds on the grid reached before. -/
theorem C90_floor {rs rdb : IntRound K} {s : Grid K} {n nL nW nH : Nat} (hg : s.geom.Lawful) (hb : s.rd.Binary rs rdb)
    (hm : 0 ≤ s.gradientMax) (hlv : s.geom.level (s.resVert * s.geom.vertExag) = .ok (n : Int)) (hd : Dims s nL nW nH) {db db' : Db K}
    (ho : OnGrid s n nL nW nH db) {junk : Payload K} (h : grade s junk db = .ok db' ()) {c : K} (hfl : fl rs 24 c = c)
    (hc : ∀ l < nL, ∀ w < nW, ∀ h < nH, ∀ p, PointPayload s n db l w h p → c ≤ p.vs) :
    ∀ l < nL, ∀ w < nW, ∀ h < nH, ∀ p, PointPayload s n db' l w h p → c ≤ p.vs := by
  obtain ⟨d, h1, -, -, V, h4, h5⟩ := grade_dims hg hlv hd ho junk
  cases h1.symm.trans h
  obtain ⟨m1, m2⟩ := hd.res hm
  have hn := hb.near
  intro l hl w hw i hi p hp
  rw [(h5 l hl w hw i hi p).1 hp]
  exact passes_floor (hb.keeps hfl) (hn.double.nonneg hn.one m1) (hn.double.nonneg hn.one m2)
    (fun l hl w hw i hi => hc l hl w hw i hi _ ((h4 l hl w hw i hi _).2 rfl)) l hl w hw i hi

example : fl IntRound.nearest 24 (1024 : ℚ) = 1024 ∧ ∀ e ∈ (exGridDb exSpeedsF).entries, 1024 ≤ e.payload.vs :=
  ⟨by decide +kernel, by decide +kernel⟩

/-! ### C91 -/

/-- C91: up to a factor, the graded volume is the greatest one: no volume that respects the three bounds and nowhere exceeds the original
exceeds the graded one by more than a factor of (1 + 2^-22)^k, with `k` four times the sum of the numbers of points along the axes
plus one. -/
theorem C91 {rs rdb : IntRound K} {s : Grid K} {n nL nW nH : Nat} (hg : s.geom.Lawful) (hb : s.rd.Binary rs rdb)
    (hm : 0 ≤ s.gradientMax) (hlv : s.geom.level (s.resVert * s.geom.vertExag) = .ok (n : Int)) (hd : Dims s nL nW nH) {db db' : Db K}
    (ho : OnGrid s n nL nW nH db) {junk : Payload K}
    (h0 : ∀ l < nL, ∀ w < nW, ∀ h < nH, ∀ p, PointPayload s n db l w h p → 0 ≤ p.vs) (h : grade s junk db = .ok db' ())
    {f : Nat → Nat → Nat → K}
    (hf : Bounded3 (s.gradientMax * (s.resVert * s.geom.vertExag)) (s.gradientMax * s.resVert) nL nW nH f)
    (hle : ∀ l < nL, ∀ w < nW, ∀ h < nH, ∀ p, PointPayload s n db l w h p → f l w h ≤ p.vs) :
    ∀ l < nL, ∀ w < nW, ∀ h < nH, ∀ p, PointPayload s n db' l w h p →
      f l w h ≤ (1 + 1 / 2 ^ 22) ^ (4 * (nL + nW + nH) + 1) * p.vs := by
  obtain ⟨d, h1, -, -, V, V', e, h4, h5, -, he, h6⟩ := gradeFl hg hb hm hlv hd ho junk h0
  cases h1.symm.trans h
  intro l hl w hw i hi p hp
  rw [(h5 l hl w hw i hi p).1 hp]
  have := passes_minorant hf (fun l hl w hw i hi => hle l hl w hw i hi _ ((h4 l hl w hw i hi _).2 rfl)) l hl w hw i hi
  rw [he] at h6
  exact this.trans (h6 l hl w hw i hi).2.2.2

/-- A competing volume. -/
example : Bounded3 (exGridF.gradientMax * (exGridF.resVert * exGridF.geom.vertExag)) (exGridF.gradientMax * exGridF.resVert) 2 2 2
    (fun _ _ _ => 1024) ∧ ∀ e ∈ (exGridDb exSpeedsF).entries, 1024 ≤ e.payload.vs := by
  refine ⟨⟨fun w hw h hh i hi => ?_, fun l hl h hh i hi => ?_, fun l hl w hw i hi => ?_⟩, by decide +kernel⟩ <;>
    (simp only [sub_self, abs_zero]; decide +kernel)

/-- C91: grading again ends normally and changes speeds by at most a factor of (1 + 2^-22)^k, with `k` twelve times the sum of the
numbers of points along the axes plus three. -/
theorem C91_again {rs rdb : IntRound K} {s : Grid K} {n nL nW nH : Nat} (hg : s.geom.Lawful) (hb : s.rd.Binary rs rdb)
    (hm : 0 ≤ s.gradientMax) (hlv : s.geom.level (s.resVert * s.geom.vertExag) = .ok (n : Int)) (hd : Dims s nL nW nH) {db db' : Db K}
    (ho : OnGrid s n nL nW nH db) {junk junk' : Payload K}
    (h0 : ∀ l < nL, ∀ w < nW, ∀ h < nH, ∀ p, PointPayload s n db l w h p → 0 ≤ p.vs) (h : grade s junk db = .ok db' ()) :
    ∃ db'', grade s junk' db' = .ok db'' () ∧ ∀ l < nL, ∀ w < nW, ∀ h < nH, ∀ p q,
      PointPayload s n db' l w h p → PointPayload s n db'' l w h q →
        Within ((1 + 1 / 2 ^ 22) ^ (12 * (nL + nW + nH) + 3)) p.vs q.vs := by
  obtain ⟨d, h1, h2, -, V, V', e, -, h5, -, he, h6⟩ := gradeFl hg hb hm hlv hd ho junk h0
  cases h1.symm.trans h
  have hp0 : ∀ l < nL, ∀ w < nW, ∀ h < nH, ∀ p, PointPayload s n db' l w h p → 0 ≤ p.vs := by
    intro l hl w hw i hi p hp
    rw [(h5 l hl w hw i hi p).1 hp]; exact (h6 l hl w hw i hi).1
  obtain ⟨d2, g1, -, -, V2, V2', e2, g4, g5, -, ge, g6⟩ := gradeFl hg hb hm hlv hd h2 junk' hp0
  obtain ⟨m1, m2⟩ := hd.res hm
  have hbd := passes_bounded m1 m2 nL nW nH V
  rw [← he] at hbd
  have hR1 : (1 : K) ≤ (1 + 1 / 2 ^ 22) ^ (4 * (nL + nW + nH) + 1) := one_le_pow₀ hb.near.one
  have hcube : (1 + 1 / 2 ^ 22 : K) ^ (12 * (nL + nW + nH) + 3) = ((1 + 1 / 2 ^ 22) ^ (4 * (nL + nW + nH) + 1)) ^ 3 := by
    rw [← pow_mul]; congr 1; omega
  have hf : Bounded3 (s.gradientMax * (s.resVert * s.geom.vertExag)) (s.gradientMax * s.resVert) nL nW nH
      fun l w h => (e l w h).vs / (1 + 1 / 2 ^ 22) ^ (4 * (nL + nW + nH) + 1) := by
    have key : ∀ {x y m : K}, |x - y| ≤ m →
        |x / (1 + 1 / 2 ^ 22) ^ (4 * (nL + nW + nH) + 1) - y / (1 + 1 / 2 ^ 22) ^ (4 * (nL + nW + nH) + 1)| ≤ m := by
      intro x y m hxy
      rw [← sub_div, abs_div, abs_of_pos (by linarith : (0 : K) < (1 + 1 / 2 ^ 22) ^ (4 * (nL + nW + nH) + 1))]
      exact (div_le_self (abs_nonneg _) hR1).trans hxy
    exact ⟨fun w hw i hi l hl => key (hbd.len w hw i hi l hl), fun l hl i hi w hw => key (hbd.width l hl i hi w hw),
      fun l hl w hw i hi => key (hbd.ht l hl w hw i hi)⟩
  have hlow := C91 hg hb hm hlv hd h2 hp0 g1 hf fun l hl w hw i hi p hp => by
    rw [(h5 l hl w hw i hi p).1 hp, div_le_iff₀ (by linarith), mul_comm]
    exact (h6 l hl w hw i hi).2.2.2
  refine ⟨d2, g1, fun l hl w hw i hi p q hp hq => ?_⟩
  have hpe := (h6 l hl w hw i hi).2.2.1
  have hq1 := hlow l hl w hw i hi q hq
  have hq2 := (g6 l hl w hw i hi).2.2.1
  have hq0 := (g6 l hl w hw i hi).1
  have hle : (e2 l w i).vs ≤ (V2 l w i).vs := by rw [ge]; exact passes_le l w i
  rw [← (g4 l hl w hw i hi p).1 hp] at hle
  rw [← (h5 l hl w hw i hi p).1 hp] at hpe
  rw [← (g5 l hl w hw i hi q).1 hq] at hq2 hq0
  have hp0' := hp0 l hl w hw i hi p hp
  rw [div_le_iff₀ (by linarith)] at hq1
  rw [hcube]
  generalize (1 + 1 / 2 ^ 22 : K) ^ (4 * (nL + nW + nH) + 1) = R at *
  have hR0 : 0 ≤ R := by linarith
  constructor
  · calc p.vs ≤ R * (e l w i).vs := hpe
      _ ≤ R * (R * q.vs * R) := mul_le_mul_of_nonneg_left hq1 hR0
      _ = _ := by ring
  · calc q.vs ≤ R * (e2 l w i).vs := hq2
      _ ≤ R * p.vs := mul_le_mul_of_nonneg_left hle hR0
      _ ≤ R ^ 3 * p.vs := mul_le_mul_of_nonneg_right (by
          calc R = R ^ 1 := by ring
            _ ≤ R ^ 3 := pow_le_pow_right₀ hR1 (by norm_num)) hp0'

example : exGradeSpeeds ((grade exGridF (exPay 0 0) (exGridDb exSpeedsF)).bind fun db _ => grade exGridF (exPay 0 0) db) =
    exGradeSpeeds (grade exGridF (exPay 0 0) (exGridDb exSpeedsF)) := by decide +kernel

/-- C91, why there is a factor: with numbers of type `float` and `double` grading a graded database again is not without effect, as it is
in C55.  In the example the density of a point falls from 854 to 13991935/16384 kg/m³. -/
theorem C91_false : ∃ db' db'', grade exGridF (exPay 0 0) (exGridDb exSpeedsF) = .ok db' () ∧ grade exGridF (exPay 0 0) db' = .ok db'' () ∧
    ∀ p q, PointPayload exGridF 12 db' 0 1 0 p → PointPayload exGridF 12 db'' 0 1 0 q →
      p.density = 854 ∧ q.density = 13991935 / 16384 := by
  obtain ⟨db', h1, h2, -⟩ := grade_dims (s := exGridF) exGradeGeom_lawful exGrid_level exGridF_dims (exGridF_onGrid exSpeedsF) (exPay 0 0)
  obtain ⟨db'', g1, g2, -⟩ := grade_dims (s := exGridF) exGradeGeom_lawful exGrid_level exGridF_dims h2 (exPay 0 0)
  refine ⟨db', db'', h1, g1, fun p q hp hq => ?_⟩
  have hx : exGradeVals (grade exGridF (exPay 0 0) (exGridDb exSpeedsF)) = some [some (1024, 2500), some (4195123 / 4096, 1707 / 2),
      some (4197581 / 4096, 854), some (1025, 6997333 / 8192), some (4197581 / 4096, 854), some (1025, 6997333 / 8192),
      some (2100429 / 2048, 14002859 / 16384), some (4201677 / 4096, 14005589 / 16384)] := by decide +kernel
  have hy : exGradeVals ((grade exGridF (exPay 0 0) (exGridDb exSpeedsF)).bind fun db _ => grade exGridF (exPay 0 0) db) =
      some [some (1024, 2500), some (4195123 / 4096, 1707 / 2),
      some (4197581 / 4096, 13991935 / 16384), some (1025, 13994665 / 16384), some (4197581 / 4096, 13991935 / 16384), some (1025, 13994665 / 16384),
      some (2100429 / 2048, 14002857 / 16384), some (4201677 / 4096, 14005587 / 16384)] := by decide +kernel
  rw [h1, Run.bind_ok] at hy
  exact ⟨(exGrade_val h2 h1 hx (by decide) (by decide) (by decide) (k := 2) (by decide) rfl p hp).2,
    (exGrade_val g2 g1 hy (by decide) (by decide) (by decide) (k := 2) (by decide) rfl q hq).2⟩

end
end CenCalVM
