/-
C78, C79: the projection object.
-/
import Verif.Model.Projector
import Verif.Lemmas.Query
import Verif.Props.Geometry
import Verif.Props.ExampleData
import Mathlib.Tactic.FieldSimp

set_option linter.unusedSectionVars false

namespace CenCalVM
open ProjLib
section
variable {K : Type} [Field K] {lib : ProjLib K} {fmt : K → String}

/-- What the call amounts to if no call has failed before. -/
def Call.fresh (lib : ProjLib K) (fmt : K → String) (c : Call K) : Outcome (K × K) := outcomeOf (lib.call fmt 0 c)

theorem call_cases (lib : ProjLib K) (fmt : K → String) (e : Int) (c : Call K) :
    (∃ p, lib.call fmt e c = .ok 0 p ∧ Call.fresh lib fmt c = .ok p ∧ (lib.keeps = true → e = 0)) ∨
    (∃ m e', e' ≠ 0 ∧ lib.call fmt e c = .exc m e' ∧ ((∃ m', Call.fresh lib fmt c = .exc m') ∨ (lib.keeps = true ∧ e ≠ 0 ∧ e' = e))) := by
  cases c with
  | fwd lon lat =>
    cases hr : lib.fwd (lon * lib.rad) (lat * lib.rad) with
    | error c =>
      right
      have hc := lib.fwd_code hr
      have key : ∀ e, ∃ m, lib.call fmt e (.fwd lon lat) = .exc m c := fun e => by
        simp [call, project, hr, errnoAfter, hc]
      obtain ⟨m, hm⟩ := key e
      obtain ⟨m', hm'⟩ := key 0
      exact ⟨m, c, hc, hm, Or.inl ⟨m', by rw [Call.fresh, hm']; rfl⟩⟩
    | ok p =>
      have key : lib.call fmt 0 (.fwd lon lat) = .ok 0 p := by simp [call, project, hr, errnoAfter]
      by_cases hk : lib.keeps = true
      · by_cases he : e = 0
        · left
          subst he
          exact ⟨_, key, by rw [Call.fresh, key]; rfl, fun _ => rfl⟩
        · right
          have h : ∃ m, lib.call fmt e (.fwd lon lat) = .exc m e := by simp [call, project, hr, errnoAfter, hk, he]
          obtain ⟨m, hm⟩ := h
          exact ⟨m, e, he, hm, Or.inr ⟨hk, he, rfl⟩⟩
      · left
        refine ⟨p, ?_, by rw [Call.fresh, key]; rfl, fun h => absurd h hk⟩
        simp [call, project, hr, errnoAfter, hk]
  | inv x y =>
    cases hr : lib.inv x y with
    | error c =>
      right
      have hc := lib.inv_code hr
      have key : ∀ e, ∃ m, lib.call fmt e (.inv x y) = .exc m c := fun e => by
        simp [call, invProject, hr, errnoAfter, hc]
      obtain ⟨m, hm⟩ := key e
      obtain ⟨m', hm'⟩ := key 0
      exact ⟨m, c, hc, hm, Or.inl ⟨m', by rw [Call.fresh, hm']; rfl⟩⟩
    | ok p =>
      have key : lib.call fmt 0 (.inv x y) = .ok 0 (p.1 / lib.rad, p.2 / lib.rad) := by simp [call, invProject, hr, errnoAfter]
      by_cases hk : lib.keeps = true
      · by_cases he : e = 0
        · left
          subst he
          exact ⟨_, key, by rw [Call.fresh, key]; rfl, fun _ => rfl⟩
        · right
          have h : ∃ m, lib.call fmt e (.inv x y) = .exc m e := by simp [call, invProject, hr, errnoAfter, hk, he]
          obtain ⟨m, hm⟩ := h
          exact ⟨m, e, he, hm, Or.inr ⟨hk, he, rfl⟩⟩
      · left
        refine ⟨(p.1 / lib.rad, p.2 / lib.rad), ?_, by rw [Call.fresh, key]; rfl, fun h => absurd h hk⟩
        simp [call, invProject, hr, errnoAfter, hk]

/-- With a library that clears the code of an earlier failure, a call does not depend on the code before it. -/
theorem call_clears (hk : lib.keeps = false) (e : Int) (c : Call K) : lib.call fmt e c = lib.call fmt 0 c := by
  have : ∀ r, lib.errnoAfter e r = lib.errnoAfter 0 r := by
    intro r; cases r <;> simp [errnoAfter, hk]
  cases c <;> simp only [call, project, invProject, this]

/-- C78, partial: with a library that clears its error code when a transformation succeeds, every call has the outcome it would have
on its own.  With a library that keeps it, this holds up to the first call that fails. -/
theorem C78_partial (lib : ProjLib K) (fmt : K → String) (cs : List (Call K)) :
    (lib.keeps = false → ∀ e, (lib.calls fmt e cs).2 = cs.map (Call.fresh lib fmt)) ∧
    ∀ n, (∀ c ∈ cs.take n, ∃ p, Call.fresh lib fmt c = .ok p) →
      (lib.calls fmt 0 cs).2.take (n + 1) = (cs.take (n + 1)).map fun c => outcomeOf (lib.call fmt 0 c) := by
  constructor
  · intro hk
    induction cs with
    | nil => intro e; rfl
    | cons c cs ih =>
      intro e
      unfold calls
      simp only [ih, List.map_cons]
      rw [call_clears hk]
      rfl
  · intro n
    induction cs generalizing n with
    | nil => intro _; rfl
    | cons c cs ih =>
      intro h
      unfold calls
      simp only [List.take_succ_cons, List.map_cons]
      cases n with
      | zero => simp
      | succ n =>
        obtain ⟨p, hp⟩ := h c (by simp)
        rcases call_cases lib fmt 0 c with ⟨p', h1, -, -⟩ | ⟨m, e', he', h1, h2⟩
        · rw [h1]
          simp only [errnoOf]
          rw [ih n fun c hc => h c (by simp [hc])]
        · exfalso
          unfold Call.fresh at hp
          rw [h1] at hp
          cases hp

/-- C78 is false of the code with a library that keeps its error code: after one call that failed every later call throws, also for
locations that can be projected. -/
theorem C78_false (hk : lib.keeps = true) {e : Int} (he : e ≠ 0) (cs : List (Call K)) :
    (lib.calls fmt e cs).1 ≠ 0 ∧ ∀ o ∈ (lib.calls fmt e cs).2, ∃ m, o = .exc m := by
  induction cs generalizing e with
  | nil => exact ⟨he, fun o ho => by simp [calls] at ho⟩
  | cons c cs ih =>
    rcases call_cases lib fmt e c with ⟨p, h1, -, h0⟩ | ⟨m, e', he', h1, -⟩
    · exact absurd (h0 hk) he
    · unfold calls
      rw [h1]
      simp only [errnoOf, outcomeOf]
      refine ⟨(ih he').1, fun o ho => ?_⟩
      rcases List.mem_cons.1 ho with rfl | ho
      · exact ⟨m, rfl⟩
      · exact (ih he').2 o ho

/-- A call that fails sets the error code, so `C78_false` applies to everything after it. -/
theorem C78_false_after {e e' : Int} {c : Call K} {m : String} (h : lib.call fmt e c = .exc m e') : e' ≠ 0 := by
  rcases call_cases lib fmt e c with ⟨p, h1, -⟩ | ⟨m', e'', he', h1, -⟩
  · rw [h1] at h; cases h
  · rw [h1] at h; cases h; exact he'

/-- C79: if the inverse transformation of the library undoes the forward one at a location, so do the functions of the object, in
degrees. -/
theorem C79 (hrad : lib.rad ≠ 0) {lon lat x y : K} (hf : lib.fwd (lon * lib.rad) (lat * lib.rad) = .ok (x, y))
    (hi : lib.inv x y = .ok (lon * lib.rad, lat * lib.rad)) :
    lib.project fmt 0 lon lat = .ok 0 (x, y) ∧ lib.invProject fmt 0 x y = .ok 0 (lon, lat) := by
  constructor
  · simp [project, hf, errnoAfter]
  · simp [invProject, hi, errnoAfter, hrad]

/-- C79, the other way: a place in the plane. -/
theorem C79_plane (hrad : lib.rad ≠ 0) {u v x y : K} (hi : lib.inv x y = .ok (u, v)) (hf : lib.fwd u v = .ok (x, y)) :
    ∃ lon lat, lib.invProject fmt 0 x y = .ok 0 (lon, lat) ∧ lib.project fmt 0 lon lat = .ok 0 (x, y) := by
  refine ⟨u / lib.rad, v / lib.rad, by simp [invProject, hi, errnoAfter], ?_⟩
  have h1 : u / lib.rad * lib.rad = u := div_mul_cancel₀ _ hrad
  have h2 : v / lib.rad * lib.rad = v := div_mul_cancel₀ _ hrad
  simp [project, h1, h2, hf, errnoAfter]

end

section
variable {K : Type} [Field K] [LinearOrder K] [FloorRing K]

open VMQuery in
/-- A query of a place the projection fails at does not give an answer: it uses a payload that was never written. -/
theorem query_unprojected {fmt : Fmt K} {q : VMQuery K} {f : Frame K} {proj : Projector K} {lv : K → Outcome Int}
    (hg : q.geom = some (GeomCenCA.geom f proj lv)) {lon lat : K} (hp : ∀ p, proj.project lon lat ≠ .ok p)
    (fs : Files) (n : Int) (elev : K) : query fmt q fs n lon lat elev = .ub := by
  have h1 : ∀ (a : Addr) (z : K) r, (GeomCenCA.geom f proj lv).lonLatElevToAddr a lon lat z ≠ .ok r := by
    intro a z r h
    simp only [GeomCenCA.geom, GeomCenCA.lonLatElevToAddr] at h
    split at h
    · cases h2 : proj.project lon lat with
      | ok p => exact hp p h2
      | exc m => rw [h2] at h; cases h
      | ub => rw [h2] at h; cases h
    · cases h
  have h2 : ∀ (h : ErrorHandler) (a : Addr) (db : Db K) (z : K) r,
      runQueryFn fmt q (GeomCenCA.geom f proj lv) h a db lon lat z false ≠ .ok r := by
    intro h a db z r hr
    unfold runQueryFn at hr
    cases hq : q.queryFn <;> rw [hq] at hr
    · simp only [queryMax, Bool.false_eq_true, if_false] at hr
      cases h3 : (GeomCenCA.geom f proj lv).lonLatElevToAddr (leafAt a ETREE_MAXLEVEL) lon lat z with
      | ok x => exact h1 _ _ _ h3
      | exc m => rw [h3] at hr; cases hr
      | ub => rw [h3] at hr; cases hr
    · simp only [queryFixed, Bool.false_eq_true, if_false] at hr
      cases h4 : (GeomCenCA.geom f proj lv).level ((GeomCenCA.geom f proj lv).vertExag * q.queryRes) with
      | exc m => rw [h4] at hr; cases hr
      | ub => rw [h4] at hr; cases hr
      | ok m =>
        rw [h4] at hr
        by_cases hm : m < 0
        · simp only [Outcome.bind_ok, if_pos hm] at hr; cases hr
        · simp only [Outcome.bind_ok, if_neg hm] at hr
          cases h3 : (GeomCenCA.geom f proj lv).lonLatElevToAddr (leafAt a m.toNat) lon lat z with
          | ok x => exact h1 _ _ _ h3
          | exc m => rw [h3] at hr; cases hr
          | ub => rw [h3] at hr; cases hr
    · simp only [queryWave, Bool.false_eq_true, if_false] at hr
      cases h3 : (GeomCenCA.geom f proj lv).lonLatElevToAddr (leafAt a ETREE_MAXLEVEL) lon lat z with
      | ok x => exact h1 _ _ _ h3
      | exc m => rw [h3] at hr; cases hr
      | ub => rw [h3] at hr; cases hr
  have h3 : ∀ db a r, fetch fmt q (GeomCenCA.geom f proj lv) db a lon lat elev ≠ .ok r := by
    intro db a r hr
    unfold fetch at hr
    cases h4 : squashElev q (GeomCenCA.geom f proj lv) db a lon lat elev with
    | exc m => rw [h4] at hr; cases hr
    | ub => rw [h4] at hr; cases hr
    | ok s =>
      rw [h4] at hr
      simp only [Outcome.bind_ok] at hr
      cases h5 : runQueryFn fmt q (GeomCenCA.geom f proj lv) q.err s.2 db lon lat
          (if q.squashTopo ∧ elev > q.squashLimit ∧ s.1 ≠ NODATAVAL then q.rd.double (elev + s.1) else elev) false with
      | ok x => exact h2 _ _ _ _ _ h5
      | exc m => rw [h5] at hr; cases hr
      | ub => rw [h5] at hr; cases hr
  unfold query
  split
  · rfl
  · rw [hg]
    cases hd : q.db with
    | none => rfl
    | some db =>
      simp only
      cases h4 : fetch fmt q (GeomCenCA.geom f proj lv) db ⟨⟨0, 0, 0, 0⟩, .leaf⟩ lon lat elev with
      | ok x => exact absurd h4 (h3 _ _ _)
      | exc m => rfl
      | ub => rfl

/-- C78, the consequence for queries: with a library that keeps its error code, after one failed projection, by a query or by anything
else that uses the object, no later query gives an answer, wherever it is.  (`cs` are the calls of the object since then.) -/
theorem C78_false_query {lib : ProjLib K} {pf : K → String} (hk : lib.keeps = true) {e0 e : Int} {c : Call K} {m : String}
    (hc : lib.call pf e0 c = .exc m e) (cs : List (Call K)) {fmt : Fmt K} {q : VMQuery K} {f : Frame K} {lv : K → Outcome Int}
    (hg : q.geom = some (GeomCenCA.geom f (lib.at_ pf (lib.calls pf e cs).1) lv))
    (fs : Files) (n : Int) (lon lat elev : K) : VMQuery.query fmt q fs n lon lat elev = .ub := by
  have he := (C78_false (fmt := pf) hk (C78_false_after hc) cs).1
  refine query_unprojected hg (fun p hp => ?_) fs n elev
  rcases call_cases lib pf (lib.calls pf e cs).1 (.fwd lon lat) with ⟨p', -, -, h0⟩ | ⟨m', e', -, h1, -⟩
  · exact he (h0 hk)
  · have h2 : (lib.at_ pf (lib.calls pf e cs).1).project lon lat = .exc m' := by
      show outcomeOf (lib.call pf _ (.fwd lon lat)) = _
      rw [h1]; rfl
    rw [h2] at hp; cases hp

/-- C79 for octants: if the forward transformation of the library undoes the inverse one, the centroid of every octant is converted
back to the octant (the hypothesis of C03 on the projection holds). -/
theorem C79_octant [IsStrictOrderedRing K] {lib : ProjLib K} {pf : K → String} (hrad : lib.rad ≠ 0)
    (hinv : ∀ x y u v, lib.inv x y = .ok (u, v) → lib.fwd u v = .ok (x, y)) {f : Frame K} (hf : f.Rigid) (a : Addr) (ha : a.toKey.Octant)
    (lon lat elev : K) (hc : GeomCenCA.addrToLonLatElev f (lib.at_ pf 0) a = .ok (lon, lat, elev)) (b : Addr) (hb : b.level = a.level) :
    GeomCenCA.lonLatElevToAddr f (lib.at_ pf 0) b lon lat elev = .ok ({ toKey := a.toKey, type := b.type }, 0) := by
  refine C03 hf a ha lon lat elev hc (fun x y h => ?_) b hb
  simp only [at_, invProject] at h
  cases hr : lib.inv x y with
  | error c => rw [hr] at h; have := lib.inv_code hr; simp [errnoAfter, this, outcomeOf] at h
  | ok p =>
    rw [hr] at h
    simp only [errnoAfter, ite_self, ne_eq, not_true_eq_false, if_false, outcomeOf, Outcome.ok.injEq, Prod.mk.injEq] at h
    obtain ⟨h1, h2⟩ := h
    have hf' := hinv x y p.1 p.2 (by rw [hr])
    have e1 : lon * lib.rad = p.1 := by rw [← h1, div_mul_cancel₀ _ hrad]
    have e2 : lat * lib.rad = p.2 := by rw [← h2, div_mul_cancel₀ _ hrad]
    simp [at_, project, e1, e2, hf', errnoAfter, outcomeOf]

/-! ### Concrete cases -/

/-- A library that shifts and swaps, fails at latitudes over 1 radian, and keeps its error code as `keeps` says. -/
def exLib (keeps : Bool) : ProjLib ℚ where
  fwd u v := if v > 1 then .error 2 else .ok (6000000 * v, 5000000 * u + 7)
  inv x y := if x > 6000000 then .error 3 else .ok ((y - 7) / 5000000, x / 6000000)
  keeps := keeps
  errText _ := "bad"
  rad := 1 / 57
  fwd_code := by intro a b c h; split at h <;> cases h; decide
  inv_code := by intro a b c h; split at h <;> cases h; decide

/-- Clearing: good, bad, good, good; keeping: all bad after the failure. -/
example : ((exLib false).calls (fun _ => "") 0 [.fwd 1 2, .fwd 1 58, .fwd 3 4, .inv 5 6]).2 =
    [.ok (6000000 * (2 / 57), 5000000 * (1 / 57) + 7), .exc "Error while projecting location.\n  bad\n  longitude: \n  latitude: \n",
      .ok (6000000 * (4 / 57), 5000000 * (3 / 57) + 7), .ok ((6 - 7) / 5000000 * 57, 5 / 6000000 * 57)] := by decide +kernel
example : ((exLib true).calls (fun _ => "") 0 [.fwd 1 2, .fwd 1 58, .fwd 3 4, .inv 5 6]).2 =
    [.ok (6000000 * (2 / 57), 5000000 * (1 / 57) + 7), .exc "Error while projecting location.\n  bad\n  longitude: \n  latitude: \n",
      .exc "Error while projecting location.\n  bad\n  longitude: \n  latitude: \n",
      .exc "Error while inverse projecting location.\n  bad\n  x: \n  y: \n"] := by decide +kernel
example : ∀ c ∈ ([.fwd 1 2, .fwd 1 58, .fwd 3 4] : List (Call ℚ)).take 1, ∃ p, Call.fresh (exLib true) (fun _ => "") c = .ok p := by
  intro c hc
  simp only [List.take_succ_cons, List.take_zero, List.mem_singleton] at hc
  subst hc
  exact ⟨(6000000 * (2 / 57), 5000000 * (1 / 57) + 7), by decide +kernel⟩
/-- A failed call, and the query object after it. -/
example : ∃ m, (exLib true).call (fun _ => "") 0 (.fwd 1 58) = .exc m 2 := by
  have h : (exLib true).fwd (exLib true).rad (58 * (exLib true).rad) = .error 2 := by decide +kernel
  simp [call, project, h, errnoAfter]
/-- The query object with this library, at an error code. -/
def exQLib (e : Int) : VMQuery ℚ :=
  { VMQuery.init (GeomCenCA.geom exFrame ((exLib true).at_ (fun _ => "") e) (fun _ => .ok 1)) with db := some exDb }
example : (exQLib ((exLib true).calls (fun _ => "") 2 [.inv 5 6]).1).geom =
    some (GeomCenCA.geom exFrame ((exLib true).at_ (fun _ => "") ((exLib true).calls (fun _ => "") 2 [.inv 5 6]).1) (fun _ => .ok 1)) := rfl
example : (exLib true).rad ≠ 0 ∧ (exLib true).fwd (1 * (exLib true).rad) (2 * (exLib true).rad) = .ok (12000000 / 57, 5000000 / 57 + 7) ∧
    (exLib true).inv (12000000 / 57) (5000000 / 57 + 7) = .ok (1 * (exLib true).rad, 2 * (exLib true).rad) := by decide +kernel
example : ∀ x y u v, (exLib true).inv x y = .ok (u, v) → (exLib true).fwd u v = .ok (x, y) := by
  intro x y u v h
  simp only [exLib] at h ⊢
  split at h
  · cases h
  · rename_i hx
    simp only [Except.ok.injEq, Prod.mk.injEq] at h
    obtain ⟨rfl, rfl⟩ := h
    rw [if_neg (by rw [gt_iff_lt, not_lt] at *; rw [div_le_one (by norm_num)]; exact hx)]
    simp only [Except.ok.injEq, Prod.mk.injEq]
    constructor <;> ring

end
end CenCalVM
