/-
What a query depends on: not on the error handler and not on the files.
-/
import Verif.Model.Query

set_option linter.unusedSectionVars false

namespace CenCalVM
namespace VMQuery
variable {K : Type} [Field K] [LinearOrder K]

/-- A handler after what a query may raise. -/
def mark (e : ErrorHandler) : Option (Status × String) → ErrorHandler
  | none => e
  | some (s, m) => { e with status := s, message := m }

/-- What is raised is a warning or an error. -/
def Raised : Option (Status × String) → Prop
  | none => True
  | some (s, _) => s ≠ .OK

/-- What is raised is at most a warning. -/
def Warned : Option (Status × String) → Prop
  | none => True
  | some (s, _) => s = .WARNING

theorem Warned.raised {a : Option (Status × String)} (h : Warned a) : Raised a := by
  cases a with
  | none => trivial
  | some x => intro hx; unfold Warned at h; rw [h] at hx; cases hx

/-- Two in sequence. -/
def later (a b : Option (Status × String)) : Option (Status × String) := match b with | none => a | some x => some x

theorem mark_mark (e : ErrorHandler) (a b : Option (Status × String)) : mark (mark e a) b = mark e (later a b) := by
  cases b <;> cases a <;> rfl

theorem raised_later {a b : Option (Status × String)} (ha : Raised a) (hb : Raised b) : Raised (later a b) := by
  cases b with
  | none => exact ha
  | some x => exact hb

theorem warned_later {a b : Option (Status × String)} (ha : Warned a) (hb : Warned b) : Warned (later a b) := by
  cases b with
  | none => exact ha
  | some x => exact hb

/-- A warning at most is no error. -/
theorem mark_warned {e : ErrorHandler} {a : Option (Status × String)} (h : Warned a) (he : e.status ≠ .ERROR) :
    (mark e a).status ≠ .ERROR := by
  cases a with
  | none => exact he
  | some x => unfold Warned at h; unfold mark; dsimp only; rw [h]; decide

theorem mark_sink (e : ErrorHandler) (a : Option (Status × String)) : (mark e a).sink = e.sink := by cases a <;> rfl

/-- The status afterwards. -/
theorem mark_status {e e' : ErrorHandler} (a : Option (Status × String)) (h : e.status = e'.status) :
    (mark e a).status = (mark e' a).status := by cases a with | none => exact h | some x => rfl

theorem mark_ok {e : ErrorHandler} {a : Option (Status × String)} (hr : Raised a) (h : (mark e a).status = .OK) :
    a = none ∧ e.status = .OK := by
  cases a with
  | none => exact ⟨rfl, h⟩
  | some x => exact absurd h hr

/-- The outcome of the search, with the handler factored out. -/
def Framed {α : Type} (f : ErrorHandler → Outcome (α × ErrorHandler)) : Prop :=
  (∀ e, f e = .ub) ∨ (∃ m, ∀ e, f e = .exc m) ∨ ∃ r a, Raised a ∧ ∀ e, f e = .ok (r, mark e a)

/-- `queryWave` after the conversion of the location. -/
def waveTail (fmt : Fmt K) (rd : Rd K) (g : Geom K) (queryRes : K) (db : Db K) (lon lat elev : K) (h : ErrorHandler) (r : Addr × Int) :
    Outcome (Payload K × Addr × ErrorHandler) :=
  if r.2 ≠ 0 then .ok (noDataPayload, r.1, h)
  else match db.search r.1.toKey with
    | none => .ok (noDataPayload, r.1, h)
    | some e =>
      if e.addr.type = .interior ∧ quotGt rd (g.edgeLen e.addr.level) e.payload.vs (g.vertExag * queryRes) = true then
        .ok (noDataPayload, r.1, h)
      else do
        match ← waveLoop rd g db (g.vertExag * queryRes) e.addr.level e.payload e with
        | .reached child last => .ok (waveAverage rd child last, r.1, h)
        | .orphan parent child => .ok (e.payload, r.1, h.warning (orphanMessage fmt parent child lon lat elev))

theorem queryWave_tail (fmt : Fmt K) (rd : Rd K) (g : Geom K) (res : K) (h : ErrorHandler) (addr : Addr) (db : Db K) (lon lat elev : K) (use : Bool) :
    queryWave fmt rd g res h addr db lon lat elev use =
      (if use then (.ok (addr, 0) : Outcome (Addr × Int)) else g.lonLatElevToAddr (leafAt addr ETREE_MAXLEVEL) lon lat elev) >>=
        waveTail fmt rd g res db lon lat elev h := by
  cases use <;> rfl

theorem queryWave_frame (fmt : Fmt K) (rd : Rd K) (g : Geom K) (res : K) (addr : Addr) (db : Db K) (lon lat elev : K) (use : Bool) :
    (∀ e, queryWave fmt rd g res e addr db lon lat elev use = .ub) ∨ (∃ m, ∀ e, queryWave fmt rd g res e addr db lon lat elev use = .exc m) ∨
      ∃ p a w, Warned w ∧ ∀ e, queryWave fmt rd g res e addr db lon lat elev use = .ok (p, a, mark e w) := by
  simp only [queryWave_tail]
  generalize (if use then (.ok (addr, 0) : Outcome (Addr × Int)) else g.lonLatElevToAddr (leafAt addr ETREE_MAXLEVEL) lon lat elev) = c
  cases c with
  | ub => left; intro; rfl
  | exc m => right; left; exact ⟨m, fun _ => rfl⟩
  | ok r =>
    simp only [Outcome.bind_ok, waveTail]
    by_cases hr : r.2 ≠ 0
    · right; right; refine ⟨noDataPayload, r.1, none, trivial, fun e => ?_⟩; rw [if_pos hr]; rfl
    simp only [if_neg hr]
    cases db.search r.1.toKey with
    | none => right; right; exact ⟨noDataPayload, r.1, none, trivial, fun e => rfl⟩
    | some e =>
      dsimp only
      split
      · right; right; exact ⟨noDataPayload, r.1, none, trivial, fun e => rfl⟩
      · cases waveLoop rd g db (g.vertExag * res) e.addr.level e.payload e with
        | ub => left; intro; rfl
        | exc m => right; left; exact ⟨m, fun _ => rfl⟩
        | ok w =>
          right; right
          cases w with
          | reached c l => exact ⟨waveAverage rd c l, r.1, none, trivial, fun _ => rfl⟩
          | orphan p c =>
            exact ⟨e.payload, r.1, some (.WARNING, orphanMessage fmt p c lon lat elev), (by simp [Warned]), fun _ => rfl⟩

theorem runQueryFn_frame (fmt : Fmt K) (q : VMQuery K) (g : Geom K) (addr : Addr) (db : Db K) (lon lat elev : K) (use : Bool) :
    (∀ e' e, runQueryFn fmt { q with err := e' } g e addr db lon lat elev use = .ub) ∨
    (∃ m, ∀ e' e, runQueryFn fmt { q with err := e' } g e addr db lon lat elev use = .exc m) ∨
      ∃ p a w, Warned w ∧ ∀ e' e, runQueryFn fmt { q with err := e' } g e addr db lon lat elev use = .ok (p, a, mark e w) := by
  unfold runQueryFn
  dsimp only
  cases q.queryFn with
  | MAXRES =>
    dsimp only
    cases queryMax g addr db lon lat elev use with
    | ub => left; intro _ _; rfl
    | exc m => right; left; exact ⟨m, fun _ _ => rfl⟩
    | ok r => right; right; exact ⟨r.1, r.2, none, trivial, fun _ _ => rfl⟩
  | FIXEDRES =>
    dsimp only
    cases queryFixed g q.queryRes addr db lon lat elev use with
    | ub => left; intro _ _; rfl
    | exc m => right; left; exact ⟨m, fun _ _ => rfl⟩
    | ok r => right; right; exact ⟨r.1, r.2, none, trivial, fun _ _ => rfl⟩
  | WAVERES =>
    dsimp only
    rcases queryWave_frame fmt q.rd g q.queryRes addr db lon lat elev use with h | ⟨m, h⟩ | ⟨p, a, w, hw, h⟩
    · left; intro _ e; exact h e
    · right; left; exact ⟨m, fun _ e => h e⟩
    · right; right; exact ⟨p, a, w, hw, fun _ e => h e⟩

theorem fetch_frame (fmt : Fmt K) (q : VMQuery K) (g : Geom K) (db : Db K) (addr : Addr) (lon lat elev : K) :
    (∀ e, fetch fmt { q with err := e } g db addr lon lat elev = .ub) ∨
    (∃ m, ∀ e, fetch fmt { q with err := e } g db addr lon lat elev = .exc m) ∨
      ∃ r p a w, Warned w ∧ ∀ e, fetch fmt { q with err := e } g db addr lon lat elev = .ok ⟨r, p, a, mark e w⟩ := by
  obtain ⟨res, lim, db0, ext, vals, gm, er, fn, fnx, qfn, cs, csx, sq, rnd⟩ := q
  have hs : ∀ e, squashElev ⟨res, lim, db0, ext, vals, gm, e, fn, fnx, qfn, cs, csx, sq, rnd⟩ g db addr lon lat elev =
      squashElev ⟨res, lim, db0, ext, vals, gm, er, fn, fnx, qfn, cs, csx, sq, rnd⟩ g db addr lon lat elev := fun _ => rfl
  unfold fetch
  simp only [hs]
  cases squashElev ⟨res, lim, db0, ext, vals, gm, er, fn, fnx, qfn, cs, csx, sq, rnd⟩ g db addr lon lat elev with
  | ub => left; intro; rfl
  | exc m => right; left; exact ⟨m, fun _ => rfl⟩
  | ok r =>
    simp only [Outcome.bind_ok]
    rcases runQueryFn_frame fmt ⟨res, lim, db0, ext, vals, gm, er, fn, fnx, qfn, cs, csx, sq, rnd⟩ g r.2 db lon lat (if sq ∧ elev > lim ∧ r.1 ≠ NODATAVAL then rnd.double (elev + r.1) else elev) false
      with h | ⟨m, h⟩ | ⟨p, a, w, hw, h⟩
    · left; intro e; rw [h e e]; rfl
    · right; left; exact ⟨m, fun e => by rw [h e e]; rfl⟩
    · by_cases hb : p.faultBlock = NODATABLOCK
      · cases ext with
        | none =>
          right; right
          refine ⟨r.1, p, a, w, hw, fun e => ?_⟩
          rw [h e e, Outcome.bind_ok, if_pos hb]
        | some x =>
          rcases runQueryFn_frame fmt ⟨res, lim, db0, some x, vals, gm, er, fn, fnx, qfn, cs, csx, sq, rnd⟩ g a x lon lat (if sq ∧ elev > lim ∧ r.1 ≠ NODATAVAL then rnd.double (elev + r.1) else elev) true
            with h' | ⟨m, h'⟩ | ⟨p', a', w', hw', h'⟩
          · left; intro e; rw [h e e, Outcome.bind_ok, if_pos hb]; dsimp only; rw [h' e]; rfl
          · right; left; refine ⟨m, fun e => ?_⟩; rw [h e e, Outcome.bind_ok, if_pos hb]; dsimp only; rw [h' e]; rfl
          · right; right
            refine ⟨r.1, p', a', later w w', warned_later hw hw', fun e => ?_⟩
            rw [h e e, Outcome.bind_ok, if_pos hb]; dsimp only; rw [h' e, Outcome.bind_ok, mark_mark]
      · right; right
        refine ⟨r.1, p, a, w, hw, fun e => ?_⟩
        rw [h e e, Outcome.bind_ok, if_neg hb]

theorem copyValue_frame (q : VMQuery K) (g : Geom K) (db : Db K) (lon lat elev : K) (p : Payload K) (er : K) (a : Addr) (v : Option Nat) :
    (∀ e' e, copyValue { q with err := e' } g db lon lat elev p ⟨er, a, e⟩ v = .ub) ∨
      ∃ x er' a' w, Raised w ∧ (v ≠ some 8 → Warned w) ∧ ∀ e' e, copyValue { q with err := e' } g db lon lat elev p ⟨er, a, e⟩ v = .ok (x, ⟨er', a', mark e w⟩) := by
  unfold copyValue
  split
  all_goals first
    | (right; exact ⟨_, er, a, none, trivial, fun _ => trivial, fun _ _ => rfl⟩)
    | skip
  · dsimp only
    cases queryElev q.rd g db q.dbExt a lon lat elev false with
    | ub => left; intro _ _; rfl
    | exc m => right; exact ⟨er, er, a, some (.ERROR, m), (by simp [Raised]), fun h => absurd rfl h, fun _ _ => rfl⟩
    | ok r => right; exact ⟨r.1, r.1, r.2, none, trivial, fun _ => trivial, fun _ _ => rfl⟩
  · left; intro _ _; rfl

theorem copyValues_frame (q : VMQuery K) (g : Geom K) (db : Db K) (lon lat elev : K) (p : Payload K) (vs : List (Option Nat)) :
    ∀ (er : K) (a : Addr), (∀ e' e, copyValues { q with err := e' } g db lon lat elev p ⟨er, a, e⟩ vs = .ub) ∨
      ∃ xs er' a' w, Raised w ∧ (some 8 ∉ vs → Warned w) ∧ ∀ e' e, copyValues { q with err := e' } g db lon lat elev p ⟨er, a, e⟩ vs = .ok (xs, ⟨er', a', mark e w⟩) := by
  induction vs with
  | nil => intro er a; right; exact ⟨[], er, a, none, trivial, fun _ => trivial, fun _ _ => rfl⟩
  | cons v vs ih =>
    intro er a
    simp only [copyValues]
    rcases copyValue_frame q g db lon lat elev p er a v with h | ⟨x, er', a', w, hw, hx, h⟩
    · left; intro e' e; rw [h]; rfl
    · rcases ih er' a' with h' | ⟨xs, er'', a'', w', hw', hx', h'⟩
      · left; intro e' e; rw [h, Outcome.bind_ok, h']; rfl
      · right
        refine ⟨x :: xs, er'', a'', later w w', raised_later hw hw', fun h8 => ?_, fun e' e => ?_⟩
        · rw [List.mem_cons, not_or] at h8
          exact warned_later (hx (fun h => h8.1 h.symm)) (hx' h8.2)
        rw [h, Outcome.bind_ok, h', Outcome.bind_ok, mark_mark]

/-- A query is undefined whatever the handler and the files, or returns the same values and raises the same with all of them. -/
theorem query_frame_warned (fmt : Fmt K) (q : VMQuery K) (n : Int) (lon lat elev : K) :
    (∀ e fs, query fmt { q with err := e } fs n lon lat elev = .ub) ∨
      ∃ vals w, Raised w ∧ (some 8 ∉ q.queryVals → Warned w) ∧ ∀ e fs, ∃ fs', query fmt { q with err := e } fs n lon lat elev = .ok ({ q with err := mark e w }, fs', vals) := by
  obtain ⟨res, lim, db0, ext, vals, gm, er, fn, fnx, qfn, cs, csx, sq, rnd⟩ := q
  unfold query
  dsimp only
  by_cases hn : n ≠ vals.length
  · left; intro e fs; rw [if_pos hn]
  simp only [if_neg hn]
  cases gm with
  | none => left; intro e fs; rfl
  | some g =>
  cases db0 with
  | none => left; intro e fs; rfl
  | some db =>
  dsimp only
  let q : VMQuery K := ⟨res, lim, some db, ext, vals, some g, er, fn, fnx, qfn, cs, csx, sq, rnd⟩
  rcases fetch_frame fmt q g db ⟨⟨0, 0, 0, 0⟩, .leaf⟩ lon lat elev with h | ⟨m, h⟩ | ⟨r, p, a, w, hw, h⟩
  · left; intro e fs; rw [show _ = _ from h e]
  · left; intro e fs; rw [show _ = _ from h e]
  · let w1 : Option (Status × String) :=
      if p.faultBlock = NODATABLOCK then some (.WARNING, noDataWarning fmt lon lat elev) else none
    have hw1 : Warned w1 := by
      unfold w1; split
      · simp [Warned]
      · trivial
    rcases copyValues_frame q g db lon lat elev p vals r a with h' | ⟨xs, er', a', w', hw', hx', h'⟩
    · left; intro e fs; rw [show _ = _ from h e]; dsimp only; rw [h']
    · right
      refine ⟨xs, later w (later w1 w'), raised_later hw.raised (raised_later hw1.raised hw'),
        fun h8 => warned_later hw (warned_later hw1 (hx' h8)), fun e fs => ?_⟩
      rw [show _ = _ from h e]; dsimp only; rw [h']; dsimp only
      have : (if decide (p.faultBlock = NODATABLOCK) = true then (mark e w).warning (noDataWarning fmt lon lat elev) else mark e w) =
          mark (mark e w) w1 := by
        unfold w1
        by_cases hb : p.faultBlock = NODATABLOCK
        · simp [hb, mark, ErrorHandler.warning]
        · simp [hb, mark]
      rw [this, mark_mark, mark_mark]
      exact ⟨_, rfl⟩

theorem query_frame (fmt : Fmt K) (q : VMQuery K) (n : Int) (lon lat elev : K) :
    (∀ e fs, query fmt { q with err := e } fs n lon lat elev = .ub) ∨
      ∃ vals w, Raised w ∧ ∀ e fs, ∃ fs', query fmt { q with err := e } fs n lon lat elev = .ok ({ q with err := mark e w }, fs', vals) := by
  rcases query_frame_warned fmt q n lon lat elev with h | ⟨vals, w, hw, -, h⟩
  · exact Or.inl h
  · exact Or.inr ⟨vals, w, hw, h⟩

end VMQuery
end CenCalVM
