/-
What cencalvmisosurface writes to standard error.
-/
import Verif.Lemmas.IsoRun
import Verif.Lemmas.QueryConsole
import Verif.Spec.IsoConsole

set_option linter.unusedSectionVars false

namespace CenCalVM
namespace IsoApp
open Print (bind_eq_ok)
variable {K : Type} [Field K] [LinearOrder K] [IsStrictOrderedRing K]

/-! ### The same run -/

/-- A result without the text. -/
def bare (r : Outcome (Report K)) : Outcome (Result K) := do
  let r ← r
  .ok r.result

theorem bare_leave (env : QueryApp.Env K) (q : VMQuery K) (c : Int) (lines : List (Line K)) (t : String) :
    bare (leaveSaid env q c lines t) = leave env q c lines := by
  unfold bare leaveSaid
  cases leave env q c lines <;> rfl

theorem bare_finish (env : QueryApp.Env K) (q : VMQuery K) (lines : List (Line K)) (t : String) :
    bare (finishSaid env q lines t) = finish env q lines := by
  unfold finishSaid finish
  dsimp only
  split <;> exact bare_leave ..

/-- The result of a search without the text. -/
def unsaid (x : Outcome (Except String K × VMQuery K × Files)) : Outcome (Option K × VMQuery K × Files) := do
  let r ← x
  .ok (r.1.toOption, r.2)

theorem unsaid_loop (ar : Arith K) (fmt : Fmt K) (target lon lat : K) (n : Nat) (u l e : K) (q : VMQuery K) (fs : Files) :
    unsaid (searchLoopSaid ar fmt target lon lat n u l e q fs) = searchLoop ar fmt target lon lat n u l e q fs := by
  induction n generalizing u l e q fs with
  | zero => rfl
  | succ n ih =>
    unfold searchLoopSaid searchLoop searchRound
    cases valueAt fmt q fs lon lat u with
    | ub => rfl
    | exc m => rfl
    | ok vu =>
    simp only [Outcome.bind_ok]
    cases valueAt fmt vu.2.1 vu.2.2 lon lat l with
    | ub => rfl
    | exc m => rfl
    | ok vl =>
    simp only [Outcome.bind_ok]
    cases valueAt fmt vl.2.1 vl.2.2 lon lat (ar.middle u l) with
    | ub => rfl
    | exc m => rfl
    | ok vm =>
    simp only [Outcome.bind_ok]
    cases decideRound target u (ar.middle u l) l vu.1 vl.1 vm.1 with
    | next => exact ih ..
    | done => rfl
    | exit => rfl

theorem unsaid_search (ar : Arith K) (fmt : Fmt K) (q : VMQuery K) (fs : Files) (target lon lat u l : K) :
    unsaid (searchVsSaid ar fmt q fs target lon lat u l) = searchVs ar fmt q fs target lon lat u l := by
  unfold searchVsSaid searchVs
  cases niters ar u l with
  | ub => rfl
  | exc m => rfl
  | ok n => exact unsaid_loop ..

/-- What `locate` makes of a location. -/
def found : Found K → Outcome (Option K × VMQuery K × Files) → Prop
  | .dist d q fs, x => x = .ok (some d, q, fs)
  | .exit _, x => ∃ q fs, x = .ok (none, q, fs)
  | .abort _, x => ∃ m, x = .exc m

theorem locate_found (ar : Arith K) (fmt : Fmt K) (o : Options K) (q : VMQuery K) (fs : Files) (lon lat : K) :
    (∃ x, locateSaid ar fmt o q fs lon lat = .ok x ∧ found x (locate ar fmt o q fs lon lat)) ∨
    (∃ m, locateSaid ar fmt o q fs lon lat = .exc m ∧ locate ar fmt o q fs lon lat = .exc m) ∨
    (locateSaid ar fmt o q fs lon lat = .ub ∧ locate ar fmt o q fs lon lat = .ub) := by
  unfold locateSaid locate queryElevSaid queryElev
  rw [setQueryVals_elev]
  simp only [Outcome.bind_ok]
  split
  · left
    exact ⟨_, rfl, _, rfl⟩
  · cases valueAt fmt (asking q 8 q.err) fs lon lat (-5000) with
    | ub => exact Or.inr (Or.inr ⟨rfl, rfl⟩)
    | exc m => exact Or.inr (Or.inl ⟨m, rfl, rfl⟩)
    | ok r =>
      simp only [Outcome.bind_ok, setQueryVals_vs]
      cases groundLoop ar fmt lon lat r.1 10 0 (asking r.2.1 1 r.2.1.err) r.2.2 with
      | ub => exact Or.inr (Or.inr ⟨rfl, rfl⟩)
      | exc m => exact Or.inr (Or.inl ⟨m, rfl, rfl⟩)
      | ok g =>
        simp only [Outcome.bind_ok]
        rw [← unsaid_search]
        cases searchVsSaid ar fmt g.2.1 g.2.2 o.vs lon lat (limits ar o g.1).1 (limits ar o g.1).2 with
        | ub => exact Or.inr (Or.inr ⟨rfl, rfl⟩)
        | exc m => exact Or.inr (Or.inl ⟨m, rfl, rfl⟩)
        | ok s =>
          left
          obtain ⟨s, q', fs'⟩ := s
          cases s with
          | error t => exact ⟨_, rfl, _, _, rfl⟩
          | ok e => exact ⟨_, rfl, rfl⟩

theorem bare_loop (ar : Arith K) (env : QueryApp.Env K) (o : Options K) (n : Nat) (s : Stream) (loc : K × K) (q : VMQuery K) (fs : Files)
    (lines : List (Line K)) (t : String) : bare (loopSaid ar env o n s loc q fs lines t) = loop ar env o n s loc q fs lines := by
  induction n generalizing s loc q fs lines t with
  | zero => rfl
  | succ n ih =>
    unfold loopSaid loop
    split
    · rcases locate_found ar env.fmt o q fs loc.1 loc.2 with ⟨x, h1, h2⟩ | ⟨m, h1, h2⟩ | ⟨h1, h2⟩
      · rw [h1]
        cases x with
        | dist d q' fs' =>
          rw [show locate ar env.fmt o q fs loc.1 loc.2 = _ from h2]
          dsimp only
          split
          · exact bare_leave ..
          · exact ih ..
        | exit t' =>
          obtain ⟨q', fs', h2⟩ := h2
          rw [h2]; rfl
        | abort t' =>
          obtain ⟨m, h2⟩ := h2
          rw [h2]; rfl
      · rw [h1, h2]; rfl
      · rw [h1, h2]; rfl
    · exact bare_finish ..

theorem setting_ok {q : VMQuery K} {f : VMQuery K → VMQuery K} (h : (f q).err.status = .OK) : setting (q, none) f = (f q, none) := by
  unfold setting
  dsimp only
  rw [if_neg (by simp [h])]

theorem setup_said (env : QueryApp.Env K) (o : Options K) {q : VMQuery K} (h : q.err.status = .OK) :
    setupSaid env o q = (setup env o q >>= fun q => Outcome.ok (q, say q "")) := by
  have e1 : ∀ q : VMQuery K, ∀ s, (VMQuery.setFilename q s).err = q.err := fun _ _ => rfl
  have e2 : ∀ q : VMQuery K, ∀ n, (VMQuery.setCacheSize q n).err = q.err := fun q n => by unfold VMQuery.setCacheSize; split <;> rfl
  have e3 : ∀ q : VMQuery K, ∀ s, (VMQuery.setFilenameExt q s).err = q.err := fun _ _ => rfl
  have e4 : ∀ q : VMQuery K, ∀ n, (VMQuery.setCacheSizeExt q n).err = q.err := fun q n => by unfold VMQuery.setCacheSizeExt; split <;> rfl
  have e5 : ∀ q : VMQuery K, ∀ b l, (VMQuery.squash q b l).err = q.err := fun q b l => by unfold VMQuery.squash; rfl
  unfold setupSaid setup
  dsimp only
  rw [setting_ok (by rw [e1]; exact h), setting_ok (by rw [e2, e1]; exact h), setting_ok (by rw [e3, e2, e1]; exact h),
    setting_ok (by rw [e4, e3, e2, e1]; exact h)]
  have h4 : (VMQuery.setCacheSizeExt (VMQuery.setFilenameExt (VMQuery.setCacheSize (VMQuery.setFilename q o.filenameDB) o.cacheSize)
      o.filenameDBExt) o.cacheSize).err.status = .OK := by rw [e4, e3, e2, e1]; exact h
  generalize VMQuery.setCacheSizeExt (VMQuery.setFilenameExt (VMQuery.setCacheSize (VMQuery.setFilename q o.filenameDB) o.cacheSize)
      o.filenameDBExt) o.cacheSize = q4 at h4
  have hq : (if o.squashLimit ≠ 1000000 then setting (q4, none) fun q => VMQuery.squash q true o.squashLimit else (q4, none)) =
      (if o.squashLimit ≠ 1000000 then VMQuery.squash q4 true o.squashLimit else q4, none) := by
    split
    · exact setting_ok (by rw [e5]; exact h4)
    · rfl
  rw [hq]
  dsimp only
  cases VMQuery.openDb env.disk (if o.squashLimit ≠ 1000000 then VMQuery.squash q4 true o.squashLimit else q4) with
  | ub => rfl
  | exc m => rfl
  | ok q5 =>
    simp only [Outcome.bind_ok]
    split
    · next h5 =>
      rw [Outcome.bind_ok, say, if_pos h5, String.empty_append]
    · next h5 =>
      have : (VMQuery.queryType q5 0).err.status = .OK := by
        have : (VMQuery.queryType q5 0).err = q5.err := rfl
        rw [this]; exact not_not.1 h5
      rw [Outcome.bind_ok, say, if_neg (by simp [this])]

theorem bare_run (ar : Arith K) (env : QueryApp.Env K) (o : Options K) : bare (runSaid ar env o) = run ar env o := by
  unfold runSaid run
  rw [setup_said env o rfl]
  cases setup env o (VMQuery.init env.geom) with
  | ub => rfl
  | exc m => rfl
  | ok q =>
    simp only [Outcome.bind_ok]
    cases env.input o.filenameIn with
    | none => exact bare_leave ..
    | some text =>
      dsimp only
      split
      · exact bare_loop ..
      · exact bare_leave ..

/-! ### Messages -/

/-- What queries at a location leave in the handler. -/
def Heard (fmt : Fmt K) (q : VMQuery K) (lon lat : K) (er er' : ErrorHandler) : Prop :=
  (er'.logFilename = er.logFilename ∧ er'.sink = er.sink) ∧
    (er' = er ∨ (er'.status = .WARNING ∧ ∃ z, Warns fmt q lon lat z ∧ er'.message = VMQuery.noDataWarning fmt lon lat z) ∨
      (er'.status = .ERROR ∧ Failed fmt q lon lat er'.message))

theorem Heard.rfl {fmt : Fmt K} {q : VMQuery K} {lon lat : K} {a : ErrorHandler} : Heard fmt q lon lat a a := ⟨⟨Eq.refl _, Eq.refl _⟩, Or.inl (Eq.refl _)⟩

theorem Heard.trans {fmt : Fmt K} {q : VMQuery K} {lon lat : K} {a b c : ErrorHandler} (h : Heard fmt q lon lat a b)
    (h' : Heard fmt q lon lat b c) : Heard fmt q lon lat a c := by
  refine ⟨⟨h'.1.1.trans h.1.1, h'.1.2.trans h.1.2⟩, ?_⟩
  rcases h'.2 with rfl | h'
  · exact h.2
  · exact Or.inr h'

/-- The messages of a query for one value. -/
theorem query_one {fmt : Fmt K} {q q' : VMQuery K} {fs fs' : Files} {lon lat elev : K} {vals : List K} {i : Nat} (hi : i = 1 ∨ i = 8)
    (hf : q.queryFn = .MAXRES) (hv : q.queryVals = [some i]) (h : VMQuery.query fmt q fs 1 lon lat elev = .ok (q', fs', vals)) :
    q'.err = q.err ∨ (q'.err.status = .WARNING ∧ q'.err.message = VMQuery.noDataWarning fmt lon lat elev) ∨ q'.err.status = .ERROR := by
  unfold VMQuery.query at h
  rw [if_neg (by rw [hv]; simp)] at h
  cases hg : q.geom with
  | none => rw [hg] at h; cases h
  | some g =>
  cases hd : q.db with
  | none => rw [hg, hd] at h; cases h
  | some db =>
  rw [hg, hd] at h
  dsimp only at h
  cases hx : VMQuery.fetch fmt q g db ⟨⟨0, 0, 0, 0⟩, .leaf⟩ lon lat elev with
  | ub => rw [hx] at h; cases h
  | exc m => rw [hx] at h; cases h
  | ok f =>
    have hs : f.err = q.err := by
      rcases QueryApp.fetch_said hx with hs | ⟨hs, -⟩
      · exact hs
      · rw [hf] at hs; cases hs
    rw [hx] at h
    dsimp only at h
    rw [hv] at h
    have hE : ∀ E : ErrorHandler, (if decide (f.payload.faultBlock = NODATABLOCK) = true then
        f.err.warning (VMQuery.noDataWarning fmt lon lat elev) else f.err) = E →
        E = q.err ∨ (E.status = .WARNING ∧ E.message = VMQuery.noDataWarning fmt lon lat elev) := by
      rintro E rfl
      split
      · exact Or.inr ⟨rfl, rfl⟩
      · exact Or.inl hs
    rcases hi with rfl | rfl
    · simp only [VMQuery.copyValues, VMQuery.copyValue, Outcome.bind_ok, Outcome.ok.injEq, Prod.mk.injEq] at h
      obtain ⟨rfl, -, rfl⟩ := h
      rcases hE _ rfl with h1 | h1
      · exact Or.inl h1
      · exact Or.inr (Or.inl h1)
    · simp only [VMQuery.copyValues, VMQuery.copyValue, Outcome.bind_ok] at h
      cases hq : VMQuery.queryElev q.rd g db q.dbExt f.addr lon lat elev false with
      | ub => rw [hq] at h; cases h
      | ok x =>
        rw [hq] at h
        simp only [Outcome.bind_ok, Outcome.ok.injEq, Prod.mk.injEq] at h
        obtain ⟨rfl, -, rfl⟩ := h
        rcases hE _ rfl with h1 | h1
        · exact Or.inl h1
        · exact Or.inr (Or.inl h1)
      | exc m =>
        rw [hq] at h
        simp only [Outcome.bind_ok, Outcome.ok.injEq, Prod.mk.injEq] at h
        obtain ⟨rfl, -, rfl⟩ := h
        exact Or.inr (Or.inr rfl)

theorem valueAt_heard {fmt : Fmt K} {q q' : VMQuery K} (hf : q.queryFn = .MAXRES) {i : Nat} {lon lat e v : K} {er : ErrorHandler} {fs fs' : Files}
    (hi : i = 1 ∨ (i = 8 ∧ e = -5000)) (h : valueAt fmt (asking q i er) fs lon lat e = .ok (v, q', fs')) :
    ValueAt fmt q i lon lat e v ∧ ∃ er', q' = asking q i er' ∧ Heard fmt q lon lat er er' := by
  refine ⟨(valueAt_back h).1, ?_⟩
  rcases valueAt_cases fmt q i lon lat e with ⟨h1, -⟩ | ⟨v', w, hw, -, -, h2⟩
  · rw [h1] at h; cases h
  obtain ⟨f, h3⟩ := h2 er fs
  rw [h3] at h
  cases h
  refine ⟨_, rfl, ⟨by cases w <;> rfl, by cases w <;> rfl⟩, ?_⟩
  unfold valueAt at h3
  obtain ⟨r, hr, h3⟩ := bind_eq_ok h3
  have hq : r.1 = asking q i (VMQuery.mark er w) := by
    split at h3
    · injection h3 with h3; injection h3 with h3 h5; injection h5 with h5
    · cases h3
  obtain ⟨r1, r2, r3⟩ := r
  dsimp only at hq
  rcases query_one (q := asking q i er) (i := i) (hi.imp id And.left) hf rfl hr with h4 | ⟨h4, h5⟩ | h4
  · left; rw [hq] at h4; exact h4
  · rw [hq] at h4 h5
    change (VMQuery.mark er w).status = .WARNING at h4
    cases w with
    | none => exact Or.inl rfl
    | some x =>
      obtain ⟨s, m⟩ := x
      change s = .WARNING at h4
      subst h4
      obtain ⟨f0, h0⟩ := h2 q.err (fun _ => "")
      unfold valueAt at h0
      obtain ⟨x, hx, h0⟩ := bind_eq_ok h0
      have hxq : x.1 = asking q i (VMQuery.mark q.err (some (.WARNING, m))) := by
        split at h0
        · injection h0 with h3; injection h3 with h3 h5; injection h5 with h5
        · cases h0
      obtain ⟨x1, x2, x3⟩ := x
      dsimp only at hxq
      exact Or.inr (Or.inl ⟨rfl, _, ⟨i, x1, x2, x3, hi, hx, by rw [hxq]; rfl⟩, h5⟩)
  · rw [hq] at h4
    change (VMQuery.mark er w).status = .ERROR at h4
    cases w with
    | none => exact Or.inl rfl
    | some x =>
      obtain ⟨s, m⟩ := x
      change s = .ERROR at h4
      subst h4
      refine Or.inr (Or.inr ⟨rfl, ?_⟩)
      rcases hi with rfl | ⟨rfl, rfl⟩
      · exact absurd (hw.2 (by decide)) (by intro h; cases h)
      · obtain ⟨f0, h0⟩ := h2 q.err (fun _ => "")
        unfold valueAt at h0
        obtain ⟨x, hx, h0⟩ := bind_eq_ok h0
        have hxq : x.1 = asking q 8 (VMQuery.mark q.err (some (.ERROR, m))) := by
          split at h0
          · injection h0 with h3; injection h3 with h3 h5; injection h5 with h5
          · cases h0
        obtain ⟨x1, x2, x3⟩ := x
        dsimp only at hxq
        exact ⟨x1, x2, x3, hx, by rw [hxq]; rfl, by rw [hxq]; rfl⟩

theorem groundLoop_heard {ar : Arith K} {fmt : Fmt K} {q : VMQuery K} (hf : q.queryFn = .MAXRES) {lon lat e0 : K} (n : Nat) :
    ∀ {k : Nat} {er : ErrorHandler} {fs : Files} {r : K × VMQuery K × Files}, groundLoop ar fmt lon lat e0 n k (asking q 1 er) fs = .ok r →
      ∃ er', r.2.1 = asking q 1 er' ∧ Heard fmt q lon lat er er' := by
  induction n with
  | zero => intro k er fs r h; cases h; exact ⟨er, rfl, Heard.rfl⟩
  | succ n ih =>
    intro k er fs r h
    unfold groundLoop at h
    obtain ⟨⟨v, q1, f1⟩, h1, h⟩ := bind_eq_ok h
    obtain ⟨-, er1, rfl, h2⟩ := valueAt_heard hf (Or.inl rfl) h1
    dsimp only at h
    split at h
    · cases h; exact ⟨er1, rfl, h2⟩
    · obtain ⟨er', h3, h4⟩ := ih h
      exact ⟨er', h3, h2.trans h4⟩

theorem searchLoop_heard {ar : Arith K} {fmt : Fmt K} {o : Options K} {q : VMQuery K} (hf : q.queryFn = .MAXRES) {lon lat : K} (n : Nat) :
    ∀ {u l e : K} {er : ErrorHandler} {fs : Files} {r : Except String K × VMQuery K × Files},
      searchLoopSaid ar fmt o.vs lon lat n u l e (asking q 1 er) fs = .ok r →
      (∃ er', r.2.1 = asking q 1 er' ∧ Heard fmt q lon lat er er') ∧ ∀ t, r.1 = .error t → Range fmt o q lon lat t := by
  induction n with
  | zero => intro u l e er fs r h; cases h; exact ⟨⟨er, rfl, Heard.rfl⟩, fun t ht => by cases ht⟩
  | succ n ih =>
    intro u l e er fs r h
    unfold searchLoopSaid at h
    obtain ⟨⟨vu, q1, f1⟩, h1, h⟩ := bind_eq_ok h
    obtain ⟨a1, er1, rfl, b1⟩ := valueAt_heard hf (Or.inl rfl) h1
    obtain ⟨⟨vl, q2, f2⟩, h2, h⟩ := bind_eq_ok h
    obtain ⟨a2, er2, rfl, b2⟩ := valueAt_heard hf (Or.inl rfl) h2
    obtain ⟨⟨vm, q3, f3⟩, h3, h⟩ := bind_eq_ok h
    obtain ⟨a3, er3, rfl, b3⟩ := valueAt_heard hf (Or.inl rfl) h3
    have hb := (b1.trans b2).trans b3
    dsimp only at h
    split at h
    · obtain ⟨⟨er', h4, h5⟩, h6⟩ := ih h
      exact ⟨⟨er', h4, hb.trans h5⟩, h6⟩
    · cases h; exact ⟨⟨_, rfl, hb⟩, fun t ht => by cases ht⟩
    · next hd =>
      injection h with h
      rw [← h]
      refine ⟨⟨_, rfl, hb⟩, fun t ht => ?_⟩
      rw [← Except.error.inj ht]
      unfold decideRound at hd
      split_ifs at hd with c1 c2 c3 c4
      refine ⟨u, l, ar.middle u l, vu, vl, vm, a1, a2, a3, not_le.1 c3, ?_, ?_, not_lt.1 c4, ?_⟩
      · by_contra hc; exact c1 ⟨not_le.1 c3, not_lt.1 hc⟩
      · by_contra hc
        refine c2 ⟨?_, not_lt.1 hc⟩
        by_contra hm
        exact c1 ⟨not_le.1 c3, not_lt.1 hm⟩
      · unfold rangeSaid
        simp [String.ext_iff]

/-- What comes of a location. -/
theorem locate_heard {ar : Arith K} {fmt : Fmt K} {o : Options K} {q : VMQuery K} (hf : q.queryFn = .MAXRES) (hs : q.err.status = .OK)
    {vs : List (Option Nat)} {fs : Files} {lon lat : K} :
    (∀ m, locateSaid ar fmt o { q with queryVals := vs } fs lon lat ≠ .exc m) ∧ ∀ x, locateSaid ar fmt o { q with queryVals := vs } fs lon lat = .ok x →
      match x with
      | .dist _ q' _ => ∃ er', q' = asking q 1 er' ∧ Heard fmt q lon lat q.err er'
      | .exit t => Range fmt o q lon lat t
      | .abort _ => False := by
  have hx : ∀ (i : Nat) er fs e m, valueAt fmt (asking q i er) fs lon lat e ≠ .exc m := by
    intro i er fs e m h
    rcases valueAt_cases fmt q i lon lat e with ⟨h1, -⟩ | ⟨v', w, hw, -, -, h2⟩
    · rw [h1] at h; cases h
    · obtain ⟨f, h3⟩ := h2 er fs
      rw [h3] at h; cases h
  have hgx : ∀ (n k : Nat) er fs e0 m, groundLoop ar fmt lon lat e0 n k (asking q 1 er) fs ≠ .exc m := by
    intro n
    induction n with
    | zero => intro k er fs e0 m h; cases h
    | succ n ih =>
      intro k er fs e0 m h
      unfold groundLoop at h
      dsimp only at h
      cases h1 : valueAt fmt (asking q 1 er) fs lon lat (ar.rd (e0 + ar.rd (k * (-12.5)))) with
      | ub => rw [h1] at h; cases h
      | exc m' => exact hx _ _ _ _ _ h1
      | ok r =>
        obtain ⟨v, q1, f1⟩ := r
        obtain ⟨-, er1, rfl, -⟩ := valueAt_heard hf (Or.inl rfl) h1
        rw [h1, Outcome.bind_ok] at h
        dsimp only at h
        split at h
        · cases h
        · exact ih _ _ _ _ _ h
  have hsx : ∀ (n : Nat) u l e er fs m, searchLoopSaid ar fmt o.vs lon lat n u l e (asking q 1 er) fs ≠ .exc m := by
    intro n
    induction n with
    | zero => intro u l e er fs m h; cases h
    | succ n ih =>
      intro u l e er fs m h
      unfold searchLoopSaid at h
      cases h1 : valueAt fmt (asking q 1 er) fs lon lat u with
      | ub => rw [h1] at h; cases h
      | exc m' => exact hx _ _ _ _ _ h1
      | ok r1 =>
      obtain ⟨v1, q1, f1⟩ := r1
      obtain ⟨-, er1, rfl, -⟩ := valueAt_heard hf (Or.inl rfl) h1
      rw [h1, Outcome.bind_ok] at h
      dsimp only at h
      cases h2 : valueAt fmt (asking q 1 er1) f1 lon lat l with
      | ub => rw [h2] at h; cases h
      | exc m' => exact hx _ _ _ _ _ h2
      | ok r2 =>
      obtain ⟨v2, q2, f2⟩ := r2
      obtain ⟨-, er2, rfl, -⟩ := valueAt_heard hf (Or.inl rfl) h2
      rw [h2, Outcome.bind_ok] at h
      dsimp only at h
      cases h3 : valueAt fmt (asking q 1 er2) f2 lon lat (ar.middle u l) with
      | ub => rw [h3] at h; cases h
      | exc m' => exact hx _ _ _ _ _ h3
      | ok r3 =>
      obtain ⟨v3, q3, f3⟩ := r3
      obtain ⟨-, er3, rfl, -⟩ := valueAt_heard hf (Or.inl rfl) h3
      rw [h3, Outcome.bind_ok] at h
      dsimp only at h
      split at h
      · exact ih _ _ _ _ _ _ h
      · cases h
      · cases h
  unfold locateSaid queryElevSaid
  rw [setQueryVals_elev]
  simp only [Outcome.bind_ok]
  rw [if_neg (show ¬ (asking { q with queryVals := vs } 8 ({ q with queryVals := vs } : VMQuery K).err).err.status ≠ .OK from fun h => h hs)]
  rw [show asking { q with queryVals := vs } 8 ({ q with queryVals := vs } : VMQuery K).err = asking q 8 q.err from rfl]
  cases h1 : valueAt fmt (asking q 8 q.err) fs lon lat (-5000) with
  | ub => exact ⟨fun m h => (by cases h), fun x h => (by cases h)⟩
  | exc m' => exact absurd h1 (hx _ _ _ _ _)
  | ok r =>
    obtain ⟨e0, q1, f1⟩ := r
    obtain ⟨-, er1, rfl, b1⟩ := valueAt_heard hf (Or.inr ⟨rfl, rfl⟩) h1
    simp only [Outcome.bind_ok, setQueryVals_vs]
    rw [show asking (asking q 8 er1) 1 (asking q 8 er1).err = asking q 1 er1 from rfl]
    cases h2 : groundLoop ar fmt lon lat e0 10 0 (asking q 1 er1) f1 with
    | ub => exact ⟨fun m h => (by cases h), fun x h => (by cases h)⟩
    | exc m' => exact absurd h2 (hgx _ _ _ _ _ _)
    | ok g =>
      obtain ⟨g, q2, f2⟩ := g
      obtain ⟨er2, h3, b2⟩ := groundLoop_heard hf _ h2
      dsimp only at h3
      subst h3
      simp only [Outcome.bind_ok]
      unfold searchVsSaid
      cases hn : niters ar (limits ar o g).1 (limits ar o g).2 with
      | ub => exact ⟨fun m h => (by cases h), fun x h => (by cases h)⟩
      | exc m' =>
        unfold niters at hn
        split at hn <;> cases hn
      | ok n =>
        simp only [Outcome.bind_ok, setQueryVals_vs]
        rw [show asking (asking q 1 er2) 1 (asking q 1 er2).err = asking q 1 er2 from rfl]
        cases h4 : searchLoopSaid ar fmt o.vs lon lat n.toNat (limits ar o g).1 (limits ar o g).2 (limits ar o g).2 (asking q 1 er2) f2 with
        | ub => exact ⟨fun m h => (by cases h), fun x h => (by cases h)⟩
        | exc m' => exact absurd h4 (hsx _ _ _ _ _ _ _)
        | ok s =>
          obtain ⟨⟨er3, h5, b3⟩, h6⟩ := searchLoop_heard hf _ h4
          obtain ⟨s, q3, f3⟩ := s
          cases s with
          | error t => exact ⟨fun m h => (by cases h), fun x h => (by cases h; exact h6 t rfl)⟩
          | ok e => exact ⟨fun m h => (by cases h), fun x h => (by cases h; exact ⟨er3, h5, (b1.trans b2).trans b3⟩)⟩

theorem settle_heard {fmt : Fmt K} {q : VMQuery K} {lon lat : K} {er : ErrorHandler} (hs : q.err.status = .OK) (hm : q.err.message = "")
    (h : Heard fmt q lon lat q.err er) : QueryApp.settle (asking q 1 er) = { q with queryVals := [some 1] } := by
  obtain ⟨res, lim, db0, ext, vals, gm, er0, fn, fnx, qfn, cs, csx, sq⟩ := q
  obtain ⟨msg, lf, sk, st⟩ := er0
  obtain ⟨msg', lf', sk', st'⟩ := er
  obtain ⟨⟨h1, h2⟩, h3⟩ := h
  dsimp only at h1 h2 hs hm
  subst h1 h2 hs hm
  by_cases h : st' = .OK
  · subst h
    rcases h3 with h3 | ⟨h3, -⟩ | ⟨h3, -⟩
    · cases h3; rfl
    · cases h3
    · cases h3
  · exact if_pos h

theorem leaveSaid_same {env : QueryApp.Env K} {q : VMQuery K} {c : Int} {lines : List (Line K)} {t : String} {r : Report K}
    (h : leaveSaid env q c lines t = .ok r) : r = ⟨⟨.ret c, lines⟩, t⟩ := by
  unfold leaveSaid leave at h
  obtain ⟨x, hx, h⟩ := bind_eq_ok h
  obtain ⟨y, hy, hx⟩ := bind_eq_ok hx
  cases hx
  cases h
  rfl

/-- The end after the databases were opened. -/
theorem finish_said {env : QueryApp.Env K} {o : Options K} {q : VMQuery K} (hq : Configured env o q) {vs : List (Option Nat)}
    {lines : List (Line K)} {t : String} {r : Report K} (h : finishSaid env { q with queryVals := vs } lines t = .ok r) :
    r.result.lines = lines ∧ ∃ tail, r.err = t ++ tail ∧ Final env o q r.result.ending tail := by
  have hc : (VMQuery.close env.closeFail env.closeFailExt { q with queryVals := vs }).err.status ≠ .OK → CloseFails env o ∧
      (VMQuery.close env.closeFail env.closeFailExt { q with queryVals := vs }).err.message =
        "Could not close the etree database '" ++ o.filenameDB ++ "'." := by
    obtain ⟨d, x, -, h2, rfl⟩ := hq
    unfold VMQuery.close VMQuery.closeErr CloseFails VMQuery.closeMessage
    rcases h2 with ⟨h2, rfl⟩ | ⟨h2, y, h5, rfl⟩ <;> cases hc : env.closeFail <;> cases hx : env.closeFailExt <;>
      simp [h2, ErrorHandler.error, VMQuery.init, ErrorHandler.init]
  unfold finishSaid at h
  dsimp only at h
  split at h
  · next he =>
    have := leaveSaid_same h
    subst this
    exact ⟨rfl, _, rfl, Or.inr ⟨rfl, Or.inr (Or.inr ⟨(hc he).1, (hc he).2⟩)⟩⟩
  · have := leaveSaid_same h
    subst this
    exact ⟨rfl, "", by simp, Or.inl ⟨rfl, rfl⟩⟩

theorem loop_said {ar : Arith K} {env : QueryApp.Env K} {o : Options K} {q : VMQuery K} (hq : Configured env o q) (n : Nat) (s : Stream)
    (loc : K × K) (vs : List (Option Nat)) (fs : Files) (lines : List (Line K)) (t : String) {r : Report K}
    (h : loopSaid ar env o n s loc { q with queryVals := vs } fs lines t = .ok r) :
    ∃ new ts tail, r.result.lines = lines ++ new ∧ r.err = t ++ String.join ts ++ tail ∧ List.Forall₂ (LineSaid env.fmt q) new ts ∧
      Final env o q r.result.ending tail := by
  have hs : q.err.status = .OK ∧ q.err.message = "" ∧ q.queryFn = .MAXRES := by
    obtain ⟨d, x, -, -, rfl⟩ := hq
    exact ⟨rfl, rfl, rfl⟩
  induction n generalizing s loc vs fs lines t with
  | zero => cases h
  | succ n ih =>
    unfold loopSaid at h
    split at h
    · have hl := locate_heard (ar := ar) (fmt := env.fmt) (o := o) hs.2.2 hs.1 (vs := vs) (fs := fs) (lon := loc.1) (lat := loc.2)
      cases hx : locateSaid ar env.fmt o { q with queryVals := vs } fs loc.1 loc.2 with
      | ub => rw [hx] at h; cases h
      | exc m => exact absurd hx (hl.1 m)
      | ok x =>
        have hf := hl.2 x hx
        rw [hx] at h
        cases x with
        | abort t' => exact hf.elim
        | exit t' =>
          cases h
          exact ⟨[], [], t', by simp, by simp, .nil, _, _, hf⟩
        | dist d q' fs' =>
          obtain ⟨er, rfl, hh⟩ := hf
          dsimp only at h
          split at h
          · next he =>
            have := leaveSaid_same h
            subst this
            refine ⟨[], [], er.message, by simp, ?_, .nil, Or.inr ⟨rfl, Or.inr (Or.inl ⟨loc.1, loc.2, ?_⟩)⟩⟩
            · have he' : (asking q 1 er).err.status ≠ .OK := by rw [he]; decide
              change say (asking q 1 er) t = _
              unfold say
              rw [if_pos he']
              simp [String.join]
              rfl
            · change er.status = .ERROR at he
              rcases hh.2 with h1 | ⟨h1, -⟩ | ⟨-, h1⟩
              · rw [h1, hs.1] at he; cases he
              · rw [h1] at he; cases he
              · exact h1
          · next he =>
            rw [settle_heard hs.1 hs.2.1 hh] at h
            obtain ⟨new, ts, tail, h1, h2, h3, h4⟩ := ih _ _ _ _ _ _ h
            have hsay : ∃ t1, say (asking q 1 er) t = t ++ t1 ∧ LineSaid env.fmt q ⟨loc.1, loc.2, d⟩ t1 := by
              change ¬ er.status = .ERROR at he
              rcases hh.2 with h5 | ⟨h5, z, h6⟩ | ⟨h5, -⟩
              · refine ⟨"", ?_, Or.inl rfl⟩
                unfold say
                rw [if_neg (by rw [h5]; exact fun h => h hs.1)]
                simp
              · refine ⟨er.message, ?_, Or.inr ⟨z, h6.1, h6.2⟩⟩
                unfold say
                have he' : (asking q 1 er).err.status ≠ .OK := by
                  change er.status ≠ .OK
                  rw [h5]; decide
                rw [if_pos he']
                rfl
              · exact absurd h5 he
            obtain ⟨t1, h5, h6⟩ := hsay
            refine ⟨⟨loc.1, loc.2, d⟩ :: new, t1 :: ts, tail, by rw [h1]; simp, ?_, .cons h6 h3, h4⟩
            rw [h2, h5, String.join_cons]
            simp [String.append_assoc]
    · obtain ⟨h1, tail, h2, h3⟩ := finish_said hq h
      exact ⟨[], [], tail, by rw [h1]; simp, by rw [h2]; simp, .nil, h3⟩

/-- What `open` says when it fails. -/
theorem openDb_why {env : QueryApp.Env K} {o : Options K} {q : VMQuery K}
    (h : VMQuery.openDb env.disk (prepared env.geom o) = .ok q) (he : q.err.status = .ERROR) : Unopened env o q.err.message := by
  have hc : (prepared env.geom o).cacheSize > 0 := by unfold prepared; dsimp only; split <;> omega
  have hcx : (prepared env.geom o).cacheSizeExt > 0 := by unfold prepared; dsimp only; split <;> omega
  unfold VMQuery.openDb VMQuery.openMain at h
  rw [show (prepared env.geom o).db = none from rfl] at h
  dsimp only at h
  rw [if_pos hc, show (prepared env.geom o).filename = o.filenameDB from rfl] at h
  cases hd : env.disk o.filenameDB with
  | none =>
    rw [hd] at h
    dsimp only at h
    rw [Outcome.bind_ok] at h
    unfold VMQuery.openExt at h
    dsimp only at h
    rw [show (prepared env.geom o).filenameExt = o.filenameDBExt from rfl, show (prepared env.geom o).dbExt = none from rfl] at h
    dsimp only at h
    by_cases hx : o.filenameDBExt = ""
    · rw [if_neg (by simp [hx])] at h
      cases h; exact Or.inr ⟨hd, rfl⟩
    · rw [if_pos hx, if_pos hcx] at h
      cases hdx : env.disk o.filenameDBExt with
      | none => rw [hdx] at h; cases h; exact Or.inl ⟨hx, hdx, rfl⟩
      | some d => rw [hdx] at h; cases h; exact Or.inr ⟨hd, rfl⟩
  | some d =>
    rw [hd] at h
    dsimp only at h
    rw [Outcome.bind_ok] at h
    unfold VMQuery.openExt at h
    dsimp only at h
    rw [show (prepared env.geom o).filenameExt = o.filenameDBExt from rfl, show (prepared env.geom o).dbExt = none from rfl] at h
    dsimp only at h
    have hok : (prepared env.geom o).err.status ≠ .ERROR := by
      rw [show (prepared env.geom o).err = ErrorHandler.init from rfl]; decide
    by_cases hx : o.filenameDBExt = ""
    · rw [if_neg (by simp [hx])] at h
      cases h; exact absurd he hok
    · rw [if_pos hx, if_pos hcx] at h
      cases hdx : env.disk o.filenameDBExt with
      | none => rw [hdx] at h; cases h; exact Or.inl ⟨hx, hdx, rfl⟩
      | some d => rw [hdx] at h; cases h; exact absurd he hok

theorem openDb_name {env : QueryApp.Env K} {o : Options K} {q : VMQuery K}
    (h : VMQuery.openDb env.disk (prepared env.geom o) = .ok q) : q.filename = o.filenameDB := by
  unfold VMQuery.openDb at h
  obtain ⟨q1, h1, h⟩ := bind_eq_ok h
  have a1 : q1.filename = o.filenameDB := by
    unfold VMQuery.openMain at h1
    repeat' split at h1
    all_goals first | (cases h1; rfl) | cases h1
  unfold VMQuery.openExt at h
  repeat' split at h
  all_goals first | (cases h; exact a1) | cases h

/-- Whether the databases are opened, and what is said if not. -/
theorem setup_why (env : QueryApp.Env K) (o : Options K) :
    ∃ q, setup env o (VMQuery.init env.geom) = .ok q ∧
      (Configured env o q ∨ (q.err.status = .ERROR ∧ Unopened env o q.err.message ∧ q.filename = o.filenameDB)) := by
  have hp : setup env o (VMQuery.init env.geom) = (VMQuery.openDb env.disk (prepared env.geom o) >>= fun q =>
      if q.err.status ≠ .OK then .ok q else .ok (VMQuery.queryType q 0)) := by
    unfold setup prepared VMQuery.setFilename VMQuery.setFilenameExt VMQuery.setCacheSize VMQuery.setCacheSizeExt VMQuery.squash VMQuery.init
    by_cases h1 : 0 < o.cacheSize <;> by_cases h3 : o.squashLimit = 1000000 <;> simp [h1, h3]
  obtain ⟨q, hq, hc⟩ := setup_cases env o
  refine ⟨q, hq, hc.imp_right fun ⟨hn, he⟩ => ?_⟩
  rw [hp] at hq
  obtain ⟨q', hq', hq⟩ := bind_eq_ok hq
  have hqq : q' = q := by
    split at hq
    · cases hq; rfl
    · next h1 =>
      cases hq
      exact absurd (show q'.err.status = .ERROR from he) (by rw [not_not.1 h1]; decide)
  subst hqq
  exact ⟨he, openDb_why hq' he, openDb_name hq'⟩

/-- The run when the databases cannot be opened. -/
theorem loop_unopened {ar : Arith K} {env : QueryApp.Env K} {o : Options K} {q : VMQuery K} (he : q.err.status = .ERROR)
    (n : Nat) (s : Stream) (loc : K × K) (fs : Files) (t : String) {r : Report K}
    (h : loopSaid ar env o n s loc q fs [] t = .ok r) :
    r.result.lines = [] ∧ ((r.result.ending = .abort ∧ r.err = t ++ q.err.message) ∨
      (r.result.ending = .ret 1 ∧ (r.err = t ++ q.err.message ∨ r.err = t ++ VMQuery.closeMessage q.filename))) := by
  cases n with
  | zero => cases h
  | succ n =>
    unfold loopSaid at h
    split at h
    · unfold locateSaid queryElevSaid at h
      rw [setQueryVals_elev] at h
      simp only [Outcome.bind_ok] at h
      rw [if_pos (by change q.err.status ≠ .OK; rw [he]; decide)] at h
      simp only [Outcome.bind_ok] at h
      cases h
      exact ⟨rfl, Or.inl ⟨rfl, rfl⟩⟩
    · unfold finishSaid at h
      dsimp only at h
      have hc : (VMQuery.close env.closeFail env.closeFailExt q).err.status = .ERROR ∧
          ((VMQuery.close env.closeFail env.closeFailExt q).err.message = q.err.message ∨
            (VMQuery.close env.closeFail env.closeFailExt q).err.message = VMQuery.closeMessage q.filename) := by
        unfold VMQuery.close VMQuery.closeErr
        dsimp only
        split <;> split <;> simp [he, ErrorHandler.error]
      rw [if_pos (by rw [hc.1]; decide)] at h
      have := leaveSaid_same h
      subst this
      refine ⟨rfl, Or.inr ⟨rfl, ?_⟩⟩
      rcases hc.2 with h1 | h1
      · exact Or.inl (by rw [h1])
      · exact Or.inr (by rw [h1])

theorem run_said {ar : Arith K} {env : QueryApp.Env K} {o : Options K} {r : Report K} (h : runSaid ar env o = .ok r) :
    (∃ q, Configured env o q ∧ ∃ ts tail, r.err = String.join ts ++ tail ∧ List.Forall₂ (LineSaid env.fmt q) r.result.lines ts ∧
      Final env o q r.result.ending tail) ∨
    ∃ m, Unopened env o m ∧ r.result.lines = [] ∧ ((r.result.ending = .abort ∧ r.err = m ++ m) ∨
      (r.result.ending = .ret 1 ∧ (r.err = m ++ m ∨ (∃ t, NoFile env o t ∧ r.err = m ++ t) ∨
        r.err = m ++ ("Could not close the etree database '" ++ o.filenameDB ++ "'.")))) := by
  unfold runSaid at h
  rw [setup_said env o rfl] at h
  obtain ⟨q, hq, hc⟩ := setup_why env o
  rw [hq] at h
  simp only [Outcome.bind_ok] at h
  rcases hc with hc | ⟨he, hu, hname⟩
  · left
    have hs : q.err.status = .OK := by obtain ⟨d, x, -, -, rfl⟩ := hc; rfl
    rw [show say q "" = "" from if_neg (by simp [hs])] at h
    refine ⟨q, hc, ?_⟩
    cases hi : env.input o.filenameIn with
    | none =>
      rw [hi] at h
      have := leaveSaid_same h
      subst this
      exact ⟨[], "Could not open file '" ++ o.filenameIn ++ "' to read query locations.\n", by simp [String.join], .nil,
        Or.inr ⟨rfl, Or.inl (Or.inl ⟨hi, rfl⟩)⟩⟩
    | some text =>
      rw [hi] at h
      dsimp only at h
      split at h
      · obtain ⟨new, ts, tail, h1, h2, h3, h4⟩ := loop_said (vs := q.queryVals) hc _ _ _ _ _ _ h
        rw [List.nil_append] at h1
        exact ⟨ts, tail, by rw [h2]; simp, by rw [h1]; exact h3, h4⟩
      · next hw =>
        have := leaveSaid_same h
        subst this
        exact ⟨[], "Could not open file '" ++ o.filenameOut ++ "' to receive query data.\n", by simp [String.join], .nil,
          Or.inr ⟨rfl, Or.inl (Or.inr ⟨by simpa using hw, rfl⟩)⟩⟩
  · right
    rw [show say q "" = q.err.message by unfold say; rw [if_pos (by rw [he]; decide), String.empty_append]] at h
    refine ⟨_, hu, ?_⟩
    cases hi : env.input o.filenameIn with
    | none =>
      rw [hi] at h
      have := leaveSaid_same h
      subst this
      exact ⟨rfl, Or.inr ⟨rfl, Or.inr (Or.inl ⟨_, Or.inl ⟨hi, rfl⟩, by simp [String.append_assoc]⟩)⟩⟩
    | some text =>
      rw [hi] at h
      dsimp only at h
      split at h
      · obtain ⟨h1, h2⟩ := loop_unopened he _ _ _ _ _ h
        refine ⟨h1, ?_⟩
        rcases h2 with h2 | ⟨h2, h3 | h3⟩
        · exact Or.inl h2
        · exact Or.inr ⟨h2, Or.inl h3⟩
        · exact Or.inr ⟨h2, Or.inr (Or.inr (by rw [h3, hname]; rfl))⟩
      · next hw =>
        have := leaveSaid_same h
        subst this
        exact ⟨rfl, Or.inr ⟨rfl, Or.inr (Or.inl ⟨_, Or.inr ⟨by simpa using hw, rfl⟩, by simp [String.append_assoc]⟩)⟩⟩

/-- An error in the elevation of the ground has a message. -/
theorem failed_speaks {env : QueryApp.Env K} {o : Options K} {q : VMQuery K} (hg : QueryApp.Speaks env.geom) (hq : Configured env o q)
    {fmt : Fmt K} {lon lat : K} {t : String} (h : Failed fmt q lon lat t) : t ≠ "" := by
  obtain ⟨q', fs', vals, h, he, rfl⟩ := h
  obtain ⟨d, x, -, -, rfl⟩ := hq
  unfold VMQuery.query VMQuery.init at h
  rw [if_neg (by simp)] at h
  dsimp only at h
  split at h
  · cases h
  · cases h
  · next f hx =>
    have hs : f.err.status = .OK := by
      rcases QueryApp.fetch_said hx with hs | ⟨hs, -⟩
      · rw [hs]; rfl
      · cases hs
    simp only [VMQuery.copyValues, VMQuery.copyValue] at h
    generalize hE : (if decide (f.payload.faultBlock = NODATABLOCK) = true then
        f.err.warning (VMQuery.noDataWarning fmt lon lat (-5000)) else f.err) = E at h
    have hE' : E.status ≠ .ERROR := by
      rw [← hE]
      split
      · exact fun h => by cases h
      · rw [hs]; exact fun h => by cases h
    split at h
    · next y1 y2 hy =>
      cases h
      obtain ⟨z, hz, hy⟩ := bind_eq_ok hy
      simp only [Outcome.bind_ok, Outcome.ok.injEq, Prod.mk.injEq] at hy
      rw [← hy.2] at he ⊢
      split at hz
      · cases hz; exact absurd he hE'
      · next m hm => cases hz; exact QueryApp.queryElev_exc hg hm
      · cases hz
    · cases h
    · cases h

end IsoApp
end CenCalVM
