/-
What cencalvmquery writes to standard error.
-/
import Verif.Lemmas.QueryLog
import Verif.Lemmas.PrintRun
import Verif.Spec.QueryConsole

set_option linter.unusedSectionVars false

namespace CenCalVM
namespace QueryApp
open Print (bind_eq_ok)
variable {K : Type} [Field K] [LinearOrder K] [IsStrictOrderedRing K]

/-! ### The same run -/

/-- A result without the text. -/
def bare (r : Outcome (Report K)) : Outcome (Result K) := do
  let r ← r
  .ok r.result

theorem bare_leave (env : Env K) (r : Result K) (t : String) : bare (leaveSaid env r t) = leave env r := by
  unfold bare leaveSaid
  cases leave env r <;> rfl

/-- An outcome without the text. -/
def plain {α : Type} : Except String α → Option α
  | .ok a => some a
  | .error _ => none

theorem plain_bind {α β : Type} (x : Except String α) (f : α → Except String β) : plain (x >>= f) = (plain x).bind fun a => plain (f a) := by
  cases x <;> rfl

theorem plain_checked (q : VMQuery K) : plain (checkedSaid q) = checked q := by
  unfold checkedSaid checked; split <;> rfl

theorem plain_configure (o : Options K) (q : VMQuery K) : plain (configureSaid o q) = configure o q := by
  have h1 : ∀ q, plain (setExtSaid o q) = setExt o q := by
    intro q
    unfold setExtSaid setExt
    split
    · rw [plain_bind, plain_checked]; simp only [plain_checked]
    · rfl
  have h2 : ∀ q, plain (setSquashSaid o q) = setSquash o q := by
    intro q
    unfold setSquashSaid setSquash
    split
    · exact plain_checked _
    · rfl
  unfold configureSaid configure
  simp only [plain_bind, plain_checked, h1, h2]

theorem plain_selectType (o : Options K) (q : VMQuery K) : plain (selectTypeSaid o q) = selectType o q := by
  unfold selectTypeSaid selectType
  dsimp only
  split_ifs <;> rfl

theorem bare_loop (env : Env K) (n : Nat) (s : Stream) (loc : K × K × K) (q : VMQuery K) (fs : Files) (lines : List (Line K)) (t : String) :
    bare (loopSaid env n s loc q fs lines t) = loop env n s loc q fs lines := by
  induction n generalizing s loc q fs lines t with
  | zero => rfl
  | succ n ih =>
    unfold loopSaid loop
    split
    · cases VMQuery.query env.fmt q fs 9 loc.1 loc.2.1 loc.2.2 with
      | ub => rfl
      | exc m => rfl
      | ok r =>
        rw [Outcome.bind_ok, Outcome.bind_ok]
        dsimp only
        split
        · exact bare_leave _ _ _
        · exact ih _ _ _ _ _ _
    · unfold finishSaid finish
      dsimp only
      split <;> exact bare_leave _ _ _

theorem bare_run (env : Env K) (o : Options K) (fs : Files) : bare (runSaid env o fs) = run env o fs := by
  unfold runSaid run
  dsimp only
  have hc := plain_configure o { VMQuery.init env.geom with err := (start env o fs).1 }
  cases h1 : configureSaid o { VMQuery.init env.geom with err := (start env o fs).1 } with
  | error t => rw [h1] at hc; rw [← hc]; exact bare_leave _ _ _
  | ok q =>
    rw [h1] at hc; rw [← hc]
    dsimp only [plain]
    cases VMQuery.openDb env.disk q with
    | ub => rfl
    | exc m => rfl
    | ok q =>
      rw [Outcome.bind_ok, Outcome.bind_ok]
      have hs : plain (checkedSaid q >>= selectTypeSaid o) = (checked q).bind (selectType o) := by
        rw [plain_bind, plain_checked]; simp only [plain_selectType]
      cases h2 : checkedSaid q >>= selectTypeSaid o with
      | error t => rw [h2] at hs; rw [← hs]; exact bare_leave _ _ _
      | ok q =>
        rw [h2] at hs; rw [← hs]
        dsimp only [plain]
        cases env.input o.filenameIn with
        | none => exact bare_leave _ _ _
        | some text =>
          dsimp only
          split
          · exact bare_loop _ _ _ _ _ _ _ _
          · exact bare_leave _ _ _

/-! ### Messages -/

/-- The warning of a search. -/
def Orphan (fmt : Fmt K) (q : VMQuery K) (lon lat : K) (h h' : ErrorHandler) : Prop :=
  q.queryFn = .WAVERES ∧ ∃ parent child z, h' = h.warning (VMQuery.orphanMessage fmt parent child lon lat z)

theorem runQueryFn_said {fmt : Fmt K} {q : VMQuery K} {g : Geom K} {h : ErrorHandler} {addr : Addr} {db : Db K} {lon lat elev : K}
    {use : Bool} {r : Payload K × Addr × ErrorHandler} (hr : VMQuery.runQueryFn fmt q g h addr db lon lat elev use = .ok r) :
    r.2.2 = h ∨ Orphan fmt q lon lat h r.2.2 := by
  unfold VMQuery.runQueryFn at hr
  cases hf : q.queryFn with
  | MAXRES =>
    rw [hf] at hr
    obtain ⟨x, -, h2⟩ := bind_eq_ok hr
    cases h2; exact Or.inl rfl
  | FIXEDRES =>
    rw [hf] at hr
    obtain ⟨x, -, h2⟩ := bind_eq_ok hr
    cases h2; exact Or.inl rfl
  | WAVERES =>
    rw [hf] at hr
    dsimp only at hr
    unfold VMQuery.queryWave at hr
    dsimp only at hr
    have key : ∀ x : Addr × Int, (if x.2 ≠ 0 then Outcome.ok (noDataPayload, x.1, h)
        else match db.search x.1.toKey with
          | none => .ok (noDataPayload, x.1, h)
          | some e =>
            if e.addr.type = .interior ∧ VMQuery.quotGt q.rd (g.edgeLen e.addr.level) e.payload.vs (g.vertExag * q.queryRes) = true then
              .ok (noDataPayload, x.1, h)
            else do
              match ← VMQuery.waveLoop q.rd g db (g.vertExag * q.queryRes) e.addr.level e.payload e with
              | .reached child last => .ok (VMQuery.waveAverage q.rd child last, x.1, h)
              | .orphan parent child =>
                .ok (e.payload, x.1, h.warning (VMQuery.orphanMessage fmt parent child lon lat elev))) = .ok r →
        r.2.2 = h ∨ Orphan fmt q lon lat h r.2.2 := by
      intro x hx
      split at hx
      · cases hx; exact Or.inl rfl
      · split at hx
        · cases hx; exact Or.inl rfl
        · split at hx
          · cases hx; exact Or.inl rfl
          · obtain ⟨w, -, h2⟩ := bind_eq_ok hx
            cases w with
            | reached a b => cases h2; exact Or.inl rfl
            | orphan a b => cases h2; exact Or.inr ⟨hf, _, _, _, rfl⟩
    split at hr
    · rw [Outcome.bind_ok] at hr; exact key _ hr
    · obtain ⟨x, -, h2⟩ := bind_eq_ok hr
      exact key x h2

theorem fetch_said {fmt : Fmt K} {q : VMQuery K} {g : Geom K} {db : Db K} {addr : Addr} {lon lat elev : K} {f : VMQuery.Fetched K}
    (h : VMQuery.fetch fmt q g db addr lon lat elev = .ok f) : f.err = q.err ∨ Orphan fmt q lon lat q.err f.err := by
  unfold VMQuery.fetch at h
  obtain ⟨r, -, h⟩ := bind_eq_ok h
  dsimp only at h
  obtain ⟨p, hp, h⟩ := bind_eq_ok h
  have h1 := runQueryFn_said hp
  split at h
  · cases hx : q.dbExt with
    | none => rw [hx] at h; cases h; exact h1
    | some x =>
      rw [hx] at h
      obtain ⟨p', hp', h⟩ := bind_eq_ok h
      cases h
      have h2 := runQueryFn_said hp'
      dsimp only
      rcases h2 with h2 | ⟨hw, a, b, z, h2⟩
      · rw [h2]; exact h1
      · refine Or.inr ⟨hw, a, b, z, ?_⟩
        rcases h1 with h1 | ⟨-, a', b', z', h1⟩ <;> rw [h2, h1]
        rfl
  · cases h; exact h1

/-- What a query for all values leaves in the handler. -/
theorem query_said {fmt : Fmt K} {q q' : VMQuery K} {fs fs' : Files} {lon lat elev : K} {vals : List K}
    (hv : q.queryVals = (List.range 9).map some) (h : VMQuery.query fmt q fs 9 lon lat elev = .ok (q', fs', vals)) :
    ∃ e, (if vals[6]? = some 0 then e.status = .WARNING ∧ e.message = VMQuery.noDataWarning fmt lon lat elev
        else e = q.err ∨ Orphan fmt q lon lat q.err e) ∧ 
      (q'.err = e ∨ q'.err.status = .ERROR ∧ ∃ g db a, q.geom = some g ∧
        VMQuery.queryElev q.rd g db q.dbExt a lon lat elev false = .exc q'.err.message) := by
  unfold VMQuery.query at h
  rw [if_neg (by rw [hv]; simp)] at h
  cases hg : q.geom with
  | none => rw [hg] at h; cases h
  | some g =>
  cases hd : q.db with
  | none => rw [hg, hd] at h; cases h
  | some db =>
  rw [hg, hd] at h
  dsimp only at h
  cases hf : VMQuery.fetch fmt q g db ⟨⟨0, 0, 0, 0⟩, .leaf⟩ lon lat elev with
  | ub => rw [hf] at h; cases h
  | exc m => rw [hf] at h; cases h
  | ok f =>
    have hs := fetch_said hf
    rw [hf] at h
    dsimp only at h
    rw [hv] at h
    have e9 : (List.range 9).map some = [some 0, some 1, some 2, some 3, some 4, some 5, some 6, some 7, some 8] := rfl
    rw [e9] at h
    refine ⟨if decide (f.payload.faultBlock = NODATABLOCK) = true then f.err.warning (VMQuery.noDataWarning fmt lon lat elev) else f.err, ?_⟩
    generalize hE : (if decide (f.payload.faultBlock = NODATABLOCK) = true then
      f.err.warning (VMQuery.noDataWarning fmt lon lat elev) else f.err) = E at h ⊢
    simp only [VMQuery.copyValues, VMQuery.copyValue, Outcome.bind_ok] at h
    have hE' : ∀ vals : List K, vals[6]? = some (f.payload.faultBlock : K) →
        (if vals[6]? = some 0 then E.status = .WARNING ∧ E.message = VMQuery.noDataWarning fmt lon lat elev
          else E = q.err ∨ Orphan fmt q lon lat q.err E) := by
      intro vals hvv
      rw [hvv]
      by_cases hp : f.payload.faultBlock = 0
      · rw [if_pos (by rw [hp]; simp)]
        rw [if_pos (show decide (f.payload.faultBlock = NODATABLOCK) = true from decide_eq_true hp)] at hE
        rw [← hE]; exact ⟨rfl, rfl⟩
      · rw [if_neg (by simpa using hp)]
        rw [if_neg (show ¬ decide (f.payload.faultBlock = NODATABLOCK) = true from fun h => hp (of_decide_eq_true h))] at hE
        rw [← hE]; exact hs
    cases hq : VMQuery.queryElev q.rd g db q.dbExt f.addr lon lat elev false with
    | ub => rw [hq] at h; cases h
    | ok x =>
      rw [hq] at h
      simp only [Outcome.bind_ok, Outcome.ok.injEq, Prod.mk.injEq] at h
      obtain ⟨rfl, -, rfl⟩ := h
      exact ⟨hE' _ rfl, Or.inl rfl⟩
    | exc m =>
      rw [hq] at h
      simp only [Outcome.bind_ok, Outcome.ok.injEq, Prod.mk.injEq] at h
      obtain ⟨rfl, -, rfl⟩ := h
      exact ⟨hE' _ rfl, Or.inr ⟨rfl, g, db, _, rfl, hq⟩⟩

theorem queryElev_exc {rd : Rd K} {g : Geom K} (hg : Speaks g) {db : Db K} {ext : Option (Db K)} {a : Addr} {lon lat elev : K} {adj : Bool}
    {m : String} (h : VMQuery.queryElev rd g db ext a lon lat elev adj = .exc m) : m ≠ "" := by
  unfold VMQuery.queryElev at h
  cases h1 : g.lonLatElevToAddr (VMQuery.leafAt a ETREE_MAXLEVEL) lon lat elev with
  | ub => rw [h1] at h; cases h
  | exc m' => rw [h1] at h; cases h; exact hg.1 _ _ _ _ _ h1
  | ok a1 =>
    rw [h1, Outcome.bind_ok] at h
    cases h2 : VMQuery.elevOctant db ext a1.1.toKey with
    | none => rw [h2] at h; cases h
    | some e =>
      rw [h2] at h
      dsimp only at h
      cases h3 : g.addrToLonLatElev e.1.addr with
      | ub => rw [h3] at h; cases h
      | exc m' => rw [h3] at h; cases h; exact hg.2 _ _ h3
      | ok c =>
        rw [h3, Outcome.bind_ok] at h
        cases h4 : g.lonLatElevToAddr a1.1 lon lat (rd.double (c.2.2 + e.1.payload.depth)) with
        | ub => rw [h4] at h; cases h
        | exc m' => rw [h4] at h; cases h; exact hg.1 _ _ _ _ _ h4
        | ok a2 =>
          rw [h4, Outcome.bind_ok] at h
          split at h
          · cases h5 : g.addrToLonLatElev (VMQuery.oneCellLower e.1.addr) with
            | ub => rw [h5] at h; cases h
            | exc m' => rw [h5] at h; cases h; exact hg.2 _ _ h5
            | ok c' => rw [h5, Outcome.bind_ok] at h; cases h
          · cases h

/-- Errors have a message. -/
theorem query_error {env : Env K} {o : Options K} (hg : Speaks env.geom) {q q' : VMQuery K} (hq : Configured env o q) {fs fs' : Files}
    {l : K × K × K} {vals : List K} (h : VMQuery.query env.fmt q fs 9 l.1 l.2.1 l.2.2 = .ok (q', fs', vals))
    (he : q'.err.status = .ERROR) : q'.err.message ≠ "" := by
  obtain ⟨d, x, fn, res, e, -, -, -, hs, rfl⟩ := hq
  obtain ⟨e', h1, h2⟩ := query_said rfl h
  rcases h2 with h2 | ⟨-, g, db, a, h3, h4⟩
  · exfalso
    rw [h2] at he
    split at h1
    · rw [h1.1] at he; cases he
    · rcases h1 with h1 | ⟨-, _, _, _, h1⟩
      · rw [h1] at he
        dsimp only at he
        rw [hs] at he; cases he
      · rw [h1] at he; cases he
  · cases h3
    exact queryElev_exc hg h4

/-! ### Runs -/

theorem leaveSaid_same {env : Env K} {r : Result K} {t : String} {r' : Report K} (h : leaveSaid env r t = .ok r') : r' = ⟨r, t⟩ := by
  unfold leaveSaid at h
  obtain ⟨x, hx, h⟩ := bind_eq_ok h
  cases h
  rw [leave_same hx]

/-- What is written for a line. -/
theorem say_line {env : Env K} {o : Options K} {q q' : VMQuery K} (hq : Configured env o q) {fs fs' : Files} {l : K × K × K} {vals : List K}
    (h : VMQuery.query env.fmt q fs 9 l.1 l.2.1 l.2.2 = .ok (q', fs', vals)) (he : q'.err.status ≠ .ERROR) (t : String) :
    ∃ t', say q' t = t ++ t' ∧ LineSaid env.fmt o ⟨l.1, l.2.1, l.2.2, vals⟩ t' := by
  have hv : q.queryVals = (List.range 9).map some := by obtain ⟨d, x, fn, res, e, -, -, -, -, rfl⟩ := hq; rfl
  have hs : q.err.status = .OK := by obtain ⟨d, x, fn, res, e, -, -, -, hs, rfl⟩ := hq; exact hs
  obtain ⟨e, h1, h2⟩ := query_said hv h
  rcases h2 with h2 | ⟨h2, -⟩
  · unfold say LineSaid
    dsimp only
    by_cases h6 : vals[6]? = some 0
    · rw [if_pos h6] at h1
      rw [h2, h1.1, h1.2, if_pos (by decide)]
      exact ⟨_, rfl, (if_pos h6).mpr rfl⟩
    · rw [if_neg h6] at h1
      rw [h2]
      rcases h1 with h1 | ⟨hw, a, b, z, h1⟩
      · rw [h1, hs, if_neg (by decide)]
        exact ⟨"", by simp, (if_neg h6).mpr (Or.inl rfl)⟩
      · rw [h1, if_pos (show (q.err.warning (VMQuery.orphanMessage env.fmt a b l.1 l.2.1 z)).status ≠ Status.OK from show Status.WARNING ≠ Status.OK by decide)]
        refine ⟨_, rfl, (if_neg h6).mpr (Or.inr ⟨?_, a, b, z, rfl⟩)⟩
        obtain ⟨d, x, fn, res, e, -, -, hn, -, rfl⟩ := hq
        exact ⟨res, by rw [← show fn = .WAVERES from hw]; exact hn⟩
  · exact absurd h2 he

/-- The end of a run. -/
def EndSaid (env : Env K) (o : Options K) (code : Int) (tail : String) : Prop := code = 0 ∧ tail = "" ∨ code = 1 ∧ Reason env o tail

/-- The message of a close that failed. -/
theorem close_said {env : Env K} {o : Options K} {q : VMQuery K} (hq : Configured env o q) :
    (VMQuery.close env.closeFail env.closeFailExt q).err.status ≠ .OK → CloseFails env o ∧
      (VMQuery.close env.closeFail env.closeFailExt q).err.message = "Could not close the etree database '" ++ o.filenameDB ++ "'." := by
  obtain ⟨d, x, fn, res, e, -, h2, -, h4, rfl⟩ := hq
  unfold VMQuery.close VMQuery.closeErr CloseFails VMQuery.closeMessage
  rcases h2 with ⟨h2, rfl⟩ | ⟨h2, y, h5, rfl⟩ <;> cases hc : env.closeFail <;> cases hx : env.closeFailExt <;>
    simp [h2, h4, ErrorHandler.error]

theorem loop_said {env : Env K} {o : Options K} {q : VMQuery K} (hq : Configured env o q) (hm : q.err.message = "") (n : Nat) (s : Stream)
    (loc : K × K × K) (fs : Files) (lines : List (Line K)) (t : String) {r : Report K}
    (h : loopSaid env n s loc q fs lines t = .ok r) :
    ∃ new ts tail, r.result.lines = lines ++ new ∧ r.err = t ++ String.join ts ++ tail ∧ List.Forall₂ (LineSaid env.fmt o) new ts ∧
      EndSaid env o r.result.code tail := by
  have hs : q.err.status = .OK := by obtain ⟨d, x, fn, res, e, -, -, -, hs, rfl⟩ := hq; exact hs
  induction n generalizing s loc fs lines t with
  | zero => cases h
  | succ n ih =>
    unfold loopSaid at h
    split at h
    · rcases query_cases env.fmt q fs 9 loc.1 loc.2.1 loc.2.2 with ⟨h1, -⟩ | ⟨vals, w, fs', fs'', hr, h1, h2⟩
      · rw [h1] at h; cases h
      · rw [h1, Outcome.bind_ok] at h
        dsimp only at h
        by_cases he : (VMQuery.mark q.err w).status = .ERROR
        · rw [if_pos he] at h
          have := leaveSaid_same h
          subst this
          refine ⟨[], [], _, (List.append_nil _).symm, ?_, .nil, Or.inr ⟨rfl, Reason.query hq h2 he⟩⟩
          dsimp only
          unfold say
          dsimp only
          rw [if_pos (by rw [he]; decide)]
          simp [String.join]
        · rw [if_neg he, settle_eq hr hs hm] at h
          obtain ⟨t', h4, h5⟩ := say_line hq h1 he t
          obtain ⟨new, ts, tail, h6, h7, h8, h9⟩ := ih _ _ _ _ _ h
          refine ⟨⟨loc.1, loc.2.1, loc.2.2, vals⟩ :: new, t' :: ts, tail, by rw [h6, List.append_assoc]; rfl, ?_, .cons h5 h8, h9⟩
          rw [h7, h4, String.join_cons]
          simp only [String.append_assoc]
    · unfold finishSaid at h
      dsimp only at h
      have hc := close_said hq
      split at h
      · next h0 =>
        have := leaveSaid_same h
        subst this
        obtain ⟨h1, h2⟩ := hc h0
        refine ⟨[], [], _, (List.append_nil _).symm, ?_, .nil, Or.inr ⟨rfl, Reason.close h1⟩⟩
        dsimp only
        rw [h2]
        simp [String.join]
      · have := leaveSaid_same h
        subst this
        exact ⟨[], [], "", (List.append_nil _).symm, by simp [String.join], .nil, Or.inl ⟨rfl, rfl⟩⟩

/-- The message of an open that failed. -/
theorem openDb_why {env : Env K} {o : Options K} {g : Geom K} {e : ErrorHandler} {q : VMQuery K}
    (h : VMQuery.openDb env.disk (prepared g o e) = .ok q) (hs : e.status = .OK) (he : q.err.status = .ERROR) :
    (o.filenameDBExt ≠ "" ∧ env.disk o.filenameDBExt = none ∧
      q.err.message = "Could not open the etree (regional) database '" ++ o.filenameDBExt ++ "' for querying.") ∨
    (env.disk o.filenameDB = none ∧ q.err.message = "Could not open the etree database '" ++ o.filenameDB ++ "' for querying.") := by
  have hc : (prepared g o e).cacheSize > 0 := by unfold prepared; dsimp only; split <;> omega
  have hcx : (prepared g o e).cacheSizeExt > 0 := by unfold prepared; dsimp only; split <;> omega
  unfold VMQuery.openDb VMQuery.openMain at h
  rw [show (prepared g o e).db = none from rfl] at h
  dsimp only at h
  rw [if_pos hc, show (prepared g o e).filename = o.filenameDB from rfl] at h
  cases hd : env.disk o.filenameDB with
  | none =>
    rw [hd] at h
    dsimp only at h
    rw [Outcome.bind_ok] at h
    unfold VMQuery.openExt at h
    dsimp only at h
    rw [show (prepared g o e).filenameExt = o.filenameDBExt from rfl, show (prepared g o e).dbExt = none from rfl] at h
    dsimp only at h
    by_cases hx : o.filenameDBExt = ""
    · rw [if_neg (by simp [hx])] at h
      cases h; exact Or.inr ⟨rfl, rfl⟩
    · rw [if_pos hx, if_pos hcx] at h
      cases hdx : env.disk o.filenameDBExt with
      | none => rw [hdx] at h; cases h; exact Or.inl ⟨hx, rfl, rfl⟩
      | some d => rw [hdx] at h; cases h; exact Or.inr ⟨rfl, rfl⟩
  | some d =>
    rw [hd] at h
    dsimp only at h
    rw [Outcome.bind_ok] at h
    unfold VMQuery.openExt at h
    dsimp only at h
    rw [show (prepared g o e).filenameExt = o.filenameDBExt from rfl, show (prepared g o e).dbExt = none from rfl] at h
    dsimp only at h
    have hok : (prepared g o e).err.status ≠ .ERROR := by
      rw [show (prepared g o e).err = e from rfl, hs]; decide
    by_cases hx : o.filenameDBExt = ""
    · rw [if_neg (by simp [hx])] at h
      cases h; exact absurd he hok
    · rw [if_pos hx, if_pos hcx] at h
      cases hdx : env.disk o.filenameDBExt with
      | none => rw [hdx] at h; cases h; exact Or.inl ⟨hx, rfl, rfl⟩
      | some d => rw [hdx] at h; cases h; exact absurd he hok

theorem openDb_said {env : Env K} {o : Options K} {g : Geom K} {e : ErrorHandler} {q : VMQuery K}
    (h : VMQuery.openDb env.disk (prepared g o e) = .ok q) (hs : e.status = .OK) (he : q.err.status = .ERROR) : Reason env o q.err.message := by
  rcases openDb_why h hs he with ⟨h1, h2, h3⟩ | ⟨h1, h2⟩
  · rw [h3]; exact .openExt h1 h2
  · rw [h2]; exact .openDb h1

/-- The message about the type of query. -/
theorem selectType_said {env : Env K} {o : Options K} {q : VMQuery K} {t : String} (hn : ∀ fn res, ¬ TypeNamed o fn res)
    (h : selectTypeSaid o q = .error t) : Reason env o t := by
  unfold selectTypeSaid at h
  dsimp only at h
  split_ifs at h with h1 h2 h3 h4
  · cases h; exact Reason.resolution hn h2
  · cases h; exact Reason.queryType hn (not_lt.1 h2)

theorem run_said {env : Env K} {o : Options K} {fs : Files} {r : Report K} (h : runSaid env o fs = .ok r) :
    ∃ ts tail, r.err = String.join ts ++ tail ∧ List.Forall₂ (LineSaid env.fmt o) r.result.lines ts ∧
      EndSaid env o r.result.code tail := by
  obtain ⟨hs, hm⟩ := start_status env o fs
  have early : ∀ {q : VMQuery K} {t : String}, Reason env o t → leaveSaid env ⟨1, [], q, (start env o fs).2⟩ t = .ok r →
      ∃ ts tail, r.err = String.join ts ++ tail ∧ List.Forall₂ (LineSaid env.fmt o) r.result.lines ts ∧ EndSaid env o r.result.code tail := by
    intro q t hr h
    have := leaveSaid_same h
    subst this
    exact ⟨[], t, by simp [String.join], .nil, Or.inr ⟨rfl, hr⟩⟩
  unfold runSaid at h
  dsimp only at h
  have hc := plain_configure o { VMQuery.init env.geom with err := (start env o fs).1 }
  rw [configure_eq env.geom o hs] at hc
  cases h1 : configureSaid o { VMQuery.init env.geom with err := (start env o fs).1 } with
  | error t => rw [h1] at hc; cases hc
  | ok q =>
    rw [h1] at hc h
    dsimp only [plain] at hc h
    injection hc with hc
    subst hc
    obtain ⟨q, hq, ⟨d, x, hd, hx, rfl⟩ | ⟨he, hn⟩⟩ := openDb_prepared env.disk env.geom o (start env o fs).1
    · rw [hq, Outcome.bind_ok] at h
      rw [show checkedSaid { prepared env.geom o (start env o fs).1 with db := some d, dbExt := x } =
        .ok { prepared env.geom o (start env o fs).1 with db := some d, dbExt := x } from if_neg (by intro h; exact h hs)] at h
      have hp := plain_selectType o { prepared env.geom o (start env o fs).1 with db := some d, dbExt := x }
      have hb : (Except.ok { prepared env.geom o (start env o fs).1 with db := some d, dbExt := x } >>= selectTypeSaid o) =
        selectTypeSaid o { prepared env.geom o (start env o fs).1 with db := some d, dbExt := x } := rfl
      rw [hb] at h
      rcases selectType_cases o (q := { prepared env.geom o (start env o fs).1 with db := some d, dbExt := x }) rfl with
        ⟨fn, res, ht, h2⟩ | ⟨ht, h2⟩
      · rw [h2] at hp
        cases h3 : selectTypeSaid o { prepared env.geom o (start env o fs).1 with db := some d, dbExt := x } with
        | error t => rw [h3] at hp; cases hp
        | ok q =>
          rw [h3] at hp h
          dsimp only [plain] at hp h
          injection hp with hp
          have hq : Configured env o q := by rw [hp]; exact ⟨d, x, fn, res, (start env o fs).1, hd, hx, ht, hs, rfl⟩
          have hqm : q.err.message = "" := by rw [hp]; exact hm
          cases hi : env.input o.filenameIn with
          | none => rw [hi] at h; exact early (Reason.input hi) h
          | some text =>
            rw [hi] at h
            dsimp only at h
            split at h
            · obtain ⟨new, ts, tail, h6, h7, h8, h9⟩ := loop_said hq hqm _ _ _ _ _ _ h
              rw [List.nil_append] at h6
              subst h6
              exact ⟨ts, tail, by rw [h7]; simp, h8, h9⟩
            · next hw => exact early (Reason.output (by simpa using hw)) h
      · rw [h2] at hp
        cases h3 : selectTypeSaid o { prepared env.geom o (start env o fs).1 with db := some d, dbExt := x } with
        | error t => rw [h3] at h; exact early (selectType_said ht h3) h
        | ok q => rw [h3] at hp; cases hp
    · rw [hq, Outcome.bind_ok, show checkedSaid q = .error q.err.message from if_pos (by rw [he]; decide)] at h
      exact early (openDb_said hq hs he) h

end QueryApp
end CenCalVM
