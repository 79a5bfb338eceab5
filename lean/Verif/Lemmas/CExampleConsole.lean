/-
What the example program in C writes to standard error.
-/
import Verif.Lemmas.CExample
import Verif.Lemmas.QueryConsole
import Verif.Spec.CExampleConsole

set_option linter.unusedSectionVars false

namespace CenCalVM
namespace CExample
open CApi (World Ret act)
open QueryApp (Options Env Line Configured LineSaid)
open Print (bind_eq_ok)
variable {K : Type} [Field K] [LinearOrder K] [IsStrictOrderedRing K]

/-! ### The same run -/

/-- An outcome without the text. -/
def plain {α : Type} (x : Outcome (Except String α)) : Outcome (Option α) := do
  match ← x with
  | .ok a => .ok (some a)
  | .error _ => .ok none

/-- After a call that returned, the message can be had. -/
theorem message_after {env : Env K} {w : World K} {h : Nat} {f : CApi.Fn K} {r : World K × Ret K}
    (hr : CApi.callFn env.fmt env.canLog w h f = .ok r) : ∃ m, message env h r.1 = .ok m := by
  unfold message
  by_cases h0 : h = 0
  · subst h0; exact ⟨_, rfl⟩
  · cases ho : w.objs h with
    | none => rw [CApi.callFn_none h0 ho] at hr; cases hr
    | some q =>
      rw [CApi.callFn_some h0 ho] at hr
      obtain ⟨x, -, hx⟩ := bind_eq_ok (show (act _ _ _ _ _ _ >>= _) = _ from hr)
      cases hx
      have := CApi.callFn_some (fmt := env.fmt) (canOpen := env.canLog) (w := { w.put h (some x.1) with fs := x.2.1 }) h0
        (CApi.put_same w h (some x.1)) .errMessage
      dsimp only at this ⊢
      rw [this]
      exact ⟨_, rfl⟩

theorem plain_checked (env : Env K) (h : Nat) (f : CApi.Fn K) (w : World K) : plain (checkedSaid env h f w) = checked env h f w := by
  unfold plain checkedSaid checked
  cases hr : CApi.callFn env.fmt env.canLog w h f with
  | ub => rfl
  | exc m => rfl
  | ok r =>
    rw [Outcome.bind_ok, Outcome.bind_ok]
    cases r.2 with
    | code n =>
      dsimp only
      by_cases hn : 0 ≠ n
      · obtain ⟨m, hm⟩ := message_after hr
        rw [if_pos hn, if_pos hn, hm]; rfl
      · rw [if_neg hn, if_neg hn]; rfl
    | answer n v => rfl
    | ptr p => rfl
    | text t => rfl

theorem plain_then {α : Type} (x : Outcome (Except String (World K))) (f : World K → Outcome (Except String α)) :
    plain (thenSaid x f) = thenDo (plain x) fun w => plain (f w) := by
  unfold thenSaid thenDo plain
  cases x with
  | ub => rfl
  | exc m => rfl
  | ok a => cases a <;> rfl

theorem plain_configure (env : Env K) (o : Options K) (h : Nat) (w : World K) : plain (configureSaid env o h w) = configure env o h w := by
  have h1 : ∀ w, plain (setExtSaid env o h w) = setExt env o h w := by
    intro w
    unfold setExtSaid setExt
    split
    · rw [plain_then, plain_checked]; simp only [plain_checked]
    · rfl
  have h2 : ∀ w, plain (setSquashSaid env o h w) = setSquash env o h w := by
    intro w
    unfold setSquashSaid setSquash
    split
    · exact plain_checked ..
    · rfl
  unfold configureSaid configure
  simp only [plain_then, plain_checked, h1, h2]

theorem plain_selectType (env : Env K) (o : Options K) (h : Nat) (w : World K) : plain (selectTypeSaid env o h w) = selectType env o h w := by
  unfold selectTypeSaid selectType
  split
  · cases unchecked env h (.queryType 0) w <;> rfl
  split
  · rfl
  cases unchecked env h (.queryRes o.queryRes) w with
  | ub => rfl
  | exc m => rfl
  | ok w =>
    rw [Outcome.bind_ok, Outcome.bind_ok]
    split
    · cases unchecked env h (.queryType 1) w <;> rfl
    split
    · cases unchecked env h (.queryType 2) w <;> rfl
    · rfl

theorem message_unchecked (env : Env K) (h : Nat) (w : World K) :
    (do let m ← message env h w; Outcome.ok m.1) = unchecked env h .errMessage w := by
  unfold message unchecked
  cases CApi.callFn env.fmt env.canLog w h .errMessage with
  | ub => rfl
  | exc m => rfl
  | ok r =>
    rw [Outcome.bind_ok, Outcome.bind_ok]
    split <;> rfl

/-- A result of a round without the text. -/
def silent {α : Type} (x : Outcome (String × Option α)) : Outcome (Option α) := do
  let r ← x
  .ok r.2

theorem silent_settle (env : Env K) (h : Nat) (w : World K) : silent (settleSaid env h w) = settle env h w := by
  unfold silent settleSaid settle
  rw [← message_unchecked]
  cases message env h w with
  | ub => rfl
  | exc m => rfl
  | ok m =>
    simp only [Outcome.bind_ok]
    cases CApi.callFn env.fmt env.canLog m.1 h .errStatus with
    | ub => rfl
    | exc m => rfl
    | ok r =>
      simp only [Outcome.bind_ok]
      split
      · next h1 => rw [h1]; rfl
      · next h1 =>
        split
        · next h2 => exact absurd h2 h1
        · cases unchecked env h .errResetStatus r.1 <;> rfl

theorem silent_ask (env : Env K) (h : Nat) (loc : K × K × K) (w : World K) : silent (askSaid env h loc w) = ask env h loc w := by
  unfold askSaid ask
  cases CApi.callFn env.fmt env.canLog w h (.query 9 loc.1 loc.2.1 loc.2.2) with
  | ub => rfl
  | exc m => rfl
  | ok r =>
    simp only [Outcome.bind_ok]
    cases r.2 with
    | code n => rfl
    | ptr n => rfl
    | text n => rfl
    | answer n v =>
      cases v with
      | none => rfl
      | some vals =>
        dsimp only
        split
        · rw [← silent_settle]
          unfold silent thenDo
          cases settleSaid env h r.1 with
          | ub => rfl
          | exc m => rfl
          | ok m => obtain ⟨t, m⟩ := m; cases m <;> rfl
        · rfl

/-- A result without the text. -/
def bare (r : Outcome (Report K)) : Outcome (Result K) := do
  let r ← r
  .ok r.result

theorem bare_finish (env : Env K) (h : Nat) (lines : List (Line K)) (t : String) (w : World K) :
    bare (finishSaid env h lines t w) = finish env h lines w := by
  unfold finishSaid finish
  cases unchecked env h (.close env.closeFail env.closeFailExt) w with
  | ub => rfl
  | exc m => rfl
  | ok w =>
    rw [Outcome.bind_ok, Outcome.bind_ok]
    cases hr : CApi.callFn env.fmt env.canLog w h .errStatus with
    | ub => rfl
    | exc m => rfl
    | ok r =>
      rw [Outcome.bind_ok, Outcome.bind_ok]
      obtain ⟨m, hm⟩ := message_after hr
      split
      · next h1 => rw [h1]; cases CApi.destroyQuery env.closeFail env.closeFailExt r.1 h <;> rfl
      · next h1 =>
        split
        · next h2 => exact absurd h2 h1
        · rw [hm]; rfl

theorem bare_loop (env : Env K) (h n : Nat) (s : Stream) (loc : K × K × K) (lines : List (Line K)) (t : String) (w : World K) :
    (loopSaid env h n s loc lines t w).map bare = loop env h n s loc lines w := by
  induction n generalizing s loc lines t w with
  | zero => rfl
  | succ n ih =>
    unfold loopSaid loop
    split
    · exact congrArg some (bare_finish ..)
    · rw [← silent_ask]
      cases askSaid env h loc w with
      | ub => rfl
      | exc m => rfl
      | ok r =>
        obtain ⟨t', r⟩ := r
        cases r with
        | none => rfl
        | some r => exact ih ..

theorem plain_prepare (env : Env K) (o : Options K) (fs : Files) : plain (prepareSaid env o fs) = prepare env o fs := by
  unfold prepareSaid prepare
  cases CApi.createQuery env.geom (World.init fs) with
  | ub => rfl
  | exc m => rfl
  | ok r =>
    rw [Outcome.bind_ok, Outcome.bind_ok]
    obtain ⟨w, r⟩ := r
    cases r with
    | code n => rfl
    | answer n v => rfl
    | text n => rfl
    | ptr h =>
      dsimp only
      split
      · rfl
      · cases CApi.callFn env.fmt env.canLog w h .errorHandler with
        | ub => rfl
        | exc m => rfl
        | ok r =>
          rw [Outcome.bind_ok, Outcome.bind_ok]
          obtain ⟨w, r⟩ := r
          cases r with
          | code n => rfl
          | answer n v => rfl
          | text n => rfl
          | ptr e =>
            dsimp only
            split
            · rfl
            · cases start env o e w with
              | ub => rfl
              | exc m => rfl
              | ok w =>
                rw [Outcome.bind_ok, Outcome.bind_ok, plain_then, plain_then, plain_configure]
                simp only [plain_selectType]
                rfl

theorem bare_run (env : Env K) (o : Options K) (fs : Files) (n : Nat) : (runSaid env o fs n).map bare = run env o fs n := by
  unfold runSaid run
  rw [← plain_prepare]
  cases prepareSaid env o fs with
  | ub => rfl
  | exc m => rfl
  | ok r =>
    cases r with
    | error t => rfl
    | ok r =>
      obtain ⟨h, w⟩ := r
      show _ = (match env.input o.filenameIn with | none => _ | some text => _)
      dsimp only
      cases env.input o.filenameIn with
      | none => rfl
      | some text =>
        dsimp only
        split
        · exact bare_loop ..
        · rfl

/-! ### The text -/

theorem message_at {env : Env K} {w : World K} {h : Nat} {q : VMQuery K} {fs : Files} (ha : At w h q fs) :
    ∃ w', message env h w = .ok (w', q.err.message) ∧ At w' h q fs := by
  obtain ⟨w', h1, h2⟩ := call_at (f := .errMessage) (env := env) ha rfl
  exact ⟨w', by unfold message; rw [h1]; rfl, h2⟩

theorem checkedSaid_at {env : Env K} {w : World K} {h : Nat} {q q' : VMQuery K} {fs : Files} {f : CApi.Fn K} (ha : At w h q fs)
    (hf : act env.fmt env.canLog h fs q f = CApi.withStatus fs q') (hs : q'.err.status ≠ .OK) :
    checkedSaid env h f w = .ok (.error (q'.err.message ++ "\n")) := by
  obtain ⟨w', h1, h2⟩ := call_at ha hf
  obtain ⟨w'', h3, -⟩ := message_at (env := env) h2
  unfold checkedSaid
  rw [h1, Outcome.bind_ok]
  dsimp only
  rw [if_pos (code_ne hs), h3]
  rfl

/-- Where nothing is written. -/
theorem of_plain {α : Type} {x : Outcome (Except String α)} {a : α} (h : plain x = .ok (some a)) : x = .ok (.ok a) := by
  unfold plain at h
  obtain ⟨y, rfl, h⟩ := bind_eq_ok h
  cases y with
  | error t => cases h
  | ok b => cases h; rfl

theorem of_plain_none {α : Type} {x : Outcome (Except String α)} (h : plain x = .ok none) : ∃ t, x = .ok (.error t) := by
  unfold plain at h
  obtain ⟨y, rfl, h⟩ := bind_eq_ok h
  cases y with
  | error t => exact ⟨t, rfl⟩
  | ok b => cases h

theorem thenSaid_some {α : Type} {x : Outcome (Except String (World K))} {w : World K} (h : x = .ok (.ok w))
    (f : World K → Outcome (Except String α)) : thenSaid x f = f w := by rw [h]; rfl
theorem thenSaid_error {α : Type} {x : Outcome (Except String (World K))} {t : String} (h : x = .ok (.error t))
    (f : World K → Outcome (Except String α)) : thenSaid x f = .ok (.error t) := by rw [h]; rfl

theorem configureSaid_at {env : Env K} {o : Options K} {w : World K} {h : Nat} {q q1 q2 : VMQuery K} {fs : Files} (ha : At w h q fs)
    (hq : QueryApp.configure o q = some q1) (ho : VMQuery.openDb env.disk q1 = .ok q2) (hs : q2.err.status ≠ .OK) :
    configureSaid env o h w = .ok (.error (q2.err.message ++ "\n")) := by
  unfold QueryApp.configure at hq
  rw [Option.bind_eq_some_iff] at hq
  obtain ⟨qa, h1, hq⟩ := hq
  rw [Option.bind_eq_some_iff] at hq
  obtain ⟨qb, h2, hq⟩ := hq
  rw [Option.bind_eq_some_iff] at hq
  obtain ⟨qc, h3, h4⟩ := hq
  unfold QueryApp.checked at h1 h2
  split at h1 <;> cases h1
  next g1 =>
  split at h2 <;> cases h2
  next g2 =>
  obtain ⟨w1, e1, a1⟩ := (checked_at (f := .filename o.filenameDB) (env := env) ha rfl).1 (not_not.1 g1)
  obtain ⟨w2, e2, a2⟩ := (checked_at (f := .cacheSize o.cacheSize) (env := env) a1 rfl).1 (not_not.1 g2)
  obtain ⟨w3, e3, a3⟩ := setExt_at (env := env) a2 h3
  obtain ⟨w4, e4, a4⟩ := setSquash_at (env := env) a3 h4
  have p3 : ∀ w, plain (setExtSaid env o h w) = setExt env o h w := by
    intro w
    unfold setExtSaid setExt
    split
    · rw [plain_then, plain_checked]; simp only [plain_checked]
    · rfl
  have p4 : ∀ w, plain (setSquashSaid env o h w) = setSquash env o h w := by
    intro w
    unfold setSquashSaid setSquash
    split
    · exact plain_checked ..
    · rfl
  unfold configureSaid
  rw [thenSaid_some (of_plain ((plain_checked ..).trans e1)), thenSaid_some (of_plain ((plain_checked ..).trans e2)),
    thenSaid_some (of_plain ((p3 _).trans e3)), thenSaid_some (of_plain ((p4 _).trans e4))]
  exact checkedSaid_at (f := .open env.disk) a4 (by show (VMQuery.openDb _ _).bind _ = _; rw [ho]; rfl) hs

theorem selectTypeSaid_at {env : Env K} {o : Options K} {w : World K} {h : Nat} {t : String} (hn : ∀ fn res, ¬ QueryApp.TypeNamed o fn res)
    (hs : selectTypeSaid env o h w = .ok (.error t)) : Reason env o t := by
  unfold selectTypeSaid at hs
  split at hs
  · obtain ⟨x, -, h2⟩ := bind_eq_ok hs; cases h2
  split at hs
  · next h2 => cases hs; exact .resolution hn h2
  next h2 =>
  obtain ⟨x, -, hs⟩ := bind_eq_ok hs
  split at hs
  · obtain ⟨x, -, h2⟩ := bind_eq_ok hs; cases h2
  split at hs
  · obtain ⟨x, -, h2⟩ := bind_eq_ok hs; cases h2
  · cases hs; exact .queryType hn (not_lt.1 h2)

theorem prepareSaid_cases (env : Env K) (o : Options K) (fs : Files) :
    (∃ q w, Configured env o q ∧ q.err.message = "" ∧ At w 1 q (QueryApp.start env o fs).2 ∧ prepareSaid env o fs = .ok (.ok (1, w))) ∨
    ∃ t, Reason env o t ∧ prepareSaid env o fs = .ok (.error t) := by
  obtain ⟨hs, hm⟩ := QueryApp.start_status env o fs
  obtain ⟨w, ha, hp⟩ : ∃ w, At w 1 { VMQuery.init env.geom with err := (QueryApp.start env o fs).1 } (QueryApp.start env o fs).2 ∧
      prepareSaid env o fs = thenSaid (thenSaid (configureSaid env o 1 w) (selectTypeSaid env o 1)) fun w => .ok (.ok (1, w)) := by
    have ha : At ({ (World.init fs : World K).put 1 (some (VMQuery.init env.geom)) with next := 1 } : World K) 1 (VMQuery.init env.geom) fs :=
      ⟨by simp, CApi.put_same (World.init fs) 1 (some (VMQuery.init env.geom)), rfl⟩
    obtain ⟨w1, e1, a1⟩ := call_at (f := .errorHandler) (env := env) ha rfl
    obtain ⟨w2, e2, a2⟩ := start_at (o := o) a1
    refine ⟨w2, a2, ?_⟩
    unfold prepareSaid CApi.createQuery
    rw [show (World.init fs : World K).next = 0 from rfl, Outcome.bind_ok]
    dsimp only
    rw [if_neg (by simp), e1, Outcome.bind_ok]
    dsimp only
    rw [if_neg (by simp), e2, Outcome.bind_ok]
  have hconf := QueryApp.configure_eq env.geom o hs
  obtain ⟨q, hq, hc⟩ := QueryApp.openDb_prepared env.disk env.geom o (QueryApp.start env o fs).1
  rcases hc with ⟨d, x, hd, hx, rfl⟩ | ⟨he, hn⟩
  · obtain ⟨w1, e1, a1⟩ := (configure_at ha hconf hq).1 hs
    rw [thenSaid_some (of_plain ((plain_configure ..).trans e1))] at hp
    obtain ⟨t1, t2⟩ := selectType_at (env := env) (o := o) a1
    rcases QueryApp.selectType_cases o (q := { QueryApp.prepared env.geom o (QueryApp.start env o fs).1 with db := some d, dbExt := x }) rfl with
      ⟨fn, res, ht, h⟩ | ⟨ht, h⟩
    · left
      obtain ⟨w2, e2, a2⟩ := t1 _ h
      rw [thenSaid_some (of_plain ((plain_selectType ..).trans e2))] at hp
      exact ⟨_, w2, ⟨d, x, fn, res, (QueryApp.start env o fs).1, hd, hx, ht, hs, rfl⟩, hm, a2, hp⟩
    · right
      obtain ⟨t, e2⟩ := of_plain_none ((plain_selectType ..).trans (t2 h))
      rw [thenSaid_error e2] at hp
      exact ⟨t, selectTypeSaid_at ht e2, hp⟩
  · right
    have hne : q.err.status ≠ .OK := by rw [he]; decide
    have := configureSaid_at ha hconf hq hne
    rw [thenSaid_error (x := thenSaid (configureSaid env o 1 w) (selectTypeSaid env o 1)) (thenSaid_error this _)] at hp
    refine ⟨_, ?_, hp⟩
    rcases QueryApp.openDb_why hq hs he with ⟨h1, h2, h3⟩ | ⟨h1, h2⟩
    · rw [h3, String.append_assoc]; exact .openExt h1 h2
    · rw [h2, String.append_assoc]; exact .openDb h1

theorem askSaid_at {env : Env K} {w : World K} {h : Nat} {q q' : VMQuery K} {fs fs' : Files} {loc : K × K × K} {vals : List K}
    (ha : At w h q fs) (hq : VMQuery.query env.fmt q fs 9 loc.1 loc.2.1 loc.2.2 = .ok (q', fs', vals)) :
    (q'.err.status = .ERROR → askSaid env h loc w = .ok (q'.err.message, none)) ∧
    (q'.err.status ≠ .ERROR → ∃ w', askSaid env h loc w = .ok (QueryApp.say q' "", some (w', vals)) ∧ At w' h (QueryApp.settle q') fs') := by
  obtain ⟨w1, e1, a1⟩ := call_at (f := .query 9 loc.1 loc.2.1 loc.2.2) (env := env) (r := .answer q'.err.status.code (some vals))
    (q' := q') (fs' := fs') ha (by show (VMQuery.query _ _ _ _ _ _ _).bind _ = _; rw [hq]; rfl)
  obtain ⟨w2, e2, a2⟩ := message_at (env := env) a1
  obtain ⟨w3, e3, a3⟩ := call_at (f := .errStatus) (env := env) a2 rfl
  obtain ⟨w4, e4, a4⟩ := unchecked_at (f := .errResetStatus) (env := env) a3 rfl
  unfold askSaid QueryApp.settle QueryApp.say
  rw [e1, Outcome.bind_ok]
  dsimp only
  refine ⟨fun he => ?_, fun he => ?_⟩
  · rw [if_pos (code_ne (by rw [he]; decide))]
    unfold settleSaid
    rw [e2, Outcome.bind_ok, e3, Outcome.bind_ok, he]
    rfl
  · by_cases ho : q'.err.status = .OK
    · rw [if_neg (by rw [code_ok ho]; simp), if_neg (by simp [ho]), if_neg (by simp [ho])]
      exact ⟨w1, rfl, a1⟩
    · rw [if_pos (code_ne ho), if_pos ho, if_pos ho]
      refine ⟨w4, ?_, a4⟩
      unfold settleSaid
      rw [e2, Outcome.bind_ok, e3, Outcome.bind_ok]
      have : q'.err.status = .WARNING := by
        cases hs : q'.err.status <;> first | exact absurd hs ho | exact absurd hs he | rfl
      rw [this]
      show ((unchecked env h .errResetStatus w3 >>= fun w => Outcome.ok (q'.err.message, some w)) >>= _) = _
      rw [e4, Outcome.bind_ok, Outcome.bind_ok, String.empty_append]
      rfl

/-- The end of a run. -/
def EndSaid (env : Env K) (o : Options K) (code : Int) (tail : String) : Prop := code = 0 ∧ tail = "" ∨ code = 1 ∧ Reason env o tail

theorem finishSaid_at {env : Env K} {o : Options K} {w : World K} {h : Nat} {q : VMQuery K} (hq : Configured env o q) {fs : Files}
    {lines : List (Line K)} {t : String} {r : Report K} (ha : At w h q fs) (hf : finishSaid env h lines t w = .ok r) :
    ∃ tail, r.result.lines = lines ∧ r.err = t ++ tail ∧ EndSaid env o r.result.code tail := by
  obtain ⟨w1, e1, a1⟩ := unchecked_at (f := .close env.closeFail env.closeFailExt) (env := env) ha rfl
  obtain ⟨w2, e2, a2⟩ := call_at (f := .errStatus) (env := env) a1 rfl
  obtain ⟨w3, e3, a3⟩ := message_at (env := env) a2
  unfold finishSaid at hf
  rw [e1, Outcome.bind_ok, e2, Outcome.bind_ok] at hf
  dsimp only at hf
  by_cases hs : (VMQuery.close env.closeFail env.closeFailExt q).err.status = .OK
  · rw [code_ok hs] at hf
    obtain ⟨x, -, hf⟩ := bind_eq_ok (show (CApi.destroyQuery env.closeFail env.closeFailExt w2 h >>= fun _ => Outcome.ok (⟨⟨0, lines⟩, t⟩ : Report K)) = .ok r from hf)
    cases hf
    exact ⟨"", rfl, by simp, Or.inl ⟨rfl, rfl⟩⟩
  · obtain ⟨h1, h2⟩ := QueryApp.close_said hq hs
    split at hf
    · next hc => exact absurd hc.symm (by simpa using code_ne hs)
    · rw [e3] at hf
      cases hf
      refine ⟨_, rfl, by rw [String.append_assoc], Or.inr ⟨rfl, ?_⟩⟩
      rw [h2, String.append_assoc]
      exact .close h1

theorem loopSaid_at {env : Env K} {o : Options K} {q : VMQuery K} (hq : Configured env o q) (hm : q.err.message = "") {h : Nat} (n : Nat)
    (s : Stream) (loc : K × K × K) (fs : Files) (lines : List (Line K)) (t : String) (w : World K) (ha : At w h q fs) {r : Report K}
    (hr : loopSaid env h n s loc lines t w = some (.ok r)) :
    ∃ new ts tail, r.result.lines = lines ++ new ∧ r.err = t ++ String.join ts ++ tail ∧ List.Forall₂ (LineSaid env.fmt o) new ts ∧
      EndSaid env o r.result.code tail := by
  have hs : q.err.status = .OK := by obtain ⟨d, x, fn, res, e, -, -, -, hs, rfl⟩ := hq; exact hs
  induction n generalizing s loc fs lines t w with
  | zero => cases hr
  | succ n ih =>
    unfold loopSaid at hr
    split at hr
    · injection hr with hr
      obtain ⟨tail, h1, h2, h3⟩ := finishSaid_at hq ha hr
      exact ⟨[], [], tail, by rw [h1, List.append_nil], by rw [h2]; simp [String.join], .nil, h3⟩
    · rcases QueryApp.query_cases env.fmt q fs 9 loc.1 loc.2.1 loc.2.2 with ⟨h1, -⟩ | ⟨vals, x, fs', fs'', hx, h1, h2⟩
      · exfalso
        have : askSaid env h loc w = .ub := by
          obtain ⟨h0, ho, rfl⟩ := ha
          unfold askSaid
          rw [CApi.callFn_some h0 ho]
          show (((VMQuery.query _ _ _ _ _ _ _).bind _).bind _ >>= _) = _
          rw [h1]; rfl
        rw [this] at hr; cases hr
      · obtain ⟨b1, b2⟩ := askSaid_at ha h1
        by_cases he : (VMQuery.mark q.err x).status = .ERROR
        · rw [b1 he] at hr
          cases hr
          exact ⟨[], [], _, (List.append_nil _).symm, by simp [String.join], .nil, Or.inr ⟨rfl, Reason.query hq h2 he⟩⟩
        · obtain ⟨w', e1, a1⟩ := b2 he
          rw [e1] at hr
          dsimp only at hr
          rw [QueryApp.settle_eq hx hs hm] at a1
          obtain ⟨t', h4, h5⟩ := QueryApp.say_line hq h1 he ""
          rw [String.empty_append] at h4
          obtain ⟨new, ts, tail, h6, h7, h8, h9⟩ := ih _ _ _ _ _ _ a1 hr
          refine ⟨⟨loc.1, loc.2.1, loc.2.2, vals⟩ :: new, t' :: ts, tail, by rw [h6, List.append_assoc]; rfl, ?_, .cons h5 h8, h9⟩
          rw [h7, h4, String.join_cons]
          simp only [String.append_assoc]

theorem run_said {env : Env K} {o : Options K} {fs : Files} {n : Nat} {r : Report K} (h : runSaid env o fs n = some (.ok r)) :
    ∃ ts tail, r.err = String.join ts ++ tail ∧ List.Forall₂ (LineSaid env.fmt o) r.result.lines ts ∧
      EndSaid env o r.result.code tail := by
  unfold runSaid at h
  rcases prepareSaid_cases env o fs with ⟨q, w, hq, hm, ha, hp⟩ | ⟨t, ht, hp⟩
  · rw [hp] at h
    dsimp only at h
    cases hi : env.input o.filenameIn with
    | none =>
      rw [hi] at h
      cases h
      exact ⟨[], _, by simp [String.join], .nil, Or.inr ⟨rfl, .input hi⟩⟩
    | some text =>
      rw [hi] at h
      dsimp only at h
      split at h
      · obtain ⟨new, ts, tail, h6, h7, h8, h9⟩ := loopSaid_at hq hm _ _ _ _ _ _ _ ha h
        rw [List.nil_append] at h6
        subst h6
        exact ⟨ts, tail, by rw [h7]; simp, h8, h9⟩
      · next hw =>
        cases h
        exact ⟨[], _, by simp [String.join], .nil, Or.inr ⟨rfl, .output (by simpa using hw)⟩⟩
  · rw [hp] at h
    cases h
    exact ⟨[], _, by simp [String.join], .nil, Or.inr ⟨rfl, ht⟩⟩

end CExample
end CenCalVM
