/-
What the example program cencalvmf77query writes to standard output.
-/
import Verif.Lemmas.FExample
import Verif.Lemmas.Fortran
import Verif.Lemmas.QueryConsole
import Verif.Spec.FExampleConsole

set_option linter.unusedSectionVars false

namespace CenCalVM
namespace FExample
open CApi (World Ret act)
open CExample (At call_at code_ok code_ne)
open QueryApp (Env Line Options Configured LineSaid)
open Fortran (Stands Holds)
open Print (bind_eq_ok)
variable {K : Type} [Field K] [LinearOrder K] [IsStrictOrderedRing K]

/-! ### The same run -/

/-- An outcome without the text. -/
def plain {α : Type} (x : Outcome (Except (List (List Char)) α)) : Outcome (Option α) := do
  match ← x with
  | .ok a => .ok (some a)
  | .error _ => .ok none

theorem plain_label998 (h : Nat) (w : World K) :
    plain (label998Said h w : Outcome (Except (List (List Char)) (World K))) = label998 h w := by
  unfold plain label998Said label998
  cases Fortran.errMessage (List.replicate 256 ' ') 256 w h <;> rfl

theorem plain_checked (env : Env K) (h : Nat) (f : Fortran.Fn K) (w : World K) : plain (checkedSaid env h f w) = checked env h f w := by
  unfold checkedSaid checked
  cases Fortran.callFn env.fmt env.canLog w h f with
  | ub => rfl
  | exc m => rfl
  | ok r =>
    rw [Outcome.bind_ok, Outcome.bind_ok]
    cases r.2 with
    | code n =>
      dsimp only
      split
      · exact plain_label998 h r.1
      · rfl
    | answer n v => rfl
    | ptr p => rfl
    | text t => rfl

theorem plain_checked999 (env : Env K) (h : Nat) (f : Fortran.Fn K) (w : World K) :
    plain (checked999Said env h f w) = checked999 env h f w := by
  unfold checked999Said checked999
  cases Fortran.callFn env.fmt env.canLog w h f with
  | ub => rfl
  | exc m => rfl
  | ok r =>
    rw [Outcome.bind_ok, Outcome.bind_ok]
    cases r.2 with
    | code n => dsimp only; split <;> rfl
    | answer n v => rfl
    | ptr p => rfl
    | text t => rfl

theorem plain_unchecked (env : Env K) (h : Nat) (f : Fortran.Fn K) (w : World K) :
    plain (uncheckedSaid env h f w) = unchecked env h f w := by
  unfold uncheckedSaid unchecked
  cases Fortran.callFn env.fmt env.canLog w h f <;> rfl

theorem plain_then {α β : Type} (x : Outcome (Except (List (List Char)) α)) (f : α → Outcome (Except (List (List Char)) β)) :
    plain (thenSaid x f) = thenDo (plain x) fun w => plain (f w) := by
  unfold thenSaid thenDo plain
  cases x with
  | ub => rfl
  | exc m => rfl
  | ok a => cases a <;> rfl

theorem plain_selectType (env : Env K) (v : Vars K) (h : Nat) (w : World K) : plain (selectTypeSaid env v h w) = selectType env v h w := by
  unfold selectTypeSaid selectType
  split
  · exact plain_checked ..
  split
  · rfl
  rw [plain_then, plain_checked]
  congr 1
  funext w
  split
  · exact plain_checked ..
  split
  · exact plain_unchecked ..
  · rfl

theorem plain_prepare (env : Env K) (v : Vars K) (fs : Files) : plain (prepareSaid env v fs) = prepare env v fs := by
  unfold prepareSaid prepare
  cases CApi.createQuery env.geom (World.init fs) with
  | ub => rfl
  | exc m => rfl
  | ok r =>
    rw [Outcome.bind_ok, Outcome.bind_ok]
    obtain ⟨w, r⟩ := r
    cases r with
    | code n => rfl
    | answer n v => rfl
    | text n => rfl
    | ptr h =>
      dsimp only
      split
      · rfl
      · cases Fortran.callFn env.fmt env.canLog w h .errorHandler with
        | ub => rfl
        | exc m => rfl
        | ok r =>
          rw [Outcome.bind_ok, Outcome.bind_ok]
          obtain ⟨w, r⟩ := r
          cases r with
          | code n => rfl
          | answer n v => rfl
          | text n => rfl
          | ptr e =>
            dsimp only
            split
            · rfl
            · simp only [plain_then, plain_checked999, plain_checked, plain_selectType]
              rfl

/-- A result of a round without the text. -/
def silent {α : Type} (x : Outcome (List (List Char) × Option α)) : Outcome (Option α) := do
  let r ← x
  .ok r.2

theorem silent_ask (env : Env K) (h : Nat) (l : K × K × K) (w : World K) : silent (askSaid env h l w) = ask env h l w := by
  unfold askSaid ask
  cases Fortran.callFn env.fmt env.canLog w h (.query 9 l.1 l.2.1 l.2.2) with
  | ub => rfl
  | exc m => rfl
  | ok r =>
    simp only [Outcome.bind_ok]
    cases r.2 with
    | code n => rfl
    | ptr n => rfl
    | text n => rfl
    | answer n v =>
      cases v with
      | none => rfl
      | some vals =>
        dsimp only
        split
        · cases Fortran.errMessage (List.replicate 256 ' ') 256 r.1 h with
          | ub => rfl
          | exc m => rfl
          | ok m =>
            simp only [Outcome.bind_ok]
            split
            · rfl
            · rw [← plain_checked]
              cases checkedSaid env h .errResetStatus m.1 with
              | ub => rfl
              | exc m => rfl
              | ok x => cases x <;> rfl
        · rfl

/-- A result without the text. -/
def bare (r : Outcome (Report K)) : Outcome (Result K) := do
  let r ← r
  .ok r.result

theorem bare_finish (env : Env K) (h : Nat) (lines : List (Line K)) (t : List (List Char)) (w : World K) :
    bare (finishSaid env h lines t w) = finish env h lines w := by
  unfold finishSaid finish
  rw [← plain_checked]
  cases checkedSaid env h (.close env.closeFail env.closeFailExt) w with
  | ub => rfl
  | exc m => rfl
  | ok x =>
    cases x with
    | error t => rfl
    | ok w =>
      rw [show plain (Outcome.ok (Except.ok w)) = .ok (some w) from rfl, Outcome.bind_ok, Outcome.bind_ok]
      dsimp only
      cases CApi.destroyQuery env.closeFail env.closeFailExt w h with
      | ub => rfl
      | exc m => rfl
      | ok r =>
        obtain ⟨w, r⟩ := r
        cases r with
        | code n =>
          show bare (if n ≠ 0 then _ else _) = if n ≠ 0 then _ else _
          split <;> rfl
        | answer n v => rfl
        | ptr p => rfl
        | text t => rfl

theorem bare_loop (env : Env K) (h : Nat) (rs : List (Option (K × K × K))) (lines : List (Line K)) (t : List (List Char)) (w : World K) :
    bare (loopSaid env h rs lines t w) = loop env h rs lines w := by
  induction rs generalizing lines t w with
  | nil => exact bare_finish ..
  | cons x rs ih =>
    cases x with
    | none => rfl
    | some l =>
      unfold loopSaid loop
      rw [← silent_ask]
      cases askSaid env h l w with
      | ub => rfl
      | exc m => rfl
      | ok r =>
        obtain ⟨t', r⟩ := r
        cases r with
        | none => rfl
        | some r => exact ih ..

theorem bare_run (env : Env K) (v : Vars K) (input : Option (List (Option (K × K × K)))) (fresh : Bool) (fs : Files) :
    bare (runSaid env v input fresh fs) = run env v input fresh fs := by
  unfold runSaid run
  rw [← plain_prepare]
  cases prepareSaid env v fs with
  | ub => rfl
  | exc m => rfl
  | ok r =>
    cases r with
    | error t => rfl
    | ok r =>
      obtain ⟨h, w⟩ := r
      cases input with
      | none => rfl
      | some rs =>
        cases fresh
        · rfl
        · exact bare_loop ..

/-! ### The text -/

theorem strncpy_cut (n : Nat) (dst src : List Char) :
    Fortran.strncpy n dst src = Fortran.strncpy n dst (src.takeWhile (· ≠ Fortran.NUL)) := by
  induction n generalizing dst src with
  | zero => rfl
  | succ n ih =>
    cases dst with
    | nil => rfl
    | cons d dst =>
      cases src with
      | nil => rfl
      | cons c src =>
        by_cases hc : c = Fortran.NUL
        · rw [List.takeWhile_cons, if_neg (by simpa using hc)]
          conv_lhs => unfold Fortran.strncpy
          conv_rhs => unfold Fortran.strncpy
          rw [if_pos hc]
        · rw [List.takeWhile_cons, if_pos (by simpa using hc)]
          conv_lhs => unfold Fortran.strncpy
          conv_rhs => unfold Fortran.strncpy
          rw [if_neg hc, if_neg hc, ih]

theorem strncpy_field (t : String) : Fortran.strncpy 256 (List.replicate 256 ' ') t.toList = .ok (fieldOf t) := by
  rw [strncpy_cut, Fortran.strncpy_eq (by rw [List.length_replicate])]
  · unfold fieldOf
    rw [List.drop_replicate, List.take_append, List.take_replicate]
    simp only [Nat.sub_self, List.replicate_zero, List.append_nil]
    rw [Nat.min_eq_left (Nat.sub_le _ _)]
  · intro h
    have := List.mem_takeWhile_imp h
    simp at this

theorem errMessage_field {w : World K} {h : Nat} {q : VMQuery K} {fs : Files} (ha : At w h q fs) :
    ∃ w', Fortran.errMessage (List.replicate 256 ' ') 256 w h = .ok (w', fieldOf q.err.message, 0) ∧ At w' h q fs := by
  obtain ⟨h0, h1, rfl⟩ := ha
  have he : CApi.errMessage w h = .ok ({ w.put h (some q) with fs := w.fs }, .text (some q.err.message)) := CApi.use_some h0 h1 _ _
  refine ⟨{ w.put h (some q) with fs := w.fs }, ?_, h0, CApi.put_same _ _ _, rfl⟩
  unfold Fortran.errMessage
  rw [if_pos (by norm_num), he, Outcome.bind_ok]
  dsimp only
  rw [show (256 : Int).toNat = 256 from rfl, strncpy_field]
  rfl

theorem checkedSaid_at {env : Env K} {w : World K} {h : Nat} {q q' : VMQuery K} {fs fs' : Files} {f : Fortran.Fn K} {g : CApi.Fn K} {n : Int}
    (hs : Stands f g) (ha : At w h q fs) (hf : act env.fmt env.canLog h fs q g = .ok (q', fs', .code n)) :
    (n = 0 → ∃ w', checkedSaid env h f w = .ok (.ok w') ∧ At w' h q' fs') ∧
    (n ≠ 0 → checkedSaid env h f w = .ok (.error [fieldOf q'.err.message])) := by
  obtain ⟨w', h1, h2⟩ := fcall_at (env := env) hs ha hf
  unfold checkedSaid
  rw [h1, Outcome.bind_ok]
  dsimp only
  refine ⟨fun hn => ⟨w', ?_, h2⟩, fun hn => ?_⟩
  · rw [if_neg (not_not.2 hn)]
  · obtain ⟨w'', h3, -⟩ := errMessage_field h2
    rw [if_pos hn]
    unfold label998Said
    rw [h3]
    rfl

theorem thenSaid_ok {α β : Type} {x : Outcome (Except (List (List Char)) α)} {a : α} (h : x = .ok (.ok a))
    (f : α → Outcome (Except (List (List Char)) β)) : thenSaid x f = f a := by rw [h]; rfl
theorem thenSaid_error {α β : Type} {x : Outcome (Except (List (List Char)) α)} {t : List (List Char)} (h : x = .ok (.error t))
    (f : α → Outcome (Except (List (List Char)) β)) : thenSaid x f = .ok (.error t) := by rw [h]; rfl

theorem of_plain {α : Type} {x : Outcome (Except (List (List Char)) α)} {a : α} (h : plain x = .ok (some a)) : x = .ok (.ok a) := by
  unfold plain at h
  obtain ⟨y, rfl, h⟩ := bind_eq_ok h
  cases y with
  | error t => cases h
  | ok b => cases h; rfl

/-- Warnings are not empty. -/
theorem warning_ne {env : Env K} {o : Options K} {q q' : VMQuery K} (hq : Configured env o q) {fs fs' : Files} {l : K × K × K} {vals : List K}
    (h : VMQuery.query env.fmt q fs 9 l.1 l.2.1 l.2.2 = .ok (q', fs', vals)) (he : q'.err.status ≠ .ERROR) (ho : q'.err.status ≠ .OK) :
    q'.err.message ≠ "" := by
  have hv : q.queryVals = (List.range 9).map some := by obtain ⟨d, x, fn, res, e, -, -, -, -, rfl⟩ := hq; rfl
  have hs : q.err.status = .OK := by obtain ⟨d, x, fn, res, e, -, -, -, hs, rfl⟩ := hq; exact hs
  obtain ⟨e, h1, h2⟩ := QueryApp.query_said hv h
  rcases h2 with h2 | ⟨h2, -⟩
  · rw [h2] at ho ⊢
    split at h1
    · rw [h1.2]
      unfold VMQuery.noDataWarning
      intro hx
      have := congrArg String.length hx
      simp [String.length_append] at this
    · rcases h1 with h1 | ⟨-, a, b, z, h1⟩
      · rw [h1] at ho; exact absurd hs ho
      · rw [h1]
        show VMQuery.orphanMessage env.fmt a b l.1 l.2.1 z ≠ ""
        unfold VMQuery.orphanMessage
        intro hx
        have := congrArg String.length hx
        simp [String.length_append] at this
  · exact absurd h2 he

theorem askSaid_at {env : Env K} {w : World K} {h : Nat} {log db name : String} {v : Vars K} (hn : Names v.queryType name) {q : VMQuery K}
    (hq : Configured env (options log db name v.queryRes) q) (hm : q.err.message = "") {fs : Files} {l : K × K × K} (ha : At w h q fs)
    {x : List (List Char) × Option (World K × List K)} (hx : askSaid env h l w = .ok x) :
    ∃ w' vals fs', x.2 = some (w', vals) ∧ At w' h q fs' ∧ OutFor env log db v ⟨l.1, l.2.1, l.2.2, vals⟩ x.1 := by
  have hs : q.err.status = .OK := by obtain ⟨d, x, fn, res, e, -, -, -, hs, rfl⟩ := hq; exact hs
  rcases QueryApp.query_cases env.fmt q fs 9 l.1 l.2.1 l.2.2 with ⟨h3, -⟩ | ⟨vals, m, fs', fs'', hr, h3, h4⟩
  · exfalso
    obtain ⟨h0, h1, rfl⟩ := ha
    unfold askSaid at hx
    rw [C42_partial (.query 9 l.1 l.2.1 l.2.2), CApi.callFn_some h0 h1] at hx
    rw [show act env.fmt env.canLog h w.fs q (.query 9 l.1 l.2.1 l.2.2) = Outcome.ub by
      show (VMQuery.query _ _ _ _ _ _ _).bind _ = _; rw [h3]; rfl] at hx
    cases hx
  have hset := QueryApp.settle_eq hr hs hm
  unfold QueryApp.settle at hset
  dsimp only at hset
  obtain ⟨w1, e1, a1⟩ := fcall_at (env := env) (f := .query 9 l.1 l.2.1 l.2.2) (.query _ _ _ _) ha
    (r := .answer (VMQuery.mark q.err m).status.code (some vals)) (q' := { q with err := VMQuery.mark q.err m }) (fs' := fs')
    (by show (VMQuery.query _ _ _ _ _ _ _).bind _ = _; rw [h3]; rfl)
  unfold askSaid at hx
  rw [e1, Outcome.bind_ok] at hx
  dsimp only at hx
  by_cases ho : (VMQuery.mark q.err m).status = .OK
  · rw [if_neg (by simp [ho])] at hset
    rw [if_neg (by rw [code_ok ho]; simp)] at hx
    rw [hset] at a1
    cases hx
    refine ⟨w1, vals, fs', rfl, a1, name, q, _, _, hn, hq, h4, Or.inl ⟨by dsimp only; rw [ho]; decide, "", ?_, (if_pos rfl).symm⟩⟩
    obtain ⟨t', h5, h6⟩ := QueryApp.say_line hq h3 (by dsimp only; rw [ho]; decide) ""
    unfold QueryApp.say at h5
    dsimp only at h5
    rw [if_neg (by simp [ho])] at h5
    rw [String.empty_append] at h5
    rw [← h5] at h6
    exact h6
  · rw [if_pos ho] at hset
    rw [if_pos (code_ne ho).symm] at hx
    obtain ⟨w2, e2, a2⟩ := errMessage_field a1
    rw [e2, Outcome.bind_ok] at hx
    dsimp only at hx
    rw [if_neg (by norm_num)] at hx
    obtain ⟨w3, e3, a3⟩ := (checkedSaid_at (env := env) .errResetStatus a2 rfl).1 rfl
    rw [e3, Outcome.bind_ok] at hx
    dsimp only at hx
    rw [hset] at a3
    cases hx
    refine ⟨w3, vals, fs', rfl, a3, name, q, _, _, hn, hq, h4, ?_⟩
    dsimp only
    by_cases he : (VMQuery.mark q.err m).status = .ERROR
    · exact Or.inr ⟨he, rfl⟩
    · refine Or.inl ⟨he, (VMQuery.mark q.err m).message, ?_, ?_⟩
      · obtain ⟨t', h5, h6⟩ := QueryApp.say_line hq h3 he ""
        unfold QueryApp.say at h5
        dsimp only at h5
        rw [if_pos ho, String.empty_append, String.empty_append] at h5
        rw [← h5] at h6
        exact h6
      · rw [if_neg (warning_ne hq h3 he ho)]

theorem selectTypeSaid_at {env : Env K} {v : Vars K} {w : World K} {h : Nat} {q : VMQuery K} {fs : Files} (hs : q.err.status = .OK)
    (ha : At w h q fs) {db : String} {t : List (List Char)} (ht : selectTypeSaid env v h w = .ok (.error t)) :
    ∃ m, t = [m] ∧ Reason env db v m := by
  unfold selectTypeSaid at ht
  by_cases h1 : v.queryType.take 6 = "maxres".toList
  · rw [if_pos h1] at ht
    obtain ⟨w1, e1, -⟩ := (checkedSaid_at (env := env) (f := .queryType 0) (.queryType 0) ha rfl).1 (code_ok hs)
    rw [e1] at ht
    cases ht
  rw [if_neg h1] at ht
  have hmax : ¬ Names v.queryType "maxres" := by
    rintro ⟨-, more, hv⟩
    exact h1 (by rw [hv]; rfl)
  split at ht
  · next h2 =>
    cases ht
    exact ⟨_, rfl, .resolution hmax h2⟩
  next h2 =>
  have hok : (VMQuery.setQueryRes q v.queryRes).err.status = .OK := by unfold VMQuery.setQueryRes; split <;> exact hs
  obtain ⟨w1, e1, a1⟩ := (checkedSaid_at (env := env) (f := .queryRes v.queryRes) (.queryRes _) ha rfl).1 (code_ok hok)
  rw [thenSaid_ok e1] at ht
  by_cases h3 : v.queryType.take 8 = "fixedres".toList
  · rw [if_pos h3] at ht
    obtain ⟨w2, e2, -⟩ := (checkedSaid_at (env := env) (f := .queryType 1) (.queryType 1) a1 rfl).1 (code_ok hok)
    rw [e2] at ht
    cases ht
  rw [if_neg h3] at ht
  by_cases h4 : v.queryType.take 7 = "waveres".toList
  · rw [if_pos h4] at ht
    unfold uncheckedSaid at ht
    obtain ⟨x, -, hx⟩ := bind_eq_ok ht
    cases hx
  rw [if_neg h4] at ht
  cases ht
  refine ⟨_, rfl, .queryType ?_ (not_lt.1 h2)⟩
  rintro name ⟨hn, more, hv⟩
  simp only [List.mem_cons, List.not_mem_nil, or_false] at hn
  rcases hn with rfl | rfl | rfl
  · exact h1 (by rw [hv]; rfl)
  · exact h3 (by rw [hv]; rfl)
  · exact h4 (by rw [hv]; rfl)

theorem selectTypeSaid_named {env : Env K} {v : Vars K} {w w' : World K} {h : Nat} (ht : selectTypeSaid env v h w = .ok (.ok w')) :
    ∃ name, Names v.queryType name := by
  have key : ∀ {n : Nat} {name : String}, name ∈ ["maxres", "fixedres", "waveres"] → v.queryType.take n = name.toList →
      Names v.queryType name := by
    intro n name hm he
    exact ⟨hm, v.queryType.drop n, by rw [← he, List.take_append_drop]⟩
  unfold selectTypeSaid at ht
  by_cases h1 : v.queryType.take 6 = "maxres".toList
  · exact ⟨_, key (by simp) h1⟩
  rw [if_neg h1] at ht
  split at ht
  · cases ht
  unfold thenSaid at ht
  obtain ⟨x, -, hx⟩ := bind_eq_ok ht
  cases x with
  | error t => cases hx
  | ok w1 =>
    dsimp only at hx
    by_cases h3 : v.queryType.take 8 = "fixedres".toList
    · exact ⟨_, key (by simp) h3⟩
    rw [if_neg h3] at hx
    by_cases h4 : v.queryType.take 7 = "waveres".toList
    · exact ⟨_, key (by simp) h4⟩
    rw [if_neg h4] at hx
    cases hx

/-- The program up to opening the files. -/
theorem prepareSaid_cases {env : Env K} {v : Vars K} {log db : String} (hlog : Holds v.log log) (hdb : Holds v.db db) {fs : Files}
    {x : Except (List (List Char)) (Nat × World K)} (hx : prepareSaid env v fs = .ok x) :
    (∃ q w fs' name, Names v.queryType name ∧ Configured env (options log db name v.queryRes) q ∧ q.err.message = "" ∧ At w 1 q fs' ∧
      x = .ok (1, w)) ∨
    ∃ m, x = .error [m] ∧ Reason env db v m := by
  cases x with
  | ok a =>
    left
    have hp : prepare env v fs = .ok (some a) := by rw [← plain_prepare, hx]; rfl
    have hn : ∃ name, Names v.queryType name := by
      unfold prepareSaid at hx
      obtain ⟨⟨w, r⟩, -, hx⟩ := bind_eq_ok hx
      cases r with
      | code n => cases hx
      | answer n v => cases hx
      | text n => cases hx
      | ptr h =>
        dsimp only at hx
        split at hx
        · cases hx
        obtain ⟨⟨w', r'⟩, -, hx⟩ := bind_eq_ok hx
        cases r' with
        | code n => cases hx
        | answer n v => cases hx
        | text n => cases hx
        | ptr e =>
          dsimp only at hx
          split at hx
          · cases hx
          have peel : ∀ {α β : Type} {x : Outcome (Except (List (List Char)) α)} {f : α → Outcome (Except (List (List Char)) β)} {b : β},
              thenSaid x f = .ok (.ok b) → ∃ a, x = .ok (.ok a) ∧ f a = .ok (.ok b) := by
            intro α β x f b h
            unfold thenSaid at h
            obtain ⟨y, rfl, h⟩ := bind_eq_ok h
            cases y with
            | error t => cases h
            | ok a => exact ⟨a, rfl, h⟩
          obtain ⟨_, -, hx⟩ := peel hx
          obtain ⟨_, -, hx⟩ := peel hx
          obtain ⟨_, -, hx⟩ := peel hx
          obtain ⟨_, -, hx⟩ := peel hx
          obtain ⟨_, hy, hx⟩ := peel hx
          exact selectTypeSaid_named hy
    obtain ⟨name, hn⟩ := hn
    rcases prepare_cases env hlog hdb hn fs with ⟨q, w, fs', h1, h2, h3, h4⟩ | ⟨-, h4⟩
    · rw [hp] at h4
      cases h4
      exact ⟨q, w, fs', name, hn, h1, h2, h3, rfl⟩
    · rw [hp] at h4; cases h4
  | error t =>
    right
    set o := options log db "" v.queryRes with ho
    have hl : log ≠ "" := by obtain ⟨ws, rest, more, -, -, h, -⟩ := hlog; exact h
    have hlen : o.filenameLog.length > 0 := by
      show log.length > 0
      rcases Nat.eq_zero_or_pos log.length with h | h
      · exact absurd (String.length_eq_zero_iff.1 h) hl
      · exact h
    have hdlen : (0 : Int) < v.db.length := by
      obtain ⟨ws, rest, more, h, -⟩ := hdb
      rw [h]; simp; omega
    have hstart : QueryApp.start env o fs = ErrorHandler.setLogFilename env.canLog ErrorHandler.init fs log := by
      unfold QueryApp.start
      rw [if_pos hlen]; rfl
    obtain ⟨hs, hm⟩ := QueryApp.start_status env o fs
    have ha : At ({ (World.init fs : World K).put 1 (some (VMQuery.init env.geom)) with next := 1 } : World K) 1 (VMQuery.init env.geom) fs :=
      ⟨by simp, CApi.put_same (World.init fs) 1 (some (VMQuery.init env.geom)), rfl⟩
    obtain ⟨w1, e1, a1⟩ := fcall_at (f := .errorHandler) (env := env) .errorHandler ha rfl
    obtain ⟨w2, e2, a2⟩ : ∃ w2, checked999Said env 1 (.errLogFilename v.log) w1 = .ok (.ok w2) ∧
        At w2 1 { VMQuery.init env.geom with err := (QueryApp.start env o fs).1 } (QueryApp.start env o fs).2 := by
      obtain ⟨w2, e2, a2⟩ := fcall_at (f := .errLogFilename v.log) (env := env) (.errLogFilename hlog) a1 rfl
      refine ⟨w2, by unfold checked999Said; rw [e2]; rfl, ?_⟩
      rw [hstart]; exact a2
    obtain ⟨w3, e3, a3⟩ := (checkedSaid_at (env := env) (f := .filename v.db v.db.length) (.filename hdb hdlen) a2 rfl).1 (code_ok hs)
    obtain ⟨w4, e4, a4⟩ := (checkedSaid_at (env := env) (f := .cacheSize 128) (.cacheSize _) a3 rfl).1 (code_ok hs)
    have hp : VMQuery.setCacheSize (VMQuery.setFilename { VMQuery.init env.geom with err := (QueryApp.start env o fs).1 } db) 128 =
        QueryApp.prepared env.geom o (QueryApp.start env o fs).1 := by
      simp [VMQuery.setCacheSize, VMQuery.setFilename, QueryApp.prepared, VMQuery.init, ho, options]
    rw [hp] at a4
    obtain ⟨q, hq, hc⟩ := QueryApp.openDb_prepared env.disk env.geom o (QueryApp.start env o fs).1
    obtain ⟨c1, c2⟩ := checkedSaid_at (env := env) (f := .open env.disk) (g := .open env.disk) (.open _) a4 (q' := q) (n := q.err.status.code)
      (fs' := (QueryApp.start env o fs).2) (by show (VMQuery.openDb _ _).bind _ = _; rw [hq]; rfl)
    have hprep : prepareSaid env v fs =
        thenSaid (checkedSaid env 1 (.open env.disk) w4) fun w => thenSaid (selectTypeSaid env v 1 w) fun w => .ok (.ok (1, w)) := by
      unfold prepareSaid CApi.createQuery
      rw [show (World.init fs : World K).next = 0 from rfl, Outcome.bind_ok]
      dsimp only
      rw [if_neg (by simp), e1, Outcome.bind_ok]
      dsimp only
      rw [if_neg (by simp), thenSaid_ok e2, thenSaid_ok e3, thenSaid_ok e4]
    rw [hprep] at hx
    rcases hc with ⟨d, x, hd, hx', rfl⟩ | ⟨he, hno⟩
    · obtain ⟨w5, e5, a5⟩ := c1 (code_ok hs)
      rw [thenSaid_ok e5] at hx
      unfold thenSaid at hx
      obtain ⟨y, hy, hx⟩ := bind_eq_ok hx
      cases y with
      | ok a => cases hx
      | error t' =>
        cases hx
        obtain ⟨m, h1, h2⟩ := selectTypeSaid_at (db := db) hs a5 hy
        exact ⟨m, by rw [h1], h2⟩
    · rw [thenSaid_error (c2 (by rw [he]; decide))] at hx
      cases hx
      refine ⟨_, rfl, ?_⟩
      rcases QueryApp.openDb_why hq hs he with ⟨h1, -⟩ | ⟨h1, h2⟩
      · exact absurd rfl h1
      · rw [h2]; exact .openDb h1

/-- The end. -/
def EndOut (env : Env K) (db : String) (v : Vars K) (ending : Ending) (tail : List (List Char)) : Prop :=
  ending ≠ .error ∧ tail = [] ∨ ending = .error ∧ ∃ m, tail = [m, "ERROR".toList] ∧ Reason env db v m

theorem finishSaid_at {env : Env K} {w : World K} {h : Nat} {log db name : String} {v : Vars K} {q : VMQuery K}
    (hq : Configured env (options log db name v.queryRes) q) {fs : Files} {lines : List (Line K)} {out : List (List Char)} (ha : At w h q fs)
    {r : Report K} (hr : finishSaid env h lines out w = .ok r) :
    ∃ tail, r.result.lines = lines ∧ r.out = out ++ tail ∧ EndOut env db v r.result.ending tail := by
  obtain ⟨c1, c2⟩ := checkedSaid_at (env := env) (.close env.closeFail env.closeFailExt) ha rfl
  unfold finishSaid at hr
  by_cases hs : (VMQuery.close env.closeFail env.closeFailExt q).err.status = .OK
  · obtain ⟨w1, e1, h0, h1, -⟩ := c1 (code_ok hs)
    rw [e1, Outcome.bind_ok] at hr
    dsimp only at hr
    unfold CApi.destroyQuery at hr
    rw [if_neg h0, h1] at hr
    dsimp only at hr
    rw [show VMQuery.destroy env.closeFail env.closeFailExt (VMQuery.close env.closeFail env.closeFailExt q) = .ok () by
      simp [VMQuery.destroy, VMQuery.close], Outcome.bind_ok, Outcome.bind_ok] at hr
    cases hr
    exact ⟨[], rfl, (List.append_nil _).symm, Or.inl ⟨by rintro ⟨⟩, rfl⟩⟩
  · rw [c2 (code_ne hs).symm, Outcome.bind_ok] at hr
    cases hr
    obtain ⟨h1, h2⟩ := QueryApp.close_said hq hs
    refine ⟨_, rfl, List.append_assoc .., Or.inr ⟨rfl, _, rfl, ?_⟩⟩
    rw [h2]
    refine .close ?_
    unfold QueryApp.CloseFails at h1
    rcases h1 with h1 | ⟨h1, -⟩
    · exact h1
    · exact absurd rfl h1

theorem loopSaid_at {env : Env K} {h : Nat} {log db name : String} {v : Vars K} (hn : Names v.queryType name) {q : VMQuery K}
    (hq : Configured env (options log db name v.queryRes) q) (hm : q.err.message = "") (rs : List (Option (K × K × K))) (fs : Files)
    (lines : List (Line K)) (out : List (List Char)) (w : World K) (ha : At w h q fs) {r : Report K}
    (hr : loopSaid env h rs lines out w = .ok r) :
    ∃ new ts tail, r.result.lines = lines ++ new ∧ r.out = out ++ ts.flatten ++ tail ∧ List.Forall₂ (OutFor env log db v) new ts ∧
      EndOut env db v r.result.ending tail := by
  induction rs generalizing fs lines out w with
  | nil =>
    obtain ⟨tail, h1, h2, h3⟩ := finishSaid_at hq ha hr
    exact ⟨[], [], tail, by rw [h1, List.append_nil], by rw [h2]; simp, .nil, h3⟩
  | cons x rs ih =>
    cases x with
    | none =>
      cases hr
      exact ⟨[], [], [], by simp, by simp, .nil, Or.inl ⟨by rintro ⟨⟩, rfl⟩⟩
    | some l =>
      unfold loopSaid at hr
      obtain ⟨x, hx, hr⟩ := bind_eq_ok hr
      obtain ⟨w', vals, fs', h1, h2, h3⟩ := askSaid_at hn hq hm ha hx
      obtain ⟨t, y⟩ := x
      cases h1
      dsimp only at hr h3
      obtain ⟨new, ts, tail, h4, h5, h6, h7⟩ := ih _ _ _ _ h2 hr
      exact ⟨⟨l.1, l.2.1, l.2.2, vals⟩ :: new, t :: ts, tail, by rw [h4]; simp, by rw [h5]; simp, .cons h3 h6, h7⟩

theorem runSaid_at {env : Env K} {v : Vars K} {log db : String} (hlog : Holds v.log log) (hdb : Holds v.db db)
    {input : Option (List (Option (K × K × K)))} {fresh : Bool} {fs : Files} {r : Report K} (hr : runSaid env v input fresh fs = .ok r) :
    ∃ ts tail, r.out = ts.flatten ++ tail ∧ List.Forall₂ (OutFor env log db v) r.result.lines ts ∧ EndOut env db v r.result.ending tail := by
  unfold runSaid at hr
  obtain ⟨x, hx, hr⟩ := bind_eq_ok hr
  rcases prepareSaid_cases hlog hdb hx with ⟨q, w, fs', name, hn, hq, hm, ha, rfl⟩ | ⟨m, rfl, hm⟩
  · cases input with
    | none =>
      cases hr
      exact ⟨[], [], by simp, .nil, Or.inl ⟨by rintro ⟨⟩, rfl⟩⟩
    | some rs =>
      cases fresh with
      | false =>
        cases hr
        exact ⟨[], [], by simp, .nil, Or.inl ⟨by rintro ⟨⟩, rfl⟩⟩
      | true =>
        obtain ⟨new, ts, tail, h1, h2, h3, h4⟩ := loopSaid_at hn hq hm rs fs' [] [] w ha hr
        exact ⟨ts, tail, by rw [h2]; simp, by rw [h1]; exact h3, h4⟩
  · cases hr
    exact ⟨[], _, rfl, .nil, Or.inr ⟨rfl, m, rfl, hm⟩⟩

end FExample
end CenCalVM
