/-
Lemmas on the example program cencalvmf77query.
-/
import Verif.Spec.FExample
import Verif.Lemmas.CExample
import Verif.Props.CApi

set_option linter.unusedSectionVars false

namespace CenCalVM
namespace FExample
open CApi (World Ret act)
open CExample (At call_at code_ok code_ne)
open QueryApp (Env Line Options Configured)
open Fortran (Stands Holds)
variable {K : Type} [Field K] [LinearOrder K]

theorem strncpy_runs {n : Nat} {dst src : List Char} (h : n ≤ dst.length) : ∃ v, Fortran.strncpy n dst src = .ok v := by
  induction n generalizing dst src with
  | zero => exact ⟨dst, rfl⟩
  | succ n ih =>
    cases dst with
    | nil => simp at h
    | cons d dst =>
      have h' : n ≤ dst.length := by simpa using h
      cases src with
      | nil =>
        obtain ⟨v, hv⟩ := ih (src := []) h'
        exact ⟨_, by unfold Fortran.strncpy; rw [hv]; rfl⟩
      | cons c src =>
        unfold Fortran.strncpy
        split
        · obtain ⟨v, hv⟩ := ih (src := []) h'
          exact ⟨_, by rw [hv]; rfl⟩
        · obtain ⟨v, hv⟩ := ih (src := src) h'
          exact ⟨_, by rw [hv]; rfl⟩

theorem errMessage_at {w : World K} {h : Nat} {q : VMQuery K} {fs : Files} (ha : At w h q fs) :
    ∃ w' v, Fortran.errMessage (List.replicate 256 ' ') 256 w h = .ok (w', v, 0) ∧ At w' h q fs := by
  obtain ⟨h0, h1, rfl⟩ := ha
  have he : CApi.errMessage w h = .ok ({ w.put h (some q) with fs := w.fs }, .text (some q.err.message)) := CApi.use_some h0 h1 _ _
  obtain ⟨v, hv⟩ := strncpy_runs (n := 256) (dst := List.replicate 256 ' ') (src := q.err.message.toList) (by rw [List.length_replicate])
  refine ⟨{ w.put h (some q) with fs := w.fs }, v, ?_, h0, CApi.put_same _ _ _, rfl⟩
  unfold Fortran.errMessage
  rw [if_pos (by norm_num), he, Outcome.bind_ok]
  dsimp only
  rw [show (256 : Int).toNat = 256 from rfl, hv]
  rfl

theorem label998_at {w : World K} {h : Nat} {q : VMQuery K} {fs : Files} (ha : At w h q fs) : label998 h w = .ok none := by
  obtain ⟨w', v, h1, -⟩ := errMessage_at ha
  unfold label998
  rw [h1]
  rfl

theorem fcall_at {env : Env K} {w : World K} {h : Nat} {q q' : VMQuery K} {fs fs' : Files} {f : Fortran.Fn K} {g : CApi.Fn K} {r : Ret K}
    (hs : Stands f g) (ha : At w h q fs) (hf : act env.fmt env.canLog h fs q g = .ok (q', fs', r)) :
    ∃ w', Fortran.callFn env.fmt env.canLog w h f = .ok (w', r) ∧ At w' h q' fs' := by
  obtain ⟨w', h1, h2⟩ := call_at (env := env) ha hf
  exact ⟨w', by rw [C42_partial hs]; exact h1, h2⟩

theorem checked_at {env : Env K} {w : World K} {h : Nat} {q q' : VMQuery K} {fs fs' : Files} {f : Fortran.Fn K} {g : CApi.Fn K} {n : Int}
    (hs : Stands f g) (ha : At w h q fs) (hf : act env.fmt env.canLog h fs q g = .ok (q', fs', .code n)) :
    (n = 0 → ∃ w', checked env h f w = .ok (some w') ∧ At w' h q' fs') ∧ (n ≠ 0 → checked env h f w = .ok none) := by
  obtain ⟨w', h1, h2⟩ := fcall_at (env := env) hs ha hf
  unfold checked
  rw [h1, Outcome.bind_ok]
  dsimp only
  refine ⟨fun hn => ⟨w', ?_, h2⟩, fun hn => ?_⟩
  · rw [if_neg (not_not.2 hn)]
  · rw [if_pos hn]; exact label998_at h2

theorem thenDo_some {α β : Type} {x : Outcome (Option α)} {a : α} (h : x = .ok (some a)) (f : α → Outcome (Option β)) : thenDo x f = f a := by
  rw [h]; rfl
theorem thenDo_none {α β : Type} {x : Outcome (Option α)} (h : x = .ok none) (f : α → Outcome (Option β)) : thenDo x f = .ok none := by
  rw [h]; rfl

/-- One query. -/
theorem ask_at {env : Env K} {w : World K} {h : Nat} {q : VMQuery K} (hs : q.err.status = .OK) (hm : q.err.message = "") {fs : Files}
    {l : K × K × K} (hu : VMQuery.query env.fmt q (fun _ => "") 9 l.1 l.2.1 l.2.2 ≠ .ub) (ha : At w h q fs) :
    ∃ w' vals fs' q' f, ask env h l w = .ok (some (w', vals)) ∧ At w' h q fs' ∧
      VMQuery.query env.fmt q (fun _ => "") 9 l.1 l.2.1 l.2.2 = .ok (q', f, vals) := by
  rcases QueryApp.query_cases env.fmt q fs 9 l.1 l.2.1 l.2.2 with ⟨-, h3⟩ | ⟨vals, x, fs', fs'', hr, h3, h4⟩
  · exact absurd h3 hu
  have hset := QueryApp.settle_eq hr hs hm
  unfold QueryApp.settle at hset
  dsimp only at hset
  obtain ⟨w1, e1, a1⟩ := fcall_at (env := env) (f := .query 9 l.1 l.2.1 l.2.2) (.query _ _ _ _) ha
    (r := .answer (VMQuery.mark q.err x).status.code (some vals)) (q' := { q with err := VMQuery.mark q.err x }) (fs' := fs')
    (by show (VMQuery.query _ _ _ _ _ _ _).bind _ = _; rw [h3]; rfl)
  unfold ask
  rw [e1, Outcome.bind_ok]
  dsimp only
  by_cases ho : (VMQuery.mark q.err x).status = .OK
  · rw [if_neg (by simp [ho])] at hset
    rw [if_neg (by rw [code_ok ho]; simp)]
    rw [hset] at a1
    exact ⟨w1, vals, fs', _, _, rfl, a1, h4⟩
  · rw [if_pos ho] at hset
    rw [if_pos (code_ne ho).symm]
    obtain ⟨w2, v, e2, a2⟩ := errMessage_at a1
    rw [e2, Outcome.bind_ok]
    dsimp only
    rw [if_neg (by norm_num)]
    obtain ⟨w3, e3, a3⟩ := (checked_at (env := env) .errResetStatus a2 rfl).1 rfl
    rw [thenDo_some e3]
    rw [hset] at a3
    exact ⟨w3, vals, fs', _, _, rfl, a3, h4⟩

theorem finish_at {env : Env K} {w : World K} {h : Nat} {q : VMQuery K} {fs : Files} {lines : List (Line K)} (ha : At w h q fs) :
    finish env h lines w = .ok ⟨if (VMQuery.close env.closeFail env.closeFailExt q).err.status = .OK then .done else .error, lines⟩ := by
  obtain ⟨c1, c2⟩ := checked_at (env := env) (.close env.closeFail env.closeFailExt) ha rfl
  unfold finish
  by_cases hs : (VMQuery.close env.closeFail env.closeFailExt q).err.status = .OK
  · obtain ⟨w1, e1, h0, h1, -⟩ := c1 (code_ok hs)
    rw [e1, Outcome.bind_ok, if_pos hs]
    dsimp only
    unfold CApi.destroyQuery
    rw [if_neg h0, h1]
    dsimp only
    rw [show VMQuery.destroy env.closeFail env.closeFailExt (VMQuery.close env.closeFail env.closeFailExt q) = .ok () by
      simp [VMQuery.destroy, VMQuery.close], Outcome.bind_ok, Outcome.bind_ok]
    rfl
  · rw [c2 (code_ne hs).symm, Outcome.bind_ok, if_neg hs]

/-- The loop. -/
theorem loop_at {env : Env K} {h : Nat} {q : VMQuery K} (hs : q.err.status = .OK) (hm : q.err.message = "") (rs : List (Option (K × K × K)))
    (ls : List (K × K × K)) (hu : ∀ l ∈ ls, VMQuery.query env.fmt q (fun _ => "") 9 l.1 l.2.1 l.2.2 ≠ .ub) (fs : Files)
    (lines : List (Line K)) (w : World K) (ha : At w h q fs) (e : Ending) (hr : (rs = [] ∧ e = if (VMQuery.close env.closeFail env.closeFailExt q).err.status = .OK then .done else .error) ∨
      ∃ more, rs = none :: more ∧ e = .stopped) :
    ∃ new, loop env h (ls.map some ++ rs) lines w = .ok ⟨e, lines ++ new⟩ ∧ List.Forall₂ (AnyLine env.fmt q) ls new := by
  induction ls generalizing fs lines w with
  | nil =>
    refine ⟨[], ?_, .nil⟩
    rcases hr with ⟨rfl, rfl⟩ | ⟨more, rfl, rfl⟩
    · rw [List.append_nil lines]
      exact finish_at ha
    · rw [List.append_nil]; rfl
  | cons l ls ih =>
    obtain ⟨w', vals, fs', q', f, e1, a1, hq⟩ := ask_at hs hm (hu l (by simp)) ha
    obtain ⟨new, h1, h2⟩ := ih (fun l hl => hu l (by simp [hl])) fs' (lines ++ [⟨l.1, l.2.1, l.2.2, vals⟩]) w' a1
    refine ⟨⟨l.1, l.2.1, l.2.2, vals⟩ :: new, ?_, .cons ⟨rfl, q', f, hq⟩ h2⟩
    rw [List.map_cons, List.cons_append]
    unfold loop
    rw [e1, Outcome.bind_ok]
    dsimp only
    rw [h1, List.append_assoc]
    rfl

/-! ### Setting up -/

theorem selectType_at {env : Env K} {v : Vars K} {name : String} (hn : Names v.queryType name) {log db : String} {w : World K} {h : Nat}
    {q : VMQuery K} {fs : Files} (hs : q.err.status = .OK) (ha : At w h q fs) :
    (∀ q', QueryApp.selectType (options log db name v.queryRes) q = some q' → ∃ w', selectType env v h w = .ok (some w') ∧ At w' h q' fs) ∧
    (QueryApp.selectType (options log db name v.queryRes) q = none → selectType env v h w = .ok none) := by
  obtain ⟨hn, more, hv⟩ := hn
  simp only [List.mem_cons, List.not_mem_nil, or_false] at hn
  have hres : 0 ≤ v.queryRes → (VMQuery.setQueryRes q v.queryRes).err.status = .OK := by
    intro h; unfold VMQuery.setQueryRes; split <;> exact hs
  rcases hn with rfl | rfl | rfl
  · have h1 : v.queryType.take 6 = "maxres".toList := by rw [hv]; rfl
    unfold selectType QueryApp.selectType
    rw [if_pos h1, if_pos (show VMQuery.sameName (options log db "maxres" v.queryRes).queryType "maxres" = true from (by decide +kernel : VMQuery.sameName "maxres" "maxres" = true))]
    refine ⟨fun q' hq => ?_, (nomatch ·)⟩
    cases hq
    exact (checked_at (env := env) (f := .queryType 0) (.queryType 0) ha rfl).1 (code_ok hs)
  · have h1 : v.queryType.take 6 ≠ "maxres".toList := by
      rw [hv, List.take_append_of_le_length (by decide +kernel)]; decide +kernel
    have h2 : v.queryType.take 8 = "fixedres".toList := by rw [hv]; rfl
    unfold selectType QueryApp.selectType
    rw [if_neg h1, if_neg (show ¬ VMQuery.sameName (options log db "fixedres" v.queryRes).queryType "maxres" = true from (by decide +kernel : ¬ VMQuery.sameName "fixedres" "maxres" = true))]
    show (∀ q', (if v.queryRes < 0 then none else _) = some q' → _) ∧ ((if v.queryRes < 0 then none else _) = none → _)
    split
    · exact ⟨fun q' hq => (by cases hq), fun _ => rfl⟩
    obtain ⟨w1, e1, a1⟩ := (checked_at (env := env) (f := .queryRes v.queryRes) (.queryRes _) ha rfl).1 (code_ok (hres (not_lt.1 (by assumption))))
    dsimp only
    rw [thenDo_some e1, if_pos (show VMQuery.sameName (options log db "fixedres" v.queryRes).queryType "fixedres" = true from (by decide +kernel : VMQuery.sameName "fixedres" "fixedres" = true))]
    refine ⟨fun q' hq => ?_, (nomatch ·)⟩
    cases hq
    exact (checked_at (env := env) (f := .queryType 1) (.queryType 1) a1 rfl).1 (code_ok (hres (not_lt.1 (by assumption))))
  · have h1 : v.queryType.take 6 ≠ "maxres".toList := by
      rw [hv, List.take_append_of_le_length (by decide +kernel)]; decide +kernel
    have h2 : v.queryType.take 8 ≠ "fixedres".toList := by
      rw [hv]
      intro he
      have := congrArg List.head? he
      revert this
      simp
    have h3 : v.queryType.take 7 = "waveres".toList := by rw [hv]; rfl
    unfold selectType QueryApp.selectType
    rw [if_neg h1, if_neg (show ¬ VMQuery.sameName (options log db "waveres" v.queryRes).queryType "maxres" = true from (by decide +kernel : ¬ VMQuery.sameName "waveres" "maxres" = true))]
    show (∀ q', (if v.queryRes < 0 then none else _) = some q' → _) ∧ ((if v.queryRes < 0 then none else _) = none → _)
    split
    · exact ⟨fun q' hq => (by cases hq), fun _ => rfl⟩
    obtain ⟨w1, e1, a1⟩ := (checked_at (env := env) (f := .queryRes v.queryRes) (.queryRes _) ha rfl).1 (code_ok (hres (not_lt.1 (by assumption))))
    dsimp only
    rw [thenDo_some e1, if_neg (show ¬ VMQuery.sameName (options log db "waveres" v.queryRes).queryType "fixedres" = true from (by decide +kernel : ¬ VMQuery.sameName "waveres" "fixedres" = true)),
      if_pos (show VMQuery.sameName (options log db "waveres" v.queryRes).queryType "waveres" = true from (by decide +kernel : VMQuery.sameName "waveres" "waveres" = true))]
    refine ⟨fun q' hq => ?_, (nomatch ·)⟩
    cases hq
    obtain ⟨w2, e2, a2⟩ := fcall_at (env := env) (f := .queryType 2) (.queryType 2) a1 rfl
    exact ⟨w2, by unfold unchecked; rw [e2]; rfl, a2⟩

/-- The program up to opening the files. -/
theorem prepare_cases (env : Env K) {v : Vars K} {log db name : String} (hlog : Holds v.log log) (hdb : Holds v.db db)
    (hn : Names v.queryType name) (fs : Files) :
    (∃ q w fs', Configured env (options log db name v.queryRes) q ∧ q.err.message = "" ∧ At w 1 q fs' ∧ prepare env v fs = .ok (some (1, w))) ∨
    ((∀ q, ¬ Configured env (options log db name v.queryRes) q) ∧ prepare env v fs = .ok none) := by
  set o := options log db name v.queryRes with ho
  have hl : log ≠ "" := by obtain ⟨ws, rest, more, -, -, h, -⟩ := hlog; exact h
  have hlen : o.filenameLog.length > 0 := by
    show log.length > 0
    rcases Nat.eq_zero_or_pos log.length with h | h
    · exact absurd (String.length_eq_zero_iff.1 h) hl
    · exact h
  have hdlen : (0 : Int) < v.db.length := by
    obtain ⟨ws, rest, more, h, -⟩ := hdb
    rw [h]; simp; omega
  have hstart : QueryApp.start env o fs = ErrorHandler.setLogFilename env.canLog ErrorHandler.init fs log := by
    unfold QueryApp.start
    rw [if_pos hlen]; rfl
  obtain ⟨hs, hm⟩ := QueryApp.start_status env o fs
  have ha : At ({ (World.init fs : World K).put 1 (some (VMQuery.init env.geom)) with next := 1 } : World K) 1 (VMQuery.init env.geom) fs :=
    ⟨by simp, CApi.put_same (World.init fs) 1 (some (VMQuery.init env.geom)), rfl⟩
  obtain ⟨w1, e1, a1⟩ := fcall_at (f := .errorHandler) (env := env) .errorHandler ha rfl
  obtain ⟨w2, e2, a2⟩ : ∃ w2, checked999 env 1 (.errLogFilename v.log) w1 = .ok (some w2) ∧
      At w2 1 { VMQuery.init env.geom with err := (QueryApp.start env o fs).1 } (QueryApp.start env o fs).2 := by
    obtain ⟨w2, e2, a2⟩ := fcall_at (f := .errLogFilename v.log) (env := env) (.errLogFilename hlog) a1 rfl
    refine ⟨w2, by unfold checked999; rw [e2]; rfl, ?_⟩
    rw [hstart]; exact a2
  obtain ⟨w3, e3, a3⟩ := (checked_at (env := env) (f := .filename v.db v.db.length) (.filename hdb hdlen) a2 rfl).1 (code_ok hs)
  obtain ⟨w4, e4, a4⟩ := (checked_at (env := env) (f := .cacheSize 128) (.cacheSize _) a3 rfl).1 (code_ok hs)
  have hp : VMQuery.setCacheSize (VMQuery.setFilename { VMQuery.init env.geom with err := (QueryApp.start env o fs).1 } db) 128 =
      QueryApp.prepared env.geom o (QueryApp.start env o fs).1 := by
    simp [VMQuery.setCacheSize, VMQuery.setFilename, QueryApp.prepared, VMQuery.init, ho, options]
  rw [hp] at a4
  obtain ⟨q, hq, hc⟩ := QueryApp.openDb_prepared env.disk env.geom o (QueryApp.start env o fs).1
  obtain ⟨c1, c2⟩ := checked_at (env := env) (f := .open env.disk) (g := .open env.disk) (.open _) a4 (q' := q) (n := q.err.status.code)
    (fs' := (QueryApp.start env o fs).2) (by show (VMQuery.openDb _ _).bind _ = _; rw [hq]; rfl)
  have hprep : prepare env v fs = thenDo (checked env 1 (.open env.disk) w4) fun w => thenDo (selectType env v 1 w) fun w => .ok (some (1, w)) := by
    unfold prepare CApi.createQuery
    rw [show (World.init fs : World K).next = 0 from rfl, Outcome.bind_ok]
    dsimp only
    rw [if_neg (by simp), e1, Outcome.bind_ok]
    dsimp only
    rw [if_neg (by simp), thenDo_some e2, thenDo_some e3, thenDo_some e4]
  rcases hc with ⟨d, x, hd, hx, rfl⟩ | ⟨he, hno⟩
  · obtain ⟨w5, e5, a5⟩ := c1 (code_ok hs)
    rw [thenDo_some e5] at hprep
    obtain ⟨t1, t2⟩ := selectType_at (env := env) hn (log := log) (db := db) hs a5
    rcases QueryApp.selectType_cases o (q := { QueryApp.prepared env.geom o (QueryApp.start env o fs).1 with db := some d, dbExt := x }) rfl with
      ⟨fn, res, ht, h⟩ | ⟨ht, h⟩
    · left
      obtain ⟨w6, e6, a6⟩ := t1 _ h
      rw [thenDo_some e6] at hprep
      exact ⟨_, w6, _, ⟨d, x, fn, res, (QueryApp.start env o fs).1, hd, hx, ht, hs, rfl⟩, hm, a6, hprep⟩
    · right
      rw [thenDo_none (t2 h)] at hprep
      exact ⟨fun q ⟨d, x, fn, res, e, _, _, ht', _⟩ => ht fn res ht', hprep⟩
  · right
    rw [thenDo_none (c2 (by rw [he]; decide))] at hprep
    refine ⟨?_, hprep⟩
    rintro q ⟨d, x, fn, res, e, hd, hx, -⟩
    rcases hno with hno | ⟨h1, hno⟩
    · rw [hd] at hno; cases hno
    · exact h1 rfl

end FExample
end CenCalVM
