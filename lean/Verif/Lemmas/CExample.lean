/-
Lemmas on the example program cencalvmcquery.
-/
import Verif.Spec.CExample
import Verif.Lemmas.CApi
import Verif.Lemmas.QueryApp

set_option linter.unusedSectionVars false

namespace CenCalVM
namespace CExample
open CApi (World Ret act)
open QueryApp (Options Env Line Conv LocText Configured)
variable {K : Type} [Field K] [LinearOrder K]

/-! ### Calls -/

/-- The handle is that of the given object, with the given files. -/
def At (w : World K) (h : Nat) (q : VMQuery K) (fs : Files) : Prop := h ≠ 0 ∧ w.objs h = some q ∧ w.fs = fs

theorem call_at {env : Env K} {w : World K} {h : Nat} {q q' : VMQuery K} {fs fs' : Files} {f : CApi.Fn K} {r : Ret K} (ha : At w h q fs)
    (hf : act env.fmt env.canLog h fs q f = .ok (q', fs', r)) :
    ∃ w', CApi.callFn env.fmt env.canLog w h f = .ok (w', r) ∧ At w' h q' fs' := by
  obtain ⟨h0, h1, rfl⟩ := ha
  rw [CApi.callFn_some h0 h1, hf]
  exact ⟨_, rfl, h0, CApi.put_same _ _ _, rfl⟩

theorem unchecked_at {env : Env K} {w : World K} {h : Nat} {q q' : VMQuery K} {fs fs' : Files} {f : CApi.Fn K} {r : Ret K} (ha : At w h q fs)
    (hf : act env.fmt env.canLog h fs q f = .ok (q', fs', r)) : ∃ w', unchecked env h f w = .ok w' ∧ At w' h q' fs' := by
  obtain ⟨w', h1, h2⟩ := call_at ha hf
  exact ⟨w', by unfold unchecked; rw [h1]; rfl, h2⟩

theorem code_ok {s : Status} (h : s = .OK) : s.code = 0 := by subst h; rfl
theorem code_ne {s : Status} (h : s ≠ .OK) : (0 : Int) ≠ s.code := by cases s <;> first | exact absurd rfl h | decide
theorem code_two {s : Status} : s.code = 2 ↔ s = .ERROR := by cases s <;> decide

theorem checked_at {env : Env K} {w : World K} {h : Nat} {q q' : VMQuery K} {fs : Files} {f : CApi.Fn K} (ha : At w h q fs)
    (hf : act env.fmt env.canLog h fs q f = CApi.withStatus fs q') :
    (q'.err.status = .OK → ∃ w', checked env h f w = .ok (some w') ∧ At w' h q' fs) ∧
    (q'.err.status ≠ .OK → checked env h f w = .ok none) := by
  obtain ⟨w', h1, h2⟩ := call_at ha hf
  unfold checked
  rw [h1, Outcome.bind_ok]
  dsimp only
  refine ⟨fun hs => ⟨w', ?_, h2⟩, fun hs => ?_⟩
  · rw [code_ok hs, if_neg (by simp)]
  · rw [if_pos (code_ne hs)]

theorem thenDo_some {α : Type} {x : Outcome (Option (World K))} {w : World K} (h : x = .ok (some w)) (f : World K → Outcome (Option α)) :
    thenDo x f = f w := by rw [h]; rfl
theorem thenDo_none {α : Type} {x : Outcome (Option (World K))} (h : x = .ok none) (f : World K → Outcome (Option α)) :
    thenDo x f = .ok none := by rw [h]; rfl

/-! ### Setting up -/

theorem setExt_at {env : Env K} {o : Options K} {w : World K} {h : Nat} {q q' : VMQuery K} {fs : Files} (ha : At w h q fs)
    (hq : QueryApp.setExt o q = some q') : ∃ w', setExt env o h w = .ok (some w') ∧ At w' h q' fs := by
  unfold QueryApp.setExt at hq
  unfold setExt
  by_cases hx : o.filenameDBExt = ""
  · rw [if_neg (by simp [hx])] at hq ⊢
    cases hq
    exact ⟨w, rfl, ha⟩
  · rw [if_pos (Ne.symm hx)] at hq
    rw [if_pos hx]
    unfold QueryApp.checked at hq
    split at hq
    · cases hq
    next h1 =>
    rw [Option.bind_some] at hq
    split at hq <;> cases hq
    next h2 =>
    obtain ⟨w1, e1, a1⟩ := (checked_at (f := .filenameExt o.filenameDBExt) (env := env) ha rfl).1 (not_not.1 h1)
    obtain ⟨w2, e2, a2⟩ := (checked_at (f := .cacheSizeExt o.cacheSize) (env := env) a1 rfl).1 (not_not.1 h2)
    exact ⟨w2, by rw [thenDo_some e1, e2], a2⟩

theorem setSquash_at {env : Env K} {o : Options K} {w : World K} {h : Nat} {q q' : VMQuery K} {fs : Files} (ha : At w h q fs)
    (hq : QueryApp.setSquash o q = some q') : ∃ w', setSquash env o h w = .ok (some w') ∧ At w' h q' fs := by
  unfold QueryApp.setSquash QueryApp.checked at hq
  unfold setSquash
  split at hq
  · next h1 =>
    rw [if_pos h1]
    split at hq <;> cases hq
    next h2 => exact (checked_at (f := .squash 1 o.squashLimit) (env := env) ha rfl).1 (not_not.1 h2)
  · next h1 =>
    cases hq
    rw [if_neg h1]
    exact ⟨w, rfl, ha⟩

theorem configure_at {env : Env K} {o : Options K} {w : World K} {h : Nat} {q q1 q2 : VMQuery K} {fs : Files} (ha : At w h q fs)
    (hq : QueryApp.configure o q = some q1) (ho : VMQuery.openDb env.disk q1 = .ok q2) :
    (q2.err.status = .OK → ∃ w', configure env o h w = .ok (some w') ∧ At w' h q2 fs) ∧
    (q2.err.status ≠ .OK → configure env o h w = .ok none) := by
  unfold QueryApp.configure at hq
  rw [Option.bind_eq_some_iff] at hq
  obtain ⟨qa, h1, hq⟩ := hq
  rw [Option.bind_eq_some_iff] at hq
  obtain ⟨qb, h2, hq⟩ := hq
  rw [Option.bind_eq_some_iff] at hq
  obtain ⟨qc, h3, h4⟩ := hq
  unfold QueryApp.checked at h1 h2
  split at h1 <;> cases h1
  next g1 =>
  split at h2 <;> cases h2
  next g2 =>
  obtain ⟨w1, e1, a1⟩ := (checked_at (f := .filename o.filenameDB) (env := env) ha rfl).1 (not_not.1 g1)
  obtain ⟨w2, e2, a2⟩ := (checked_at (f := .cacheSize o.cacheSize) (env := env) a1 rfl).1 (not_not.1 g2)
  obtain ⟨w3, e3, a3⟩ := setExt_at (env := env) a2 h3
  obtain ⟨w4, e4, a4⟩ := setSquash_at (env := env) a3 h4
  unfold configure
  rw [thenDo_some e1, thenDo_some e2, thenDo_some e3, thenDo_some e4]
  exact checked_at (f := .open env.disk) a4 (by show (VMQuery.openDb _ _).bind _ = _; rw [ho]; rfl)

theorem selectType_at {env : Env K} {o : Options K} {w : World K} {h : Nat} {q : VMQuery K} {fs : Files} (ha : At w h q fs) :
    (∀ q', QueryApp.selectType o q = some q' → ∃ w', selectType env o h w = .ok (some w') ∧ At w' h q' fs) ∧
    (QueryApp.selectType o q = none → selectType env o h w = .ok none) := by
  unfold QueryApp.selectType selectType
  split
  · obtain ⟨w1, e1, a1⟩ := unchecked_at (f := .queryType 0) (env := env) ha rfl
    refine ⟨fun q' hq => ?_, (nomatch ·)⟩
    cases hq
    exact ⟨w1, by rw [e1]; rfl, a1⟩
  split
  · exact ⟨fun q' hq => (by cases hq), fun _ => rfl⟩
  obtain ⟨w1, e1, a1⟩ := unchecked_at (f := .queryRes o.queryRes) (env := env) ha rfl
  rw [e1, Outcome.bind_ok]
  dsimp only
  split
  · obtain ⟨w2, e2, a2⟩ := unchecked_at (f := .queryType 1) (env := env) a1 rfl
    refine ⟨fun q' hq => ?_, (nomatch ·)⟩
    cases hq
    exact ⟨w2, by rw [e2]; rfl, a2⟩
  split
  · obtain ⟨w2, e2, a2⟩ := unchecked_at (f := .queryType 2) (env := env) a1 rfl
    refine ⟨fun q' hq => ?_, (nomatch ·)⟩
    cases hq
    exact ⟨w2, by rw [e2]; rfl, a2⟩
  · exact ⟨fun q' hq => (by cases hq), fun _ => rfl⟩

theorem start_at {env : Env K} {o : Options K} {w : World K} {h : Nat} {fs : Files} (ha : At w h (VMQuery.init env.geom) fs) :
    ∃ w', start env o h w = .ok w' ∧
      At w' h { VMQuery.init env.geom with err := (QueryApp.start env o fs).1 } (QueryApp.start env o fs).2 := by
  unfold start QueryApp.start
  split
  · exact unchecked_at (f := .errLogFilename o.filenameLog) ha rfl
  · exact ⟨w, rfl, ha⟩

/-- Up to the settings. -/
theorem prepare_eq (env : Env K) (o : Options K) (fs : Files) :
    ∃ w, At w 1 { VMQuery.init env.geom with err := (QueryApp.start env o fs).1 } (QueryApp.start env o fs).2 ∧
      prepare env o fs = thenDo (thenDo (configure env o 1 w) (selectType env o 1)) fun w => .ok (some (1, w)) := by
  have ha : At ({ (World.init fs : World K).put 1 (some (VMQuery.init env.geom)) with next := 1 } : World K) 1 (VMQuery.init env.geom) fs :=
    ⟨by simp, CApi.put_same (World.init fs) 1 (some (VMQuery.init env.geom)), rfl⟩
  obtain ⟨w1, e1, a1⟩ := call_at (f := .errorHandler) (env := env) ha rfl
  obtain ⟨w2, e2, a2⟩ := start_at (o := o) a1
  refine ⟨w2, a2, ?_⟩
  unfold prepare CApi.createQuery
  rw [show (World.init fs : World K).next = 0 from rfl, Outcome.bind_ok]
  dsimp only
  rw [if_neg (by simp), e1, Outcome.bind_ok]
  dsimp only
  rw [if_neg (by simp), e2, Outcome.bind_ok]

/-- Both programs set up alike. -/
theorem both_cases (env : Env K) (o : Options K) (fs : Files) :
    (∃ q w, Configured env o q ∧ q.err.message = "" ∧ At w 1 q (QueryApp.start env o fs).2 ∧ prepare env o fs = .ok (some (1, w)) ∧
      ((∃ text, env.input o.filenameIn = some text ∧ env.canWrite o.filenameOut = true ∧
          QueryApp.run env o fs = QueryApp.loop env (text.length + 1) (QueryApp.readLoc env.nf (Stream.ofText text) (0, 0, 0)).1
            (QueryApp.readLoc env.nf (Stream.ofText text) (0, 0, 0)).2 q (QueryApp.start env o fs).2 []) ∨
        ((env.input o.filenameIn = none ∨ env.canWrite o.filenameOut = false) ∧
          QueryApp.run env o fs = QueryApp.leave env ⟨1, [], q, (QueryApp.start env o fs).2⟩))) ∨
    ((∀ q, ¬ Configured env o q) ∧ prepare env o fs = .ok none ∧
      ∃ q, QueryApp.run env o fs = QueryApp.leave env ⟨1, [], q, (QueryApp.start env o fs).2⟩) := by
  obtain ⟨hs, hm⟩ := QueryApp.start_status env o fs
  obtain ⟨w, ha, hp⟩ := prepare_eq env o fs
  have hconf := QueryApp.configure_eq env.geom o hs
  unfold QueryApp.run
  dsimp only
  rw [hconf]
  dsimp only
  obtain ⟨q, hq, hc⟩ := QueryApp.openDb_prepared env.disk env.geom o (QueryApp.start env o fs).1
  obtain ⟨c1, c2⟩ := configure_at ha hconf hq
  rcases hc with ⟨d, x, hd, hx, rfl⟩ | ⟨he, hn⟩
  · obtain ⟨w1, e1, a1⟩ := c1 hs
    rw [thenDo_some e1] at hp
    obtain ⟨t1, t2⟩ := selectType_at (env := env) (o := o) a1
    rw [hq, Outcome.bind_ok]
    rw [show QueryApp.checked { QueryApp.prepared env.geom o (QueryApp.start env o fs).1 with db := some d, dbExt := x } =
      some { QueryApp.prepared env.geom o (QueryApp.start env o fs).1 with db := some d, dbExt := x } from if_neg (by intro h; exact h hs), Option.bind_some]
    rcases QueryApp.selectType_cases o (q := { QueryApp.prepared env.geom o (QueryApp.start env o fs).1 with db := some d, dbExt := x }) rfl with
      ⟨fn, res, ht, h⟩ | ⟨ht, h⟩
    · left
      obtain ⟨w2, e2, a2⟩ := t1 _ h
      rw [thenDo_some e2] at hp
      rw [h]
      refine ⟨_, w2, ⟨d, x, fn, res, (QueryApp.start env o fs).1, hd, hx, ht, hs, rfl⟩, hm, a2, hp, ?_⟩
      dsimp only
      cases hi : env.input o.filenameIn with
      | none => right; exact ⟨Or.inl rfl, rfl⟩
      | some text =>
        cases hc : env.canWrite o.filenameOut with
        | false => right; exact ⟨Or.inr rfl, rfl⟩
        | true => left; exact ⟨text, rfl, rfl, rfl⟩
    · right
      rw [thenDo_none (t2 h)] at hp
      rw [h]
      exact ⟨fun q ⟨d, x, fn, res, e, _, _, ht', _⟩ => ht fn res ht', hp, _, rfl⟩
  · right
    have hne : q.err.status ≠ .OK := by rw [he]; decide
    rw [thenDo_none (x := thenDo (configure env o 1 w) (selectType env o 1)) (thenDo_none (c2 hne) _)] at hp
    rw [hq, Outcome.bind_ok, show QueryApp.checked q = none from if_pos hne, Option.bind_none]
    refine ⟨?_, hp, _, rfl⟩
    rintro q ⟨d, x, fn, res, e, hd, hx, -⟩
    rcases hn with hn | ⟨h1, hn⟩
    · rw [hd] at hn; cases hn
    · rcases hx with ⟨h2, -⟩ | ⟨-, d', h2, -⟩
      · exact h1 h2
      · rw [hn] at h2; cases h2

/-! ### Reading -/

theorem scanReal_eq {nf : NumFmt K} {s : Stream} {t : List Char} {v old : K} (hs : s.eof = false) (h : RealText nf s.rest v t) :
    scanReal nf s old = (⟨t, t.isEmpty, false⟩, v) := by
  obtain ⟨w, a, b⟩ := h
  unfold scanReal GridIngester.readReal
  rw [extract_word (s := { s with fail := false }) (by simp [Stream.good, hs]) a b]
  simp

theorem isEmpty_of_real {nf : NumFmt K} {t t' : List Char} {v : K} (h : RealText nf t v t') : t.isEmpty = false := by
  obtain ⟨w, a, -⟩ := h
  have := good_of_word a
  simpa [Stream.good] using this

theorem scanLoc_eq {nf : NumFmt K} {s : Stream} {t : List Char} {l old : K × K × K} (hs : s.eof = false) (h : LocText nf s.rest l t) :
    scanLoc nf s old = (⟨t, t.isEmpty, false⟩, l) := by
  obtain ⟨t1, t2, h1, h2, h3⟩ := h
  unfold scanLoc
  rw [scanReal_eq hs h1]
  dsimp only
  rw [if_neg (by simp), scanReal_eq (s := ⟨t1, t1.isEmpty, false⟩) (isEmpty_of_real h2) h2]
  dsimp only
  rw [if_neg (by simp), scanReal_eq (s := ⟨t2, t2.isEmpty, false⟩) (isEmpty_of_real h3) h3]

theorem dropWhile_all {t : List Char} (h : ∀ c ∈ t, Stream.isSpace c = true) : t.dropWhile Stream.isSpace = [] := by
  rw [List.dropWhile_eq_nil_iff]
  exact h

theorem scanLoc_blank {nf : NumFmt K} {s : Stream} {old : K × K × K} (hs : s.eof = false) (h : ∀ c ∈ s.rest, Stream.isSpace c = true) :
    (scanLoc nf s old).1.eof = true := by
  have : scanReal nf s old.1 = (⟨[], true, true⟩, old.1) := by
    unfold scanReal GridIngester.readReal Stream.extract
    rw [dropWhile_all h]
    simp [Stream.good, hs]
  unfold scanLoc
  rw [this]
  rfl

theorem readLoc_blank {nf : NumFmt K} {s : Stream} {old : K × K × K} (h : ∀ c ∈ s.rest, Stream.isSpace c = true) :
    (QueryApp.readLoc nf s old).1.good = false := by
  cases hg : (QueryApp.readLoc nf s old).1.good with
  | false => rfl
  | true =>
    obtain ⟨-, ⟨t1, t2, ⟨w, ⟨sp, body, h1, h2, h3, h4, h5⟩, -⟩, -⟩, -⟩ := QueryApp.readLoc_good hg
    exfalso
    cases body with
    | nil => exact h3 rfl
    | cons c cs =>
      have := h c (by rw [h1]; simp)
      rw [h4 c rfl] at this
      cases this

theorem scanLoc_stuck {nf : NumFmt K} (hnf : nf.real [] = none) {s : Stream} (hs : s.eof = false) (h : Stuck nf s.rest) (old : K × K × K) :
    ∃ s', scanLoc nf s old = (s', old) ∧ s'.eof = false ∧ Stuck nf s'.rest := by
  obtain ⟨sp, c, cs, h1, h2, h3, h4⟩ := h
  have hd : s.rest.dropWhile Stream.isSpace = c :: cs := by
    rw [h1, List.dropWhile_append_of_pos h2, List.dropWhile_cons_of_neg (by simp [h3])]
  have : scanReal nf s old.1 = (⟨c :: cs, false, true⟩, old.1) := by
    unfold scanReal GridIngester.readReal Stream.extract
    simp [Stream.good, hs, hd, h4, hnf]
  refine ⟨⟨c :: cs, false, true⟩, ?_, rfl, [], c, cs, rfl, by simp, h3, h4⟩
  unfold scanLoc
  rw [this]
  rfl

/-! ### The loop -/

/-- One round. -/
theorem ask_at {env : Env K} {w : World K} {h : Nat} {q q' : VMQuery K} {fs fs' : Files} {loc : K × K × K} {vals : List K}
    (ha : At w h q fs) (hq : VMQuery.query env.fmt q fs 9 loc.1 loc.2.1 loc.2.2 = .ok (q', fs', vals)) :
    (q'.err.status = .ERROR → ask env h loc w = .ok none) ∧
    (q'.err.status ≠ .ERROR → ∃ w', ask env h loc w = .ok (some (w', vals)) ∧ At w' h (QueryApp.settle q') fs') := by
  obtain ⟨w1, e1, a1⟩ := call_at (f := .query 9 loc.1 loc.2.1 loc.2.2) (env := env) (r := .answer q'.err.status.code (some vals))
    (q' := q') (fs' := fs') ha (by show (VMQuery.query _ _ _ _ _ _ _).bind _ = _; rw [hq]; rfl)
  obtain ⟨w2, e2, a2⟩ := unchecked_at (f := .errMessage) (env := env) a1 rfl
  obtain ⟨w3, e3, a3⟩ := call_at (f := .errStatus) (env := env) a2 rfl
  obtain ⟨w4, e4, a4⟩ := unchecked_at (f := .errResetStatus) (env := env) a3 rfl
  unfold ask QueryApp.settle
  rw [e1, Outcome.bind_ok]
  dsimp only
  refine ⟨fun he => ?_, fun he => ?_⟩
  · rw [if_pos (code_ne (by rw [he]; decide))]
    refine thenDo_none ?_ _
    unfold settle
    rw [e2, Outcome.bind_ok, e3, Outcome.bind_ok, he]
    rfl
  · by_cases ho : q'.err.status = .OK
    · rw [if_neg (by rw [code_ok ho]; simp), if_neg (by simp [ho])]
      exact ⟨w1, rfl, a1⟩
    · rw [if_pos (code_ne ho), if_pos ho]
      refine ⟨w4, ?_, a4⟩
      rw [thenDo_some (w := w4)]
      unfold settle
      rw [e2, Outcome.bind_ok, e3, Outcome.bind_ok]
      have : q'.err.status = .WARNING := by
        cases hs : q'.err.status <;> first | exact absurd hs ho | exact absurd hs he | rfl
      rw [this]
      show (unchecked env h .errResetStatus w3 >>= fun w => Outcome.ok (some w)) = _
      rw [e4, Outcome.bind_ok]

theorem finish_at {env : Env K} {w : World K} {h : Nat} {q : VMQuery K} {fs : Files} {lines : List (Line K)} {r : QueryApp.Result K}
    (ha : At w h q fs) (hf : QueryApp.finish env q fs lines = .ok r) : finish env h lines w = .ok ⟨r.code, r.lines⟩ := by
  obtain ⟨w1, e1, a1⟩ := unchecked_at (f := .close env.closeFail env.closeFailExt) (env := env) ha rfl
  obtain ⟨w2, e2, a2⟩ := call_at (f := .errStatus) (env := env) a1 rfl
  unfold QueryApp.finish QueryApp.leave at hf
  dsimp only at hf
  have hd : ∀ c : Int, (VMQuery.destroy env.closeFail env.closeFailExt (VMQuery.close env.closeFail env.closeFailExt q) >>=
      fun _ => Outcome.ok (⟨c, lines, VMQuery.close env.closeFail env.closeFailExt q, fs⟩ : QueryApp.Result K)) =
      .ok ⟨c, lines, VMQuery.close env.closeFail env.closeFailExt q, fs⟩ := by
    intro c; simp [VMQuery.destroy, VMQuery.close]
  unfold finish
  rw [e1, Outcome.bind_ok, e2, Outcome.bind_ok]
  dsimp only
  split at hf
  · next hs =>
    rw [hd] at hf
    cases hf
    split
    · next hc => exact absurd hc.symm (by simpa using code_ne hs)
    · rfl
  · next hs =>
    rw [hd] at hf
    cases hf
    rw [code_ok (not_not.1 hs)]
    dsimp only
    obtain ⟨h0, h1, -⟩ := a2
    unfold CApi.destroyQuery
    rw [if_neg h0, h1]
    dsimp only
    rw [show VMQuery.destroy env.closeFail env.closeFailExt (VMQuery.close env.closeFail env.closeFailExt q) = .ok () by
      simp [VMQuery.destroy, VMQuery.close], Outcome.bind_ok, Outcome.bind_ok]
    rfl

theorem loop_at {env : Env K} (hw : ∀ n, env.outGood n = true) {q : VMQuery K} (hs : q.err.status = .OK) (hm : q.err.message = "")
    {h : Nat} {text : List Char} {ls : List (K × K × K)} (ht : NumbersOnly env.nf text ls) (s : Stream) (hr : s.rest = text)
    (hg : s.good = true) (old : K × K × K) (n : Nat) (fs : Files) (lines : List (Line K)) (w : World K) (r : QueryApp.Result K)
    (ha : At w h q fs)
    (hl : QueryApp.loop env n (QueryApp.readLoc env.nf s old).1 (QueryApp.readLoc env.nf s old).2 q fs lines = .ok r) :
    ∃ n0, ∀ m ≥ n0, loop env h m (scanLoc env.nf s old).1 (scanLoc env.nf s old).2 lines w = some (.ok ⟨r.code, r.lines⟩) := by
  have hse : s.eof = false := by
    unfold Stream.good at hg
    cases he : s.eof <;> simp_all
  have hend : (QueryApp.readLoc env.nf s old).1.good = false → (scanLoc env.nf s old).1.eof = true →
      ∃ n0, ∀ m ≥ n0, loop env h m (scanLoc env.nf s old).1 (scanLoc env.nf s old).2 lines w = some (.ok ⟨r.code, r.lines⟩) := by
    intro h1 h2
    refine ⟨1, fun m hm => ?_⟩
    obtain ⟨m, rfl⟩ : ∃ k, m = k + 1 := ⟨m - 1, by omega⟩
    cases n with
    | zero => cases hl
    | succ n =>
      unfold QueryApp.loop at hl
      rw [h1] at hl
      unfold loop
      rw [if_pos h2, finish_at ha hl]
  induction ht generalizing s old n fs lines w with
  | blank h1 =>
    subst hr
    exact hend (readLoc_blank h1) (scanLoc_blank hse h1)
  | last h1 =>
    subst hr
    refine hend ?_ ?_
    · rw [QueryApp.readLoc_eq hg h1]; rfl
    · rw [scanLoc_eq hse h1]; rfl
  | @cons t t' l ls h1 hne h2 ih =>
    subst hr
    have he : t'.isEmpty = false := by cases t' <;> first | exact absurd rfl hne | rfl
    rw [QueryApp.readLoc_eq hg h1] at hl
    rw [scanLoc_eq hse h1, he]
    cases n with
    | zero => cases hl
    | succ n =>
      unfold QueryApp.loop at hl
      rw [hw, he] at hl
      rw [if_pos (by rfl)] at hl
      dsimp only at hl
      rcases QueryApp.query_cases env.fmt q fs 9 l.1 l.2.1 l.2.2 with ⟨h3, -⟩ | ⟨vals, x, fs', fs'', hr, h3, -⟩
      · rw [h3] at hl; cases hl
      rw [h3, Outcome.bind_ok] at hl
      dsimp only at hl
      obtain ⟨b1, b2⟩ := ask_at ha h3
      by_cases herr : (VMQuery.mark q.err x).status = .ERROR
      · rw [if_pos herr] at hl
        have hr' : r.code = 1 ∧ r.lines = lines := by
          unfold QueryApp.leave at hl
          cases hd : VMQuery.destroy env.closeFail env.closeFailExt { q with err := VMQuery.mark q.err x } with
          | exc m => rw [hd] at hl; cases hl
          | ub => rw [hd] at hl; cases hl
          | ok u => rw [hd] at hl; cases hl; exact ⟨rfl, rfl⟩
        refine ⟨1, fun m hm => ?_⟩
        obtain ⟨m, rfl⟩ : ∃ k, m = k + 1 := ⟨m - 1, by omega⟩
        unfold loop
        dsimp only
        rw [if_neg (by simp), b1 herr, hr'.1, hr'.2]
      · rw [if_neg herr, QueryApp.settle_eq hr hs hm] at hl
        obtain ⟨w', e1, a1⟩ := b2 herr
        rw [QueryApp.settle_eq hr hs hm] at a1
        obtain ⟨n0, hn0⟩ := ih ⟨t', false, false⟩ rfl rfl l n fs' (lines ++ [⟨l.1, l.2.1, l.2.2, vals⟩]) w' a1 hl rfl (fun h3 h4 => by
          refine ⟨1, fun m hm => ?_⟩
          obtain ⟨m, rfl⟩ : ∃ k, m = k + 1 := ⟨m - 1, by omega⟩
          cases n with
          | zero => cases hl
          | succ n =>
            unfold QueryApp.loop at hl
            rw [h3] at hl
            unfold loop
            rw [if_pos h4, finish_at a1 hl])
        refine ⟨n0 + 1, fun m hm => ?_⟩
        obtain ⟨m, rfl⟩ : ∃ k, m = k + 1 := ⟨m - 1, by omega⟩
        unfold loop
        dsimp only
        rw [if_neg (by simp), e1]
        exact hn0 m (by omega)

/-- A query that is neither undefined nor ends with an error. -/
def Fine (env : Env K) (q : VMQuery K) (l : K × K × K) : Prop :=
  ¬ QueryApp.ErrorAt env.fmt q l ∧ VMQuery.query env.fmt q (fun _ => "") 9 l.1 l.2.1 l.2.2 ≠ .ub

theorem ask_fine {env : Env K} {w : World K} {h : Nat} {q : VMQuery K} (hs : q.err.status = .OK) (hm : q.err.message = "") {fs : Files}
    {loc : K × K × K} (hf : Fine env q loc) (ha : At w h q fs) :
    ∃ w' vals fs', ask env h loc w = .ok (some (w', vals)) ∧ At w' h q fs' := by
  rcases QueryApp.query_cases env.fmt q fs 9 loc.1 loc.2.1 loc.2.2 with ⟨-, h3⟩ | ⟨vals, x, fs', fs'', hr, h3, h4⟩
  · exact absurd h3 hf.2
  · have he : (VMQuery.mark q.err x).status ≠ .ERROR := fun he => hf.1 ⟨_, _, _, h4, he⟩
    obtain ⟨w', e1, a1⟩ := (ask_at ha h3).2 he
    rw [QueryApp.settle_eq hr hs hm] at a1
    exact ⟨w', vals, fs', e1, a1⟩

/-- The loop does not get past a character no number starts with. -/
theorem loop_stuck {env : Env K} (hnf : env.nf.real [] = none) {q : VMQuery K} (hs : q.err.status = .OK) (hm : q.err.message = "") {h : Nat}
    (m : Nat) (s : Stream) (he : s.eof = false) (hst : Stuck env.nf s.rest) (loc : K × K × K) (hf : Fine env q loc) (fs : Files)
    (lines : List (Line K)) (w : World K) (ha : At w h q fs) : loop env h m s loc lines w = none := by
  induction m generalizing s fs lines w with
  | zero => rfl
  | succ m ih =>
    obtain ⟨s', e2, e3, e4⟩ := scanLoc_stuck hnf he hst loc
    obtain ⟨w', vals, fs', e1, a1⟩ := ask_fine hs hm hf ha
    unfold loop
    rw [he, if_neg (by simp), e1]
    dsimp only
    rw [e2]
    exact ih s' e3 e4 fs' _ w' a1

theorem stuck_nonempty {nf : NumFmt K} {t : List Char} (h : Stuck nf t) : t.isEmpty = false := by
  obtain ⟨sp, c, cs, rfl, -⟩ := h
  cases sp <;> rfl

/-- The loop on a text that gets stuck after some locations. -/
theorem loop_hangs {env : Env K} (hnf : env.nf.real [] = none) {q : VMQuery K} (hs : q.err.status = .OK) (hm : q.err.message = "") {h : Nat}
    {text rest : List Char} {ls : List (K × K × K)} (ht : StartsWith env.nf text ls rest) (hst : Stuck env.nf rest)
    (m : Nat) (s : Stream) (he : s.eof = false) (hr : s.rest = text) (old : K × K × K) (h0 : ls = [] → Fine env q old)
    (hf : ∀ l ∈ ls, Fine env q l) (fs : Files) (lines : List (Line K)) (w : World K) (ha : At w h q fs) :
    loop env h m (scanLoc env.nf s old).1 (scanLoc env.nf s old).2 lines w = none := by
  induction ht generalizing m s old fs lines w with
  | nil =>
    subst hr
    obtain ⟨s', e2, e3, e4⟩ := scanLoc_stuck hnf he hst old
    rw [e2]
    exact loop_stuck hnf hs hm m s' e3 e4 old (h0 rfl) fs lines w ha
  | @cons t t' rest l ls h1 h2 ih =>
    subst hr
    rw [scanLoc_eq he h1]
    cases m with
    | zero => rfl
    | succ m =>
      have he' : t'.isEmpty = false := by
        cases h2 with
        | nil => exact stuck_nonempty hst
        | cons h3 h4 =>
          obtain ⟨t1, t2, h5, -⟩ := h3
          exact isEmpty_of_real h5
      obtain ⟨w', vals, fs', e1, a1⟩ := ask_fine hs hm (hf l (by simp)) ha
      unfold loop
      dsimp only
      rw [if_neg (by simp [he']), e1]
      exact ih hst m ⟨t', t'.isEmpty, false⟩ he' rfl l (fun _ => hf l (by simp)) (fun l' hl' => hf l' (by simp [hl'])) fs' _ w' a1

end CExample
end CenCalVM
