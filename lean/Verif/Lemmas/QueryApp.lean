/-
Lemmas on the application cencalvmquery.
-/
import Verif.Spec.QueryApp
import Verif.Lemmas.Create
import Verif.Lemmas.QueryFrame
import Mathlib.Data.List.Induction

set_option linter.unusedSectionVars false

namespace CenCalVM
namespace QueryApp
open GridIngester
variable {K : Type} [Field K] [LinearOrder K]

/-! ### Reading locations -/

theorem readLoc_eq {nf : NumFmt K} {s : Stream} {t : List Char} {l old : K × K × K} (hs : s.good = true) (h : LocText nf s.rest l t) :
    readLoc nf s old = (⟨t, t.isEmpty, false⟩, l) := by
  obtain ⟨t1, t2, ⟨w1, a1, b1⟩, ⟨w2, a2, b2⟩, ⟨w3, a3, b3⟩⟩ := h
  unfold readLoc readReal
  rw [extract_word hs a1 b1]
  dsimp only
  rw [extract_word (good_of_word a2) a2 b2]
  dsimp only
  rw [extract_word (good_of_word a3) a3 b3]

theorem readLoc_good {nf : NumFmt K} {s : Stream} {old : K × K × K} (h : (readLoc nf s old).1.good = true) :
    s.good = true ∧ LocText nf s.rest (readLoc nf s old).2 (readLoc nf s old).1.rest ∧ (readLoc nf s old).1.rest ≠ [] := by
  unfold readLoc at h ⊢
  rcases h1 : readReal nf s old.1 with ⟨⟨r1, e1, f1⟩, v1⟩
  rcases h2 : readReal nf ⟨r1, e1, f1⟩ old.2.1 with ⟨⟨r2, e2, f2⟩, v2⟩
  rcases h3 : readReal nf ⟨r2, e2, f2⟩ old.2.2 with ⟨⟨r3, e3, f3⟩, v3⟩
  simp only [h1, h2, h3] at h ⊢
  unfold Stream.good at h
  simp only [Bool.and_eq_true, Bool.not_eq_eq_eq_not, Bool.not_true] at h
  obtain ⟨rfl, rfl⟩ := h
  obtain ⟨x2, rfl, y3, q3⟩ := extract_back h3
  obtain ⟨x1, rfl, y2, q2⟩ := extract_back h2
  obtain ⟨g1, g2, y1, q1⟩ := extract_back h1
  refine ⟨by simp [Stream.good, g1, g2], ⟨r1, r2, q1, q2, q3⟩, ?_⟩
  rintro rfl
  cases y3

theorem realText_shorter {nf : NumFmt K} (hnf : nf.real [] = none) {t t' : List Char} {v : K} (h : RealText nf t v t') :
    t'.length < t.length := by
  obtain ⟨w, ⟨sp, body, rfl, -, -, -, hsc⟩, hv⟩ := h
  have := nf.scan_eq body
  rw [hsc] at this
  rw [← this]
  cases w with
  | nil => rw [hnf] at hv; cases hv
  | cons c cs => simp; omega

theorem locText_shorter {nf : NumFmt K} (hnf : nf.real [] = none) {t t' : List Char} {l : K × K × K} (h : LocText nf t l t') :
    t'.length < t.length := by
  obtain ⟨t1, t2, h1, h2, h3⟩ := h
  have := realText_shorter hnf h1
  have := realText_shorter hnf h2
  have := realText_shorter hnf h3
  omega

/-- A text has its locations. -/
theorem locText_unique {nf : NumFmt K} {t t' t'' : List Char} {l l' : K × K × K} (h : LocText nf t l t') (h' : LocText nf t l' t'') :
    l = l' ∧ t' = t'' := by
  have h1 := readLoc_eq (old := (0, 0, 0)) (s := ⟨t, false, false⟩) rfl h
  rw [readLoc_eq rfl h'] at h1
  cases h1
  exact ⟨rfl, rfl⟩

/-- What is left to do: the location read last, if the stream is good, and those in the rest of the text. -/
def Pending (nf : NumFmt K) (s : Stream) (loc : K × K × K) (ls : List (K × K × K)) : Prop :=
  if s.good = true then s.rest ≠ [] ∧ ∃ ls', ls = loc :: ls' ∧ LocsText nf s.rest ls' else ls = []

theorem pending_readLoc {nf : NumFmt K} {s : Stream} {old : K × K × K} {ls : List (K × K × K)} (hs : s.good = true)
    (h : LocsText nf s.rest ls) : Pending nf (readLoc nf s old).1 (readLoc nf s old).2 ls := by
  unfold Pending
  split
  · next hg =>
    obtain ⟨-, h1, h2⟩ := readLoc_good hg
    generalize hr : s.rest = rest at *
    cases h with
    | nil h3 => exact absurd (h3 _ _ h1) h2
    | cons h3 h4 h5 =>
      obtain ⟨rfl, rfl⟩ := locText_unique h1 h3
      exact ⟨h2, _, rfl, h5⟩
  · next hg =>
    generalize hr : s.rest = rest at *
    cases h with
    | nil h3 => rfl
    | cons h3 h4 h5 =>
      subst hr
      rw [readLoc_eq hs h3] at hg
      rename_i t' l ls
      cases t' with
      | nil => exact absurd rfl h4
      | cons a b => exact absurd rfl hg

/-! ### The loop -/

theorem settle_eq {q : VMQuery K} {w : Option (Status × String)} (hr : VMQuery.Raised w) (hs : q.err.status = .OK) (hm : q.err.message = "") :
    settle { q with err := VMQuery.mark q.err w } = q := by
  obtain ⟨res, lim, db0, ext, vals, gm, er, fn, fnx, qfn, cs, csx, sq⟩ := q
  obtain ⟨msg, lf, sk, st⟩ := er
  cases hs; cases hm
  unfold settle
  cases w with
  | none => rfl
  | some x =>
    obtain ⟨s, m⟩ := x
    exact if_pos hr

/-- A query from the state at the head of the loop. -/
theorem query_cases (fmt : Fmt K) (q : VMQuery K) (fs : Files) (n : Int) (lon lat elev : K) :
    (VMQuery.query fmt q fs n lon lat elev = .ub ∧ VMQuery.query fmt q (fun _ => "") n lon lat elev = .ub) ∨
    ∃ vals w fs' fs'', VMQuery.Raised w ∧ VMQuery.query fmt q fs n lon lat elev = .ok ({ q with err := VMQuery.mark q.err w }, fs', vals) ∧
      VMQuery.query fmt q (fun _ => "") n lon lat elev = .ok ({ q with err := VMQuery.mark q.err w }, fs'', vals) := by
  rcases VMQuery.query_frame fmt q n lon lat elev with h | ⟨vals, w, hw, h⟩
  · exact Or.inl ⟨h q.err fs, h q.err _⟩
  · right
    obtain ⟨fs', h1⟩ := h q.err fs
    obtain ⟨fs'', h2⟩ := h q.err (fun _ => "")
    exact ⟨vals, w, fs', fs'', hw, h1, h2⟩

/-- How the loop ends: after all locations, at an error, or at an undefined query. -/
inductive Ends (env : Env K) (q : VMQuery K) (lines : List (Line K)) (ls : List (K × K × K)) (out : Outcome (Result K)) : Prop
  | all (new : List (Line K)) (fs : Files) (h : List.Forall₂ (LineFor env.fmt q) ls new) (ho : out = finish env q fs (lines ++ new))
  | error (k : Nat) (l : K × K × K) (new : List (Line K)) (q' : VMQuery K) (fs : Files) (hk : ls[k]? = some l) (he : ErrorAt env.fmt q l)
      (h : List.Forall₂ (LineFor env.fmt q) (ls.take k) new) (hq : ∃ e, q' = { q with err := e })
      (ho : out = leave env ⟨1, lines ++ new, q', fs⟩)
  | undefined (k : Nat) (l : K × K × K) (new : List (Line K)) (hk : ls[k]? = some l)
      (hu : VMQuery.query env.fmt q (fun _ => "") 9 l.1 l.2.1 l.2.2 = .ub)
      (h : List.Forall₂ (LineFor env.fmt q) (ls.take k) new) (ho : out = .ub)

theorem loop_ends {env : Env K} (hnf : env.nf.real [] = none) (hw : ∀ n, env.outGood n = true) {q : VMQuery K} (hs : q.err.status = .OK)
    (hm : q.err.message = "") (n : Nat) (s : Stream) (loc : K × K × K) (fs : Files) (lines : List (Line K)) (ls : List (K × K × K))
    (hp : Pending env.nf s loc ls) (hn : 0 < n) (hf : s.good = true → s.rest.length < n) :
    Ends env q lines ls (loop env n s loc q fs lines) := by
  induction n generalizing s loc fs lines ls with
  | zero => omega
  | succ n ih =>
    unfold loop
    unfold Pending at hp
    by_cases hg : s.good = true
    · rw [if_pos hg] at hp
      obtain ⟨hne, ls', rfl, hl⟩ := hp
      rw [hg, hw]
      rw [if_pos (show (true && true) = true from rfl)]
      rcases query_cases env.fmt q fs 9 loc.1 loc.2.1 loc.2.2 with ⟨h1, h2⟩ | ⟨vals, w, fs', fs'', hr, h1, h2⟩
      · rw [h1]
        exact .undefined 0 loc [] rfl h2 .nil rfl
      · rw [h1, Outcome.bind_ok]
        dsimp only
        by_cases he : (VMQuery.mark q.err w).status = .ERROR
        · rw [if_pos he]
          refine .error 0 loc [] { q with err := VMQuery.mark q.err w } fs' rfl ⟨_, _, _, h2, he⟩ .nil ⟨VMQuery.mark q.err w, rfl⟩ ?_
          rw [List.append_nil]
        · rw [if_neg he, settle_eq hr hs hm]
          have hline : LineFor env.fmt q loc ⟨loc.1, loc.2.1, loc.2.2, vals⟩ := ⟨rfl, _, _, h2, he⟩
          have hlen := hf hg
          have hpos : 0 < s.rest.length := List.length_pos_iff.2 hne
          rcases ih (readLoc env.nf s loc).1 (readLoc env.nf s loc).2 fs' (lines ++ [⟨loc.1, loc.2.1, loc.2.2, vals⟩]) ls'
            (pending_readLoc hg hl) (by omega) (fun hg' => by
              have := locText_shorter hnf (readLoc_good hg').2.1
              omega) with ⟨new, f, h3, h4⟩ | ⟨k, l, new, q', f, h3, h4, h5, h6, h7⟩ | ⟨k, l, new, h3, h4, h5, h6⟩
          · exact .all (⟨loc.1, loc.2.1, loc.2.2, vals⟩ :: new) f (.cons hline h3) (by rw [h4, List.append_assoc]; rfl)
          · exact .error (k + 1) l (⟨loc.1, loc.2.1, loc.2.2, vals⟩ :: new) q' f (by simpa using h3) h4
              (by rw [List.take_succ_cons]; exact .cons hline h5) h6 (by rw [h7, List.append_assoc]; rfl)
          · exact .undefined (k + 1) l (⟨loc.1, loc.2.1, loc.2.2, vals⟩ :: new) (by simpa using h3) h4
              (by rw [List.take_succ_cons]; exact .cons hline h5) h6
    · rw [if_neg hg] at hp
      subst hp
      have : s.good = false := by simpa using hg
      rw [this]
      exact .all [] fs .nil (by rw [List.append_nil]; rfl)

/-! ### Setting up -/

theorem start_status (env : Env K) (o : Options K) (fs : Files) : (start env o fs).1.status = .OK ∧ (start env o fs).1.message = "" := by
  unfold start ErrorHandler.setLogFilename
  split
  · split <;> exact ⟨rfl, rfl⟩
  · exact ⟨rfl, rfl⟩

/-- The query object before opening. -/
def prepared (g : Geom K) (o : Options K) (e : ErrorHandler) : VMQuery K :=
  { VMQuery.init g with
    err := e
    filename := o.filenameDB
    filenameExt := o.filenameDBExt
    cacheSize := if 0 < o.cacheSize then o.cacheSize else 128
    cacheSizeExt := if 0 < o.cacheSize ∧ o.filenameDBExt ≠ "" then o.cacheSize else 128
    squashTopo := decide (o.squashLimit ≠ 1000000)
    squashLimit := if o.squashLimit = 1000000 then -2000 else o.squashLimit }

theorem configure_eq (g : Geom K) (o : Options K) {e : ErrorHandler} (he : e.status = .OK) :
    configure o { VMQuery.init g with err := e } = some (prepared g o e) := by
  unfold configure checked setExt setSquash checked VMQuery.setFilename VMQuery.setFilenameExt VMQuery.setCacheSize VMQuery.setCacheSizeExt
    VMQuery.squash prepared VMQuery.init
  by_cases h1 : 0 < o.cacheSize <;> by_cases h2 : o.filenameDBExt = "" <;> by_cases h3 : o.squashLimit = 1000000 <;>
    simp [h1, h2, h3, he, eq_comm]

/-- After opening. -/
theorem openDb_prepared (disk : String → Option (Db K)) (g : Geom K) (o : Options K) (e : ErrorHandler) :
    ∃ q, VMQuery.openDb disk (prepared g o e) = .ok q ∧
      ((∃ d x, disk o.filenameDB = some d ∧
          ((o.filenameDBExt = "" ∧ x = none) ∨ (o.filenameDBExt ≠ "" ∧ ∃ d', disk o.filenameDBExt = some d' ∧ x = some d')) ∧
          q = { prepared g o e with db := some d, dbExt := x }) ∨
        (q.err.status = .ERROR ∧ (disk o.filenameDB = none ∨ (o.filenameDBExt ≠ "" ∧ disk o.filenameDBExt = none)))) := by
  have hc : (prepared g o e).cacheSize > 0 := by unfold prepared; dsimp only; split <;> omega
  have hcx : (prepared g o e).cacheSizeExt > 0 := by unfold prepared; dsimp only; split <;> omega
  unfold VMQuery.openDb VMQuery.openMain
  rw [show (prepared g o e).db = none from rfl]
  dsimp only
  rw [if_pos hc, show (prepared g o e).filename = o.filenameDB from rfl]
  cases hd : disk o.filenameDB with
  | none =>
    dsimp only
    rw [Outcome.bind_ok]
    unfold VMQuery.openExt
    dsimp only
    rw [show (prepared g o e).filenameExt = o.filenameDBExt from rfl, show (prepared g o e).dbExt = none from rfl]
    dsimp only
    by_cases hx : o.filenameDBExt = ""
    · rw [if_neg (by simp [hx])]
      exact ⟨_, rfl, Or.inr ⟨rfl, Or.inl rfl⟩⟩
    · rw [if_pos hx, if_pos hcx]
      cases disk o.filenameDBExt with
      | none => exact ⟨_, rfl, Or.inr ⟨rfl, Or.inl rfl⟩⟩
      | some d => exact ⟨_, rfl, Or.inr ⟨rfl, Or.inl rfl⟩⟩
  | some d =>
    dsimp only
    rw [Outcome.bind_ok]
    unfold VMQuery.openExt
    dsimp only
    rw [show (prepared g o e).filenameExt = o.filenameDBExt from rfl, show (prepared g o e).dbExt = none from rfl]
    dsimp only
    by_cases hx : o.filenameDBExt = ""
    · rw [if_neg (by simp [hx])]
      exact ⟨_, rfl, Or.inl ⟨d, none, rfl, Or.inl ⟨hx, rfl⟩, rfl⟩⟩
    · rw [if_pos hx, if_pos hcx]
      cases hdx : disk o.filenameDBExt with
      | none => exact ⟨_, rfl, Or.inr ⟨rfl, Or.inr ⟨hx, rfl⟩⟩⟩
      | some d' => exact ⟨_, rfl, Or.inl ⟨d, some d', rfl, Or.inr ⟨hx, d', rfl, rfl⟩, rfl⟩⟩

theorem sameName_lower {a b : String} (hb : b.toList.map Char.toLower = b.toList) :
    VMQuery.sameName a b = true ↔ a.toList.map Char.toLower = b.toList := by
  unfold VMQuery.sameName
  rw [hb, beq_iff_eq]

theorem selectType_cases (o : Options K) {q : VMQuery K} (hr : q.queryRes = 0) :
    (∃ fn res, TypeNamed o fn res ∧ selectType o q = some { q with queryFn := fn, queryRes := res }) ∨
      ((∀ fn res, ¬ TypeNamed o fn res) ∧ selectType o q = none) := by
  have hm : VMQuery.sameName o.queryType "maxres" = true ↔ _ := sameName_lower (by decide +kernel)
  have hf : VMQuery.sameName o.queryType "fixedres" = true ↔ _ := sameName_lower (by decide +kernel)
  have hv : VMQuery.sameName o.queryType "waveres" = true ↔ _ := sameName_lower (by decide +kernel)
  have n1 : "maxres".toList ≠ "fixedres".toList := by decide +kernel
  have n2 : "maxres".toList ≠ "waveres".toList := by decide +kernel
  unfold selectType TypeNamed
  dsimp only
  by_cases h1 : VMQuery.sameName o.queryType "maxres" = true
  · left
    rw [if_pos h1]
    refine ⟨.MAXRES, 0, Or.inl ⟨hm.1 h1, rfl, rfl⟩, ?_⟩
    cases q; cases hr; rfl
  · rw [if_neg h1]
    by_cases h0 : o.queryRes < 0
    · right
      rw [if_pos h0]
      refine ⟨?_, rfl⟩
      rintro fn res (⟨h, -⟩ | ⟨-, h, -⟩ | ⟨-, h, -⟩)
      · exact h1 (hm.2 h)
      · exact absurd h0 (not_lt.2 h)
      · exact absurd h0 (not_lt.2 h)
    · rw [if_neg h0]
      have hres : VMQuery.setQueryRes q o.queryRes = { q with queryRes := o.queryRes } := by
        unfold VMQuery.setQueryRes
        split
        · rfl
        · next h =>
          have : o.queryRes = 0 := le_antisymm (not_lt.1 h) (not_lt.1 h0)
          rw [this]; cases q; cases hr; rfl
      rw [hres]
      by_cases h2 : VMQuery.sameName o.queryType "fixedres" = true
      · left
        rw [if_pos h2]
        exact ⟨.FIXEDRES, o.queryRes, Or.inr (Or.inl ⟨hf.1 h2, not_lt.1 h0, rfl, rfl⟩), rfl⟩
      · rw [if_neg h2]
        by_cases h3 : VMQuery.sameName o.queryType "waveres" = true
        · left
          rw [if_pos h3]
          exact ⟨.WAVERES, o.queryRes, Or.inr (Or.inr ⟨hv.1 h3, not_lt.1 h0, rfl, rfl⟩), rfl⟩
        · right
          rw [if_neg h3]
          refine ⟨?_, rfl⟩
          rintro fn res (⟨h, -⟩ | ⟨h, -⟩ | ⟨h, -⟩)
          · exact h1 (hm.2 h)
          · exact h2 (hf.2 h)
          · exact h3 (hv.2 h)

/-- The program, once the command line has been read: set up as asked, or leaving with 1. -/
theorem run_cases (env : Env K) (o : Options K) (fs : Files) :
    (∃ q, Configured env o q ∧ (q.err.message = "" ∧ q.err = (start env o fs).1) ∧
      ((∃ text, env.input o.filenameIn = some text ∧ env.canWrite o.filenameOut = true ∧
          run env o fs = loop env (text.length + 1) (readLoc env.nf (Stream.ofText text) (0, 0, 0)).1
            (readLoc env.nf (Stream.ofText text) (0, 0, 0)).2 q (start env o fs).2 []) ∨
        ((env.input o.filenameIn = none ∨ env.canWrite o.filenameOut = false) ∧
          run env o fs = leave env ⟨1, [], q, (start env o fs).2⟩))) ∨
    ((∀ q, ¬ Configured env o q) ∧ ∃ q, run env o fs = leave env ⟨1, [], q, (start env o fs).2⟩) := by
  obtain ⟨hs, hm⟩ := start_status env o fs
  unfold run
  dsimp only
  rw [configure_eq env.geom o hs]
  dsimp only
  obtain ⟨q, hq, ⟨d, x, hd, hx, rfl⟩ | ⟨he, hn⟩⟩ := openDb_prepared env.disk env.geom o (start env o fs).1
  · rw [hq, Outcome.bind_ok]
    rw [show checked { prepared env.geom o (start env o fs).1 with db := some d, dbExt := x } =
      some { prepared env.geom o (start env o fs).1 with db := some d, dbExt := x } from if_neg (by intro h; exact h hs), Option.bind_some]
    rcases selectType_cases o (q := { prepared env.geom o (start env o fs).1 with db := some d, dbExt := x }) rfl with
      ⟨fn, res, ht, h⟩ | ⟨ht, h⟩
    · left
      rw [h]
      refine ⟨_, ⟨d, x, fn, res, (start env o fs).1, hd, hx, ht, hs, rfl⟩, ⟨hm, rfl⟩, ?_⟩
      dsimp only
      cases hi : env.input o.filenameIn with
      | none => right; exact ⟨Or.inl rfl, rfl⟩
      | some text =>
        cases hc : env.canWrite o.filenameOut with
        | false => right; exact ⟨Or.inr rfl, rfl⟩
        | true => left; exact ⟨text, rfl, rfl, rfl⟩
    · right
      rw [h]
      exact ⟨fun q ⟨d, x, fn, res, e, _, _, ht', _⟩ => ht fn res ht', _, rfl⟩
  · right
    rw [hq, Outcome.bind_ok, show checked q = none from if_pos (by rw [he]; decide), Option.bind_none]
    refine ⟨?_, _, rfl⟩
    rintro q ⟨d, x, fn, res, e, hd, hx, -⟩
    rcases hn with hn | ⟨h1, hn⟩
    · rw [hd] at hn; cases hn
    · rcases hx with ⟨h2, -⟩ | ⟨-, d', h2, -⟩
      · exact h1 h2
      · rw [hn] at h2; cases h2

/-- Two objects set up as asked differ at most in their handlers. -/
theorem configured_eq {env : Env K} {o : Options K} {q q' : VMQuery K} (h : Configured env o q) (h' : Configured env o q') :
    q'.err.status = q.err.status ∧ q' = { q with err := q'.err } := by
  obtain ⟨d, x, fn, res, e, h1, h2, h3, h4, rfl⟩ := h
  obtain ⟨d', x', fn', res', e', h1', h2', h3', h4', rfl⟩ := h'
  have hd : d = d' := by rw [h1] at h1'; cases h1'; rfl
  have hx : x = x' := by
    rcases h2 with ⟨h2, rfl⟩ | ⟨h2, y, h5, rfl⟩ <;> rcases h2' with ⟨h2', rfl⟩ | ⟨h2', y', h5', rfl⟩
    · rfl
    · exact absurd h2 h2'
    · exact absurd h2' h2
    · rw [h5] at h5'; cases h5'; rfl
  have n1 : "maxres".toList ≠ "fixedres".toList := by decide +kernel
  have n2 : "maxres".toList ≠ "waveres".toList := by decide +kernel
  have n3 : "fixedres".toList ≠ "waveres".toList := by decide +kernel
  have ht : fn = fn' ∧ res = res' := by
    rcases h3 with ⟨a, rfl, rfl⟩ | ⟨a, -, rfl, rfl⟩ | ⟨a, -, rfl, rfl⟩ <;>
      rcases h3' with ⟨a', rfl, rfl⟩ | ⟨a', -, rfl, rfl⟩ | ⟨a', -, rfl, rfl⟩ <;>
      first | exact ⟨rfl, rfl⟩ | (exfalso; rw [a] at a'; first | exact n1 a' | exact n2 a' | exact n3 a' | exact n1 a'.symm | exact n2 a'.symm | exact n3 a'.symm)
  obtain ⟨rfl, rfl⟩ := ht
  subst hd hx
  exact ⟨h4'.trans h4.symm, rfl⟩

theorem query_status {fmt : Fmt K} {q q' : VMQuery K} (hs : q'.err.status = q.err.status) (hq : q' = { q with err := q'.err }) {n : Int}
    {l : K × K × K} :
    (VMQuery.query fmt q (fun _ => "") n l.1 l.2.1 l.2.2 = .ub ∧ VMQuery.query fmt q' (fun _ => "") n l.1 l.2.1 l.2.2 = .ub) ∨
    ∃ vals r r' f f', VMQuery.query fmt q (fun _ => "") n l.1 l.2.1 l.2.2 = .ok (r, f, vals) ∧
      VMQuery.query fmt q' (fun _ => "") n l.1 l.2.1 l.2.2 = .ok (r', f', vals) ∧ r.err.status = r'.err.status := by
  rcases VMQuery.query_frame fmt q n l.1 l.2.1 l.2.2 with h | ⟨vals, w, hw, h⟩
  · left; rw [hq]; exact ⟨h q.err _, h q'.err _⟩
  · right
    obtain ⟨f, h1⟩ := h q.err (fun _ => "")
    obtain ⟨f', h2⟩ := h q'.err (fun _ => "")
    refine ⟨vals, _, { q with err := VMQuery.mark q'.err w }, f, f', h1, ?_, ?_⟩
    · rw [hq]; exact h2
    · exact VMQuery.mark_status w hs.symm

theorem lineFor_congr {fmt : Fmt K} {q q' : VMQuery K} (hs : q'.err.status = q.err.status) (hq : q' = { q with err := q'.err })
    {l : K × K × K} {line : Line K} (h : LineFor fmt q l line) : LineFor fmt q' l line := by
  obtain ⟨h1, r0, f0, h2, h3⟩ := h
  rcases query_status (fmt := fmt) hs hq (n := 9) (l := l) with ⟨h4, -⟩ | ⟨vals, r, r', f, f', h4, h5, h6⟩
  · rw [h4] at h2; cases h2
  · rw [h4] at h2; cases h2
    exact ⟨h1, r', f', h5, by rw [← h6]; exact h3⟩

theorem errorAt_congr {fmt : Fmt K} {q q' : VMQuery K} (hs : q'.err.status = q.err.status) (hq : q' = { q with err := q'.err })
    {l : K × K × K} (h : ErrorAt fmt q l) : ErrorAt fmt q' l := by
  obtain ⟨r0, f0, v0, h2, h3⟩ := h
  rcases query_status (fmt := fmt) hs hq (n := 9) (l := l) with ⟨h4, -⟩ | ⟨vals, r, r', f, f', h4, h5, h6⟩
  · rw [h4] at h2; cases h2
  · rw [h4] at h2; cases h2
    exact ⟨r', f', _, h5, by rw [← h6]; exact h3⟩

/-- Leaving after everything was written. -/
theorem finish_eq {env : Env K} {o : Options K} {q : VMQuery K} (hq : Configured env o q) (fs : Files) (lines : List (Line K)) :
    ∃ r, finish env q fs lines = .ok r ∧ r.lines = lines ∧ (r.code = 0 ∨ r.code = 1) ∧ (r.code = 0 ↔ ¬ CloseFails env o) := by
  obtain ⟨d, x, fn, res, e, h1, h2, h3, h4, rfl⟩ := hq
  unfold finish leave VMQuery.destroy VMQuery.close VMQuery.closeErr CloseFails
  rcases h2 with ⟨h2, rfl⟩ | ⟨h2, y, h5, rfl⟩ <;> cases hc : env.closeFail <;> cases hx : env.closeFailExt <;>
    simp [h2, h4, ErrorHandler.error]

theorem leave_eq {env : Env K} {o : Options K} {q q' : VMQuery K} (hq : Configured env o q) (h : ∃ e, q' = { q with err := e })
    (hc : ¬ CloseFails env o) (code : Int) (fs : Files) (lines : List (Line K)) :
    leave env ⟨code, lines, q', fs⟩ = .ok ⟨code, lines, q', fs⟩ := by
  obtain ⟨d, x, fn, res, e, h1, h2, h3, h4, rfl⟩ := hq
  obtain ⟨e', rfl⟩ := h
  unfold CloseFails at hc
  unfold leave VMQuery.destroy
  rcases h2 with ⟨h2, rfl⟩ | ⟨h2, y, h5, rfl⟩ <;> simp_all

theorem leave_ok {env : Env K} (h1 : env.closeFail = false) (h2 : env.closeFailExt = false) (r : Result K) : leave env r = .ok r := by
  unfold leave VMQuery.destroy
  simp [h1, h2]

/-- Every text has its locations. -/
theorem exists_locsText (nf : NumFmt K) (hnf : nf.real [] = none) (text : List Char) : ∃ ls, LocsText nf text ls := by
  induction hn : text.length using Nat.strong_induction_on generalizing text with
  | _ n ih =>
    by_cases h : ∃ l t', LocText nf text l t' ∧ t' ≠ []
    · obtain ⟨l, t', h1, h2⟩ := h
      obtain ⟨ls, h3⟩ := ih t'.length (by have := locText_shorter hnf h1; omega) t' rfl
      exact ⟨l :: ls, .cons h1 h2 h3⟩
    · exact ⟨[], .nil fun l t' h1 => by by_contra h2; exact h ⟨l, t', h1, h2⟩⟩

/-! ### Command lines -/

theorem scan_pairs {spec : OptSpec} (hs : '-' ∉ spec.args) {opts : List (Char × List Char)} (h : ∀ ov ∈ opts, ov.1 ∈ spec.args) (n : Nat)
    (hn : opts.length ≤ n) : spec.scan n (opts.flatMap optWords) = opts.map fun ov => .arg ov.1 (String.ofList ov.2) := by
  induction opts generalizing n with
  | nil => cases n <;> rfl
  | cons ov opts ih =>
    obtain ⟨c, v⟩ := ov
    obtain ⟨n, rfl⟩ : ∃ m, n = m + 1 := ⟨n - 1, by simp at hn; omega⟩
    have hc : c ∈ spec.args := h (c, v) (by simp)
    have hd : c ≠ '-' := by rintro rfl; exact hs hc
    have ih' := ih (fun ov ho => h ov (by simp [ho])) n (by simpa using hn)
    rw [List.flatMap_cons]
    unfold optWords
    rw [List.cons_append, List.cons_append, List.nil_append]
    unfold OptSpec.scan
    have e : (List.flatMap (fun ov : Char × List Char => [['-', ov.1], ov.2]) opts) = opts.flatMap optWords := rfl
    have this : spec.letters [c] (v :: opts.flatMap optWords) = ([.arg c (String.ofList v)], opts.flatMap optWords) := by
      unfold OptSpec.letters
      rw [if_pos hc]
    split
    · next h1 => simp at h1; exact absurd h1 hd
    · next h1 =>
      cases h1
      rw [e]
      dsimp only
      rw [this]
      dsimp only
      rw [ih']
      rfl
    · next h3 => exact absurd rfl (h3 c [])

theorem parseLoop_args (cv : Conv K) (opts : List (Char × List Char)) (o : Options K) (n : Nat) :
    parseLoop cv (opts.map fun ov => .arg ov.1 (String.ofList ov.2)) o n =
      some (opts.foldl (fun o ov => setOpt cv o ov.1 (String.ofList ov.2)) o, n + 2 * opts.length) := by
  induction opts generalizing o n with
  | nil => rfl
  | cons ov opts ih =>
    rw [List.map_cons, parseLoop, ih, List.foldl_cons, List.length_cons]
    congr 2
    omega

theorem foldl_field (cv : Conv K) {α : Type} (f : Options K → α) (c : Char) (conv : String → α)
    (h1 : ∀ o v, f (setOpt cv o c v) = conv v) (h2 : ∀ o c' v, c' ≠ c → f (setOpt cv o c' v) = f o)
    (opts : List (Char × List Char)) (o : Options K) :
    f (opts.foldl (fun o ov => setOpt cv o ov.1 (String.ofList ov.2)) o) = ((lastArg opts c).map conv).getD (f o) := by
  induction opts using List.reverseRecOn with
  | nil => rfl
  | append_singleton opts ov ih =>
    rw [List.foldl_append, List.foldl_cons, List.foldl_nil]
    unfold lastArg at ih ⊢
    rw [List.filter_append]
    by_cases hc : ov.1 = c
    · rw [show List.filter (fun ov : Char × List Char => ov.1 == c) [ov] = [ov] by simp [hc], List.getLast?_append]
      subst hc
      rw [h1]
      rfl
    · rw [show List.filter (fun ov : Char × List Char => ov.1 == c) [ov] = [] by simp [hc], List.append_nil, h2 _ _ _ hc, ih]

end QueryApp
end CenCalVM
