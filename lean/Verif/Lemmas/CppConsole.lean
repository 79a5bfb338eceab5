/-
Lemmas for the properties of the standard error of the example in C++.
-/
import Verif.Model.CppConsole
import Verif.Lemmas.CppExample
import Verif.Lemmas.QueryConsole

set_option linter.unusedSectionVars false

namespace CenCalVM
namespace CppExample
open QueryApp (Options Env Line Result Conv Report leave leaveSaid)
variable {K : Type} [Field K] [LinearOrder K] [IsStrictOrderedRing K]

theorem checkedSaid_eq (q : VMQuery K) : checkedSaid q = QueryApp.checkedSaid q := by
  unfold checkedSaid QueryApp.checkedSaid
  by_cases h : q.err.status = .OK
  · rw [if_neg (not_not_intro h.symm), if_neg (not_not_intro h)]
  · rw [if_pos (fun e => h e.symm), if_pos h]

theorem except_bind_assoc {α β γ : Type} (x : Except String α) (f : α → Except String β) (g : β → Except String γ) :
    (x >>= f) >>= g = x >>= fun a => f a >>= g := by
  cases x <;> rfl

theorem configureSaid_eq (o : Options K) (q : VMQuery K) : configureSaid o q = QueryApp.configureSaid o q := by
  unfold configureSaid QueryApp.configureSaid QueryApp.setExtSaid QueryApp.setSquashSaid
  simp only [checkedSaid_eq]
  by_cases h : "" ≠ o.filenameDBExt
  · simp only [if_pos h]
    show QueryApp.checkedSaid _ >>= _ = _
    congr 1; funext q
    show QueryApp.checkedSaid _ >>= _ = _
    congr 1; funext q
    rw [except_bind_assoc]
  · simp only [if_neg h]

theorem finishSaid_eq (env : Env K) (q : VMQuery K) (fs : Files) (lines : List (Line K)) (t : String) :
    finishSaid env q fs lines t = QueryApp.finishSaid env q fs lines t := by
  unfold finishSaid QueryApp.finishSaid
  dsimp only
  by_cases h : (VMQuery.close env.closeFail env.closeFailExt q).err.status = .OK
  · rw [if_neg (not_not_intro h.symm), if_neg (not_not_intro h)]
  · rw [if_pos (fun e => h e.symm), if_pos h]

/-- One round of the loop in the order of cencalvmquery. -/
theorem loopSaid_succ (env : Env K) (all : Bool) (n : Nat) (s : Stream) (loc : K × K × K) (q : VMQuery K) (fs : Files)
    (lines : List (Line K)) (t : String) :
    loopSaid env all (n + 1) s loc q fs lines t =
      if s.good && env.outGood lines.length then do
        let r ← VMQuery.query env.fmt q fs (numVals all) loc.1 loc.2.1 loc.2.2
        if r.1.err.status = .ERROR then leaveSaid env ⟨1, lines, r.1, r.2.1⟩ (QueryApp.say r.1 t)
        else
          let next := readLoc env.nf s loc
          loopSaid env all n next.1 next.2 (QueryApp.settle r.1) r.2.1 (lines ++ [⟨loc.1, loc.2.1, loc.2.2, r.2.2⟩]) (QueryApp.say r.1 t)
      else QueryApp.finishSaid env q fs lines t := by
  rw [loopSaid]
  split
  · cases VMQuery.query env.fmt q fs (numVals all) loc.1 loc.2.1 loc.2.2 with
    | ub => rfl
    | exc m => rfl
    | ok r =>
      rw [Outcome.bind_ok, Outcome.bind_ok]
      dsimp only
      unfold QueryApp.say QueryApp.settle
      cases hs : r.1.err.status
      all_goals simp
  · exact finishSaid_eq _ _ _ _ _

theorem loopSaid_eq (env : Env K) (n : Nat) (s : Stream) (loc : K × K × K) (q : VMQuery K) (fs : Files) (lines : List (Line K)) (t : String) :
    loopSaid env true n s loc q fs lines t = QueryApp.loopSaid env n s loc q fs lines t := by
  induction n generalizing s loc q fs lines t with
  | zero => rfl
  | succ n ih =>
    rw [loopSaid_succ]
    unfold QueryApp.loopSaid
    simp only [ih]
    rfl

/-- The messages about the type of query differ only in the help text. -/
theorem selectTypeSaid_near (o : Options K) (q : VMQuery K) :
    (∃ q', selectTypeSaid o q = .ok q' ∧ QueryApp.selectTypeSaid o q = .ok q') ∨
    ∃ t, (t = "Query resolution must be a positive value." ∨
        t = "Could not parse query string '" ++ o.queryType ++ "' into a known type of query.") ∧
      selectTypeSaid o q = .error (t ++ usage) ∧ QueryApp.selectTypeSaid o q = .error (t ++ QueryApp.usage) := by
  unfold selectTypeSaid QueryApp.selectTypeSaid
  dsimp only
  split_ifs
  · exact Or.inl ⟨_, rfl, rfl⟩
  · exact Or.inr ⟨_, Or.inl rfl, rfl, rfl⟩
  · exact Or.inl ⟨_, rfl, rfl⟩
  · exact Or.inl ⟨_, rfl, rfl⟩
  · exact Or.inr ⟨_, Or.inr rfl, rfl, rfl⟩

/-- The same end with the same text, up to the help text. -/
def Near (o : Options K) (r r' : Outcome (Report K)) : Prop :=
  r' = r ∨ ∃ res t, (t = "Query resolution must be a positive value." ∨
      t = "Could not parse query string '" ++ o.queryType ++ "' into a known type of query.") ∧
    res.code = 1 ∧ r = .ok ⟨res, t ++ QueryApp.usage⟩ ∧ r' = .ok ⟨res, t ++ usage⟩

theorem leaveSaid_near (env : Env K) (o : Options K) (r : Result K) (t : String) (h1 : r.code = 1)
    (ht : t = "Query resolution must be a positive value." ∨
      t = "Could not parse query string '" ++ o.queryType ++ "' into a known type of query.") :
    Near o (leaveSaid env r (t ++ QueryApp.usage)) (leaveSaid env r (t ++ usage)) := by
  unfold Near QueryApp.leaveSaid
  generalize QueryApp.usage = u
  generalize usage = u'
  cases hl : leave env r with
  | ub => exact Or.inl rfl
  | exc m => exact Or.inl rfl
  | ok x => exact Or.inr ⟨x, t, ht, by rw [leave_code hl]; exact h1, rfl, rfl⟩

theorem runSaid_near (env : Env K) (o : Options K) (fs : Files) : Near o (QueryApp.runSaid env o fs) (runSaid env true o fs) := by
  unfold runSaid QueryApp.runSaid
  dsimp only
  rw [configureSaid_eq]
  rw [show start env o fs = QueryApp.start env o fs from rfl]
  cases QueryApp.configureSaid o { VMQuery.init env.geom with err := (QueryApp.start env o fs).1 } with
  | error t => exact Or.inl rfl
  | ok q =>
    simp only [chooseValsSaid, if_true, Outcome.bind_ok]
    cases VMQuery.openDb env.disk q with
    | ub => exact Or.inl rfl
    | exc m => exact Or.inl rfl
    | ok q =>
      simp only [Outcome.bind_ok, checkedSaid_eq]
      unfold QueryApp.checkedSaid
      by_cases hs : q.err.status = .OK
      rotate_left
      · simp only [if_pos (show q.err.status ≠ .OK from hs)]
        exact Or.inl rfl
      · simp only [if_neg (not_not_intro hs)]
        show Near o (match QueryApp.selectTypeSaid o q with | .error t => _ | .ok q => _) _
        rcases selectTypeSaid_near o q with ⟨q', h1, h2⟩ | ⟨t, ht, h1, h2⟩
        · rw [h1, h2]
          dsimp only
          cases env.input o.filenameIn with
          | none => exact Or.inl rfl
          | some text =>
            dsimp only
            rw [loopSaid_eq]
            exact Or.inl rfl
        · rw [h1, h2]
          exact leaveSaid_near _ _ _ _ rfl ht

/-! ### The same run -/

theorem bare_loop_cpp (env : Env K) (all : Bool) (n : Nat) (s : Stream) (loc : K × K × K) (q : VMQuery K) (fs : Files)
    (lines : List (Line K)) (t : String) :
    QueryApp.bare (loopSaid env all n s loc q fs lines t) = loop env all n s loc q fs lines := by
  induction n generalizing s loc q fs lines t with
  | zero => rfl
  | succ n ih =>
    rw [loopSaid_succ]
    unfold loop
    simp only [settle_eq]
    split
    · cases VMQuery.query env.fmt q fs (numVals all) loc.1 loc.2.1 loc.2.2 with
      | ub => rfl
      | exc m => rfl
      | ok r =>
        rw [Outcome.bind_ok, Outcome.bind_ok]
        split
        · exact QueryApp.bare_leave _ _ _
        · exact ih _ _ _ _ _ _
    · rw [finish_eq]
      unfold QueryApp.finishSaid QueryApp.finish
      dsimp only
      split <;> exact QueryApp.bare_leave _ _ _

theorem bare_run_cpp (env : Env K) (all : Bool) (o : Options K) (fs : Files) : QueryApp.bare (runSaid env all o fs) = run env all o fs := by
  have hck : ∀ q : VMQuery K, QueryApp.plain (checkedSaid q) = checked q := by
    intro q; unfold checkedSaid checked; split <;> rfl
  unfold runSaid run
  dsimp only
  have hc : QueryApp.plain (configureSaid o { VMQuery.init env.geom with err := (start env o fs).1 }) =
      configure o { VMQuery.init env.geom with err := (start env o fs).1 } := by
    rw [configureSaid_eq, QueryApp.plain_configure, ← configure_eq]
  rw [← hc]
  cases configureSaid o { VMQuery.init env.geom with err := (start env o fs).1 } with
  | error t => exact QueryApp.bare_leave _ _ _
  | ok q =>
    dsimp only [QueryApp.plain]
    have hv : chooseVals all q = (do let x ← chooseValsSaid all q; .ok (QueryApp.plain x)) := by
      unfold chooseVals chooseValsSaid
      split
      · rfl
      · cases VMQuery.setQueryVals q ["FaultBlock", "Zone"] 2 with
        | ub => rfl
        | exc m => rfl
        | ok q => simp only [Outcome.bind_ok, hck]
    rw [hv]
    cases chooseValsSaid all q with
    | ub => rfl
    | exc m => rfl
    | ok x =>
      simp only [Outcome.bind_ok]
      cases x with
      | error t => exact QueryApp.bare_leave _ _ _
      | ok q =>
        dsimp only [QueryApp.plain]
        cases VMQuery.openDb env.disk q with
        | ub => rfl
        | exc m => rfl
        | ok q =>
          simp only [Outcome.bind_ok]
          rw [← hck q]
          cases checkedSaid q with
          | error t => exact QueryApp.bare_leave _ _ _
          | ok q =>
            dsimp only [QueryApp.plain]
            have hs : selectType o q = QueryApp.plain (selectTypeSaid o q) := by
              unfold selectType selectTypeSaid
              dsimp only
              split_ifs <;> rfl
            rw [hs]
            cases selectTypeSaid o q with
            | error t => exact QueryApp.bare_leave _ _ _
            | ok q =>
              dsimp only [QueryApp.plain]
              cases env.input o.filenameIn with
              | none => exact QueryApp.bare_leave _ _ _
              | some text =>
                dsimp only
                split
                · exact bare_loop_cpp _ _ _ _ _ _ _ _ _
                · exact QueryApp.bare_leave _ _ _

/-! ### Two values -/

theorem leaveSaid_code {env : Env K} {r : Result K} {t : String} {x : Report K} (h : leaveSaid env r t = .ok x) :
    x = ⟨r, t⟩ ∧ leave env r = .ok r := by
  unfold QueryApp.leaveSaid at h
  obtain ⟨y, hy, h2⟩ := Print.bind_eq_ok h
  cases h2
  have e := leave_code hy
  subst e
  exact ⟨rfl, hy⟩

theorem leaveSaid_two {env : Env K} {c : Int} {lines lines' : List (Line K)} {q : VMQuery K} {fs : Files} {t : String} {x : Report K}
    (h : leaveSaid env ⟨c, lines, q, fs⟩ t = .ok x) :
    ∃ x', leaveSaid env ⟨c, lines', two q, fs⟩ t = .ok x' ∧ x'.result.code = x.result.code ∧ x'.err = x.err := by
  obtain ⟨rfl, h2⟩ := leaveSaid_code h
  refine ⟨⟨⟨c, lines', two q, fs⟩, t⟩, ?_, rfl, rfl⟩
  unfold QueryApp.leaveSaid
  rw [leave_two h2, Outcome.bind_ok]

theorem loopSaid_two {env : Env K} {n : Nat} {s : Stream} {loc : K × K × K} {q : VMQuery K} {fs : Files} {lines lines' : List (Line K)}
    {t : String} {r : Report K} (hv : q.queryVals = (List.range 9).map some) (hl : lines'.length = lines.length)
    (h : QueryApp.loopSaid env n s loc q fs lines t = .ok r) (h0 : r.result.code = 0) :
    ∃ r', loopSaid env false n s loc (two q) fs lines' t = .ok r' ∧ r'.result.code = 0 ∧ r'.err = r.err := by
  induction n generalizing s loc q fs lines lines' t with
  | zero => cases h
  | succ n ih =>
    unfold QueryApp.loopSaid at h
    rw [loopSaid_succ, hl]
    by_cases hc : (s.good && env.outGood lines.length) = true
    · rw [if_pos hc] at h
      simp only [if_pos hc]
      obtain ⟨x, hx, h⟩ := Print.bind_eq_ok h
      obtain ⟨q', fs', vals⟩ := x
      obtain ⟨e, b, z, h2, -, -, hq', he⟩ := query_two hv hx
      have h2' : VMQuery.query env.fmt (two q) fs (numVals false) loc.1 loc.2.1 loc.2.2 = _ := h2
      simp only [h2', Outcome.bind_ok]
      dsimp only at h
      by_cases hE : q'.err.status = .ERROR
      · rw [if_pos hE] at h
        obtain ⟨rfl, -⟩ := leaveSaid_code h
        exact absurd h0 (show ¬ (1 : Int) = 0 by decide)
      · rw [if_neg hE] at h
        have hee : q'.err = e := he.resolve_right hE
        subst hee
        rw [← hq']
        rw [if_neg (show ¬ (two q').err.status = .ERROR from hE)]
        rw [settle_two]
        refine ih ?_ ?_ h
        · rw [QueryApp.settle]
          rw [hq'] at *
          split <;> exact hv
        · simp [hl]
    · rw [if_neg hc] at h
      simp only [if_neg hc]
      unfold QueryApp.finishSaid at h ⊢
      have e : VMQuery.close env.closeFail env.closeFailExt (two q) = two (VMQuery.close env.closeFail env.closeFailExt q) := rfl
      rw [e]
      dsimp only at h ⊢
      rw [show (two (VMQuery.close env.closeFail env.closeFailExt q)).err = (VMQuery.close env.closeFail env.closeFailExt q).err from rfl]
      split at h
      · obtain ⟨rfl, -⟩ := leaveSaid_code h
        exact absurd h0 (show ¬ (1 : Int) = 0 by decide)
      · rename_i hs
        rw [if_neg hs]
        obtain ⟨x', h1, h2, h3⟩ := leaveSaid_two (lines' := lines') h
        exact ⟨x', h1, h2.trans h0, h3⟩

theorem selectTypeSaid_two (o : Options K) (q : VMQuery K) : selectTypeSaid o (two q) = (selectTypeSaid o q).map two := by
  have hr : VMQuery.setQueryRes (two q) o.queryRes = two (VMQuery.setQueryRes q o.queryRes) := by
    unfold VMQuery.setQueryRes; split <;> rfl
  have ht : ∀ (q : VMQuery K) (i : Int), VMQuery.queryType (two q) i = two (VMQuery.queryType q i) := by
    intro q i; unfold VMQuery.queryType; split_ifs <;> rfl
  unfold selectTypeSaid
  generalize usage = u
  simp only [hr, ht]
  split
  · rfl
  split
  · rfl
  split
  · rfl
  split <;> rfl

theorem runSaid_two {env : Env K} {o : Options K} {fs : Files} {r : Report K} (h : QueryApp.runSaid env o fs = .ok r)
    (h0 : r.result.code = 0) : ∃ r', runSaid env false o fs = .ok r' ∧ r'.result.code = 0 ∧ r'.err = r.err := by
  have stop : ∀ {q : VMQuery K} {f : Files} {t : String}, ¬ leaveSaid env ⟨1, [], q, f⟩ t = .ok r := by
    intro q f t h
    obtain ⟨rfl, -⟩ := leaveSaid_code h
    exact absurd h0 (show ¬ (1 : Int) = 0 by decide)
  unfold QueryApp.runSaid at h
  unfold runSaid
  dsimp only at h ⊢
  rw [configureSaid_eq]
  rw [show start env o fs = QueryApp.start env o fs from rfl]
  have hst := (QueryApp.start_status env o fs).1
  have hp := QueryApp.plain_configure o { VMQuery.init env.geom with err := (QueryApp.start env o fs).1 }
  rw [QueryApp.configure_eq env.geom o hst] at hp
  generalize QueryApp.configureSaid o { VMQuery.init env.geom with err := (QueryApp.start env o fs).1 } = c at h hp ⊢
  cases c with
  | error t => cases hp
  | ok q0 =>
    injection hp with hp
    have h00 : q0.err.status = .OK := by rw [hp]; exact hst
    have hv0 : q0.queryVals = (List.range 9).map some := by rw [hp]; rfl
    have hcv : chooseValsSaid false q0 = .ok (.ok (two q0)) := by
      have e : VMQuery.setQueryVals q0 ["FaultBlock", "Zone"] 2 = .ok (two q0) := by
        unfold VMQuery.setQueryVals
        rw [if_pos (by decide), if_pos (by decide)]
        rfl
      unfold chooseValsSaid
      rw [if_neg (by decide), e, Outcome.bind_ok, checkedSaid, if_neg]
      exact not_not_intro h00.symm
    simp only [hcv, Outcome.bind_ok]
    dsimp only at h
    obtain ⟨q, hq, h⟩ := Print.bind_eq_ok h
    rw [openDb_two]
    simp only [hq, Outcome.bind_ok]
    have hv : q.queryVals = (List.range 9).map some := (openDb_vals hq).trans hv0
    rw [checkedSaid_eq]
    unfold QueryApp.checkedSaid at h ⊢
    by_cases hs : q.err.status = .OK
    · rw [if_neg (not_not_intro hs)] at h
      rw [if_neg (not_not_intro (show (two q).err.status = .OK from hs))]
      dsimp only
      have h' : (match QueryApp.selectTypeSaid o q with
          | .error t => leaveSaid env ⟨1, [], q, (QueryApp.start env o fs).2⟩ t
          | .ok q =>
            match env.input o.filenameIn with
            | none => leaveSaid env ⟨1, [], q, (QueryApp.start env o fs).2⟩ ("Could not open file '" ++ o.filenameIn ++ "' to read query locations.\n")
            | some text =>
              if env.canWrite o.filenameOut then
                QueryApp.loopSaid env (text.length + 1) (QueryApp.readLoc env.nf (Stream.ofText text) (0, 0, 0)).1
                  (QueryApp.readLoc env.nf (Stream.ofText text) (0, 0, 0)).2 q (QueryApp.start env o fs).2 [] ""
              else leaveSaid env ⟨1, [], q, (QueryApp.start env o fs).2⟩ ("Could not open file '" ++ o.filenameOut ++ "' to receive query data.\n")) = .ok r := by
        revert h
        show (match QueryApp.selectTypeSaid o q with | .error t => _ | .ok q => _) = _ → _
        cases QueryApp.selectTypeSaid o q <;> exact id
      rw [selectTypeSaid_two]
      rcases selectTypeSaid_near o q with ⟨q', h1, h2⟩ | ⟨t, ht, h1, h2⟩
      · rw [h1]
        rw [h2] at h'
        dsimp only [Except.map] at h' ⊢
        have hv' : q'.queryVals = (List.range 9).map some := by
          refine (selectType_vals (o := o) (q := q) ?_).trans hv
          rw [← QueryApp.plain_selectType, h2]; rfl
        cases hi : env.input o.filenameIn with
        | none => rw [hi] at h'; exact absurd h' stop
        | some text =>
          rw [hi] at h'
          dsimp only at h' ⊢
          split at h'
          · rename_i hw
            obtain ⟨r', h1, h2, h3⟩ := loopSaid_two (lines' := []) hv' rfl h' h0
            exact ⟨r', (if_pos hw).trans h1, h2, h3⟩
          · exact absurd h' stop
      · rw [h2] at h'
        exact absurd h' stop
    · rw [if_pos hs] at h
      exact absurd h stop

end CppExample
end CenCalVM
