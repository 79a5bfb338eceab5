/-
Lemmas for the properties of the example in C++.
-/
import Verif.Model.CppExample
import Verif.Spec.CppExample
import Verif.Lemmas.QueryApp
import Verif.Lemmas.QueryConsole
import Verif.Lemmas.PrintText

set_option linter.unusedSectionVars false

namespace CenCalVM
namespace CppExample
open QueryApp (Options Env Line Result Conv leave)
variable {K : Type} [Field K] [LinearOrder K]

theorem parseLoop_eq (cv : Conv K) (os : List Opt) (o : Options K) (n : Nat) : parseLoop cv os o n = QueryApp.parseLoop cv os o n := by
  induction os generalizing o n with
  | nil => rfl
  | cons a os ih =>
    cases a with
    | arg c v => exact ih _ _
    | flag c => rfl
    | unknown => exact ih _ _

theorem parseArgs_eq (cv : Conv K) (argv : List (List Char)) : parseArgs cv argv = QueryApp.parseArgs cv argv := by
  unfold parseArgs QueryApp.parseArgs
  rw [parseLoop_eq]
  rfl

theorem checked_eq (q : VMQuery K) : checked q = QueryApp.checked q := by
  unfold checked QueryApp.checked
  by_cases h : q.err.status = .OK
  · rw [if_neg (not_not_intro h.symm), if_neg (not_not_intro h)]
  · rw [if_pos (fun e => h e.symm), if_pos h]

theorem configure_eq (o : Options K) (q : VMQuery K) : configure o q = QueryApp.configure o q := by
  unfold configure QueryApp.configure QueryApp.setExt QueryApp.setSquash
  simp only [checked_eq]
  by_cases h : "" ≠ o.filenameDBExt
  · simp only [if_pos h]
    show (QueryApp.checked _).bind _ = _
    congr 1; funext q
    show (QueryApp.checked _).bind _ = _
    congr 1; funext q
    show (QueryApp.checked _).bind _ = _
    rw [Option.bind_assoc]
    rfl
  · simp only [if_neg h]
    rfl

theorem settle_eq (q : VMQuery K) :
    (if .OK ≠ q.err.status then { q with err := q.err.resetStatus } else q) = QueryApp.settle q := by
  unfold QueryApp.settle
  by_cases h : q.err.status = .OK
  · rw [if_neg (not_not_intro h.symm), if_neg (not_not_intro h)]
  · rw [if_pos (fun e => h e.symm), if_pos h]

theorem finish_eq (env : Env K) (q : VMQuery K) (fs : Files) (lines : List (Line K)) :
    finish env q fs lines = QueryApp.finish env q fs lines := by
  unfold finish QueryApp.finish
  dsimp only
  by_cases h : (VMQuery.close env.closeFail env.closeFailExt q).err.status = .OK
  · rw [if_neg (not_not_intro h.symm), if_neg (not_not_intro h)]
  · rw [if_pos (fun e => h e.symm), if_pos h]

theorem loop_eq (env : Env K) (n : Nat) (s : Stream) (loc : K × K × K) (q : VMQuery K) (fs : Files) (lines : List (Line K)) :
    loop env true n s loc q fs lines = QueryApp.loop env n s loc q fs lines := by
  induction n generalizing s loc q fs lines with
  | zero => rfl
  | succ n ih =>
    unfold loop QueryApp.loop
    simp only [settle_eq, finish_eq, ih]
    rfl

theorem run_eq (env : Env K) (o : Options K) (fs : Files) : run env true o fs = QueryApp.run env o fs := by
  unfold run QueryApp.run
  dsimp only
  rw [configure_eq]
  rw [show start env o fs = QueryApp.start env o fs from rfl]
  cases QueryApp.configure o { VMQuery.init env.geom with err := (QueryApp.start env o fs).1 } with
  | none => rfl
  | some q =>
    simp only [chooseVals, if_true, Outcome.bind_ok]
    cases VMQuery.openDb env.disk q with
    | ub => rfl
    | exc m => rfl
    | ok q =>
      simp only [Outcome.bind_ok, checked_eq]
      cases hc : QueryApp.checked q with
      | none => rfl
      | some q' =>
        have hq : q' = q := by
          unfold QueryApp.checked at hc
          split at hc
          · cases hc
          · injection hc with hc; exact hc.symm
        subst hq
        rw [Option.bind_some]
        dsimp only
        rw [show selectType o q' = QueryApp.selectType o q' from rfl]
        cases QueryApp.selectType o q' with
        | none => rfl
        | some q'' =>
          dsimp only
          cases env.input o.filenameIn with
          | none => rfl
          | some text =>
            dsimp only
            rw [loop_eq]
            rfl

/-! ### Two values -/

/-- A query object asking for fault block and zone. -/
def two (q : VMQuery K) : VMQuery K := { q with queryVals := [some 6, some 7] }

theorem openDb_two (disk : String → Option (Db K)) (q : VMQuery K) :
    VMQuery.openDb disk (two q) = (do let q ← VMQuery.openDb disk q; .ok (two q)) := by
  unfold VMQuery.openDb VMQuery.openMain VMQuery.openExt two
  dsimp only
  repeat' first
    | rfl
    | (simp only [Outcome.bind_ok])
    | split

theorem openDb_vals {disk : String → Option (Db K)} {q q' : VMQuery K} (h : VMQuery.openDb disk q = .ok q') : q'.queryVals = q.queryVals := by
  unfold VMQuery.openDb VMQuery.openMain VMQuery.openExt at h
  obtain ⟨x, hx, h⟩ := Print.bind_eq_ok h
  have h1 : x.queryVals = q.queryVals := by
    repeat' first
      | (cases hx; rfl)
      | cases hx
      | split at hx
  rw [← h1]
  repeat' first
    | (cases h; rfl)
    | cases h
    | split at h

theorem selectType_vals {o : Options K} {q q' : VMQuery K} (h : QueryApp.selectType o q = some q') : q'.queryVals = q.queryVals := by
  unfold QueryApp.selectType VMQuery.setQueryRes VMQuery.queryType at h
  dsimp only at h
  repeat' first
    | (cases h; rfl)
    | split at h
  all_goals cases h

theorem selectType_two (o : Options K) (q : VMQuery K) : selectType o (two q) = (QueryApp.selectType o q).map two := by
  unfold selectType QueryApp.selectType VMQuery.setQueryRes VMQuery.queryType two
  dsimp only
  repeat' first
    | rfl
    | split

theorem checked_two (q : VMQuery K) : checked (two q) = (QueryApp.checked q).map two := by
  rw [checked_eq]
  unfold QueryApp.checked two
  dsimp only
  split <;> rfl

/-- Where the query for all values succeeds, that for two gives two of them; they differ otherwise only in an error in the
ground elevation. -/
theorem query_two {fmt : Fmt K} {q q' : VMQuery K} {fs fs' : Files} {lon lat elev : K} {vals : List K}
    (hv : q.queryVals = (List.range 9).map some) (h : VMQuery.query fmt q fs 9 lon lat elev = .ok (q', fs', vals)) :
    ∃ e b z, VMQuery.query fmt (two q) fs 2 lon lat elev = .ok (two { q with err := e }, fs', [b, z]) ∧
      vals[6]? = some b ∧ vals[7]? = some z ∧ q' = { q with err := q'.err } ∧ (q'.err = e ∨ q'.err.status = .ERROR) := by
  unfold VMQuery.query at h
  rw [if_neg (by rw [hv]; simp)] at h
  cases hg : q.geom with
  | none => rw [hg] at h; cases h
  | some g =>
  cases hd : q.db with
  | none => rw [hg, hd] at h; cases h
  | some db =>
  rw [hg, hd] at h
  dsimp only at h
  cases hf : VMQuery.fetch fmt q g db ⟨⟨0, 0, 0, 0⟩, .leaf⟩ lon lat elev with
  | ub => rw [hf] at h; cases h
  | exc m => rw [hf] at h; cases h
  | ok f =>
    have h2 : VMQuery.query fmt (two q) fs 2 lon lat elev = _ := VMQuery.query_of_fetch (fs := fs) hg hd hf [6, 7] (by decide)
    rw [hf] at h
    dsimp only at h
    rw [hv] at h
    have e9 : (List.range 9).map some = [some 0, some 1, some 2, some 3, some 4, some 5, some 6, some 7, some 8] := rfl
    rw [e9] at h
    refine ⟨if f.payload.faultBlock = 0 then f.err.warning (VMQuery.noDataWarning fmt lon lat elev) else f.err,
      (f.payload.faultBlock : K), (f.payload.zone : K), ?_⟩
    rw [h2]
    have hfs : (if decide (f.payload.faultBlock = NODATABLOCK) = true then f.err.log fs (VMQuery.noDataLine fmt lon lat elev) else fs) =
        if f.payload.faultBlock = 0 then f.err.log fs (VMQuery.noDataLine fmt lon lat elev) else fs := by
      by_cases hp : f.payload.faultBlock = 0 <;> simp [NODATABLOCK, hp]
    have hE : (if decide (f.payload.faultBlock = NODATABLOCK) = true then
        f.err.warning (VMQuery.noDataWarning fmt lon lat elev) else f.err) =
        if f.payload.faultBlock = 0 then f.err.warning (VMQuery.noDataWarning fmt lon lat elev) else f.err := by
      by_cases hp : f.payload.faultBlock = 0 <;> simp [NODATABLOCK, hp]
    rw [hfs, hE] at h
    generalize (if f.payload.faultBlock = 0 then f.err.warning (VMQuery.noDataWarning fmt lon lat elev) else f.err) = E at h ⊢
    generalize (if f.payload.faultBlock = 0 then f.err.log fs (VMQuery.noDataLine fmt lon lat elev) else fs) = F at h ⊢
    simp only [VMQuery.copyValues, VMQuery.copyValue, Outcome.bind_ok] at h
    cases hq : VMQuery.queryElev q.rd g db q.dbExt f.addr lon lat elev false with
    | ub => rw [hq] at h; cases h
    | ok x =>
      rw [hq] at h
      simp only [Outcome.bind_ok, Outcome.ok.injEq, Prod.mk.injEq] at h
      obtain ⟨rfl, rfl, rfl⟩ := h
      refine ⟨?_, rfl, rfl, ?_, Or.inl rfl⟩
      · simp only [two, hg, hd]; rfl
      · rw [← e9, ← hv]
    | exc m =>
      rw [hq] at h
      simp only [Outcome.bind_ok, Outcome.ok.injEq, Prod.mk.injEq] at h
      obtain ⟨rfl, rfl, rfl⟩ := h
      refine ⟨?_, rfl, rfl, ?_, Or.inr rfl⟩
      · simp only [two, hg, hd]; rfl
      · rw [← e9, ← hv]

theorem leave_code {env : Env K} {r r' : Result K} (h : leave env r = .ok r') : r' = r := by
  unfold QueryApp.leave at h
  obtain ⟨_, -, h⟩ := Print.bind_eq_ok h
  cases h; rfl

theorem settle_two (q : VMQuery K) : QueryApp.settle (two q) = two (QueryApp.settle q) := by
  unfold QueryApp.settle two
  dsimp only
  split <;> rfl

theorem leave_two {env : Env K} {c : Int} {lines lines' : List (Line K)} {q : VMQuery K} {fs : Files} {r : Result K}
    (h : leave env ⟨c, lines, q, fs⟩ = .ok r) : leave env ⟨c, lines', two q, fs⟩ = .ok ⟨c, lines', two q, fs⟩ := by
  unfold QueryApp.leave at h ⊢
  obtain ⟨u, h1, -⟩ := Print.bind_eq_ok h
  have h1' : VMQuery.destroy env.closeFail env.closeFailExt (two q) = .ok u := h1
  simp only [h1', Outcome.bind_ok]

theorem finish_two {env : Env K} {q : VMQuery K} {fs : Files} {lines lines' : List (Line K)} {r : Result K}
    (h : QueryApp.finish env q fs lines = .ok r) :
    r.lines = lines ∧ finish env (two q) fs lines' = .ok ⟨r.code, lines', two r.q, r.fs⟩ := by
  rw [finish_eq]
  unfold QueryApp.finish at h ⊢
  have e : VMQuery.close env.closeFail env.closeFailExt (two q) = two (VMQuery.close env.closeFail env.closeFailExt q) := rfl
  rw [e]
  dsimp only at h ⊢
  rw [show (two (VMQuery.close env.closeFail env.closeFailExt q)).err = (VMQuery.close env.closeFail env.closeFailExt q).err from rfl]
  split at h
  · rename_i hs
    have := leave_code h
    subst this
    exact ⟨rfl, by rw [if_pos hs]; exact leave_two h⟩
  · rename_i hs
    have := leave_code h
    subst this
    exact ⟨rfl, by rw [if_neg hs]; exact leave_two h⟩

/-- The lines of a run of the loop go on from those before. -/
theorem loop_extends {env : Env K} {all : Bool} {n : Nat} {s : Stream} {loc : K × K × K} {q : VMQuery K} {fs : Files} {lines : List (Line K)}
    {r : Result K} (h : loop env all n s loc q fs lines = .ok r) : lines <+: r.lines := by
  induction n generalizing s loc q fs lines with
  | zero => cases h
  | succ n ih =>
    unfold loop at h
    split at h
    · obtain ⟨x, -, h⟩ := Print.bind_eq_ok h
      split at h
      · rw [leave_code h]
      · exact (List.prefix_append _ _).trans (ih h)
    · rw [finish_eq] at h
      rw [(finish_two (lines' := []) h).1]

/-- The loops of the two programs. -/
theorem loop_two {env : Env K} {n : Nat} {s : Stream} {loc : K × K × K} {q : VMQuery K} {fs : Files} {lines lines' : List (Line K)}
    {r : Result K} (hv : q.queryVals = (List.range 9).map some) (hl : List.Forall₂ TwoOf lines lines')
    (h : QueryApp.loop env n s loc q fs lines = .ok r) :
    (∃ r', loop env false n s loc (two q) fs lines' = .ok r' ∧ r'.code = r.code ∧ List.Forall₂ TwoOf r.lines r'.lines ∧ r'.fs = r.fs) ∨
    (r.code = 1 ∧ ∀ r', loop env false n s loc (two q) fs lines' = .ok r' →
      ∃ first rest, r'.lines = first ++ rest ∧ List.Forall₂ TwoOf r.lines first) := by
  induction n generalizing s loc q fs lines lines' with
  | zero => cases h
  | succ n ih =>
    unfold QueryApp.loop at h
    have hlen : lines'.length = lines.length := hl.length_eq.symm
    unfold loop
    rw [hlen]
    by_cases hc : (s.good && env.outGood lines.length) = true
    · rw [if_pos hc] at h
      simp only [if_pos hc]
      obtain ⟨x, hx, h⟩ := Print.bind_eq_ok h
      obtain ⟨q', fs', vals⟩ := x
      obtain ⟨e, b, z, h2, hb, hz, hq', he⟩ := query_two hv hx
      have h2' : VMQuery.query env.fmt (two q) fs (numVals false) loc.1 loc.2.1 loc.2.2 = _ := h2
      simp only [h2', Outcome.bind_ok]
      dsimp only at h
      have hl' : List.Forall₂ TwoOf (lines ++ [⟨loc.1, loc.2.1, loc.2.2, vals⟩]) (lines' ++ [⟨loc.1, loc.2.1, loc.2.2, [b, z]⟩]) :=
        List.rel_append hl (.cons ⟨rfl, rfl, rfl, b, z, hb, hz, rfl⟩ .nil)
      by_cases hE : q'.err.status = .ERROR
      · rw [if_pos hE] at h
        right
        have hr := leave_code h
        subst hr
        refine ⟨rfl, fun r' h' => ?_⟩
        split at h'
        · rw [leave_code h']; exact ⟨lines', [], (List.append_nil _).symm, hl⟩
        · obtain ⟨t, ht⟩ := loop_extends h'
          exact ⟨lines', [⟨loc.1, loc.2.1, loc.2.2, [b, z]⟩] ++ t, by rw [← ht, List.append_assoc], hl⟩
      · rw [if_neg hE] at h
        have hee : q'.err = e := he.resolve_right hE
        subst hee
        rw [← hq']
        rw [if_neg (show ¬ (two q').err.status = .ERROR from hE)]
        rw [settle_eq, settle_two]
        refine ih ?_ hl' h
        rw [QueryApp.settle]
        rw [hq'] at *
        split <;> exact hv
    · rw [if_neg hc] at h
      simp only [if_neg hc]
      left
      obtain ⟨h1, h2⟩ := finish_two (lines' := lines') h
      exact ⟨_, h2, rfl, by rw [h1]; exact hl, rfl⟩

theorem chooseVals_two {q : VMQuery K} (h : q.err.status = .OK) : chooseVals false q = .ok (some (two q)) := by
  have e : VMQuery.setQueryVals q ["FaultBlock", "Zone"] 2 = .ok (two q) := by
    unfold VMQuery.setQueryVals
    rw [if_pos (by decide), if_pos (by decide)]
    rfl
  unfold chooseVals
  rw [if_neg (by decide), e, Outcome.bind_ok, checked, if_neg]
  exact not_not_intro h.symm

theorem run_two {env : Env K} {o : Options K} {fs : Files} {r : Result K} (h : QueryApp.run env o fs = .ok r) :
    (∃ r', run env false o fs = .ok r' ∧ r'.code = r.code ∧ List.Forall₂ TwoOf r.lines r'.lines ∧ r'.fs = r.fs) ∨
    (r.code = 1 ∧ ∀ r', run env false o fs = .ok r' → ∃ first rest, r'.lines = first ++ rest ∧ List.Forall₂ TwoOf r.lines first) := by
  unfold QueryApp.run at h
  unfold run
  dsimp only at h ⊢
  rw [configure_eq]
  rw [show start env o fs = QueryApp.start env o fs from rfl]
  have hst := (QueryApp.start_status env o fs).1
  rw [QueryApp.configure_eq env.geom o hst] at h ⊢
  dsimp only at h ⊢
  rw [chooseVals_two (by exact hst), Outcome.bind_ok]
  dsimp only
  rw [openDb_two]
  obtain ⟨q, hq, h⟩ := Print.bind_eq_ok h
  simp only [hq, Outcome.bind_ok]
  have stop : ∀ {q : VMQuery K} {r : Result K}, leave env ⟨1, [], q, (QueryApp.start env o fs).2⟩ = .ok r →
      ∃ r', leave env ⟨1, [], two q, (QueryApp.start env o fs).2⟩ = .ok r' ∧ r'.code = r.code ∧
        List.Forall₂ TwoOf r.lines r'.lines ∧ r'.fs = r.fs := by
    intro q r h
    have := leave_code h
    subst this
    exact ⟨_, leave_two h, rfl, .nil, rfl⟩
  have hv : q.queryVals = (List.range 9).map some := openDb_vals hq
  rw [checked_two]
  cases hc : QueryApp.checked q with
  | none =>
    rw [hc] at h
    exact Or.inl (stop h)
  | some q1 =>
    have hq1 : q1 = q := by
      unfold QueryApp.checked at hc
      split at hc
      · cases hc
      · injection hc with hc; exact hc.symm
    subst hq1
    rw [hc, Option.bind_some] at h
    simp only [Option.map_some]
    rw [selectType_two]
    cases ht : QueryApp.selectType o q1 with
    | none =>
      rw [ht] at h
      exact Or.inl (stop h)
    | some q2 =>
      rw [ht] at h
      simp only [Option.map_some]
      dsimp only at h
      cases hi : env.input o.filenameIn with
      | none =>
        rw [hi] at h
        exact Or.inl (stop h)
      | some text =>
        rw [hi] at h
        dsimp only at h ⊢
        split at h
        · rename_i hw
          simp only [if_pos hw]
          exact loop_two ((selectType_vals ht).trans hv) .nil h
        · rename_i hw
          simp only [if_neg hw]
          exact Or.inl (stop h)

end CppExample
end CenCalVM
