/-
What the application cencalvmquery writes to its log file.
-/
import Verif.Lemmas.QueryApp
import Verif.Spec.QueryLog
import Mathlib.Algebra.Order.Ring.Cast

set_option linter.unusedSectionVars false

namespace CenCalVM
namespace QueryApp
variable {K : Type} [Field K] [LinearOrder K] [IsStrictOrderedRing K]

theorem log_mark (e : ErrorHandler) (w : Option (Status × String)) (fs : Files) (m : String) :
    (VMQuery.mark e w).log fs m = e.log fs m := by cases w <;> rfl

/-- What a query for all values logs. -/
theorem query_log {fmt : Fmt K} {q q' : VMQuery K} {fs fs' : Files} {lon lat elev : K} {vals : List K}
    (hv : q.queryVals = (List.range 9).map some) (h : VMQuery.query fmt q fs 9 lon lat elev = .ok (q', fs', vals)) :
    fs' = (if vals[6]? = some 0 then q.err.log fs (VMQuery.noDataLine fmt lon lat elev) else fs) := by
  unfold VMQuery.query at h
  rw [if_neg (by rw [hv]; simp)] at h
  cases hg : q.geom with
  | none => rw [hg] at h; cases h
  | some g =>
  cases hd : q.db with
  | none => rw [hg, hd] at h; cases h
  | some db =>
  rw [hg, hd] at h
  dsimp only at h
  rcases VMQuery.fetch_frame fmt q g db ⟨⟨0, 0, 0, 0⟩, .leaf⟩ lon lat elev with h1 | ⟨m, h1⟩ | ⟨r, p, a, w, hw, h1⟩
  · rw [show _ = _ from h1 q.err] at h; cases h
  · rw [show _ = _ from h1 q.err] at h; cases h
  · rw [show _ = _ from h1 q.err] at h
    dsimp only at h
    rw [hv] at h
    have e9 : (List.range 9).map some = [some 0, some 1, some 2, some 3, some 4, some 5, some 6, some 7, some 8] := rfl
    rw [e9] at h
    generalize (VMQuery.CopyState.mk r a (if decide (p.faultBlock = NODATABLOCK) = true then
      (VMQuery.mark q.err w).warning (VMQuery.noDataWarning fmt lon lat elev) else VMQuery.mark q.err w)) = s at h
    simp only [VMQuery.copyValues, VMQuery.copyValue, Outcome.bind_ok] at h
    cases hq : VMQuery.queryElev q.rd g db q.dbExt s.addr lon lat elev false with
    | ub => rw [hq] at h; cases h
    | ok x =>
      rw [hq] at h
      simp only [Outcome.bind_ok, Outcome.ok.injEq, Prod.mk.injEq] at h
      obtain ⟨-, rfl, rfl⟩ := h
      rw [log_mark]
      by_cases hp : p.faultBlock = 0 <;> simp [NODATABLOCK, hp]
    | exc m =>
      rw [hq] at h
      simp only [Outcome.bind_ok, Outcome.ok.injEq, Prod.mk.injEq] at h
      obtain ⟨-, rfl, rfl⟩ := h
      rw [log_mark]
      by_cases hp : p.faultBlock = 0 <;> simp [NODATABLOCK, hp]

/-- Leaving changes nothing. -/
theorem leave_same {env : Env K} {r r' : Result K} (h : leave env r = .ok r') : r' = r := by
  unfold leave at h
  cases hd : VMQuery.destroy env.closeFail env.closeFailExt r.q with
  | ok u => rw [hd] at h; cases h; rfl
  | exc m => rw [hd] at h; cases h
  | ub => rw [hd] at h; cases h

/-- What the loop logs: a text for each line without data, and perhaps one for a location that ends with an error. -/
theorem loop_logs {env : Env K} {q : VMQuery K} (hv : q.queryVals = (List.range 9).map some) (hs : q.err.status = .OK)
    (hm : q.err.message = "") (n : Nat) (s : Stream) (loc : K × K × K) (fs : Files) (lines : List (Line K)) {r : Result K}
    (h : loop env n s loc q fs lines = .ok r) :
    ∃ new extra, r.lines = lines ++ new ∧ r.fs = (noDataTexts env.fmt new ++ extra).foldl q.err.log fs ∧
      (extra = [] ∨ r.code = 1 ∧ ∃ l, ErrorAt env.fmt q l ∧ extra = [noDataText env.fmt l.1 l.2.1 l.2.2]) := by
  induction n generalizing s loc fs lines with
  | zero => cases h
  | succ n ih =>
    unfold loop at h
    split at h
    · rcases query_cases env.fmt q fs 9 loc.1 loc.2.1 loc.2.2 with ⟨h1, -⟩ | ⟨vals, w, fs', fs'', hr, h1, h2⟩
      · rw [h1] at h; cases h
      · rw [h1, Outcome.bind_ok] at h
        dsimp only at h
        have hf := query_log hv h1
        by_cases he : (VMQuery.mark q.err w).status = .ERROR
        · rw [if_pos he] at h
          have := leave_same h
          subst this
          refine ⟨[], (if vals[6]? = some 0 then [noDataText env.fmt loc.1 loc.2.1 loc.2.2] else []), (List.append_nil _).symm, ?_, ?_⟩
          · dsimp only
            rw [hf]
            split <;> rfl
          · split
            · exact Or.inr ⟨rfl, loc, ⟨_, _, _, h2, he⟩, rfl⟩
            · exact Or.inl rfl
        · rw [if_neg he, settle_eq hr hs hm] at h
          obtain ⟨new, extra, h3, h4, h5⟩ := ih _ _ _ _ h
          refine ⟨⟨loc.1, loc.2.1, loc.2.2, vals⟩ :: new, extra, by rw [h3, List.append_assoc]; rfl, ?_, h5⟩
          rw [h4, hf]
          unfold noDataTexts
          rw [List.flatMap_cons]
          dsimp only
          split <;> rfl
    · unfold finish at h
      dsimp only at h
      split at h <;>
      · have := leave_same h
        subst this
        exact ⟨[], [], (List.append_nil _).symm, rfl, Or.inl rfl⟩

/-- A run. -/
theorem run_logs {env : Env K} {o : Options K} {fs : Files} {r : Result K} (h : run env o fs = .ok r) :
    ∃ extra, r.fs = (noDataTexts env.fmt r.lines ++ extra).foldl (start env o fs).1.log (start env o fs).2 ∧
      (extra = [] ∨ r.code = 1 ∧ ∃ q l, Configured env o q ∧ ErrorAt env.fmt q l ∧ extra = [noDataText env.fmt l.1 l.2.1 l.2.2]) := by
  rcases run_cases env o fs with ⟨q, hq, ⟨hm, he⟩, ⟨text, hi, hc, hr⟩ | ⟨-, hr⟩⟩ | ⟨-, q, hr⟩
  · rw [hr] at h
    have hv : q.queryVals = (List.range 9).map some := by obtain ⟨d, x, fn, res, e, -, -, -, -, rfl⟩ := hq; rfl
    have hs : q.err.status = .OK := by rw [he]; exact (start_status env o fs).1
    obtain ⟨new, extra, h1, h2, h3⟩ := loop_logs hv hs hm _ _ _ _ _ h
    rw [List.nil_append] at h1
    subst h1
    rw [he] at h2
    refine ⟨extra, h2, ?_⟩
    rcases h3 with h3 | ⟨h3, l, h4, h5⟩
    · exact Or.inl h3
    · exact Or.inr ⟨h3, q, l, hq, h4, h5⟩
  · rw [hr] at h
    have := leave_same h
    subst this
    exact ⟨[], rfl, Or.inl rfl⟩
  · rw [hr] at h
    have := leave_same h
    subst this
    exact ⟨[], rfl, Or.inl rfl⟩

theorem foldl_log {e : ErrorHandler} {n : String} (hs : e.sink = some n) (hn : n ≠ NULLFILE) (ts : List String) (fs : Files) :
    ts.foldl e.log fs = fs.set n (fs n ++ String.join ts) := by
  induction ts generalizing fs with
  | nil =>
    funext m
    simp only [List.foldl_nil, Files.set, if_neg hn]
    split
    · next h => subst h; simp [String.join]
    · rfl
  | cons t ts ih =>
    rw [List.foldl_cons, ih]
    funext m
    unfold ErrorHandler.log
    rw [hs]
    simp only [Files.set, if_neg hn, if_true]
    split
    · rw [String.join_cons, String.append_assoc]
    · rfl

end QueryApp
end CenCalVM
