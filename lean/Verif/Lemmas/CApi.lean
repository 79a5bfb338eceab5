/-
Lemmas on the C interface.
-/
import Verif.Spec.CApi
import Verif.Lemmas.Query

set_option linter.unusedSectionVars false
set_option linter.unnecessarySeqFocus false

namespace CenCalVM
namespace CApi
variable {K : Type} [Field K] [LinearOrder K]

theorem use_null (w : World K) (r : Ret K) (f : VMQuery K → Outcome (VMQuery K × Files × Ret K)) : use w 0 r f = .ok (w, r) := rfl

theorem use_some {w : World K} {h : Nat} {q : VMQuery K} (h0 : h ≠ 0) (hq : w.objs h = some q) (r : Ret K)
    (f : VMQuery K → Outcome (VMQuery K × Files × Ret K)) :
    use w h r f = (f q).bind fun r => .ok ({ w.put h (some r.1) with fs := r.2.1 }, r.2.2) := by
  unfold use; rw [if_neg h0, hq]; rfl

theorem use_none {w : World K} {h : Nat} (h0 : h ≠ 0) (hq : w.objs h = none) (r : Ret K)
    (f : VMQuery K → Outcome (VMQuery K × Files × Ret K)) : use w h r f = .ub := by
  unfold use; rw [if_neg h0, hq]

/-- The effect of a function on an object, apart from the table of objects. -/
def act (fmt : Fmt K) (canOpen : String → Bool) (h : Nat) (fs : Files) (q : VMQuery K) : Fn K → Outcome (VMQuery K × Files × Ret K)
  | .open disk => (VMQuery.openDb disk q).bind fun q => withStatus fs q
  | .close f fx => withStatus fs (VMQuery.close f fx q)
  | .queryType n => withStatus fs (VMQuery.queryType q n)
  | .queryRes r => withStatus fs (VMQuery.setQueryRes q r)
  | .queryVals names n => (VMQuery.setQueryVals q names n).bind fun q => withStatus fs q
  | .filename n => withStatus fs (VMQuery.setFilename q n)
  | .cacheSize n => withStatus fs (VMQuery.setCacheSize q n)
  | .filenameExt n => withStatus fs (VMQuery.setFilenameExt q n)
  | .cacheSizeExt n => withStatus fs (VMQuery.setCacheSizeExt q n)
  | .squash f l => withStatus fs (VMQuery.squash q (decide (f ≠ 0)) l)
  | .query n lon lat elev => (VMQuery.query fmt q fs n lon lat elev).bind fun r =>
      .ok (r.1, r.2.1, .answer r.1.err.status.code (some r.2.2))
  | .errorHandler => .ok (q, fs, .ptr h)
  | .errLogFilename n =>
    .ok ({ q with err := (ErrorHandler.setLogFilename canOpen q.err fs n).1 }, (ErrorHandler.setLogFilename canOpen q.err fs n).2, .code 0)
  | .errLoggingOn f =>
    .ok ({ q with err := (ErrorHandler.loggingOn canOpen q.err fs (decide (f ≠ 0))).1 },
      (ErrorHandler.loggingOn canOpen q.err fs (decide (f ≠ 0))).2, .code 0)
  | .errResetStatus => .ok ({ q with err := q.err.resetStatus }, fs, .code 0)
  | .errStatus => .ok (q, fs, .code q.err.status.code)
  | .errMessage => .ok (q, fs, .text (some q.err.message))

theorem callFn_some {fmt : Fmt K} {canOpen : String → Bool} {w : World K} {h : Nat} {q : VMQuery K} (h0 : h ≠ 0)
    (hq : w.objs h = some q) (f : Fn K) :
    callFn fmt canOpen w h f =
      (act fmt canOpen h w.fs q f).bind fun r => .ok ({ w.put h (some r.1) with fs := r.2.1 }, r.2.2) := by
  cases f <;> exact use_some h0 hq _ _

theorem callFn_none {fmt : Fmt K} {canOpen : String → Bool} {w : World K} {h : Nat} (h0 : h ≠ 0)
    (hq : w.objs h = none) (f : Fn K) : callFn fmt canOpen w h f = .ub := by
  cases f <;> exact use_none h0 hq _ _

theorem bind_eq {α β : Type} (o : Outcome α) (f : α → Outcome β) : o.bind f = o >>= f := rfl

theorem code_eq (s : Status) : s.code = statusNumber s := by cases s <;> rfl

/-- A function acts as its C++ call. -/
theorem act_iff {fmt : Fmt K} {canOpen : String → Bool} {h : Nat} {fs fs' : Files} {q q' : VMQuery K} {f : Fn K} {r : Ret K} :
    act fmt canOpen h fs q f = .ok (q', fs', r) ↔
      ∃ outs, VMQuery.run fmt canOpen ⟨q, fs, []⟩ f.cpp = .ok ⟨q', fs', outs⟩ ∧ f.Gives h ⟨q', fs', outs⟩ r := by
  cases f
  case «open» disk =>
    cases ho : VMQuery.openDb disk q <;>
      simp [act, Fn.cpp, VMQuery.run, VMQuery.call, Fn.Gives, code_eq, withStatus, ho, bind_eq] <;> aesop
  case queryVals names n =>
    cases ho : VMQuery.setQueryVals q names n <;>
      simp [act, Fn.cpp, VMQuery.run, VMQuery.call, Fn.Gives, code_eq, withStatus, ho, bind_eq] <;> aesop
  case query n lon lat elev =>
    cases ho : VMQuery.query fmt q fs n lon lat elev <;>
      simp [act, Fn.cpp, VMQuery.run, VMQuery.call, Fn.Gives, code_eq, ho, bind_eq] <;> aesop
  all_goals
    simp [act, Fn.cpp, VMQuery.run, VMQuery.call, Fn.Gives, code_eq, withStatus, ErrorHandler.call] <;> aesop

theorem act_ub_iff {fmt : Fmt K} {canOpen : String → Bool} {h : Nat} {fs : Files} {q : VMQuery K} {f : Fn K} :
    act fmt canOpen h fs q f = .ub ↔ VMQuery.run fmt canOpen ⟨q, fs, []⟩ f.cpp = .ub := by
  cases f
  case «open» disk =>
    cases ho : VMQuery.openDb disk q <;>
      simp [act, Fn.cpp, VMQuery.run, VMQuery.call, withStatus, ho, bind_eq]
  case queryVals names n =>
    cases ho : VMQuery.setQueryVals q names n <;>
      simp [act, Fn.cpp, VMQuery.run, VMQuery.call, withStatus, ho, bind_eq]
  case query n lon lat elev =>
    cases ho : VMQuery.query fmt q fs n lon lat elev <;>
      simp [act, Fn.cpp, VMQuery.run, VMQuery.call, ho, bind_eq]
  all_goals
    simp [act, Fn.cpp, VMQuery.run, VMQuery.call, withStatus]

/-! ### Files do not influence the objects -/

theorem query_fs {fmt : Fmt K} {q q' : VMQuery K} {fs fs' : Files} {n : Int} {lon lat elev : K} {v : List K}
    (h : VMQuery.query fmt q fs n lon lat elev = .ok (q', fs', v)) (fs2 : Files) :
    ∃ fs2', VMQuery.query fmt q fs2 n lon lat elev = .ok (q', fs2', v) := by
  unfold VMQuery.query at h ⊢
  split at h
  · cases h
  next hn =>
  rw [if_neg hn]
  split at h
  · next g db hg hdb =>
    split at h
    · cases h
    · cases h
    · next f hf =>
      dsimp only at h ⊢
      split at h
      · next vals s hc => cases h; exact ⟨_, rfl⟩
      · cases h
      · cases h
  · cases h

theorem handlerCall_fs (canOpen : String → Bool) (e : ErrorHandler) (fs fs2 : Files) (c : ErrCall) :
    (ErrorHandler.call canOpen (e, fs2) c).1 = (ErrorHandler.call canOpen (e, fs) c).1 := by
  cases c <;> simp only [ErrorHandler.call, ErrorHandler.setLogFilename, ErrorHandler.loggingOn]
  · split <;> rfl
  · split
    · split <;> rfl
    · rfl

theorem call_fs {fmt : Fmt K} {canOpen : String → Bool} {q : VMQuery K} {fs : Files} {outs : List (List K)} {c : VMQuery.Call K}
    {s : VMQuery.Session K} (h : VMQuery.call fmt canOpen ⟨q, fs, outs⟩ c = .ok s) :
    ∃ new, s.outs = outs ++ new ∧ ∀ fs2 outs2, ∃ fs2', VMQuery.call fmt canOpen ⟨q, fs2, outs2⟩ c = .ok ⟨s.q, fs2', outs2 ++ new⟩ := by
  cases c
  case query n lon lat elev =>
    simp only [VMQuery.call] at h ⊢
    cases hq : VMQuery.query fmt q fs n lon lat elev with
    | exc m => rw [hq] at h; cases h
    | ub => rw [hq] at h; cases h
    | ok r =>
      rw [hq] at h; cases h
      refine ⟨[r.2.2], rfl, fun fs2 outs2 => ?_⟩
      obtain ⟨fs2', h2⟩ := query_fs hq fs2
      exact ⟨fs2', by rw [h2]; rfl⟩
  case handler c =>
    cases h
    refine ⟨[], by simp, fun fs2 outs2 => ⟨(ErrorHandler.call canOpen (q.err, fs2) c).2, ?_⟩⟩
    simp only [VMQuery.call, List.append_nil]
    rw [handlerCall_fs canOpen q.err fs fs2 c]
  case geometry g =>
    simp only [VMQuery.call] at h ⊢
    cases hq : VMQuery.geometry q g with
    | exc m => rw [hq] at h; cases h
    | ub => rw [hq] at h; cases h
    | ok r => rw [hq] at h; cases h; exact ⟨[], by simp, fun fs2 outs2 => ⟨fs2, by simp⟩⟩
  case «open» g =>
    simp only [VMQuery.call] at h ⊢
    cases hq : VMQuery.openDb g q with
    | exc m => rw [hq] at h; cases h
    | ub => rw [hq] at h; cases h
    | ok r => rw [hq] at h; cases h; exact ⟨[], by simp, fun fs2 outs2 => ⟨fs2, by simp⟩⟩
  case queryVals names n =>
    simp only [VMQuery.call] at h ⊢
    cases hq : VMQuery.setQueryVals q names n with
    | exc m => rw [hq] at h; cases h
    | ub => rw [hq] at h; cases h
    | ok r => rw [hq] at h; cases h; exact ⟨[], by simp, fun fs2 outs2 => ⟨fs2, by simp⟩⟩
  all_goals
    cases h
    exact ⟨[], by simp, fun fs2 outs2 => ⟨fs2, by simp [VMQuery.call]⟩⟩

theorem run_fs {fmt : Fmt K} {canOpen : String → Bool} {cs : List (VMQuery.Call K)} {q : VMQuery K} {fs : Files}
    {outs : List (List K)} {s : VMQuery.Session K} (h : VMQuery.run fmt canOpen ⟨q, fs, outs⟩ cs = .ok s) :
    ∃ new, s.outs = outs ++ new ∧ ∀ fs2 outs2, ∃ fs2', VMQuery.run fmt canOpen ⟨q, fs2, outs2⟩ cs = .ok ⟨s.q, fs2', outs2 ++ new⟩ := by
  induction cs generalizing q fs outs with
  | nil => cases h; exact ⟨[], by simp, fun fs2 outs2 => ⟨fs2, by simp [VMQuery.run]⟩⟩
  | cons c cs ih =>
    unfold VMQuery.run at h ⊢
    cases hc : VMQuery.call fmt canOpen ⟨q, fs, outs⟩ c with
    | exc m => rw [hc] at h; cases h
    | ub => rw [hc] at h; cases h
    | ok t =>
      rw [hc, Outcome.bind_ok] at h
      obtain ⟨n1, e1, h1⟩ := call_fs hc
      obtain ⟨n2, e2, h2⟩ := ih h
      refine ⟨n1 ++ n2, by rw [e2, e1, List.append_assoc], fun fs2 outs2 => ?_⟩
      obtain ⟨fs3, h3⟩ := h1 fs2 outs2
      obtain ⟨fs4, h4⟩ := h2 fs3 (outs2 ++ n1)
      exact ⟨fs4, by rw [h3, Outcome.bind_ok, h4, List.append_assoc]⟩

theorem run_append {fmt : Fmt K} {canOpen : String → Bool} {cs ds : List (VMQuery.Call K)} {s t : VMQuery.Session K}
    (h : VMQuery.run fmt canOpen s cs = .ok t) : VMQuery.run fmt canOpen s (cs ++ ds) = VMQuery.run fmt canOpen t ds := by
  induction cs generalizing s with
  | nil => cases h; rfl
  | cons c cs ih =>
    unfold VMQuery.run at h
    rw [List.cons_append]
    rw [VMQuery.run]
    cases hc : VMQuery.call fmt canOpen s c with
    | exc m => rw [hc] at h; cases h
    | ub => rw [hc] at h; cases h
    | ok t1 => rw [hc, Outcome.bind_ok] at h; rw [Outcome.bind_ok]; exact ih h

/-! ### The table of objects -/

theorem put_same (w : World K) (h : Nat) (q : Option (VMQuery K)) : (w.put h q).objs h = q := by simp [World.put]
theorem put_other (w : World K) {h k : Nat} (hk : k ≠ h) (q : Option (VMQuery K)) : (w.put h q).objs k = w.objs k := by
  simp [World.put, hk]

/-- What one call does to the table, seen from the object at `h`. -/
theorem call_cases {fmt : Fmt K} {canOpen : String → Bool} {w w' : World K} (hw : w.Wf) {c : Call K} {r : Ret K}
    (hc : call fmt canOpen w c = .ok (w', r)) :
    w'.Wf ∧ w.next ≤ w'.next ∧ ∀ h, h ≠ 0 → h ≤ w.next →
      (w.objs h = none → w'.objs h = none) ∧
      ∀ q, w.objs h = some q → w'.objs h = none ∨ ∃ q', w'.objs h = some q' ∧
        ∀ fs outs, ∃ fs' new, VMQuery.run fmt canOpen ⟨q, fs, outs⟩ (callsOn h [c]) = .ok ⟨q', fs', outs ++ new⟩ ∧
          answersOn h [c] [r] = new := by
  cases c with
  | create g =>
    cases hc
    refine ⟨⟨?_, ?_⟩, by simp, fun h h0 hn => ⟨fun hnone => ?_, fun q hq => Or.inr ⟨q, ?_, fun fs outs => ⟨fs, [], ?_, rfl⟩⟩⟩⟩
    · show (w.put (w.next + 1) (some (VMQuery.init g))).objs 0 = none
      rw [put_other _ (by omega)]; exact hw.1
    · intro k hk
      show (w.put (w.next + 1) (some (VMQuery.init g))).objs k = none
      simp only at hk
      rw [put_other _ (by omega)]; exact hw.2 k (by omega)
    · show (w.put (w.next + 1) (some (VMQuery.init g))).objs h = none
      rw [put_other _ (by omega)]; exact hnone
    · show (w.put (w.next + 1) (some (VMQuery.init g))).objs h = some q
      rw [put_other _ (by omega)]; exact hq
    · simp [callsOn, VMQuery.run]
  | destroy f fx k =>
    simp only [call, destroyQuery] at hc
    split at hc
    · cases hc
      exact ⟨hw, le_rfl, fun h h0 hn => ⟨fun h => h, fun q hq => Or.inr ⟨q, hq, fun fs outs => ⟨fs, [], by simp [callsOn, VMQuery.run], rfl⟩⟩⟩⟩
    next hk0 =>
    split at hc
    · cases hc
    next q hq =>
    cases hd : VMQuery.destroy f fx q with
    | exc m => rw [hd] at hc; cases hc
    | ub => rw [hd] at hc; cases hc
    | ok u =>
      rw [hd, Outcome.bind_ok] at hc
      cases hc
      refine ⟨⟨?_, ?_⟩, le_rfl, fun h h0 hn => ⟨fun hnone => ?_, fun q hq => ?_⟩⟩
      · rw [put_other _ (Ne.symm hk0)]; exact hw.1
      · intro j hj
        by_cases h : j = k
        · subst h; rw [put_same]
        · rw [put_other _ h]; exact hw.2 j hj
      · by_cases h' : h = k
        · subst h'; rw [put_same]
        · rw [put_other _ h']; exact hnone
      · by_cases h' : h = k
        · subst h'; left; rw [put_same]
        · right
          exact ⟨q, by rw [put_other _ h']; exact hq, fun fs outs => ⟨fs, [], by simp [callsOn, VMQuery.run], rfl⟩⟩
  | fn f k =>
    simp only [call] at hc
    by_cases hk0 : k = 0
    · subst hk0
      have hww : w' = w := by
        cases f <;> (cases hc; rfl)
      have hans : ∀ h, h ≠ 0 → answersOn h [Call.fn f 0] [r] = [] := by
        intro h h0
        cases r with
        | answer n v => cases v <;> simp [answersOn, Ne.symm h0]
        | _ => rfl
      subst hww
      exact ⟨hw, le_rfl, fun h h0 hn => ⟨fun h => h, fun q hq => Or.inr ⟨q, hq, fun fs outs => ⟨fs, [],
        by simp [callsOn, VMQuery.run, Ne.symm h0], hans h h0⟩⟩⟩⟩
    cases hq : w.objs k with
    | none => rw [callFn_none hk0 hq] at hc; cases hc
    | some q =>
      rw [callFn_some hk0 hq] at hc
      cases ha : act fmt canOpen k w.fs q f with
      | exc m => rw [ha] at hc; cases hc
      | ub => rw [ha] at hc; cases hc
      | ok t =>
        rw [ha] at hc
        cases hc
        obtain ⟨outs0, hr, hg⟩ := act_iff.1 ha
        have hkn : k ≤ w.next := by
          by_contra h
          rw [hw.2 k (by omega)] at hq; cases hq
        refine ⟨⟨?_, ?_⟩, le_rfl, fun h h0 hn => ⟨fun hnone => ?_, fun q1 hq1 => Or.inr ?_⟩⟩
        · show (w.put k _).objs 0 = none
          rw [put_other _ (Ne.symm hk0)]; exact hw.1
        · intro j hj
          show (w.put k _).objs j = none
          simp only [World.put] at hj
          rw [put_other _ (by omega)]; exact hw.2 j hj
        · show (w.put k _).objs h = none
          rw [put_other _ (by rintro rfl; rw [hq] at hnone; cases hnone)]; exact hnone
        · by_cases h' : h = k
          · subst h'
            rw [hq] at hq1; cases hq1
            refine ⟨t.1, put_same _ _ _, fun fs outs => ?_⟩
            obtain ⟨new, e, hfs⟩ := run_fs hr
            obtain ⟨fs', h2⟩ := hfs fs outs
            refine ⟨fs', new, by simpa [callsOn] using h2, ?_⟩
            simp only [List.nil_append] at e
            subst e
            cases f
            case query n lon lat elev =>
              obtain ⟨v, h3, h4⟩ := hg
              rw [h4]
              simp only at h3
              rw [h3]
              simp [answersOn]
            all_goals
              simp only [Fn.Gives] at hg
              rw [hg]
              simp [Fn.cpp, VMQuery.run, VMQuery.call] at hr
            case «open» disk =>
              cases ho : VMQuery.openDb disk q with
              | exc m => rw [ho] at hr; simp at hr
              | ub => rw [ho] at hr; simp at hr
              | ok q2 => rw [ho] at hr; simp at hr; rw [hr.2.2]; rfl
            case queryVals names n =>
              cases ho : VMQuery.setQueryVals q names n with
              | exc m => rw [ho] at hr; simp at hr
              | ub => rw [ho] at hr; simp at hr
              | ok q2 => rw [ho] at hr; simp at hr; rw [hr.2.2]; rfl
            all_goals
              rw [hr.2.2]; rfl
          · refine ⟨q1, (put_other _ h' _).trans hq1, fun fs outs => ⟨fs, [], by simp [callsOn, VMQuery.run, Ne.symm h'], ?_⟩⟩
            rcases t with ⟨t1, t2, r⟩
            cases r with
            | answer n v => cases v <;> simp [answersOn, Ne.symm h']
            | _ => rfl

end CApi
end CenCalVM
