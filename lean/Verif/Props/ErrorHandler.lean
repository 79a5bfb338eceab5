/-
Properties C08, C09: error handler.
-/
import Verif.Model.ErrorHandler
import Mathlib.Data.List.Induction

namespace CenCalVM

/-! ### Specification -/

/-- The calls that concern the status. -/
def ErrCall.isStatusCall : ErrCall → Bool
  | .error _ => true
  | .warning _ => true
  | .resetStatus => true
  | _ => false

/-- Status and message after a history: those of its last status call. -/
def lastReport (cs : List ErrCall) : Status × String :=
  match cs.reverse.find? ErrCall.isStatusCall with
  | some (.error m) => (.ERROR, m)
  | some (.warning m) => (.WARNING, m)
  | _ => (.OK, "")

/-- Messages logged while logging is on, `on` being the initial state. -/
def loggedWhileOn : Bool → List ErrCall → List String
  | _, [] => []
  | on, .log m :: cs => if on then m :: loggedWhileOn on cs else loggedWhileOn on cs
  | _, .loggingOn b :: cs => loggedWhileOn b cs
  | on, _ :: cs => loggedWhileOn on cs

/-- The call names a log file. -/
def ErrCall.isLogFilename : ErrCall → Bool
  | .logFilename _ => true
  | _ => false

/-! ### C08 -/

theorem run_append (o : String → Bool) (s : ErrorHandler × Files) (cs ds : List ErrCall) :
    ErrorHandler.run o s (cs ++ ds) = ErrorHandler.run o (ErrorHandler.run o s cs) ds := by
  simp [ErrorHandler.run, List.foldl_append]

/-- C08: after any history on a new handler, status and message are those of the last error, warning or reset
call, and OK with an empty message if there was none; logging calls, opening files and failures to open
them have no influence. -/
theorem C08 (canOpen : String → Bool) (fs : Files) (cs : List ErrCall) :
    let h := (ErrorHandler.run canOpen (ErrorHandler.init, fs) cs).1
    (h.status, h.message) = lastReport cs := by
  induction cs using List.reverseRecOn with
  | nil => rfl
  | append_singleton cs c ih =>
    rw [run_append]
    simp only at ih ⊢
    cases c with
    | error m => simp [ErrorHandler.run, ErrorHandler.call, ErrorHandler.error, lastReport,
        List.find?_cons, ErrCall.isStatusCall]
    | warning m => simp [ErrorHandler.run, ErrorHandler.call, ErrorHandler.warning, lastReport,
        List.find?_cons, ErrCall.isStatusCall]
    | resetStatus => simp [ErrorHandler.run, ErrorHandler.call, ErrorHandler.resetStatus, lastReport,
        ErrCall.isStatusCall]
    | logFilename n =>
      have hs : lastReport (cs ++ [.logFilename n]) = lastReport cs := by
        simp [lastReport, ErrCall.isStatusCall]
      rw [hs, ← ih]
      simp only [ErrorHandler.run, List.foldl_cons, List.foldl_nil, ErrorHandler.call,
        ErrorHandler.setLogFilename]
      split <;> rfl
    | loggingOn b =>
      have hs : lastReport (cs ++ [.loggingOn b]) = lastReport cs := by
        simp [lastReport, ErrCall.isStatusCall]
      rw [hs, ← ih]
      simp only [ErrorHandler.run, List.foldl_cons, List.foldl_nil, ErrorHandler.call,
        ErrorHandler.loggingOn]
      split
      · split <;> rfl
      · rfl
    | log m =>
      have hs : lastReport (cs ++ [.log m]) = lastReport cs := by
        simp [lastReport, ErrCall.isStatusCall]
      rw [hs, ← ih]
      simp [ErrorHandler.run, ErrorHandler.call]

example : lastReport [.error "a", .resetStatus, .warning "b", .log "x", .loggingOn false] = (.WARNING, "b") ∧
    lastReport [.error "a", .resetStatus, .log "x"] = (.OK, "") := by decide

/-! ### C09 -/

theorem files_set_self {fs : Files} {n s : String} (h : n ≠ NULLFILE) : (fs.set n s) n = s := by
  simp [Files.set, h]

theorem files_set_other {fs : Files} {n m s : String} (h : m ≠ n) : (fs.set n s) m = fs m := by
  unfold Files.set; split
  · rfl
  · simp [h]

/-- Invariant of the calls after the file was named. -/
theorem log_run (canOpen : String → Bool) (n : String) (hn : n ≠ NULLFILE) (hne : n.length > 0)
    (hopen : canOpen n = true) (cs : List ErrCall) (hcs : ∀ c ∈ cs, c.isLogFilename = false)
    (h : ErrorHandler) (fs : Files) (on : Bool) (hname : h.logFilename = n)
    (hsink : h.sink = some (if on then n else NULLFILE)) :
    let r := ErrorHandler.run canOpen (h, fs) cs
    r.2 n = fs n ++ String.join (loggedWhileOn on cs) ∧ ∀ m, m ≠ n → r.2 m = fs m := by
  induction cs generalizing h fs on with
  | nil => simp [ErrorHandler.run, loggedWhileOn, String.join]
  | cons c cs ih =>
    have hcs' : ∀ c ∈ cs, c.isLogFilename = false := fun d hd => hcs d (by simp [hd])
    have hc := hcs c (by simp)
    simp only [ErrorHandler.run, List.foldl_cons] at *
    cases c with
    | error m => exact ih hcs' (h.error m) fs on hname hsink
    | warning m => exact ih hcs' (h.warning m) fs on hname hsink
    | resetStatus => exact ih hcs' h.resetStatus fs on hname hsink
    | logFilename m => simp [ErrCall.isLogFilename] at hc
    | loggingOn b =>
      have := ih hcs' (h.loggingOn canOpen fs b).1 fs b ?_ ?_
      · have h2 : (h.loggingOn canOpen fs b) = ((h.loggingOn canOpen fs b).1, fs) := by
          unfold ErrorHandler.loggingOn; split
          · split <;> rfl
          · rfl
        simp only [ErrorHandler.call, loggedWhileOn]
        rw [h2]; exact this
      · unfold ErrorHandler.loggingOn; split
        · split <;> exact hname
        · exact hname
      · unfold ErrorHandler.loggingOn
        cases b
        · simp
        · simp [hname, hopen, hne]
    | log m =>
      simp only [ErrorHandler.call]
      cases on with
      | true =>
        have hl : h.log fs m = fs.set n (fs n ++ m) := by
          simp [ErrorHandler.log, hsink]
        rw [hl]
        obtain ⟨h1, h2⟩ := ih hcs' h (fs.set n (fs n ++ m)) true hname hsink
        refine ⟨?_, ?_⟩
        · rw [h1, files_set_self hn]
          simp [loggedWhileOn, String.join_cons, String.append_assoc]
        · intro k hk; rw [h2 k hk, files_set_other hk]
      | false =>
        have hl : h.log fs m = fs := by
          simp [ErrorHandler.log, hsink, Files.set]
        rw [hl]
        exact ih hcs' h fs false hname hsink

/-- C09: after any history in which `n` was the last log file named (and can be opened), file `n` contains
exactly the messages logged afterwards while logging was on, in order; no other file has changed since. -/
theorem C09 (canOpen : String → Bool) (fs : Files) (before after : List ErrCall) (n : String)
    (hn : n ≠ NULLFILE) (hne : n ≠ "") (hopen : canOpen n = true)
    (hafter : ∀ c ∈ after, c.isLogFilename = false) :
    let s := ErrorHandler.run canOpen (ErrorHandler.init, fs) before
    let r := ErrorHandler.run canOpen (ErrorHandler.init, fs) (before ++ .logFilename n :: after)
    r.2 n = String.join (loggedWhileOn true after) ∧ ∀ m, m ≠ n → r.2 m = s.2 m := by
  intro s r
  have hr : r = ErrorHandler.run canOpen
      ({ s.1 with logFilename := n, sink := some n }, s.2.set n "") after := by
    show ErrorHandler.run canOpen (ErrorHandler.init, fs) (before ++ .logFilename n :: after) = _
    rw [run_append]
    show ErrorHandler.run canOpen (ErrorHandler.call canOpen s (.logFilename n)) after = _
    simp [ErrorHandler.call, ErrorHandler.setLogFilename, hopen]
  have hlen : n.length > 0 := by
    rcases Nat.eq_zero_or_pos n.length with h | h
    · exact absurd (String.length_eq_zero_iff.1 h) hne
    · exact h
  obtain ⟨h1, h2⟩ := log_run canOpen n hn hlen hopen after hafter
    { s.1 with logFilename := n, sink := some n } (s.2.set n "") true rfl rfl
  rw [hr]
  refine ⟨?_, ?_⟩
  · rw [h1, files_set_self hn]; simp
  · intro m hm; rw [h2 m hm, files_set_other hm]

example : ∀ c ∈ [ErrCall.log "a", .loggingOn false, .log "b", .loggingOn true, .log "c"],
    c.isLogFilename = false := by decide
example : String.join (loggedWhileOn true
    [ErrCall.log "a", .loggingOn false, .log "b", .error "e", .loggingOn true, .log "c"]) = "ac" := by
  decide

/-- C09, default: a handler on which no log file was ever named writes to no file. -/
theorem C09_default (canOpen : String → Bool) (hnull : canOpen NULLFILE = true) (fs : Files)
    (cs : List ErrCall) (hcs : ∀ c ∈ cs, c.isLogFilename = false) :
    (ErrorHandler.run canOpen (ErrorHandler.init, fs) cs).2 = fs := by
  have aux : ∀ (cs : List ErrCall), (∀ c ∈ cs, c.isLogFilename = false) → ∀ h : ErrorHandler,
      h.logFilename = NULLFILE → h.sink = some NULLFILE →
      (ErrorHandler.run canOpen (h, fs) cs).2 = fs := by
    intro cs
    induction cs with
    | nil => intros; rfl
    | cons c cs ih =>
      intro hcs h h1 h2
      have hcs' : ∀ c ∈ cs, c.isLogFilename = false := fun d hd => hcs d (by simp [hd])
      have hc := hcs c (by simp)
      simp only [ErrorHandler.run, List.foldl_cons] at *
      cases c with
      | error m => exact ih hcs' _ h1 h2
      | warning m => exact ih hcs' _ h1 h2
      | resetStatus => exact ih hcs' _ h1 h2
      | logFilename m => simp [ErrCall.isLogFilename] at hc
      | loggingOn b =>
        have h3 : ErrorHandler.call canOpen (h, fs) (.loggingOn b) = ({ h with sink := some NULLFILE }, fs) := by
          simp only [ErrorHandler.call, ErrorHandler.loggingOn, h1, hnull]
          split <;> simp
        rw [h3]; exact ih hcs' _ h1 rfl
      | log m =>
        have h3 : ErrorHandler.call canOpen (h, fs) (.log m) = (h, fs) := by
          simp [ErrorHandler.call, ErrorHandler.log, h2, Files.set]
        rw [h3]; exact ih hcs' _ h1 h2
  exact aux cs hcs _ rfl rfl

example : ∀ c ∈ [ErrCall.log "a", .loggingOn true, .log "b"], c.isLogFilename = false := by decide

end CenCalVM
