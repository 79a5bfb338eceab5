/-
Properties of the C and Fortran interfaces (C41, C42, C58).
-/
import Verif.Lemmas.Fortran
import Verif.Props.ExampleData

set_option linter.unusedSectionVars false

namespace CenCalVM
open CApi
variable {K : Type} [Field K] [LinearOrder K]

/-! ### Example data -/

/-- One database on disk. -/
def exCDisk : String → Option (Db ℚ) := fun n => if n = "model" then some exDb else none
/-- A history on two objects, interleaved. -/
def exCCalls : List (CApi.Call ℚ) :=
  [.create exGeom, .create exGeom, .fn (.filename "model") 1, .fn (.filename "missing") 2, .fn (.open exCDisk) 1,
   .fn (.open exCDisk) 2, .fn (.queryVals ["Vs", "Vp"] 2) 1, .fn (.query 2 220 40 (-100)) 1, .fn .errStatus 2,
   .fn (.query 2 220 40 (-100)) 0, .destroy false false 2, .fn (.query 2 220 40 (-200000)) 1]
/-- Codes, values and pointers, to compare. -/
def retKey : CApi.Ret ℚ → Int × List ℚ
  | .code n => (n, [])
  | .answer n v => (n, v.getD [])
  | .ptr h => (h, [])
  | .text _ => (0, [])
/-- The results of a history. -/
def retsOf : Outcome (World ℚ × List (CApi.Ret ℚ)) → Option (List (Int × List ℚ))
  | .ok r => some (r.2.map retKey)
  | _ => none
/-- The world after a history. -/
def worldOf (o : Outcome (World ℚ × List (CApi.Ret ℚ))) : World ℚ :=
  match o with
  | .ok r => r.1
  | _ => World.init fun _ => ""
/-- The results of a history. -/
def retListOf (o : Outcome (World ℚ × List (CApi.Ret ℚ))) : List (CApi.Ret ℚ) :=
  match o with
  | .ok r => r.2
  | _ => []

theorem retsOf_ok {o : Outcome (World ℚ × List (CApi.Ret ℚ))} {l} (h : retsOf o = some l) : o = .ok (worldOf o, retListOf o) := by
  cases o with
  | ok r => rfl
  | exc m => cases h
  | ub => cases h

/-! ### C41 -/

/-- C41, the part that holds, for a valid handle: a function returns normally iff the C++ calls it stands for do, leaves
the object and the files as these do and every other object as it is, and hands back the status after them (with the
values of a query).  Missing: the functions on the error handler return 0 whatever the status is, and 1 instead of 2 for
a null handle. -/
theorem C41_partial {fmt : Fmt K} {canOpen : String → Bool} {w w' : World K} {h : Nat} {q : VMQuery K} (h0 : h ≠ 0)
    (hq : w.objs h = some q) (f : Fn K) (r : Ret K) :
    callFn fmt canOpen w h f = .ok (w', r) ↔
      ∃ s, VMQuery.run fmt canOpen ⟨q, w.fs, []⟩ f.cpp = .ok s ∧ w'.objs h = some s.q ∧ w'.fs = s.fs ∧
        (∀ k, k ≠ h → w'.objs k = w.objs k) ∧ w'.next = w.next ∧ f.Gives h s r := by
  rw [callFn_some h0 hq]
  constructor
  · intro hc
    cases ha : act fmt canOpen h w.fs q f with
    | exc m => rw [ha] at hc; cases hc
    | ub => rw [ha] at hc; cases hc
    | ok t =>
      rw [ha] at hc
      cases hc
      obtain ⟨outs, h1, h2⟩ := act_iff.1 ha
      exact ⟨_, h1, put_same _ _ _, rfl, fun k hk => put_other _ hk _, rfl, h2⟩
  · rintro ⟨s, h1, h2, h3, h4, h5, h6⟩
    rw [act_iff.2 ⟨s.outs, h1, h6⟩]
    rcases w' with ⟨n', o', f'⟩
    simp only at h2 h3 h4 h5
    subst h3 h5
    show Outcome.ok ((⟨w.next, (w.put h (some s.q)).objs, s.fs⟩ : World K), r) = _
    congr 3
    funext k
    by_cases hk : k = h
    · subst hk; rw [h2]; exact put_same _ _ _
    · rw [h4 k hk]; exact put_other _ hk _

/-- C41: a function on a valid handle is undefined exactly when the C++ calls are. -/
theorem C41_ub {fmt : Fmt K} {canOpen : String → Bool} {w : World K} {h : Nat} {q : VMQuery K} (h0 : h ≠ 0)
    (hq : w.objs h = some q) (f : Fn K) :
    callFn fmt canOpen w h f = .ub ↔ VMQuery.run fmt canOpen ⟨q, w.fs, []⟩ f.cpp = .ub := by
  rw [callFn_some h0 hq, ← act_ub_iff (h := h)]
  cases act fmt canOpen h w.fs q f <;> simp [bind_eq]

/-- C41, null handle: nothing changes; the functions on query objects and the status function report ERROR (2), a query
among them without values; the pointers and texts are null, the other functions on the error handler return 1. -/
theorem C41_null (fmt : Fmt K) (canOpen : String → Bool) (w : World K) (f : Fn K) :
    ∃ r, callFn fmt canOpen w 0 f = .ok (w, r) ∧
      ((∃ n x y z, f = .query n x y z) → r = .answer 2 none) ∧ (f = .errorHandler → r = .ptr 0) ∧
      (f = .errMessage → r = .text none) ∧ (f.OnHandler → r = .code 1) ∧
      (¬ f.OnHandler → (∀ n x y z, f ≠ .query n x y z) → f ≠ .errorHandler → f ≠ .errMessage → r = .code 2) := by
  cases f <;> exact ⟨_, rfl, by simp, by simp, by simp, by simp [Fn.OnHandler], by simp [Fn.OnHandler]⟩

/-- C41, creation: a new valid handle to an object in its initial state, all others as before. -/
theorem C41_create (fmt : Fmt K) (canOpen : String → Bool) {w : World K} (hw : w.Wf) (g : Geom K) :
    ∃ w' h, CApi.call fmt canOpen w (.create g) = .ok (w', .ptr h) ∧ h ≠ 0 ∧ w.objs h = none ∧
      w'.objs h = some (VMQuery.init g) ∧ (∀ k, k ≠ h → w'.objs k = w.objs k) ∧ w'.fs = w.fs ∧ w'.Wf := by
  refine ⟨_, w.next + 1, rfl, by omega, hw.2 _ (by omega), put_same _ _ _, fun k hk => put_other _ hk _, rfl, ?_⟩
  exact (call_cases (fmt := fmt) (canOpen := canOpen) hw (c := .create g) rfl).1

/-- C41, destruction: returns 0, removes the object and nothing else, does nothing for a null handle. -/
theorem C41_destroy {fmt : Fmt K} {canOpen : String → Bool} {w w' : World K} {h : Nat} {f fx : Bool} {r : Ret K}
    (hw : w.Wf) (hc : CApi.call fmt canOpen w (.destroy f fx h) = .ok (w', r)) :
    r = .code 0 ∧ w'.objs h = none ∧ (∀ k, k ≠ h → w'.objs k = w.objs k) ∧ w'.fs = w.fs ∧ (h = 0 → w' = w) := by
  simp only [CApi.call, destroyQuery] at hc
  split at hc
  · next h0 => cases hc; subst h0; exact ⟨rfl, hw.1, fun _ _ => rfl, rfl, fun _ => rfl⟩
  next h0 =>
  split at hc
  · cases hc
  next q hq =>
  cases hd : VMQuery.destroy f fx q with
  | exc m => rw [hd] at hc; cases hc
  | ub => rw [hd] at hc; cases hc
  | ok u =>
    rw [hd, Outcome.bind_ok] at hc
    cases hc
    exact ⟨rfl, put_same _ _ _, fun k hk => put_other _ hk _, rfl, fun h => absurd h h0⟩

theorem World.init_wf (fs : Files) : (World.init fs : World K).Wf := ⟨rfl, fun _ _ => rfl⟩

example : (World.init (fun _ => "") : World ℚ).Wf ∧
    retsOf (CApi.run exFmt (fun _ => true) (World.init fun _ => "") exCCalls) =
      some [(1, []), (2, []), (0, []), (0, []), (0, []), (2, []), (0, []), (0, [2000, 4000]), (2, []), (2, []), (0, []),
        (1, [-999, -999])] :=
  ⟨World.init_wf _, by decide +kernel⟩

/-- C41 is false of the functions on the error handler: a null handle gives 1, which is the code of a warning. -/
theorem C41_false_null : ¬ ∀ (w : World ℚ) (f : Fn ℚ) (n : Int), callFn exFmt (fun _ => true) w 0 f = .ok (w, .code n) → n = 2 := by
  intro h
  exact absurd (h (World.init fun _ => "") .errResetStatus 1 rfl) (by decide)

/-- C41 is false of the functions on the error handler: they return 0 although the status is ERROR. -/
theorem C41_false_status : ¬ ∀ (w w' : World ℚ) (h : Nat) (q : VMQuery ℚ) (f : Fn ℚ) (n : Int), h ≠ 0 →
    callFn exFmt (fun _ => true) w h f = .ok (w', .code n) → w'.objs h = some q → n = q.err.status.code := by
  intro h
  have := h ((World.init fun _ => "").put 1 (some { exQ with err := exQ.err.error "bad" })) _ 1
    { exQ with err := (ErrorHandler.loggingOn (fun _ => true) (exQ.err.error "bad") (fun _ => "") false).1 }
    (.errLoggingOn 0) 0 (by decide) rfl rfl
  exact absurd this (by decide +kernel)

/-! ### C58 -/

/-- C58: objects reached through different handles do not influence each other.  After any history of C calls on any
number of objects, an object that is still there is as the C++ calls made through its own handle alone would leave it,
and the values returned for it are theirs, whatever the files hold. -/
theorem C58 {fmt : Fmt K} {canOpen : String → Bool} {w w' : World K} (hw : w.Wf) {h : Nat} (h0 : h ≠ 0) {q q' : VMQuery K}
    (hq : w.objs h = some q) {cs : List (CApi.Call K)} {rs : List (Ret K)}
    (hr : CApi.run fmt canOpen w cs = .ok (w', rs)) (hq' : w'.objs h = some q') (fs : Files) :
    ∃ fs', VMQuery.run fmt canOpen ⟨q, fs, []⟩ (callsOn h cs) = .ok ⟨q', fs', answersOn h cs rs⟩ := by
  have hn : h ≤ w.next := by
    by_contra hlt
    rw [hw.2 h (by omega)] at hq; cases hq
  -- an object once gone does not come back
  have gone : ∀ (cs : List (CApi.Call K)) (w w' : World K) (rs : List (Ret K)), w.Wf → h ≤ w.next → w.objs h = none →
      CApi.run fmt canOpen w cs = .ok (w', rs) → w'.objs h = none := by
    intro cs
    induction cs with
    | nil => intro w w' rs _ _ hn hr; cases hr; exact hn
    | cons c cs ih =>
      intro w w' rs hw hle hn hr
      unfold CApi.run at hr
      cases hc : CApi.call fmt canOpen w c with
      | exc m => rw [hc] at hr; cases hr
      | ub => rw [hc] at hr; cases hr
      | ok t =>
        rw [hc, Outcome.bind_ok] at hr
        obtain ⟨h1, h2, h3⟩ := call_cases hw (w' := t.1) (r := t.2) hc
        cases hrs : CApi.run fmt canOpen t.1 cs with
        | exc m => rw [hrs] at hr; cases hr
        | ub => rw [hrs] at hr; cases hr
        | ok u =>
          rw [hrs] at hr
          cases hr
          exact ih t.1 _ _ h1 (by omega) ((h3 h h0 hle).1 hn) hrs
  have main : ∀ (cs : List (CApi.Call K)) (w w' : World K) (rs : List (Ret K)) (q : VMQuery K) (fs : Files) (outs : List (List K)),
      w.Wf → h ≤ w.next → w.objs h = some q → CApi.run fmt canOpen w cs = .ok (w', rs) → w'.objs h = some q' →
      ∃ fs', VMQuery.run fmt canOpen ⟨q, fs, outs⟩ (callsOn h cs) = .ok ⟨q', fs', outs ++ answersOn h cs rs⟩ := by
    intro cs
    induction cs with
    | nil =>
      intro w w' rs q fs outs _ _ h1 hr h2
      cases hr
      rw [h1] at h2; cases h2
      exact ⟨fs, by simp [callsOn, VMQuery.run, answersOn]⟩
    | cons c cs ih =>
      intro w w' rs q fs outs hw hle h1 hr h2
      unfold CApi.run at hr
      cases hc : CApi.call fmt canOpen w c with
      | exc m => rw [hc] at hr; cases hr
      | ub => rw [hc] at hr; cases hr
      | ok t =>
        rw [hc, Outcome.bind_ok] at hr
        obtain ⟨h3, h4, h5⟩ := call_cases hw (w' := t.1) (r := t.2) hc
        cases hrs : CApi.run fmt canOpen t.1 cs with
        | exc m => rw [hrs] at hr; cases hr
        | ub => rw [hrs] at hr; cases hr
        | ok u =>
          rw [hrs] at hr
          cases hr
          rcases (h5 h h0 hle).2 q h1 with hnone | ⟨q1, hq1, hrun⟩
          · rw [gone cs t.1 _ _ h3 (by omega) hnone hrs] at h2; cases h2
          · obtain ⟨fs1, new, hr1, hans⟩ := hrun fs outs
            obtain ⟨fs2, hr2⟩ := ih t.1 _ _ q1 fs1 (outs ++ new) h3 (by omega) hq1 hrs h2
            refine ⟨fs2, ?_⟩
            have e1 : callsOn h (c :: cs) = callsOn h [c] ++ callsOn h cs := by
              simp [callsOn]
            have e2 : answersOn h (c :: cs) (t.2 :: u.2) = new ++ answersOn h cs u.2 := by
              rw [← hans]
              cases c with
              | create g => rfl
              | destroy a b k => rfl
              | fn f k =>
                rcases t with ⟨t1, r⟩
                cases r with
                | answer n v =>
                  cases v with
                  | none => rfl
                  | some v =>
                    simp only [answersOn]
                    split <;> rfl
                | _ => rfl
            rw [e1, run_append hr1, hr2]
            simp only [e2, List.append_assoc]
  obtain ⟨fs', h1⟩ := main cs w w' rs q fs [] hw hn hq hr hq'
  exact ⟨fs', by simpa using h1⟩

example : (worldOf (CApi.run exFmt (fun _ => true) (World.init fun _ => "") (exCCalls.take 2))).Wf ∧
    ((worldOf (CApi.run exFmt (fun _ => true) (World.init fun _ => "") (exCCalls.take 2))).objs 1).isSome = true ∧
    ((worldOf (CApi.run exFmt (fun _ => true) (World.init fun _ => "") exCCalls)).objs 1).isSome = true ∧
    ((worldOf (CApi.run exFmt (fun _ => true) (World.init fun _ => "") exCCalls)).objs 2).isSome = false ∧
    (callsOn 1 exCCalls).length = 5 ∧
    answersOn 1 exCCalls (retListOf (CApi.run exFmt (fun _ => true) (World.init fun _ => "") exCCalls)) = [[2000, 4000], [-999, -999]] := by
  refine ⟨?_, by decide +kernel, by decide +kernel, by decide +kernel, by decide +kernel, by decide +kernel⟩
  have h1 := (call_cases (fmt := exFmt) (canOpen := fun _ => true) (World.init_wf (K := ℚ) fun _ => "") (c := .create exGeom) rfl).1
  exact (call_cases (fmt := exFmt) (canOpen := fun _ => true) h1 (c := .create exGeom) rfl).1

/-! ### C42 -/

open Fortran in
/-- C42, the part that holds, for file names: if the character variable is terminated as a C string, its first word is
what reaches the library; every Fortran function acts as the C function it stands for.  Missing: a Fortran character
variable is padded with blanks, not terminated, and the length passed is not used (`C42_false_read`). -/
theorem C42_partial {fmt : Fmt K} {canOpen : String → Bool} {w : World K} {h : Nat} {f : Fortran.Fn K} {g : CApi.Fn K}
    (hs : Stands f g) : Fortran.callFn fmt canOpen w h f = CApi.callFn fmt canOpen w h g := by
  cases hs with
  | filename hv hl =>
    obtain ⟨text, h1, h2⟩ := hv.token
    simp only [Fortran.callFn, Fortran.filename]
    rw [if_pos hl, h1, Outcome.bind_ok, h2]; rfl
  | filenameExt hv hl =>
    obtain ⟨text, h1, h2⟩ := hv.token
    simp only [Fortran.callFn, Fortran.filenameExt]
    rw [if_pos hl, h1, Outcome.bind_ok, h2]; rfl
  | errLogFilename hv =>
    obtain ⟨text, h1, h2⟩ := hv.token
    simp only [Fortran.callFn, Fortran.errLogFilename]
    rw [h1, Outcome.bind_ok, h2]; rfl
  | _ => rfl

theorem exHolds : Fortran.Holds ("  model.etree   ".toList ++ [Fortran.NUL, 'x', 'y']) "model.etree" :=
  ⟨[' ', ' '], [' ', ' ', ' '], ['x', 'y'], by decide +kernel, by decide, by decide, by decide +kernel,
    Or.inr ⟨' ', [' ', ' '], rfl, by decide⟩, by decide⟩

example : Fortran.Stands (K := ℚ) (.filename ("  model.etree   ".toList ++ [Fortran.NUL, 'x', 'y']) 19) (.filename "model.etree") :=
  .filename exHolds (by decide)

/-- C42 is false of the code: a Fortran character variable, which has no terminating character, is read beyond its end,
although its length is passed. -/
theorem C42_false_read {canOpen : String → Bool} (fmt : Fmt K) (w : World K) (h : Nat) (var : List Char) (len : Int)
    (hv : Fortran.NUL ∉ var) :
    Fortran.callFn fmt canOpen w h (.filename var len) = .ub ∧ Fortran.callFn fmt canOpen w h (.filenameExt var len) = .ub ∧
      Fortran.callFn fmt canOpen w h (.errLogFilename var) = .ub := by
  refine ⟨?_, ?_, ?_⟩
  · simp only [Fortran.callFn, Fortran.filename, Fortran.cString_ub var hv, Outcome.bind_ub, ite_self]
  · simp only [Fortran.callFn, Fortran.filenameExt, Fortran.cString_ub var hv, Outcome.bind_ub, ite_self]
  · simp only [Fortran.callFn, Fortran.errLogFilename, Fortran.cString_ub var hv, Outcome.bind_ub]

example : Fortran.NUL ∉ "model.etree     ".toList := by decide +kernel

/-- C42, messages: with a valid handle the message is copied to the caller's variable, truncated to `len` characters or
filled up with terminating characters; nothing beyond `len` characters is written, and nothing else changes. -/
theorem C42_message {w : World K} {e : Nat} {q : VMQuery K} (h0 : e ≠ 0) (hq : w.objs e = some q) {var : List Char} {len : Nat}
    (hl : 0 < len) (hlen : len ≤ var.length) (hm : Fortran.NUL ∉ q.err.message.toList) :
    ∃ v, Fortran.errMessage var len w e = .ok (w, v, 0) ∧ v.length = var.length ∧ v.drop len = var.drop len ∧
      ∀ i < len, v[i]? = some (q.err.message.toList.getD i Fortran.NUL) := by
  have hself : ({ w.put e (some q) with fs := w.fs } : World K) = w := by
    rcases w with ⟨n, o, f⟩
    simp only [World.put]
    congr 1
    funext k
    by_cases hk : k = e
    · rw [if_pos hk, hk]; exact hq.symm
    · rw [if_neg hk]
  have h1 : CApi.errMessage w e = .ok (w, .text (some q.err.message)) := by
    unfold CApi.errMessage
    rw [use_some h0 hq]
    show Outcome.ok _ = _
    rw [hself]
  have hnat : ((len : Int)).toNat = len := by simp
  refine ⟨q.err.message.toList.take len ++ List.replicate (len - q.err.message.toList.length) Fortran.NUL ++ var.drop len, ?_, ?_, ?_, ?_⟩
  · unfold Fortran.errMessage
    rw [if_pos (by omega), h1, Outcome.bind_ok]
    dsimp only
    rw [hnat, Fortran.strncpy_eq hlen hm, Outcome.bind_ok]
  · simp; omega
  · have : (q.err.message.toList.take len ++ List.replicate (len - q.err.message.toList.length) Fortran.NUL).length = len := by
      simp; omega
    exact List.drop_left' this
  · intro i hi
    have hlen' : (q.err.message.toList.take len ++ List.replicate (len - q.err.message.toList.length) Fortran.NUL).length = len := by
      simp; omega
    rw [List.getElem?_append_left (by rw [hlen']; exact hi)]
    by_cases h : i < q.err.message.toList.length
    · rw [List.getElem?_append_left (by rw [List.length_take]; omega), List.getElem?_take, if_pos hi]
      rw [List.getD_eq_getElem?_getD, List.getElem?_eq_getElem h]; rfl
    · rw [List.getElem?_append_right (by rw [List.length_take]; omega), List.getElem?_replicate]
      rw [if_pos (by rw [List.length_take]; omega), List.getD_eq_getElem?_getD, List.getElem?_eq_none (by omega)]
      rfl

/-- The variable after a message has been copied. -/
def exMessage (len : Nat) : Option String :=
  match Fortran.errMessage "xxxxxxxx".toList len ((World.init fun _ => "").put 1 (some { exQ with err := exQ.err.error "bad" })) 1 with
  | .ok r => some (String.ofList r.2.1)
  | _ => none

example : exMessage 2 = some "baxxxxxx" ∧ exMessage 5 = some (String.ofList ("bad".toList ++ [Fortran.NUL, Fortran.NUL] ++ "xxx".toList)) ∧
    exMessage 9 = none := ⟨by decide +kernel, by decide +kernel, by decide +kernel⟩

/-- C42 is false of the code for a null handle: the error is noted, and then the null pointer is copied from. -/
theorem C42_false_null (w : World K) (var : List Char) (len : Int) : Fortran.errMessage var len w 0 = .ub := by
  unfold Fortran.errMessage
  split <;> rfl

end CenCalVM
