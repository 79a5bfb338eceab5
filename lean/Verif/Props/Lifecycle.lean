/-
Properties C24, C25: settings, opening and closing, for all histories of calls.
-/
import Verif.Model.QueryApi
import Verif.Props.QueryValues

set_option linter.unusedSectionVars false

namespace CenCalVM
open VMQuery

section
variable {K : Type} [Field K] [LinearOrder K] [IsStrictOrderedRing K]

/-! ### C24 -/

/-- The positive resolutions set by a history, in order. -/
def resolutionsSet (cs : List (Call K)) : List K :=
  cs.filterMap fun
    | .queryRes r => if 0 < r then some r else none
    | _ => none

/-- The positive cache sizes set by a history, in order. -/
def cacheSizesSet (cs : List (Call K)) : List Int :=
  cs.filterMap fun
    | .cacheSize n => if 0 < n then some n else none
    | _ => none

/-- The positive cache sizes of the extended model set by a history, in order. -/
def cacheSizesExtSet (cs : List (Call K)) : List Int :=
  cs.filterMap fun
    | .cacheSizeExt n => if 0 < n then some n else none
    | _ => none

/-- The file names set by a history, in order. -/
def filenamesSet (cs : List (Call K)) : List String :=
  cs.filterMap fun
    | .filename n => some n
    | _ => none

/-- The file names of the extended model set by a history, in order. -/
def filenamesExtSet (cs : List (Call K)) : List String :=
  cs.filterMap fun
    | .filenameExt n => some n
    | _ => none

/-- The squash settings made by a history, in order. -/
def squashSet (cs : List (Call K)) : List (Bool × K) :=
  cs.filterMap fun
    | .squash b l => some (b, l)
    | _ => none

/-- The query types set by a history, in order; other integers are no query type. -/
def queryTypesSet (cs : List (Call K)) : List QueryType :=
  cs.filterMap fun
    | .queryType n => if n = 0 then some .MAXRES else if n = 1 then some .FIXEDRES else if n = 2 then some .WAVERES
      else none
    | _ => none

theorem query_keeps {fmt : Fmt K} {q : VMQuery K} {fs : Files} {n : Int} {lon lat elev : K}
    {r : VMQuery K × Files × List K} (h : query fmt q fs n lon lat elev = .ok r) : ∃ e, r.1 = { q with err := e } := by
  obtain ⟨-, g, db, f, s, -, -, -, -, -, hq⟩ := query_ok (q' := r.1) (fs' := r.2.1) (vals := r.2.2) h
  exact ⟨_, hq⟩

theorem run_last {fmt : Fmt K} {canOpen : String → Bool} {α : Type} (π : VMQuery K → α) (f : Call K → Option α)
    (hstep : ∀ s c s', call fmt canOpen s c = .ok s' → π s'.q = (f c).getD (π s.q)) (cs : List (Call K)) :
    ∀ s s', run fmt canOpen s cs = .ok s' → π s'.q = (cs.filterMap f).getLastD (π s.q) := by
  induction cs with
  | nil => intro s s' h; cases h; rfl
  | cons c cs ih =>
    intro s s' h
    unfold run at h
    cases hc : call fmt canOpen s c with
    | exc m => rw [hc] at h; cases h
    | ub => rw [hc] at h; cases h
    | ok s1 =>
      rw [hc, Outcome.bind_ok] at h
      rw [ih s1 s' h, hstep s c s1 hc]
      cases hf : f c with
      | none => rw [List.filterMap_cons_none hf]; rfl
      | some a => rw [List.filterMap_cons_some hf, List.getLastD_cons]; rfl

/-- What a successful call can do to the query object, for calls other than settings. -/
theorem call_other {fmt : Fmt K} {canOpen : String → Bool} {s s' : Session K} {c : Call K}
    (h : call fmt canOpen s c = .ok s') :
    (∃ r, c = .queryRes r) ∨ (∃ n, c = .cacheSize n) ∨ (∃ n, c = .cacheSizeExt n) ∨ (∃ n, c = .filename n) ∨
    (∃ n, c = .filenameExt n) ∨ (∃ b l, c = .squash b l) ∨ (∃ n, c = .queryType n) ∨
    ((∀ r, c ≠ .queryRes r) ∧ (∀ n, c ≠ .cacheSize n) ∧ (∀ n, c ≠ .cacheSizeExt n) ∧ (∀ n, c ≠ .filename n) ∧
      (∀ n, c ≠ .filenameExt n) ∧ (∀ b l, c ≠ .squash b l) ∧ (∀ n, c ≠ .queryType n) ∧
      ∃ g e d dx v, s'.q = { s.q with geom := g, err := e, db := d, dbExt := dx, queryVals := v }) := by
  cases c with
  | queryRes r => exact Or.inl ⟨_, rfl⟩
  | cacheSize n => exact Or.inr (Or.inl ⟨_, rfl⟩)
  | cacheSizeExt n => exact Or.inr (Or.inr (Or.inl ⟨_, rfl⟩))
  | filename n => exact Or.inr (Or.inr (Or.inr (Or.inl ⟨_, rfl⟩)))
  | filenameExt n => exact Or.inr (Or.inr (Or.inr (Or.inr (Or.inl ⟨_, rfl⟩))))
  | squash b l => exact Or.inr (Or.inr (Or.inr (Or.inr (Or.inr (Or.inl ⟨_, _, rfl⟩)))))
  | queryType n => exact Or.inr (Or.inr (Or.inr (Or.inr (Or.inr (Or.inr (Or.inl ⟨_, rfl⟩))))))
  | geometry g =>
    iterate 7 right
    refine ⟨by simp, by simp, by simp, by simp, by simp, by simp, by simp, ?_⟩
    simp only [call, geometry] at h
    split at h
    · cases h; exact ⟨_, _, _, _, _, rfl⟩
    · cases h
    · cases h; exact ⟨_, _, _, _, _, rfl⟩
  | «open» disk =>
    iterate 7 right
    refine ⟨by simp, by simp, by simp, by simp, by simp, by simp, by simp, ?_⟩
    simp only [call, openDb, openMain, openExt] at h
    repeat' (split at h)
    all_goals first
      | cases h
      | (simp only [Outcome.bind_ok] at h
         repeat' (split at h)
         all_goals first
           | (cases h; done)
           | (cases h; exact ⟨_, _, _, _, _, rfl⟩))
  | close f fx =>
    iterate 7 right
    refine ⟨by simp, by simp, by simp, by simp, by simp, by simp, by simp, ?_⟩
    cases h
    exact ⟨_, _, _, _, _, rfl⟩
  | queryVals names n =>
    iterate 7 right
    refine ⟨by simp, by simp, by simp, by simp, by simp, by simp, by simp, ?_⟩
    simp only [call, setQueryVals] at h
    repeat' (split at h)
    · cases h; exact ⟨_, _, _, _, _, rfl⟩
    · cases h
    · cases h; exact ⟨_, _, _, _, _, rfl⟩
  | query n lon lat elev =>
    iterate 7 right
    refine ⟨by simp, by simp, by simp, by simp, by simp, by simp, by simp, ?_⟩
    simp only [call] at h
    cases hr : query fmt s.q s.fs n lon lat elev with
    | exc m => rw [hr] at h; cases h
    | ub => rw [hr] at h; cases h
    | ok r =>
      rw [hr] at h; cases h
      obtain ⟨e, he⟩ := query_keeps hr
      exact ⟨_, _, _, _, _, he⟩
  | handler c =>
    iterate 7 right
    refine ⟨by simp, by simp, by simp, by simp, by simp, by simp, by simp, ?_⟩
    cases h
    exact ⟨_, _, _, _, _, rfl⟩

/-- C24: after any history of calls (settings, queries, opening, closing, ...), each setting is the last valid one
made by the history, or the one before it if there was none. -/
theorem C24 {fmt : Fmt K} {canOpen : String → Bool} {s s' : Session K} {cs : List (Call K)}
    (h : run fmt canOpen s cs = .ok s') :
    s'.q.queryRes = (resolutionsSet cs).getLastD s.q.queryRes ∧
    s'.q.cacheSize = (cacheSizesSet cs).getLastD s.q.cacheSize ∧
    s'.q.cacheSizeExt = (cacheSizesExtSet cs).getLastD s.q.cacheSizeExt ∧
    s'.q.filename = (filenamesSet cs).getLastD s.q.filename ∧
    s'.q.filenameExt = (filenamesExtSet cs).getLastD s.q.filenameExt ∧
    (s'.q.squashTopo, s'.q.squashLimit) = (squashSet cs).getLastD (s.q.squashTopo, s.q.squashLimit) ∧
    s'.q.queryFn = (queryTypesSet cs).getLastD s.q.queryFn := by
  refine ⟨run_last (·.queryRes) _ ?_ cs s s' h, run_last (·.cacheSize) _ ?_ cs s s' h,
    run_last (·.cacheSizeExt) _ ?_ cs s s' h, run_last (·.filename) _ ?_ cs s s' h,
    run_last (·.filenameExt) _ ?_ cs s s' h, run_last (fun q => (q.squashTopo, q.squashLimit)) _ ?_ cs s s' h,
    run_last (·.queryFn) _ ?_ cs s s' h⟩
  all_goals
    intro s c s' h
    rcases call_other h with ⟨r, rfl⟩ | ⟨r, rfl⟩ | ⟨r, rfl⟩ | ⟨r, rfl⟩ | ⟨r, rfl⟩ | ⟨r, l, rfl⟩ | ⟨r, rfl⟩ |
      ⟨h1, h2, h3, h4, h5, h6, h7, g, e, d, dx, v, hq⟩
    any_goals (cases h; simp only [setQueryRes, setCacheSize, setCacheSizeExt, setFilename, setFilenameExt, squash,
      queryType]; repeat' split)
    any_goals rfl
    all_goals simp_all

/-- Erase the cache sizes. -/
def forgetCaches (s : Session K) : Session K := { s with q := { s.q with cacheSize := 0, cacheSizeExt := 0 } }

/-- Calls setting a cache size. -/
def isCacheCall : Call K → Bool
  | .cacheSize _ => true
  | .cacheSizeExt _ => true
  | _ => false

/-- The same session with other cache sizes. -/
def withCaches (s : Session K) (a b : Int) : Session K := { s with q := { s.q with cacheSize := a, cacheSizeExt := b } }

/-- The outcome with the cache sizes erased. -/
def Outcome.forget : Outcome (Session K) → Outcome (Session K)
  | .ok s => .ok (forgetCaches s)
  | .exc m => .exc m
  | .ub => .ub

/-- Cache sizes do not influence a query. -/
theorem query_caches (fmt : Fmt K) (q : VMQuery K) (a b : Int) (fs : Files) (n : Int) (lon lat elev : K) :
    query fmt { q with cacheSize := a, cacheSizeExt := b } fs n lon lat elev = (do
      let r ← query fmt q fs n lon lat elev
      .ok ({ r.1 with cacheSize := a, cacheSizeExt := b }, r.2.1, r.2.2)) := by
  obtain ⟨q1, hq1⟩ : ∃ q1, q1 = { q with cacheSize := a, cacheSizeExt := b } := ⟨_, rfl⟩
  have hcv : ∀ g db p st l, copyValues q1 g db lon lat elev p st l = copyValues q g db lon lat elev p st l := by
    intro g db p st l
    induction l generalizing st with
    | nil => rfl
    | cons v l ih =>
      unfold copyValues
      have h1 : copyValue q1 g db lon lat elev p st v = copyValue q g db lon lat elev p st v := by rw [hq1]; rfl
      rw [h1]
      cases copyValue q g db lon lat elev p st v with
      | ok r => simp only [Outcome.bind_ok, ih]
      | exc m => rfl
      | ub => rfl
  have hf : ∀ g db, fetch fmt q1 g db ⟨⟨0, 0, 0, 0⟩, .leaf⟩ lon lat elev =
      fetch fmt q g db ⟨⟨0, 0, 0, 0⟩, .leaf⟩ lon lat elev := by intro g db; rw [hq1]; rfl
  have h1 : q1.queryVals = q.queryVals := by rw [hq1]
  have h2 : q1.geom = q.geom := by rw [hq1]
  have h3 : q1.db = q.db := by rw [hq1]
  rw [← hq1]
  unfold query
  rw [h1, h2, h3]
  simp only [hf, hcv]
  by_cases hn : n ≠ q.queryVals.length
  · rw [if_pos hn, if_pos hn]; rfl
  · rw [if_neg hn, if_neg hn]
    cases q.geom with
    | none => rfl
    | some g =>
      cases q.db with
      | none => rfl
      | some db =>
        dsimp only
        cases fetch fmt q g db ⟨⟨0, 0, 0, 0⟩, .leaf⟩ lon lat elev with
        | ub => rfl
        | exc m => rfl
        | ok f =>
          dsimp only
          cases copyValues q g db lon lat elev f.payload _ q.queryVals with
          | ok r => subst hq1; rfl
          | exc m => rfl
          | ub => rfl

theorem run_cons (fmt : Fmt K) (canOpen : String → Bool) (s : Session K) (c : Call K) (cs : List (Call K)) :
    run fmt canOpen s (c :: cs) = (do
      let s ← call fmt canOpen s c
      run fmt canOpen s cs) := rfl

theorem call_caches (fmt : Fmt K) (canOpen : String → Bool) (s : Session K) {a b : Int} (ha : 0 < a) (hb : 0 < b)
    (hs : 0 < s.q.cacheSize) (hs' : 0 < s.q.cacheSizeExt) {c : Call K} (hc : isCacheCall c = false) :
    call fmt canOpen (withCaches s a b) c = (do
      let s' ← call fmt canOpen s c
      .ok (withCaches s' a b)) ∧
    ∀ s', call fmt canOpen s c = .ok s' → s'.q.cacheSize = s.q.cacheSize ∧ s'.q.cacheSizeExt = s.q.cacheSizeExt := by
  constructor
  · cases c with
    | cacheSize n => cases hc
    | cacheSizeExt n => cases hc
    | geometry g =>
      simp only [call, geometry, withCaches]
      split <;> rfl
    | «open» disk =>
      simp only [call, openDb, openMain, openExt, withCaches, ha, hs, gt_iff_lt, if_true]
      repeat' split
      all_goals first
        | rfl
        | (simp only [Outcome.bind_ok]; repeat' split
           all_goals first
             | rfl)
    | close f fx => rfl
    | queryType n =>
      simp only [call, queryType, withCaches, Outcome.bind_ok]
      repeat' split
      all_goals rfl
    | queryVals names n =>
      simp only [call, setQueryVals, withCaches]
      repeat' split
      all_goals rfl
    | queryRes r =>
      simp only [call, setQueryRes, withCaches, Outcome.bind_ok]
      split <;> rfl
    | filename n => rfl
    | filenameExt n => rfl
    | squash f l => rfl
    | query n lon lat elev =>
      have hq := query_caches fmt s.q a b s.fs n lon lat elev
      simp only [call, withCaches, hq]
      cases query fmt s.q s.fs n lon lat elev with
      | ok r => rfl
      | exc m => rfl
      | ub => rfl
    | handler c => rfl
  · intro s' h
    rcases call_other h with ⟨r, rfl⟩ | ⟨r, rfl⟩ | ⟨r, rfl⟩ | ⟨r, rfl⟩ | ⟨r, rfl⟩ | ⟨r, l, rfl⟩ | ⟨r, rfl⟩ |
      ⟨h1, h2, h3, h4, h5, h6, h7, g, e, d, dx, v, hq⟩
    · cases h; simp only [setQueryRes]; split <;> exact ⟨rfl, rfl⟩
    · cases hc
    · cases hc
    · cases h; exact ⟨rfl, rfl⟩
    · cases h; exact ⟨rfl, rfl⟩
    · cases h; exact ⟨rfl, rfl⟩
    · cases h; simp only [queryType]; repeat' split
      all_goals exact ⟨rfl, rfl⟩
    · rw [hq]; exact ⟨rfl, rfl⟩

/-- C24: cache sizes have no influence: leaving all calls that set them out of a history changes neither the
values returned by the queries nor anything else but the cache sizes themselves. -/
theorem C24_cache (fmt : Fmt K) (canOpen : String → Bool) (s : Session K) (cs : List (Call K))
    (h1 : 0 < s.q.cacheSize) (h2 : 0 < s.q.cacheSizeExt) :
    (run fmt canOpen s cs).forget = (run fmt canOpen s (cs.filter fun c => !isCacheCall c)).forget := by
  have gen : ∀ (cs : List (Call K)) (s : Session K), 0 < s.q.cacheSize → 0 < s.q.cacheSizeExt → ∀ a b : Int, 0 < a →
      0 < b → (run fmt canOpen (withCaches s a b) cs).forget =
        (run fmt canOpen s (cs.filter fun c => !isCacheCall c)).forget := by
    intro cs
    induction cs with
    | nil => intro s _ _ a b _ _; rfl
    | cons c cs ih =>
      intro s h1 h2 a b ha hb
      by_cases hc : isCacheCall c = true
      · rw [List.filter_cons_of_neg (by simp [hc])]
        have : ∃ a' b', 0 < a' ∧ 0 < b' ∧ call fmt canOpen (withCaches s a b) c = .ok (withCaches s a' b') := by
          cases c with
          | cacheSize n =>
            simp only [call, setCacheSize]
            split
            · exact ⟨n, b, by assumption, hb, rfl⟩
            · exact ⟨a, b, ha, hb, rfl⟩
          | cacheSizeExt n =>
            simp only [call, setCacheSizeExt]
            split
            · exact ⟨a, n, ha, by assumption, rfl⟩
            · exact ⟨a, b, ha, hb, rfl⟩
          | _ => cases hc
        obtain ⟨a', b', ha', hb', h⟩ := this
        rw [run_cons, h, Outcome.bind_ok]
        exact ih s h1 h2 a' b' ha' hb'
      · rw [List.filter_cons_of_pos (by simp [hc])]
        obtain ⟨h3, h4⟩ := call_caches fmt canOpen s ha hb h1 h2 (c := c) (by simpa using hc)
        rw [run_cons, run_cons, h3]
        cases hs : call fmt canOpen s c with
        | exc m => rfl
        | ub => rfl
        | ok s' =>
          rw [Outcome.bind_ok, Outcome.bind_ok, Outcome.bind_ok]
          obtain ⟨h5, h6⟩ := h4 s' hs
          exact ih s' (by rw [h5]; exact h1) (by rw [h6]; exact h2) a b ha hb
  exact gen cs s h1 h2 _ _ h1 h2

end

/-- Two databases on disk for the examples. -/
def exDisk : String → Option (Db ℚ)
  | "det" => some exDb
  | "ext" => some exDbExt
  | _ => none

/-- A new query object. -/
def exNew : Session ℚ := ⟨VMQuery.init exGeom, fun _ => "", []⟩

/-- The values returned in the session, and its status. -/
def outsOf : Outcome (Session ℚ) → Option (List (List ℚ) × Status)
  | .ok s => some (s.outs, s.q.err.status)
  | _ => none

/-- A history with valid and invalid settings. -/
def exHistory : List (Call ℚ) :=
  [.filename "det", .filenameExt "ext", .cacheSize 64, .cacheSize (-5), .queryRes 100, .queryRes 0, .queryRes 200,
    .queryRes (-3), .squash true (-2000), .squash false 100, .open exDisk, .queryVals ["Vs", "elevation"] 2,
    .query 2 220 40 (-100), .query 2 220 40 (-200000), .cacheSizeExt 0, .queryType 7, .close false false]

example : outsOf (run exFmt (fun _ => true) exNew exHistory) = some ([[2000, -38370], [3000, -191970]], .ERROR) := by
  decide +kernel
example : (resolutionsSet exHistory).getLastD 0 = 200 ∧ (cacheSizesSet exHistory).getLastD 128 = 64 ∧
    (squashSet exHistory).getLastD (true, 5) = (false, 100) := by decide +kernel
example : 0 < exNew.q.cacheSize ∧ 0 < exNew.q.cacheSizeExt := by decide

section
variable {K : Type} [Field K] [LinearOrder K] [IsStrictOrderedRing K]

/-! ### C25 -/

/-- The detailed model is open, and so is the extended one if one is named. -/
def FullyOpen (q : VMQuery K) : Prop := q.db.isSome ∧ (q.filenameExt = "" ∨ q.dbExt.isSome)

/-- C25: opening an open object changes nothing, whatever is on disk now. -/
theorem C25_open_again (disk : String → Option (Db K)) {q : VMQuery K} (h : FullyOpen q) : openDb disk q = .ok q := by
  obtain ⟨h1, h2⟩ := h
  obtain ⟨d, hd⟩ := Option.isSome_iff_exists.1 h1
  unfold openDb openMain openExt
  rw [hd]
  simp only [Outcome.bind_ok]
  rcases h2 with h2 | h2
  · rw [if_neg (by simp [h2])]
  · obtain ⟨x, hx⟩ := Option.isSome_iff_exists.1 h2
    rw [hx]
    split <;> rfl

example : FullyOpen exQ2 := ⟨rfl, Or.inl rfl⟩

/-- C25: closing again changes nothing. -/
theorem C25_close_again (f fx f' fx' : Bool) (q : VMQuery K) : close f' fx' (close f fx q) = close f fx q := by
  unfold close closeErr
  rfl

/-- C25: after closing, opening gives the databases found at that moment under the names set at that moment; the
status becomes ERROR with the name in the message if one cannot be opened, and is left alone otherwise. -/
theorem C25_reopen (disk : String → Option (Db K)) (f fx : Bool) {q : VMQuery K} (h1 : 0 < q.cacheSize)
    (h2 : 0 < q.cacheSizeExt) :
    ∃ q', openDb disk (close f fx q) = .ok q' ∧
      q'.db = disk q.filename ∧ q'.dbExt = (if q.filenameExt = "" then none else disk q.filenameExt) ∧
      ((disk q.filename = none ∨ (q.filenameExt ≠ "" ∧ disk q.filenameExt = none)) → q'.err.status = .ERROR) ∧
      ((disk q.filename ≠ none ∧ (q.filenameExt = "" ∨ disk q.filenameExt ≠ none)) →
        q'.err = (close f fx q).err) := by
  have hc : ∃ e, close f fx q = { q with err := e, db := none, dbExt := none } := ⟨_, rfl⟩
  obtain ⟨e, hc⟩ := hc
  rw [hc]
  unfold openDb openMain openExt
  simp only [gt_iff_lt, h1, if_true]
  cases hd : disk q.filename with
  | none =>
    simp only [Outcome.bind_ok]
    by_cases hx : q.filenameExt = ""
    · simp [hx, ErrorHandler.error]
    · simp only [ne_eq, hx, not_false_iff, if_true, h2]
      cases hdx : disk q.filenameExt with
      | none => simp [ErrorHandler.error]
      | some x => simp [ErrorHandler.error]
  | some d =>
    simp only [Outcome.bind_ok]
    by_cases hx : q.filenameExt = ""
    · simp [hx]
    · simp only [ne_eq, hx, not_false_iff, if_true, h2]
      cases hdx : disk q.filenameExt with
      | none => simp [ErrorHandler.error]
      | some x => simp

/-- C25: the message after an open that failed names the file, the regional one if that failed too. -/
theorem C25_open_message (disk : String → Option (Db K)) {q q' : VMQuery K} (h : openDb disk q = .ok q') :
    (q.dbExt = none → q.filenameExt ≠ "" → disk q.filenameExt = none →
      q'.err.message = "Could not open the etree (regional) database '" ++ q.filenameExt ++ "' for querying.") ∧
    (q.db = none → disk q.filename = none → (q.filenameExt = "" ∨ q.dbExt ≠ none ∨ disk q.filenameExt ≠ none) →
      q'.err.message = "Could not open the etree database '" ++ q.filename ++ "' for querying.") := by
  unfold openDb openMain openExt openMessage openExtMessage at h
  constructor
  · intro h1 h2 h3
    cases hd : q.db with
    | some d =>
      rw [hd] at h
      simp only [Outcome.bind_ok, ne_eq, h2, not_false_iff, if_true, h1, h3] at h
      split at h <;> cases h
      rfl
    | none =>
      rw [hd] at h
      by_cases hc : q.cacheSize > 0
      · simp only [hc, if_true] at h
        cases hf : disk q.filename with
        | none =>
          simp only [hf, Outcome.bind_ok, ne_eq, h2, not_false_iff, if_true, h1, h3] at h
          split at h <;> cases h
          rfl
        | some d =>
          simp only [hf, Outcome.bind_ok, ne_eq, h2, not_false_iff, if_true, h1, h3] at h
          split at h <;> cases h
          rfl
      · simp only [hc, if_false] at h
        cases h
  · intro h1 h2 h3
    rw [h1] at h
    by_cases hc : q.cacheSize > 0
    · simp only [hc, if_true, h2, Outcome.bind_ok] at h
      by_cases hx : q.filenameExt = ""
      · rw [if_neg (by simp [hx])] at h
        cases h
        rfl
      · rw [if_pos hx] at h
        cases hy : q.dbExt with
        | some x => rw [hy] at h; cases h; rfl
        | none =>
          rw [hy] at h
          simp only [hx, hy, ne_eq, not_true_eq_false, false_or] at h3
          obtain ⟨x, h3⟩ := Option.ne_none_iff_exists'.1 h3
          simp only [h3] at h
          split at h <;> cases h
          rfl
    · simp only [hc, if_false] at h
      cases h

/-- C25: closing always leaves both databases closed and the settings alone; if closing one of the open ones failed the status is ERROR
with a message naming the file (the one of the main database, whichever failed), else status and message stay as they were. -/
theorem C25_close_reports (f fx : Bool) (q : VMQuery K) :
    ∃ e, close f fx q = { q with db := none, dbExt := none, err := e } ∧
      ((q.db ≠ none ∧ f = true ∨ q.dbExt ≠ none ∧ fx = true) →
        e = { q.err with status := .ERROR, message := "Could not close the etree database '" ++ q.filename ++ "'." }) ∧
      ((q.db = none ∨ f = false) → (q.dbExt = none ∨ fx = false) → e = q.err) := by
  refine ⟨(close f fx q).err, rfl, ?_, ?_⟩
  · unfold close closeErr closeMessage ErrorHandler.error
    cases q.db <;> cases q.dbExt <;> cases f <;> cases fx <;> simp
  · unfold close closeErr
    cases q.db <;> cases q.dbExt <;> cases f <;> cases fx <;> simp

example : outsOf (run exFmt (fun _ => true) exNew [.filename "det", .open exDisk, .close false false,
    .filename "ext", .open exDisk, .query 9 220 40 (-100)]) =
    some ([[6000, 3000, 2500, 100, 50, 30, 2, 7, -191970]], .OK) := by decide +kernel
example : outsOf (run exFmt (fun _ => true) exNew [.filename "missing", .open exDisk]) = some ([], .ERROR) := by
  decide +kernel

/-- The message at the end of a history. -/
def lastMessage (r : Outcome (Session ℚ)) : String := match r with
  | .ok s => s.q.err.message
  | _ => ""

example : lastMessage (run exFmt (fun _ => true) exNew [.filename "det", .filenameExt "gone", .open exDisk]) =
    "Could not open the etree (regional) database 'gone' for querying." := by decide +kernel
example : lastMessage (run exFmt (fun _ => true) exNew [.filename "gone", .filenameExt "ext", .open exDisk]) =
    "Could not open the etree database 'gone' for querying." := by decide +kernel
example : lastMessage (run exFmt (fun _ => true) exNew [.filename "det", .filenameExt "ext", .open exDisk, .close false true]) =
    "Could not close the etree database 'det'." := by decide +kernel

/-- The calls a user may make in a state: a non-null geometry that can convert every location, databases on disk
as libetree writes them, known value names within the array passed, and queries on an open object with an array
of the right length (for FIXEDRES, with a resolution that gives a level of the octree). -/
def LegalCall (s : Session K) : Call K → Prop
  | .geometry g => ∃ g', g = some g' ∧ g'.Lawful ∧ g'.Total
  | .open disk => ∀ name d, disk name = some d → d.Good
  | .queryVals names n => n.toNat ≤ names.length ∧ ∀ name ∈ names.take n.toNat, ∃ k, NamesValue name k
  | .query n _ _ _ => n = s.q.queryVals.length ∧ s.q.db.isSome ∧
      ∀ g, s.q.geom = some g → ∃ m ≤ 31, LookupLevel s.q g m
  | _ => True

/-- Every call of a history is legal in the state it is made in. -/
def LegalRun (fmt : Fmt K) (canOpen : String → Bool) : Session K → List (Call K) → Prop
  | _, [] => True
  | s, c :: cs => LegalCall s c ∧ ∀ s', call fmt canOpen s c = .ok s' → LegalRun fmt canOpen s' cs

/-- Invariant of legal histories. -/
structure Healthy (q : VMQuery K) : Prop where
  geom_ok : ∃ g, q.geom = some g ∧ g.Lawful ∧ g.Total
  db_ok : ∀ d, q.db = some d → d.Good
  ext_ok : ∀ d, q.dbExt = some d → d.Good
  cache_ok : 0 < q.cacheSize
  cacheExt_ok : 0 < q.cacheSizeExt
  vals_ok : ∀ v ∈ q.queryVals, ∃ k < 9, v = some k

theorem namesValue_lt {name : String} {k : Nat} (h : NamesValue name k) : k < 9 := by
  obtain ⟨c, hc, -⟩ := h
  by_contra hk
  rw [List.getElem?_eq_none (by simpa [valueNames] using hk)] at hc; cases hc

theorem healthy_call {fmt : Fmt K} {canOpen : String → Bool} {s : Session K} {c : Call K} (hs : Healthy s.q)
    (hc : LegalCall s c) : ∃ s', call fmt canOpen s c = .ok s' ∧ Healthy s'.q := by
  obtain ⟨⟨g, hg, hl, ht⟩, hd, hx, hcs, hcx, hv⟩ := hs
  cases c with
  | geometry g' =>
    obtain ⟨g'', rfl, hl', ht'⟩ := hc
    refine ⟨{ s with q := { s.q with geom := some g'' } }, ?_, ⟨⟨_, rfl, hl', ht'⟩, hd, hx, hcs, hcx, hv⟩⟩
    simp only [call, geometry, hg, Outcome.bind_ok]
  | «open» disk =>
    have hmain : ∃ q1, openMain disk s.q = .ok q1 ∧ Healthy q1 := by
      unfold openMain
      cases h : s.q.db with
      | some d => exact ⟨_, rfl, ⟨⟨g, hg, hl, ht⟩, hd, hx, hcs, hcx, hv⟩⟩
      | none =>
        dsimp only
        rw [if_pos hcs]
        cases h2 : disk s.q.filename with
        | none => exact ⟨_, rfl, ⟨⟨g, hg, hl, ht⟩, fun d' h' => (by cases h'), hx, hcs, hcx, hv⟩⟩
        | some d => exact ⟨_, rfl, ⟨⟨g, hg, hl, ht⟩, fun d' h' => by cases h'; exact hc _ _ h2, hx, hcs, hcx, hv⟩⟩
    obtain ⟨q1, h1, ⟨hg1, hd1, hx1, hcs1, hcx1, hv1⟩⟩ := hmain
    have hext : ∃ q2, openExt disk q1 = .ok q2 ∧ Healthy q2 := by
      unfold openExt
      split
      · cases h : q1.dbExt with
        | some d => exact ⟨_, rfl, ⟨hg1, hd1, hx1, hcs1, hcx1, hv1⟩⟩
        | none =>
          dsimp only
          try rw [if_pos hcx1]
          cases h2 : disk q1.filenameExt with
          | none => exact ⟨_, rfl, ⟨hg1, hd1, fun d' h' => (by cases h'), hcs1, hcx1, hv1⟩⟩
          | some d => exact ⟨_, rfl, ⟨hg1, hd1, fun d' h' => by cases h'; exact hc _ _ h2, hcs1, hcx1, hv1⟩⟩
      · exact ⟨_, rfl, ⟨hg1, hd1, hx1, hcs1, hcx1, hv1⟩⟩
    obtain ⟨q2, h2, hq2⟩ := hext
    refine ⟨{ s with q := q2 }, ?_, hq2⟩
    simp only [call, openDb, h1, Outcome.bind_ok, h2]
  | close f fx =>
    refine ⟨_, rfl, ?_⟩
    have hc : ∃ e, close f fx s.q = { s.q with err := e, db := none, dbExt := none } := ⟨_, rfl⟩
    obtain ⟨e, hc⟩ := hc
    dsimp only
    rw [hc]
    exact ⟨⟨g, hg, hl, ht⟩, fun _ h => (by cases h), fun _ h => (by cases h), hcs, hcx, hv⟩
  | queryType n =>
    refine ⟨_, rfl, ?_⟩
    simp only [queryType]
    split
    · exact ⟨⟨g, hg, hl, ht⟩, hd, hx, hcs, hcx, hv⟩
    split
    · exact ⟨⟨g, hg, hl, ht⟩, hd, hx, hcs, hcx, hv⟩
    split <;> exact ⟨⟨g, hg, hl, ht⟩, hd, hx, hcs, hcx, hv⟩
  | queryVals names n =>
    obtain ⟨h1, h2⟩ := hc
    simp only [call, setQueryVals]
    split
    · refine ⟨_, rfl, ⟨⟨g, hg, hl, ht⟩, hd, hx, hcs, hcx, ?_⟩⟩
      intro v hv
      obtain ⟨name, hn, rfl⟩ := List.mem_map.1 hv
      obtain ⟨k, hk⟩ := h2 name hn
      exact ⟨k, namesValue_lt hk, valueIndex_of_names hk⟩
    · exact ⟨_, rfl, ⟨⟨g, hg, hl, ht⟩, hd, hx, hcs, hcx, hv⟩⟩
  | queryRes r =>
    refine ⟨_, rfl, ?_⟩
    simp only [setQueryRes]
    split <;> exact ⟨⟨g, hg, hl, ht⟩, hd, hx, hcs, hcx, hv⟩
  | filename n => exact ⟨_, rfl, ⟨⟨g, hg, hl, ht⟩, hd, hx, hcs, hcx, hv⟩⟩
  | filenameExt n => exact ⟨_, rfl, ⟨⟨g, hg, hl, ht⟩, hd, hx, hcs, hcx, hv⟩⟩
  | cacheSize n =>
    refine ⟨_, rfl, ?_⟩
    simp only [setCacheSize]
    split
    · rename_i h; exact ⟨⟨g, hg, hl, ht⟩, hd, hx, h, hcx, hv⟩
    · exact ⟨⟨g, hg, hl, ht⟩, hd, hx, hcs, hcx, hv⟩
  | cacheSizeExt n =>
    refine ⟨_, rfl, ?_⟩
    simp only [setCacheSizeExt]
    split
    · rename_i h; exact ⟨⟨g, hg, hl, ht⟩, hd, hx, hcs, h, hv⟩
    · exact ⟨⟨g, hg, hl, ht⟩, hd, hx, hcs, hcx, hv⟩
  | squash b l => exact ⟨_, rfl, ⟨⟨g, hg, hl, ht⟩, hd, hx, hcs, hcx, hv⟩⟩
  | query n lon lat elev =>
    obtain ⟨rfl, hdb, hm⟩ := hc
    obtain ⟨d, hdb⟩ := Option.isSome_iff_exists.1 hdb
    obtain ⟨m, hm31, hm⟩ := hm g hg
    obtain ⟨q', fs', vals, hr, -⟩ := C19_partial fmt (q := s.q) ⟨hg, hdb, hl, hd d hdb, hx⟩ ht hv hm hm31 s.fs
      lon lat elev
    obtain ⟨e, he⟩ := query_keeps hr
    simp only [call, hr, Outcome.bind_ok]
    refine ⟨_, rfl, ?_⟩
    dsimp only at he ⊢
    rw [he]
    exact ⟨⟨g, hg, hl, ht⟩, hd, hx, hcs, hcx, hv⟩
  | handler c => exact ⟨_, rfl, ⟨⟨g, hg, hl, ht⟩, hd, hx, hcs, hcx, hv⟩⟩

/-- C25: on a new object, every legal history of calls ends normally, with no undefined behaviour or exception, for
every pattern of failing opens and closes before the destruction; so does the destruction after it if closing the
databases still open does not fail.  The missing part is false: `C25_false`. -/
theorem C25_partial (fmt : Fmt K) (canOpen : String → Bool) {g : Geom K} (hg : g.Lawful) (ht : g.Total) (fs : Files)
    {cs : List (Call K)} (h : LegalRun fmt canOpen ⟨VMQuery.init g, fs, []⟩ cs) :
    ∃ s', run fmt canOpen ⟨VMQuery.init g, fs, []⟩ cs = .ok s' ∧ destroy false false s'.q = .ok () ∧
      (s'.q.db = none → s'.q.dbExt = none → ∀ f fx, destroy f fx s'.q = .ok ()) := by
  have gen : ∀ (cs : List (Call K)) (s : Session K), Healthy s.q → LegalRun fmt canOpen s cs →
      ∃ s', run fmt canOpen s cs = .ok s' := by
    intro cs
    induction cs with
    | nil => intro s _ _; exact ⟨s, rfl⟩
    | cons c cs ih =>
      rintro s hs ⟨hc, hr⟩
      obtain ⟨s1, h1, hs1⟩ := healthy_call (fmt := fmt) (canOpen := canOpen) hs hc
      obtain ⟨s', h'⟩ := ih s1 hs1 (hr s1 h1)
      exact ⟨s', by unfold run; rw [h1]; exact h'⟩
  obtain ⟨s', hs'⟩ := gen cs _ (by
    refine ⟨⟨g, rfl, hg, ht⟩, fun _ h => (by cases h), fun _ h => (by cases h), (by decide : (0 : Int) < 128),
      (by decide : (0 : Int) < 128), ?_⟩
    intro v hv
    simp only [VMQuery.init, List.mem_map, List.mem_range] at hv
    obtain ⟨k, hk, rfl⟩ := hv
    exact ⟨k, hk, rfl⟩) h
  refine ⟨s', hs', by simp [destroy], fun h1 h2 f fx => by simp [destroy, h1, h2]⟩

end

/-- A legal history: open, fail to close, fail to open, open another file, select a value, query. -/
def exLegal : List (Call ℚ) :=
  [.filename "det", .open exDisk, .close true false, .filename "missing", .open exDisk,
    .filename "ext", .open exDisk, .queryVals ["vs"] 1, .query 1 220 40 (-100)]

theorem exDisk_good : ∀ name d, exDisk name = some d → d.Good := by
  intro name d h
  unfold exDisk at h
  split at h
  · cases h; exact exDb_good
  · cases h; exact exDbExt_good
  · cases h

example : LegalRun exFmt (fun _ => true) exNew exLegal := by
  refine ⟨trivial, fun s1 h1 => ⟨exDisk_good, fun s2 h2 => ⟨trivial, fun s4 h4 => ⟨trivial,
    fun s5 h5 => ⟨exDisk_good, fun s6 h6 => ⟨trivial, fun s7 h7 => ⟨exDisk_good, fun s8 h8 => ⟨?_, fun s9 h9 =>
      ⟨?_, fun _ _ => trivial⟩⟩⟩⟩⟩⟩⟩⟩⟩
  · refine ⟨by decide, fun name hn => ?_⟩
    simp only [Int.toNat_one, List.take_succ_cons, List.take_zero, List.mem_singleton] at hn
    rw [hn]
    exact ⟨1, "Vs", rfl, by decide +kernel⟩
  · cases h1; cases h2; cases h4; cases h5; cases h6; cases h7; cases h8; cases h9
    exact ⟨rfl, rfl, fun g _ => ⟨31, le_refl _, rfl⟩⟩

/-- C25 is false: if closing the database fails during destruction, the destructor uses the error handler after
deleting it. -/
theorem C25_false : (match run exFmt (fun _ => true) exNew [.filename "det", .open exDisk] with
    | .ok s => isUb (destroy true false s.q)
    | _ => false) = true := by decide +kernel

/-- C25 is false: a null geometry is dereferenced. -/
theorem C25_false_geometry {K : Type} [Field K] [LinearOrder K] (g : Geom K) :
    geometry (VMQuery.init g) none = .ub := rfl

/-- C25 is false: FIXEDRES before a resolution is set converts an infinite level to an integer (central California
geometry). -/
theorem C25_false_resolution (fmt : Fmt ℝ) (canOpen : String → Bool) (proj : Projector ℝ) (d : Db ℝ) (fs : Files)
    (lon lat elev : ℝ) :
    run fmt canOpen ⟨VMQuery.init (GeomCenCA.cenCA proj), fs, []⟩
      [.open fun _ => some d, .queryType 1, .query 9 lon lat elev] = .ub := by
  have hl : GeomCenCA.level ((4 : ℝ) * 0) = .ub := by
    unfold GeomCenCA.level; rw [if_pos (by norm_num)]
  have hf : fetch fmt { VMQuery.init (GeomCenCA.cenCA proj) with db := some d, queryFn := .FIXEDRES }
      (GeomCenCA.cenCA proj) d ⟨⟨0, 0, 0, 0⟩, .leaf⟩ lon lat elev = .ub := by
    rw [fetch_eq (show (GeomCenCA.cenCA proj).Lawful from GeomCenCA.geom_lawful _ _ _)]
    have h1 : levelFor { VMQuery.init (GeomCenCA.cenCA proj) with db := some d, queryFn := .FIXEDRES }
        (GeomCenCA.cenCA proj) = .ub := by
      unfold levelFor
      change (do let n ← GeomCenCA.level ((4 : ℝ) * 0); if n < 0 then .ub else .ok n.toNat : Outcome Nat) = .ub
      rw [hl]; rfl
    rw [h1]
    rfl
  have hq : query fmt { VMQuery.init (GeomCenCA.cenCA proj) with db := some d, queryFn := .FIXEDRES } fs 9 lon lat elev =
      .ub := by
    unfold query
    rw [if_neg (by simp [VMQuery.init])]
    dsimp only [VMQuery.init] at hf ⊢
    rw [hf]
  change (do
    let r ← query fmt { VMQuery.init (GeomCenCA.cenCA proj) with db := some d, queryFn := .FIXEDRES } fs 9 lon lat elev
    .ok _ : Outcome (Session ℝ)) >>= _ = _
  rw [hq]
  rfl

end CenCalVM
