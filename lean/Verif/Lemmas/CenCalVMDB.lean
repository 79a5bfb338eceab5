/-
Lemmas on the spatial database.
-/
import Verif.Spec.CenCalVMDB
import Verif.Lemmas.QueryEffects

set_option linter.unusedSectionVars false

namespace CenCalVM
namespace CenCalVMDB
open VMQuery (sameName)
variable {K : Type} [Field K] [LinearOrder K]

/-! ### Names -/

theorem namesValue_iff {name c : String} {k : Nat} (h : valueNames[k]? = some c) :
    NamesValue name k ↔ sameName name c = true := by
  unfold NamesValue sameName
  rw [beq_iff_eq]
  constructor
  · rintro ⟨c', h1, h2⟩; rw [h] at h1; cases h1; exact h2.symm
  · intro h2; exact ⟨c, h, h2.symm⟩

theorem named_vp (n : String) : NamesValue n 0 ↔ sameName n "Vp" = true := namesValue_iff rfl
theorem named_vs (n : String) : NamesValue n 1 ↔ sameName n "Vs" = true := namesValue_iff rfl
theorem named_density (n : String) : NamesValue n 2 ↔ sameName n "density" = true := by
  rw [namesValue_iff (c := "Density") rfl]
  have : "Density".toList.map Char.toLower = "density".toList.map Char.toLower := by decide +kernel
  unfold sameName; rw [this]

theorem namesValue_unique {n : String} {k l : Nat} (hk : k < 9) (hl : l < 9) (h1 : NamesValue n k) (h2 : NamesValue n l) : k = l := by
  obtain ⟨c, hc, h1⟩ := h1
  obtain ⟨d, hd, h2⟩ := h2
  have h : c.toList.map Char.toLower = d.toList.map Char.toLower := h1.trans h2.symm
  have hall : ∀ k : Fin 9, ∀ l : Fin 9, (valueNames[k.1]?.map fun c => c.toList.map Char.toLower) =
      (valueNames[l.1]?.map fun c => c.toList.map Char.toLower) → k = l := by decide +kernel
  have := hall ⟨k, hk⟩ ⟨l, hl⟩ (by simp only [hc, hd, Option.map_some, h])
  exact congrArg Fin.val this

/-- The last position of a name, as the loop finds it. -/
def lastIdx (p : String → Bool) (v : Int) (i : Nat) : List String → Int
  | [] => v
  | n :: ns => lastIdx p (if p n then i else v) (i + 1) ns

theorem noteNames_eq (s : CenCalVMDB K) (i : Nat) (names : List String) :
    noteNames s i names = { s with
      vsVal := lastIdx (fun n => sameName n "Vs") s.vsVal i names
      vpVal := lastIdx (fun n => sameName n "Vp") s.vpVal i names
      densityVal := lastIdx (fun n => sameName n "density") s.densityVal i names } := by
  induction names generalizing s i with
  | nil => rfl
  | cons n ns ih => unfold noteNames; rw [ih]; rfl

theorem lastIdx_spec (p : String → Bool) (v : Int) (i : Nat) (names : List String) :
    (lastIdx p v i names = v ∧ ∀ n ∈ names, p n = false) ∨
    ∃ j n, lastIdx p v i names = ((i + j : Nat) : Int) ∧ names[j]? = some n ∧ p n = true ∧
      ∀ j' n', j < j' → names[j']? = some n' → p n' = false := by
  induction names generalizing v i with
  | nil => left; exact ⟨rfl, by simp⟩
  | cons m ms ih =>
    unfold lastIdx
    rcases ih (if p m then (i : Int) else v) (i + 1) with ⟨h1, h2⟩ | ⟨j, n, h1, h2, h3, h4⟩
    · cases hp : p m with
      | false =>
        left
        rw [hp] at h1
        refine ⟨by rw [hp] at *; simpa using h1, ?_⟩
        intro n hn
        rcases List.mem_cons.1 hn with rfl | hn
        · exact hp
        · exact h2 n hn
      | true =>
        right
        rw [hp] at h1
        refine ⟨0, m, by simpa using h1, rfl, hp, ?_⟩
        intro j' n' hj hn'
        obtain ⟨j', rfl⟩ : ∃ k, j' = k + 1 := ⟨j' - 1, by omega⟩
        exact h2 n' (List.mem_of_getElem? (by simpa using hn'))
    · right
      refine ⟨j + 1, n, by rw [h1]; push_cast; ring, by simpa using h2, h3, ?_⟩
      intro j' n' hj hn'
      obtain ⟨j', rfl⟩ : ∃ k, j' = k + 1 := ⟨j' - 1, by omega⟩
      exact h4 j' n' (by omega) (by simpa using hn')

/-- An index found by the loop over all names from −1: the last position of the name, if any. -/
def IdxOf (names : List String) (k : Nat) (v : Int) : Prop :=
  (v = -1 ∧ ∀ i, ¬ LastNamed names k i) ∨ ∃ i : Nat, v = i ∧ LastNamed names k i

theorem lastIdx_idxOf {p : String → Bool} {k : Nat} (hp : ∀ n, NamesValue n k ↔ p n = true) (names : List String) :
    IdxOf names k (lastIdx p (-1) 0 names) := by
  rcases lastIdx_spec p (-1) 0 names with ⟨h1, h2⟩ | ⟨j, n, h1, h2, h3, h4⟩
  · left
    refine ⟨h1, ?_⟩
    rintro i ⟨⟨n, hn, hk⟩, -⟩
    have := h2 n (List.mem_of_getElem? hn)
    rw [(hp n).1 hk] at this
    cases this
  · right
    refine ⟨j, by rw [h1]; simp, ⟨n, h2, (hp n).2 h3⟩, ?_⟩
    intro j' n' hj hn' hk
    have := h4 j' n' hj hn'
    rw [(hp n').1 hk] at this
    cases this

theorem LastNamed.unique {names : List String} {k i j : Nat} (h1 : LastNamed names k i) (h2 : LastNamed names k j) : i = j := by
  obtain ⟨⟨n, hn, hk⟩, h⟩ := h1
  obtain ⟨⟨m, hm, hl⟩, h'⟩ := h2
  rcases Nat.lt_trichotomy i j with h0 | h0 | h0
  · exact absurd hl (h j m h0 hm)
  · exact h0
  · exact absurd hk (h' i n h0 hn)

theorem LastNamed.disjoint {names : List String} {k l i : Nat} (hk : k < 9) (hl : l < 9) (h1 : LastNamed names k i)
    (h2 : LastNamed names l i) : k = l := by
  obtain ⟨⟨n, hn, h1⟩, -⟩ := h1
  obtain ⟨⟨m, hm, h2⟩, -⟩ := h2
  rw [hn] at hm; cases hm
  exact namesValue_unique hk hl h1 h2

theorem IdxOf.eq_of_last {names : List String} {k i : Nat} {v : Int} (h : IdxOf names k v) (hi : LastNamed names k i) : v = i := by
  rcases h with ⟨-, h⟩ | ⟨j, rfl, h⟩
  · exact absurd hi (h i)
  · rw [h.unique hi]

theorem IdxOf.last {names : List String} {k : Nat} {v : Int} (h : IdxOf names k v) (h0 : 0 ≤ v) :
    ∃ i : Nat, v = i ∧ LastNamed names k i := by
  rcases h with ⟨rfl, -⟩ | h
  · omega
  · exact h

/-! ### Histories -/

/-- The three indices agree with the names. -/
structure Indexed (names : List String) (s : CenCalVMDB K) : Prop where
  vs : IdxOf names 1 s.vsVal
  vp : IdxOf names 0 s.vpVal
  density : IdxOf names 2 s.densityVal

theorem throwOnError_cases (s : CenCalVMDB K) : throwOnError s = .ok s () ∨ ∃ m, throwOnError s = .exc m s := by
  unfold throwOnError; split
  · exact .inr ⟨_, rfl⟩
  · exact .inl rfl

theorem queryVals_indexed {s s' : CenCalVMDB K} {names : List String} (h : queryVals s names names.length = .ok s' ()) :
    Indexed names s' := by
  unfold queryVals at h
  split at h
  · cases h
  · cases h
  · next q hq =>
    rcases throwOnError_cases { s with q := q } with h1 | ⟨m, h1⟩
    · rw [h1, Run.bind_ok, noteNames_eq] at h
      cases h
      rw [show ((names.length : Int)).toNat = names.length from by simp, List.take_length]
      exact ⟨lastIdx_idxOf named_vs names, lastIdx_idxOf named_vp names, lastIdx_idxOf named_density names⟩
    · rw [h1, Run.bind_exc] at h; cases h

/-- Same indices. -/
def SameIdx (s s' : CenCalVMDB K) : Prop := s'.vsVal = s.vsVal ∧ s'.vpVal = s.vpVal ∧ s'.densityVal = s.densityVal

theorem Indexed.same {names : List String} {s s' : CenCalVMDB K} (h : Indexed names s) (e : SameIdx s s') : Indexed names s' :=
  ⟨e.1 ▸ h.vs, e.2.1 ▸ h.vp, e.2.2 ▸ h.density⟩

theorem throwOnError_same {s0 s : CenCalVMDB K} (e : SameIdx s0 s) {r : Run (CenCalVMDB K) Unit} (h : throwOnError s = r) :
    (∀ s' a, r = .ok s' a → SameIdx s0 s') ∧ ∀ m s', r = .exc m s' → SameIdx s0 s' := by
  rcases throwOnError_cases s with h1 | ⟨m, h1⟩ <;> rw [h1] at h <;> subst h
  · exact ⟨fun s' a h => (by cases h; exact e), fun m s' h => (by cases h)⟩
  · exact ⟨fun s' a h => (by cases h), fun m s' h => (by cases h; exact e)⟩

theorem query_same {fmt : Fmt K} {conv : K × K × K → Outcome (K × K × K)} {s : CenCalVMDB K} {n : Int} {c : K × K × K} :
    (∀ s' a, query fmt conv s n c = .ok s' a → SameIdx s s') ∧ ∀ m s', query fmt conv s n c = .exc m s' → SameIdx s s' := by
  unfold query
  constructor
  · intro s' a h
    split at h
    · cases h
    · cases h
    dsimp only at h
    split at h
    · cases h
    · cases h
    split at h
    · cases h
    split at h
    · cases h
    · cases h
    split at h <;> cases h <;> exact ⟨rfl, rfl, rfl⟩
  · intro m s' h
    split at h
    · cases h; exact ⟨rfl, rfl, rfl⟩
    · cases h
    dsimp only at h
    split at h
    · cases h; exact ⟨rfl, rfl, rfl⟩
    · cases h
    split at h
    · cases h; exact ⟨rfl, rfl, rfl⟩
    split at h
    · cases h; exact ⟨rfl, rfl, rfl⟩
    · cases h
    split at h <;> cases h

theorem step_same {fmt : Fmt K} {s s' : CenCalVMDB K} {c : Call K} (hc : ∀ ns n, c ≠ Call.queryVals ns n)
    (h : step fmt s c = some s') : SameIdx s s' := by
  have key : (∀ t a, call fmt s c = .ok t a → SameIdx s t) ∧ ∀ m t, call fmt s c = .exc m t → SameIdx s t := by
    cases c with
    | «open» disk =>
      show (∀ t a, openDb s disk = .ok t a → _) ∧ ∀ m t, openDb s disk = .exc m t → _
      unfold openDb
      cases VMQuery.openDb disk s.q with
      | ok q => exact throwOnError_same (s := { s with q := q }) ⟨rfl, rfl, rfl⟩ rfl
      | exc m => exact ⟨fun t a h => (by cases h), fun m t h => (by cases h; exact ⟨rfl, rfl, rfl⟩)⟩
      | ub => exact ⟨fun t a h => (by cases h), fun m t h => (by cases h)⟩
    | close f fx => exact throwOnError_same (s := { s with q := VMQuery.close f fx s.q }) ⟨rfl, rfl, rfl⟩ rfl
    | queryType n =>
      show (∀ t a, queryType s n = .ok t a → _) ∧ ∀ m t, queryType s n = .exc m t → _
      unfold queryType
      split
      · exact throwOnError_same (s := { s with q := VMQuery.queryType s.q n }) ⟨rfl, rfl, rfl⟩ rfl
      · exact ⟨fun t a h => (by cases h), fun m t h => (by cases h)⟩
    | queryVals ns n => exact absurd rfl (hc ns n)
    | query cv n co =>
      obtain ⟨h1, h2⟩ := query_same (fmt := fmt) (conv := cv) (s := s) (n := n) (c := co)
      show (∀ t a, (query fmt cv s n co).bind _ = .ok t a → _) ∧ ∀ m t, (query fmt cv s n co).bind _ = .exc m t → _
      cases hq : query fmt cv s n co with
      | ok t a => exact ⟨fun t' a h => (by cases h; exact h1 _ _ hq), fun m t h => (by cases h)⟩
      | exc m t => exact ⟨fun t a h => (by cases h), fun m t h => (by cases h; exact h2 _ _ hq)⟩
      | ub => exact ⟨fun t a h => (by cases h), fun m t h => (by cases h)⟩
    | _ => exact ⟨fun t a h => (by cases h; exact ⟨rfl, rfl, rfl⟩), fun m t h => (by cases h)⟩
  unfold step at h
  split at h
  · next hc => cases h; exact key.1 _ _ hc
  · next hc => cases h; exact key.2 _ _ hc
  · cases h

theorem run_indexed {fmt : Fmt K} {names : List String} {s s' : CenCalVMDB K} {calls : List (Call K)}
    (hi : Indexed names s) (hc : ∀ c ∈ calls, ∀ ns n, c ≠ Call.queryVals ns n) (h : run fmt s calls = some s') :
    Indexed names s' := by
  induction calls generalizing s with
  | nil => cases h; exact hi
  | cons c cs ih =>
    unfold run at h
    cases h1 : step fmt s c with
    | none => rw [h1] at h; cases h
    | some t =>
      rw [h1] at h
      exact ih (hi.same (step_same (hc c (by simp)) h1)) (fun c h => hc c (by simp [h])) h

theorem Returns.indexed {fmt : Fmt K} {names : List String} {s : CenCalVMDB K} (h : Returns fmt names s) : Indexed names s := by
  obtain ⟨-, s0, s1, calls, h1, h2, h3⟩ := h
  exact run_indexed (queryVals_indexed h1) h2 h3

/-! ### Queries -/

theorem valAt_ok {vals : List K} {i : Nat} {v : K} : valAt vals i = .ok v ↔ vals[i]? = some v := by
  unfold valAt
  rw [if_pos (by omega)]
  rw [show ((i : Int)).toNat = i from by simp]
  split
  · next h => rw [h]; simp
  · next h => rw [h]; simp

theorem raise_ok {vals vals' : List K} {i : Nat} {pos low : K} (h : raise vals i pos low = .ok vals') :
    (∃ v, vals[i]? = some v ∧ vals'[i]? = some (if pos < v ∧ v < low then low else v)) ∧
      (∀ j, j ≠ i → vals'[j]? = vals[j]?) ∧ vals'.length = vals.length := by
  unfold raise at h
  split at h
  · cases h
  · cases h
  · next v hv =>
    rw [valAt_ok] at hv
    cases h
    have hlt : i < vals.length := (List.getElem?_eq_some_iff.1 hv).1
    by_cases hc : pos < v ∧ v < low
    · rw [if_pos hc]
      refine ⟨⟨v, hv, ?_⟩, ?_, ?_⟩
      · rw [if_pos hc]; simp [hlt]
      · intro j hj
        simp [Ne.symm hj]
      · simp
    · rw [if_neg hc]
      exact ⟨⟨v, hv, by rw [if_neg hc]; exact hv⟩, fun _ _ => rfl, rfl⟩

/-- Two query objects that differ only in their error handler answer alike. -/
theorem query_any {fmt : Fmt K} {q : VMQuery K} {g : Geom K} {db : Db K} (hg : g.Lawful)
    (hgeom : q.geom = some g) (hdb : q.db = some db) {e : ErrorHandler} {fs fs' : Files} {n : Int} {lon lat elev : K} {vals : List K}
    {q' : VMQuery K} (h : VMQuery.query fmt { q with err := e } fs n lon lat elev = .ok (q', fs', vals)) :
    AnswerAt fmt q n lon lat elev vals ∧ q' = { q with err := q'.err } := by
  obtain ⟨h1, h2, h3, f, h4, -, h6, h7⟩ := (VMQuery.query_iff (q := { q with err := e }) hg hgeom hdb).1 h
  have hs : VMQuery.squashElev { q with err := e } g db VMQuery.scratch lon lat elev =
      VMQuery.squashElev q g db VMQuery.scratch lon lat elev := rfl
  have hl : VMQuery.levelFor { q with err := e } g = VMQuery.levelFor q g := rfl
  have : ∃ f', VMQuery.fetch fmt q g db VMQuery.scratch lon lat elev = .ok f' ∧ f'.payload = f.payload ∧ f'.elevRef = f.elevRef := by
    rw [VMQuery.fetch_eq hg] at h4 ⊢
    rw [hs, hl] at h4
    cases hr : VMQuery.squashElev q g db VMQuery.scratch lon lat elev with
    | exc m => rw [hr] at h4; cases h4
    | ub => rw [hr] at h4; cases h4
    | ok r =>
      rw [hr, Outcome.bind_ok] at h4
      cases hn : VMQuery.levelFor q g with
      | exc m => rw [hn] at h4; cases h4
      | ub => rw [hn] at h4; cases h4
      | ok k =>
        rw [hn, Outcome.bind_ok] at h4
        have hu : VMQuery.elevUsed { q with err := e } elev r.1 = VMQuery.elevUsed q elev r.1 := rfl
        rw [hu] at h4
        cases hc : VMQuery.conv g k lon lat (VMQuery.elevUsed q elev r.1) with
        | exc m => rw [hc] at h4; cases h4
        | ub => rw [hc] at h4; cases h4
        | ok c =>
          rw [hc, Outcome.bind_ok] at h4
          cases h4
          refine ⟨⟨r.1, VMQuery.bothP q g db c, c.1, VMQuery.bothH fmt q g db c lon lat (VMQuery.elevUsed q elev r.1)⟩,
            ?_, rfl, rfl⟩
          rw [Outcome.bind_ok, Outcome.bind_ok, hc, Outcome.bind_ok]
  obtain ⟨f', hf', hp, her⟩ := this
  refine ⟨⟨_, _, (VMQuery.query_iff hg hgeom hdb).2 ⟨h1, h2, h3, f', hf', rfl, ?_, rfl⟩⟩, ?_⟩
  · rw [h6, hp, her]
  · rw [h7]

theorem answerAt_length {fmt : Fmt K} {q : VMQuery K} {g : Geom K} {db : Db K} (hg : g.Lawful)
    (hgeom : q.geom = some g) (hdb : q.db = some db) {n : Int} {lon lat elev : K} {vals : List K}
    (h : AnswerAt fmt q n lon lat elev vals) : vals.length = q.queryVals.length := by
  obtain ⟨q', fs', h⟩ := h
  obtain ⟨-, -, -, f, -, -, h6, -⟩ := (VMQuery.query_iff hg hgeom hdb).1 h
  rw [h6, List.length_map]

theorem ask_ok {fmt : Fmt K} {q : VMQuery K} {fs : Files} {n : Int} {lon lat elev : K} {el : List K} {t : Tried K}
    (h : ask fmt q fs n lon lat elev el = .ok t) :
    VMQuery.query fmt q fs n lon lat elev = .ok (t.q, t.fs, t.vals) ∧ t.elevs = el ++ [elev] := by
  unfold ask at h
  split at h
  · cases h
  · cases h
  · next r hr => cases h; exact ⟨hr, rfl⟩

theorem range_succ_map (rd : Rd K) (z : K) (n : Nat) :
    (List.range (n + 1)).map (probe rd z) ++ [probe rd z (n + 1)] = (List.range (n + 1 + 1)).map (probe rd z) := by
  rw [List.range_succ (n := n + 1), List.map_append]; rfl

/-- The loop that fills voids. -/
theorem fill_spec {fmt : Fmt K} {q : VMQuery K} {g : Geom K} {db : Db K} (hg : g.Lawful)
    (hgeom : q.geom = some g) (hdb : q.db = some db) {i : Nat} {N : Int} {lon lat z : K} {left n : Nat} {t t' : Tried K}
    (h : fill fmt i N lon lat z left (n + 1) t = .ok t') (hq : t.q = { q with err := t.q.err })
    (he : t.elevs = (List.range (n + 1)).map (probe q.rd z)) (ha : AnswerAt fmt q N lon lat (probe q.rd z n) t.vals) :
    ∃ k, n ≤ k ∧ k ≤ n + left ∧ t'.elevs = (List.range (k + 1)).map (probe q.rd z) ∧ AnswerAt fmt q N lon lat (probe q.rd z k) t'.vals ∧
      t'.q = { q with err := t'.q.err } ∧
      (∀ j, n ≤ j → j < k → ∃ w v, AnswerAt fmt q N lon lat (probe q.rd z j) w ∧ w[i]? = some v ∧ v < 0) ∧
      (k < n + left → ∃ v, t'.vals[i]? = some v ∧ 0 ≤ v) := by
  induction left generalizing n t with
  | zero =>
    cases h
    exact ⟨n, le_rfl, le_rfl, he, ha, hq, fun j h1 h2 => absurd h2 (by omega), fun h => absurd h (by omega)⟩
  | succ left ih =>
    unfold fill at h
    cases hv : valAt t.vals i with
    | exc m => rw [hv] at h; cases h
    | ub => rw [hv] at h; cases h
    | ok v =>
      rw [hv] at h
      dsimp only at h
      have hv' := valAt_ok.1 hv
      by_cases h0 : v < 0
      · rw [if_pos h0] at h
        have hz : t.q.rd.double (z - 2 ^ (n + 1 - 1) * 25) = probe q.rd z (n + 1) := by
          rw [hq]; unfold probe; rw [Nat.add_sub_cancel, mul_comm]
        rw [hz] at h
        cases hk : ask fmt { t.q with err := t.q.err.resetStatus } t.fs N lon lat (probe q.rd z (n + 1)) t.elevs with
        | exc m => rw [hk] at h; cases h
        | ub => rw [hk] at h; cases h
        | ok t1 =>
          rw [hk] at h
          dsimp only at h
          obtain ⟨h1, h2⟩ := ask_ok hk
          have hqq : ({ t.q with err := t.q.err.resetStatus } : VMQuery K) = { q with err := t.q.err.resetStatus } := by
            rw [hq]
          rw [hqq] at h1
          obtain ⟨h3, h4⟩ := query_any hg hgeom hdb h1
          obtain ⟨k, h5, h6, h7, h8, h9, h10, h11⟩ := ih h h4 (by rw [h2, he, range_succ_map]) h3
          refine ⟨k, by omega, by omega, h7, h8, h9, ?_, fun hk => h11 (by omega)⟩
          intro j hj1 hj2
          rcases Nat.eq_or_lt_of_le hj1 with rfl | hj
          · exact ⟨t.vals, v, ha, hv', h0⟩
          · exact h10 j hj hj2
      · rw [if_neg h0] at h
        cases h
        exact ⟨n, le_rfl, by omega, he, ha, hq, fun j h1 h2 => absurd h2 (by omega), fun _ => ⟨v, hv', not_lt.1 h0⟩⟩

/-- A query that returns normally, taken apart. -/
theorem query_parts {fmt : Fmt K} {conv : K × K × K → Outcome (K × K × K)} {s s' : CenCalVMDB K} {N : Int} {c : K × K × K}
    {err : Int} {vals tried : List K} (h : query fmt conv s N c = .ok s' (err, vals, tried)) :
    ∃ b t0 t1 v1, conv c = .ok b ∧
      ask fmt s.q s.fs N b.1 b.2.1 (if b.2.2 < -44950 then -44950 else b.2.2) [] = .ok t0 ∧
      t0.q.err.status ≠ .ERROR ∧
      project fmt s N b.1 b.2.1 (if b.2.2 < -44950 then -44950 else b.2.2) t0 = .ok t1 ∧ t1.elevs = tried ∧
      raiseVp s t1.vals = .ok v1 ∧ raiseDensity s v1 = .ok vals ∧
      err = (if t1.q.err.status = .WARNING then 1 else 0) := by
  unfold query at h
  split at h
  · cases h
  · cases h
  next b hb =>
  dsimp only at h
  split at h
  · cases h
  · cases h
  next t0 h0 =>
  split at h
  · cases h
  next hst =>
  split at h
  · cases h
  · cases h
  next t2 h2 =>
  cases h1 : project fmt s N b.1 b.2.1 (if b.2.2 < -44950 then -44950 else b.2.2) t0 with
  | exc m => rw [h1] at h2; cases h2
  | ub => rw [h1] at h2; cases h2
  | ok t1 =>
  rw [h1, Outcome.bind_ok] at h2
  cases h3 : raiseVp s t1.vals with
  | exc m => rw [h3] at h2; cases h2
  | ub => rw [h3] at h2; cases h2
  | ok v1 =>
  rw [h3, Outcome.bind_ok] at h2
  cases h4 : raiseDensity s v1 with
  | exc m => rw [h4] at h2; cases h2
  | ub => rw [h4] at h2; cases h2
  | ok v2 =>
  rw [h4, Outcome.bind_ok] at h2
  cases h2
  refine ⟨b, t0, t1, v1, hb, h0, hst, h1, ?_⟩
  dsimp only at h
  by_cases hw : t1.q.err.status = .WARNING
  · rw [if_pos hw] at h ⊢; cases h; exact ⟨rfl, h3, h4, rfl⟩
  · rw [if_neg hw] at h ⊢; cases h; exact ⟨rfl, h3, h4, rfl⟩

theorem project_parts {fmt : Fmt K} {s : CenCalVMDB K} {N : Int} {lon lat z : K} {t t' : Tried K}
    (h : project fmt s N lon lat z t = .ok t') :
    (¬ (s.vsVal ≥ 0 ∧ s.projectDownward = true) ∧ t' = t) ∨
    (s.vsVal ≥ 0 ∧ s.projectDownward = true ∧ ∃ t1, fill fmt s.vsVal N lon lat z 8 1 t = .ok t1 ∧
      raise t1.vals s.vsVal 0 s.minVs = .ok t'.vals ∧ t'.elevs = t1.elevs ∧ t'.q = t1.q) := by
  unfold project at h
  by_cases hc : s.vsVal ≥ 0 ∧ s.projectDownward = true
  · right
    rw [if_pos hc] at h
    cases hf : fill fmt s.vsVal N lon lat z 8 1 t with
    | exc m => rw [hf] at h; cases h
    | ub => rw [hf] at h; cases h
    | ok t1 =>
      rw [hf, Outcome.bind_ok] at h
      cases hr : raise t1.vals s.vsVal 0 s.minVs with
      | exc m => rw [hr] at h; cases h
      | ub => rw [hr] at h; cases h
      | ok v =>
        rw [hr, Outcome.bind_ok] at h
        cases h
        exact ⟨hc.1, hc.2, t1, rfl, hr, rfl, rfl⟩
  · left
    rw [if_neg hc] at h
    cases h
    exact ⟨hc, rfl⟩

/-- Effect of one of the three adjustments, by names. -/
theorem adjust_ok {names : List String} {k : Nat} {v : Int} (hv : IdxOf names k v) {vals vals' : List K} {pos low : K}
    (h : (if v ≥ 0 then raise vals v pos low else .ok vals) = .ok vals') :
    (∀ i, LastNamed names k i → ∃ x, vals[i]? = some x ∧ vals'[i]? = some (if pos < x ∧ x < low then low else x)) ∧
      (∀ i, ¬ LastNamed names k i → vals'[i]? = vals[i]?) ∧ vals'.length = vals.length := by
  by_cases h0 : v ≥ 0
  · rw [if_pos h0] at h
    obtain ⟨i, rfl, hi⟩ := hv.last h0
    obtain ⟨h1, h2, h3⟩ := raise_ok h
    refine ⟨fun j hj => ?_, fun j hj => h2 j (fun e => hj (e ▸ hi)), h3⟩
    rw [hj.unique hi]; exact h1
  · rw [if_neg h0] at h
    cases h
    refine ⟨fun i hi => ?_, fun _ _ => rfl, rfl⟩
    have := hv.eq_of_last hi
    omega

/-- A query of the database, completely: the elevations tried and the adjustments made. -/
theorem query_spec {fmt : Fmt K} {conv : K × K × K → Outcome (K × K × K)} {s s' : CenCalVMDB K} {g : Geom K} {db : Db K}
    (ho : s.q.Open g db) {names : List String} (hi : Indexed names s) {N : Int} {c : K × K × K}
    {err : Int} {vals tried : List K} (h : query fmt conv s N c = .ok s' (err, vals, tried)) :
    ∃ b k w w1 w2, conv c = .ok b ∧ k ≤ 8 ∧ tried = (List.range (k + 1)).map (probe s.q.rd (max b.2.2 (-44950))) ∧
      AnswerAt fmt s.q N b.1 b.2.1 (probe s.q.rd (max b.2.2 (-44950)) k) w ∧
      ((s.projectDownward = true ∧ ∃ i, LastNamed names 1 i ∧
          (∀ j < k, ∃ w' v, AnswerAt fmt s.q N b.1 b.2.1 (probe s.q.rd (max b.2.2 (-44950)) j) w' ∧ w'[i]? = some v ∧ v < 0) ∧
          (k < 8 → ∃ v, w[i]? = some v ∧ 0 ≤ v) ∧ raise w i 0 s.minVs = .ok w1) ∨
        (¬ (s.projectDownward = true ∧ ∃ i, LastNamed names 1 i) ∧ k = 0 ∧ w1 = w)) ∧
      raiseVp s w1 = .ok w2 ∧ raiseDensity s w2 = .ok vals := by
  obtain ⟨b, t0, t1, v1, hb, h0, -, h1, h2, h3, h4, -⟩ := query_parts h
  have hz : (if b.2.2 < -44950 then -44950 else b.2.2) = max b.2.2 (-44950) := by
    split
    · next h => rw [max_eq_right h.le]
    · next h => rw [max_eq_left (not_lt.1 h)]
  rw [hz] at h0 h1
  obtain ⟨h5, h6⟩ := ask_ok h0
  obtain ⟨h7, h8⟩ := query_any (q := s.q) (e := s.q.err) ho.lawful ho.geom_eq ho.db_eq h5
  rcases project_parts h1 with ⟨h9, rfl⟩ | ⟨h9, h10, t2, h11, h12, h13, h14⟩
  · refine ⟨b, 0, t1.vals, t1.vals, v1, hb, by omega, by rw [← h2, h6]; rfl, h7, Or.inr ⟨?_, rfl, rfl⟩, h3, h4⟩
    rintro ⟨hp, i, hl⟩
    exact h9 ⟨by rw [hi.vs.eq_of_last hl]; omega, hp⟩
  · obtain ⟨i, hv, hl⟩ := hi.vs.last h9
    rw [hv] at h11 h12
    obtain ⟨k, -, h16, h17, h18, -, h20, h21⟩ := fill_spec (n := 0) ho.lawful ho.geom_eq ho.db_eq h11 h8 (by rw [h6]; rfl) h7
    refine ⟨b, k, t2.vals, t1.vals, v1, hb, by omega, by rw [← h2, h13, h17], h18, Or.inl ⟨h10, i, hl, ?_, ?_, h12⟩, h3, h4⟩
    · intro j hj; exact h20 j (by omega) hj
    · intro hk; exact h21 (by omega)

/-- What a query changes in the query object. -/
theorem query_err {fmt : Fmt K} {q q' : VMQuery K} {fs fs' : Files} {n : Int} {lon lat elev : K} {vals : List K}
    (h : VMQuery.query fmt q fs n lon lat elev = .ok (q', fs', vals)) : q' = { q with err := q'.err } := by
  obtain ⟨-, g, db, f, s, -, -, -, -, -, hq⟩ := VMQuery.query_ok h
  rw [hq]

/-- After the loop, the state is that of the last underlying query. -/
theorem fill_last {fmt : Fmt K} {q0 : VMQuery K} {v N : Int} {lon lat z : K} {left iter : Nat} {t t' : Tried K}
    (h : fill fmt v N lon lat z left iter t = .ok t') (hq : t.q = { q0 with err := t.q.err })
    (hl : ∃ e fs x, t.elevs.getLast? = some x ∧ VMQuery.query fmt { q0 with err := e } fs N lon lat x = .ok (t.q, t.fs, t.vals)) :
    t'.q = { q0 with err := t'.q.err } ∧
    ∃ e fs x, t'.elevs.getLast? = some x ∧ VMQuery.query fmt { q0 with err := e } fs N lon lat x = .ok (t'.q, t'.fs, t'.vals) := by
  induction left generalizing iter t with
  | zero => cases h; exact ⟨hq, hl⟩
  | succ left ih =>
    unfold fill at h
    cases hv : valAt t.vals v with
    | exc m => rw [hv] at h; cases h
    | ub => rw [hv] at h; cases h
    | ok v =>
      rw [hv] at h
      dsimp only at h
      by_cases h0 : v < 0
      · rw [if_pos h0] at h
        cases hk : ask fmt { t.q with err := t.q.err.resetStatus } t.fs N lon lat (t.q.rd.double (z - 2 ^ (iter - 1) * 25)) t.elevs with
        | exc m => rw [hk] at h; cases h
        | ub => rw [hk] at h; cases h
        | ok t1 =>
          rw [hk] at h
          dsimp only at h
          obtain ⟨h1, h2⟩ := ask_ok hk
          have hqq : ({ t.q with err := t.q.err.resetStatus } : VMQuery K) = { q0 with err := t.q.err.resetStatus } := by
            rw [hq]
          rw [hqq] at h1
          exact ih h (by have := query_err h1; exact this) ⟨_, _, _, by rw [h2]; simp, h1⟩
      · rw [if_neg h0] at h
        cases h
        exact ⟨hq, hl⟩

theorem project_last {fmt : Fmt K} {s : CenCalVMDB K} {N : Int} {lon lat z : K} {t t' : Tried K}
    (h0 : ask fmt s.q s.fs N lon lat z [] = .ok t) (h : project fmt s N lon lat z t = .ok t') :
    ∃ e fs x w, t'.elevs.getLast? = some x ∧ VMQuery.query fmt { s.q with err := e } fs N lon lat x = .ok (t'.q, t'.fs, w) := by
  obtain ⟨h1, h2⟩ := ask_ok h0
  have hl : ∃ e fs x, t.elevs.getLast? = some x ∧
      VMQuery.query fmt { s.q with err := e } fs N lon lat x = .ok (t.q, t.fs, t.vals) :=
    ⟨s.q.err, s.fs, z, by rw [h2]; rfl, h1⟩
  unfold project at h
  split at h
  · cases hf : fill fmt s.vsVal N lon lat z 8 1 t with
    | exc m => rw [hf] at h; cases h
    | ub => rw [hf] at h; cases h
    | ok t1 =>
      rw [hf, Outcome.bind_ok] at h
      obtain ⟨-, e, fs, x, h3, h4⟩ := fill_last hf (query_err h1) hl
      cases hr : raise t1.vals s.vsVal 0 s.minVs with
      | exc m => rw [hr] at h; cases h
      | ub => rw [hr] at h; cases h
      | ok v =>
        rw [hr, Outcome.bind_ok] at h
        cases h
        exact ⟨e, fs, x, _, h3, h4⟩
  · cases h
    obtain ⟨e, fs, x, h3, h4⟩ := hl
    exact ⟨e, fs, x, _, h3, h4⟩

theorem copyValues_ne_exc (q : VMQuery K) (g : Geom K) (db : Db K) (lon lat elev : K) (p : Payload K)
    (st : VMQuery.CopyState K) (vs : List (Option Nat)) (m : String) : VMQuery.copyValues q g db lon lat elev p st vs ≠ .exc m := by
  induction vs generalizing st with
  | nil => intro h; cases h
  | cons v vs ih =>
    intro h
    unfold VMQuery.copyValues at h
    cases hv : VMQuery.copyValue q g db lon lat elev p st v with
    | exc m' =>
      unfold VMQuery.copyValue at hv
      split at hv
      all_goals try cases hv
      split at hv <;> cases hv
    | ub => rw [hv] at h; cases h
    | ok r =>
      rw [hv, Outcome.bind_ok] at h
      cases hr : VMQuery.copyValues q g db lon lat elev p r.2 vs with
      | exc m' => rw [hr] at h; cases h; exact ih _ hr
      | ub => rw [hr] at h; cases h
      | ok rs => rw [hr] at h; cases h

/-- A query never lets an exception out. -/
theorem query_ne_exc (fmt : Fmt K) (q : VMQuery K) (fs : Files) (n : Int) (lon lat elev : K) (m : String) :
    VMQuery.query fmt q fs n lon lat elev ≠ .exc m := by
  intro h
  unfold VMQuery.query at h
  split at h
  · cases h
  split at h
  · split at h
    · cases h
    · cases h
    · dsimp only at h
      split at h
      · cases h
      · next hc => exact copyValues_ne_exc _ _ _ _ _ _ _ _ _ _ hc
      · cases h
  · cases h

theorem ask_ne_exc (fmt : Fmt K) (q : VMQuery K) (fs : Files) (n : Int) (lon lat elev : K) (l : List K) (m : String) :
    ask fmt q fs n lon lat elev l ≠ .exc m := by
  intro h
  unfold ask at h
  split at h
  · next hq => exact query_ne_exc _ _ _ _ _ _ _ _ hq
  · cases h
  · cases h

theorem valAt_ne_exc (vals : List K) (i : Int) (m : String) : valAt vals i ≠ .exc m := by
  intro h
  unfold valAt at h
  split at h
  · split at h <;> cases h
  · cases h

theorem raise_ne_exc (vals : List K) (i : Int) (a b : K) (m : String) : raise vals i a b ≠ .exc m := by
  intro h
  unfold raise at h
  split at h
  · next hv => exact valAt_ne_exc _ _ _ hv
  · cases h
  · cases h

theorem fill_ne_exc (fmt : Fmt K) (v N : Int) (lon lat z : K) (left iter : Nat) (t : Tried K) (m : String) :
    fill fmt v N lon lat z left iter t ≠ .exc m := by
  induction left generalizing iter t with
  | zero => intro h; cases h
  | succ left ih =>
    intro h
    unfold fill at h
    split at h
    · next hv => exact valAt_ne_exc _ _ _ hv
    · cases h
    · split at h
      · split at h
        · next hk => exact ask_ne_exc _ _ _ _ _ _ _ _ _ hk
        · cases h
        · exact ih _ _ h
      · cases h

theorem adjusted_ne_exc (fmt : Fmt K) (s : CenCalVMDB K) (N : Int) (lon lat z : K) (t : Tried K) (m : String) :
    (do let t ← project fmt s N lon lat z t
        let vals ← raiseVp s t.vals
        let vals ← raiseDensity s vals
        Outcome.ok { t with vals := vals }) ≠ .exc m := by
  intro h
  cases h1 : project fmt s N lon lat z t with
  | ub => rw [h1] at h; cases h
  | exc m' =>
    unfold project at h1
    split at h1
    · cases hf : fill fmt s.vsVal N lon lat z 8 1 t with
      | exc m => exact fill_ne_exc _ _ _ _ _ _ _ _ _ _ hf
      | ub => rw [hf] at h1; cases h1
      | ok t1 =>
        rw [hf, Outcome.bind_ok] at h1
        cases hr : raise t1.vals s.vsVal 0 s.minVs with
        | exc m => exact raise_ne_exc _ _ _ _ _ hr
        | ub => rw [hr] at h1; cases h1
        | ok v => rw [hr] at h1; cases h1
    · cases h1
  | ok t1 =>
    rw [h1, Outcome.bind_ok] at h
    cases h2 : raiseVp s t1.vals with
    | ub => rw [h2] at h; cases h
    | exc m' =>
      unfold raiseVp at h2
      split at h2
      · exact raise_ne_exc _ _ _ _ _ h2
      · cases h2
    | ok v =>
      rw [h2, Outcome.bind_ok] at h
      cases h3 : raiseDensity s v with
      | ub => rw [h3] at h; cases h
      | ok v => rw [h3] at h; cases h
      | exc m' =>
        unfold raiseDensity at h3
        split at h3
        · exact raise_ne_exc _ _ _ _ _ h3
        · cases h3

theorem setting_ne_exc {c : Call K} {f : VMQuery K → Outcome (VMQuery K)} (hf : c.setting = some f) (q : VMQuery K) (m : String) :
    f q ≠ .exc m := by
  cases c <;> simp only [Call.setting, Option.some.injEq, reduceCtorEq] at hf <;> subst hf
  · unfold VMQuery.openDb VMQuery.openMain VMQuery.openExt
    split
    · simp only [Outcome.bind_ok]; split <;> [skip; simp]; split <;> [simp; skip]; split <;> [skip; simp]; split <;> simp
    split
    · split <;> simp only [Outcome.bind_ok] <;> split <;> [skip; simp; skip; simp] <;> split <;> [simp; skip; simp; skip] <;>
        split <;> [skip; simp; skip; simp] <;> split <;> simp
    · simp
  · simp
  · dsimp only; split <;> simp
  · dsimp only; unfold VMQuery.setQueryVals; split <;> [skip; simp]; split <;> simp

theorem call_setting (fmt : Fmt K) (s : CenCalVMDB K) {c : Call K} {f : VMQuery K → Outcome (VMQuery K)} (hf : c.setting = some f) :
    (f s.q = .ub → call fmt s c = .ub) ∧
    ∀ q, f s.q = .ok q →
      (q.err.status = .ERROR → call fmt s c = .exc q.err.message { s with q := q }) ∧
      (q.err.status ≠ .ERROR → ∃ s', call fmt s c = .ok s' () ∧ s'.q = q) := by
  cases c <;> simp only [Call.setting, Option.some.injEq, reduceCtorEq] at hf <;> subst hf
  · refine ⟨fun h => by simp [call, openDb, h], fun q h => ⟨fun h1 => by simp [call, openDb, h, throwOnError, h1],
      fun h1 => ⟨{ s with q := q }, by simp [call, openDb, h, throwOnError, h1], rfl⟩⟩⟩
  · refine ⟨(nomatch ·), fun q h => ?_⟩
    cases h
    refine ⟨fun h1 => by simp [call, close, throwOnError, h1], fun h1 => ⟨_, by simp only [call, close, throwOnError, if_neg h1]; rfl, rfl⟩⟩
  · next n =>
    have e : (n = 0 ∨ n = 1 ∨ n = 2) ↔ (0 ≤ n ∧ n ≤ 2) := by omega
    dsimp only
    split
    · next hn =>
      refine ⟨(nomatch ·), fun q h => ?_⟩
      cases h
      exact ⟨fun h1 => by simp [call, queryType, e.2 hn, throwOnError, h1],
        fun h1 => ⟨_, by simp only [call, queryType, if_pos (e.2 hn), throwOnError, if_neg h1]; rfl, rfl⟩⟩
    · next hn => exact ⟨fun _ => by simp only [call, queryType, if_neg (fun h => hn (e.1 h))], fun q h => (by cases h)⟩
  · refine ⟨fun h => by simp [call, queryVals, h], fun q h => ⟨fun h1 => by simp [call, queryVals, h, throwOnError, h1],
      fun h1 => ?_⟩⟩
    simp only [call, queryVals, h, throwOnError, if_neg h1, Run.bind_ok]
    exact ⟨_, rfl, by rw [noteNames_eq]⟩

/-- A call that configures leaves an error an error. -/
theorem setting_error {c : Call K} {f : VMQuery K → Outcome (VMQuery K)} (hf : c.setting = some f) {q q' : VMQuery K}
    (h : f q = .ok q') (he : q.err.status = .ERROR) : q'.err.status = .ERROR := by
  have h2 : ∀ (e : ErrorHandler) m, (e.error m).status = .ERROR := fun _ _ => rfl
  have hfold : ∀ (ns : List String) (e : ErrorHandler), e.status = .ERROR → (ns.foldl VMQuery.nameErr e).status = .ERROR := by
    intro ns
    induction ns with
    | nil => exact fun e h => h
    | cons n ns ih =>
      intro e h
      refine ih _ ?_
      unfold VMQuery.nameErr
      split
      · exact h
      · rfl
  cases c <;> simp only [Call.setting, Option.some.injEq, reduceCtorEq] at hf <;> subst hf
  · simp only [VMQuery.openDb] at h
    cases h1 : VMQuery.openMain _ q with
    | exc m => rw [h1] at h; cases h
    | ub => rw [h1] at h; cases h
    | ok q1 =>
      rw [h1, Outcome.bind_ok] at h
      have e1 : q1.err.status = .ERROR := by
        unfold VMQuery.openMain at h1
        split at h1
        · cases h1; exact he
        split at h1 <;> [skip; cases h1]
        split at h1 <;> cases h1
        · exact he
        · rfl
      unfold VMQuery.openExt at h
      split at h
      · split at h
        · cases h; exact e1
        split at h <;> [skip; cases h]
        split at h <;> cases h
        · exact e1
        · rfl
      · cases h; exact e1
  · cases h
    show (VMQuery.closeErr (VMQuery.closeErr _ _ _ _) _ _ _).status = _
    unfold VMQuery.closeErr
    split
    · rfl
    split
    · rfl
    · exact he
  · dsimp only at h
    split at h <;> cases h
    unfold VMQuery.queryType
    split <;> [exact he; skip]
    split <;> [exact he; skip]
    split <;> [exact he; rfl]
  · dsimp only at h
    unfold VMQuery.setQueryVals at h
    split at h
    · split at h <;> cases h
      exact hfold _ _ he
    · cases h; exact he

/-! ### Definedness -/

theorem copyValues_length {q : VMQuery K} {g : Geom K} {db : Db K} {lon lat elev : K} {p : Payload K} {vs : List (Option Nat)}
    {st st' : VMQuery.CopyState K} {vals : List K} (h : VMQuery.copyValues q g db lon lat elev p st vs = .ok (vals, st')) :
    vals.length = vs.length := by
  induction vs generalizing st vals with
  | nil => cases h; rfl
  | cons v vs ih =>
    unfold VMQuery.copyValues at h
    cases hv : VMQuery.copyValue q g db lon lat elev p st v with
    | exc m => rw [hv] at h; cases h
    | ub => rw [hv] at h; cases h
    | ok r =>
      rw [hv, Outcome.bind_ok] at h
      cases hr : VMQuery.copyValues q g db lon lat elev p r.2 vs with
      | exc m => rw [hr] at h; cases h
      | ub => rw [hr] at h; cases h
      | ok rs =>
        rw [hr] at h
        cases h
        simp [ih hr]

theorem query_len {fmt : Fmt K} {q q' : VMQuery K} {fs fs' : Files} {n : Int} {lon lat elev : K} {vals : List K}
    (h : VMQuery.query fmt q fs n lon lat elev = .ok (q', fs', vals)) : (vals.length : Int) = n := by
  obtain ⟨h1, g, db, f, s, -, -, -, -, h2, -⟩ := VMQuery.query_ok h
  rw [h1, copyValues_length h2]

theorem IdxOf.lt {names : List String} {k : Nat} {v : Int} (h : IdxOf names k v) : v < names.length := by
  rcases h with ⟨rfl, -⟩ | ⟨i, rfl, ⟨n, hn, -⟩, -⟩
  · omega
  · exact_mod_cast (List.getElem?_eq_some_iff.1 hn).1

theorem valAt_ne_ub {vals : List K} {v : Int} (h0 : 0 ≤ v) (h1 : v < vals.length) : valAt vals v ≠ .ub := by
  unfold valAt
  rw [if_pos h0]
  split
  · simp
  · next h =>
    rw [List.getElem?_eq_none_iff] at h
    omega

theorem raise_ne_ub {vals : List K} {v : Int} (h0 : 0 ≤ v) (h1 : v < vals.length) (a b : K) : raise vals v a b ≠ .ub := by
  unfold raise
  split
  · simp
  · next h => exact absurd h (valAt_ne_ub h0 h1)
  · simp

theorem raise_length {vals vals' : List K} {v : Int} {a b : K} (h : raise vals v a b = .ok vals') : vals'.length = vals.length := by
  unfold raise at h
  split at h <;> cases h
  split <;> simp

/-- The loop keeps the number of values. -/
theorem fill_length {fmt : Fmt K} {v N : Int} {lon lat z : K} {left iter : Nat} {t t' : Tried K}
    (h : fill fmt v N lon lat z left iter t = .ok t') (hl : (t.vals.length : Int) = N) : (t'.vals.length : Int) = N := by
  induction left generalizing iter t with
  | zero => cases h; exact hl
  | succ left ih =>
    unfold fill at h
    split at h
    · cases h
    · cases h
    split at h
    · split at h
      · cases h
      · cases h
      · next t1 hk => exact ih h (query_len (ask_ok hk).1)
    · cases h; exact hl

/-- The loop is undefined only where a query is. -/
theorem fill_ub {fmt : Fmt K} {q : VMQuery K} {v N : Int} {lon lat z : K} {left n : Nat} {t : Tried K}
    (h : fill fmt v N lon lat z left (n + 1) t = .ub) (hq : t.q = { q with err := t.q.err })
    (hl : (t.vals.length : Int) = N) (h0 : 0 ≤ v) (h1 : v < N) :
    ∃ j e fs, j ≤ n + left ∧ VMQuery.query fmt { q with err := e } fs N lon lat (probe q.rd z j) = .ub := by
  induction left generalizing n t with
  | zero => cases h
  | succ left ih =>
    unfold fill at h
    cases hv : valAt t.vals v with
    | exc m => rw [hv] at h; cases h
    | ub => exact absurd hv (valAt_ne_ub h0 (by omega))
    | ok x =>
      rw [hv] at h
      dsimp only at h
      by_cases hx : x < 0
      · rw [if_pos hx] at h
        have hz : t.q.rd.double (z - 2 ^ (n + 1 - 1) * 25) = probe q.rd z (n + 1) := by
          rw [hq]; unfold probe; rw [Nat.add_sub_cancel, mul_comm]
        have hqq : ({ t.q with err := t.q.err.resetStatus } : VMQuery K) = { q with err := t.q.err.resetStatus } := by
          rw [hq]
        rw [hz, hqq] at h
        cases hk : ask fmt { q with err := t.q.err.resetStatus } t.fs N lon lat (probe q.rd z (n + 1)) t.elevs with
        | exc m => rw [hk] at h; cases h
        | ub =>
          refine ⟨n + 1, t.q.err.resetStatus, t.fs, by omega, ?_⟩
          unfold ask at hk
          split at hk
          · cases hk
          · assumption
          · cases hk
        | ok t1 =>
          rw [hk] at h
          dsimp only at h
          have h2 := (ask_ok hk).1
          have h3 := query_err h2
          obtain ⟨j, e, fs, h4, h5⟩ := ih h (by rw [h3]) (query_len h2)
          exact ⟨j, e, fs, by omega, h5⟩
      · rw [if_neg hx] at h; cases h

/-- Whether there is an answer does not depend on the error handler or the log. -/
theorem answered_any {fmt : Fmt K} {q : VMQuery K} {g : Geom K} {db : Db K} (hg : g.Lawful)
    (hgeom : q.geom = some g) (hdb : q.db = some db) {n : Int} {lon lat elev : K} {vals : List K}
    (h : AnswerAt fmt q n lon lat elev vals) (e : ErrorHandler) (fs : Files) :
    VMQuery.query fmt { q with err := e } fs n lon lat elev ≠ .ub := by
  obtain ⟨q', fs', h⟩ := h
  obtain ⟨⟨q1, fs1, h1⟩, -⟩ := query_any (q := { q with err := e }) (e := q.err) hg hgeom hdb h
  obtain ⟨a, b, c, f, hf, -, d, d'⟩ := (VMQuery.query_iff (q := { q with err := e }) hg hgeom hdb).1 h1
  rw [(VMQuery.query_iff (q := { q with err := e }) hg hgeom hdb (fs := fs)).2 ⟨a, b, c, f, hf, rfl, d, d'⟩]
  simp

end CenCalVMDB
end CenCalVM
