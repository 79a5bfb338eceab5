/-
Grading of a volume: the passes over the database.
-/
import Verif.Lemmas.GradeLine
import Verif.Lemmas.Search
import Verif.Lemmas.Create

set_option linter.unusedSectionVars false

namespace CenCalVM

namespace Db
variable {K : Type}

/-- The payload stored with a key. -/
def payloadAt (db : Db K) (k : Key) : Option (Payload K) := (db.lookup k).map (·.payload)

theorem update_payloadAt {db db' : Db K} {k : Key} {p : Payload K} (h : db.update k p = some db') (k' : Key) :
    db'.payloadAt k' = if k' = k then some p else db.payloadAt k' := by
  unfold update at h
  cases hl : db.lookup k with
  | none => rw [hl] at h; cases h
  | some e0 =>
    rw [hl] at h
    cases h
    have key : ∀ (l : List (Entry K)),
        (l.map fun e => if e.addr.toKey = k then { e with payload := p } else e).find? (fun e => e.addr.toKey = k') =
          (l.find? fun e => e.addr.toKey = k').map fun e => if e.addr.toKey = k then { e with payload := p } else e := by
      intro l
      induction l with
      | nil => rfl
      | cons e l ih =>
        have ha : (if e.addr.toKey = k then { e with payload := p } else e).addr = e.addr := by split <;> rfl
        rw [List.map_cons, List.find?_cons, List.find?_cons, ha]
        by_cases he : e.addr.toKey = k'
        · simp [he]
        · simp only [he, decide_false]; exact ih
    unfold payloadAt lookup
    simp only
    rw [key]
    by_cases hk : k' = k
    · subst hk
      rw [if_pos rfl]
      unfold lookup at hl
      rw [hl]
      have := List.find?_some hl
      simp only [decide_eq_true_eq] at this
      simp [this]
    · rw [if_neg hk]
      cases hf : db.entries.find? fun e => decide (e.addr.toKey = k') with
      | none => rfl
      | some f =>
        have := List.find?_some hf
        simp only [decide_eq_true_eq] at this
        simp [this, hk]

theorem update_isSome {db : Db K} {k : Key} {p p0 : Payload K} (h : db.payloadAt k = some p0) :
    ∃ db', db.update k p = some db' := by
  unfold payloadAt at h
  unfold update
  cases hl : db.lookup k with
  | none => rw [hl] at h; cases h
  | some e => exact ⟨_, rfl⟩

theorem update_addrs {db db' : Db K} {k : Key} {p : Payload K} (h : db.update k p = some db') :
    db'.entries.map (·.addr) = db.entries.map (·.addr) := by
  unfold update at h
  split at h
  · cases h
  · cases h
    simp only [List.map_map]
    apply List.map_congr_left
    intro e _
    simp only [Function.comp]
    split <;> rfl

theorem mem_payloadAt {db : Db K} (hs : db.Sorted) {e : Entry K} (he : e ∈ db.entries) :
    db.payloadAt e.addr.toKey = some e.payload := by
  unfold payloadAt
  obtain ⟨f, hf⟩ := lookup_isSome he
  obtain ⟨h2, h3⟩ := lookup_some hf
  rw [hf, sorted_unique hs h2 he h3]
  rfl

end Db

theorem Key.Aligned.trunc_self {k : Key} (h : k.Aligned) : k.trunc k.level = k := by
  apply Key.ext' <;> first | rfl | skip
  · exact Key.truncTick_of_dvd h.x_dvd
  · exact Key.truncTick_of_dvd h.y_dvd
  · exact Key.truncTick_of_dvd h.z_dvd

/-- All stored octants have one level. -/
def Db.OneLevel {K : Type} (db : Db K) (n : Nat) : Prop := ∀ e ∈ db.entries, e.addr.level = n

/-- Searching a cell of the only level there is finds it or nothing. -/
theorem Db.search_oneLevel {K : Type} {db : Db K} {k : Key} (hl : db.OneLevel k.level) (hk : k.Aligned) :
    db.search k = db.lookup k := by
  have low : ∀ n < k.level, db.searchFrom k n = none := by
    intro n
    induction n with
    | zero =>
      intro h
      unfold searchFrom
      cases hf : db.lookup (k.trunc 0) with
      | none => rfl
      | some e =>
        obtain ⟨h1, h2⟩ := lookup_some hf
        have h3 := hl e h1
        have h4 : e.addr.level = 0 := congrArg Key.level h2
        omega
    | succ n ih =>
      intro h
      unfold searchFrom
      cases hf : db.lookup (k.trunc (n + 1)) with
      | none => exact ih (by omega)
      | some e =>
        obtain ⟨h1, h2⟩ := lookup_some hf
        have h3 := hl e h1
        have h4 : e.addr.level = n + 1 := congrArg Key.level h2
        omega
  have hself := hk.trunc_self
  unfold search
  cases hn : k.level with
  | zero => unfold searchFrom; rw [← hn, hself]
  | succ n =>
    unfold searchFrom
    rw [hn] at hself
    rw [hself, low n (by omega)]
    cases db.lookup k <;> rfl

namespace VsGrader
variable {K : Type} [Field K] [LinearOrder K] [IsStrictOrderedRing K] [FloorRing K]

/-- A location of the grid has the cell `k`. -/
def AtKey (s : Grid K) (loc : Outcome (K × K × K)) (k : Key) : Prop :=
  ∃ lon lat elev a, loc = .ok (lon, lat, elev) ∧ pointAddr s lon lat elev = .ok a ∧ a.toKey = k

theorem pullLine_ok {s : Grid K} {loc : Nat → Outcome (K × K × K)} {k : Nat → Key} {db : Db K} {junk : Payload K} {n : Nat}
    (hk : ∀ i < n, AtKey s (loc i) (k i) ∧ (k i).Aligned ∧ db.OneLevel (k i).level) {d : Nat → Payload K}
    (h : pullLine s loc db junk n = .ok d) : ∀ i < n, db.payloadAt (k i) = some (d i) := by
  induction n generalizing d with
  | zero => intro i hi; omega
  | succ n ih =>
    unfold pullLine at h
    split at h <;> try cases h
    rename_i d' hd'
    obtain ⟨⟨lon, lat, elev, a, h1, h2, h3⟩, h4, h5⟩ := hk n (by omega)
    rw [h1] at h
    simp only [pullData, h2, h3] at h
    rw [Db.search_oneLevel h5 h4] at h
    cases hl : db.lookup (k n) with
    | none => rw [hl] at h; cases h
    | some e =>
      rw [hl] at h
      cases h
      intro i hi
      by_cases hin : i = n
      · subst hin
        simp [Db.payloadAt, hl]
      · rw [Function.update_of_ne hin]
        exact ih (fun i hi => hk i (by omega)) hd' i (by omega)

theorem pullLine_total {s : Grid K} {loc : Nat → Outcome (K × K × K)} {k : Nat → Key} {db : Db K} {junk : Payload K} {n : Nat}
    (hk : ∀ i < n, AtKey s (loc i) (k i) ∧ (k i).Aligned ∧ db.OneLevel (k i).level)
    (hs : ∀ i < n, (db.payloadAt (k i)).isSome) : ∃ d, pullLine s loc db junk n = .ok d := by
  induction n with
  | zero => exact ⟨_, rfl⟩
  | succ n ih =>
    obtain ⟨d, hd⟩ := ih (fun i hi => hk i (by omega)) (fun i hi => hs i (by omega))
    unfold pullLine
    rw [hd]
    obtain ⟨⟨lon, lat, elev, a, h1, h2, h3⟩, h4, h5⟩ := hk n (by omega)
    have := hs n (by omega)
    unfold Db.payloadAt at this
    simp only [h1, pullData, h2, h3]
    rw [Db.search_oneLevel h5 h4]
    cases hl : db.lookup (k n) with
    | none => rw [hl] at this; cases this
    | some e => exact ⟨_, rfl⟩

/-- Writing back a line: its points get the new payloads, the rest stays. -/
theorem pushLine_ok {s : Grid K} {loc : Nat → Outcome (K × K × K)} {k : Nat → Key} {l : Line K} {n : Nat}
    (hk : ∀ i < n, AtKey s (loc i) (k i)) (hinj : ∀ i < n, ∀ j < n, k i = k j → i = j) {db db' : Db K}
    (h : pushLine s loc l n db = .ok db' ()) :
    (∀ i < n, db'.payloadAt (k i) = if l.changed i then some (l.data i) else db.payloadAt (k i)) ∧
      (∀ x, (∀ i < n, k i ≠ x) → db'.payloadAt x = db.payloadAt x) ∧
      db'.entries.map (·.addr) = db.entries.map (·.addr) := by
  induction n generalizing db' with
  | zero => cases h; exact ⟨fun i hi => by omega, fun _ _ => rfl, rfl⟩
  | succ n ih =>
    unfold pushLine at h
    cases hp : pushLine s loc l n db with
    | exc m x => rw [hp] at h; cases h
    | ub => rw [hp] at h; cases h
    | ok db1 u =>
      cases u
      rw [hp, Run.bind_ok] at h
      obtain ⟨i1, i2, i3⟩ := ih (fun i hi => hk i (by omega)) (fun i hi j hj => hinj i (by omega) j (by omega)) hp
      have hnew : ∀ i < n, k i ≠ k n := fun i hi he => by have := hinj i (by omega) n (by omega) he; omega
      by_cases hc : l.changed n = true
      · rw [if_pos hc] at h
        obtain ⟨lon, lat, elev, a, h1, h2, h3⟩ := hk n (by omega)
        simp only [h1, pushData, h2, h3] at h
        cases hu : db1.update (k n) (l.data n) with
        | none => rw [hu] at h; cases h
        | some db2 =>
          rw [hu] at h
          cases h
          have hat := Db.update_payloadAt hu
          refine ⟨fun i hi => ?_, fun x hx => ?_, (Db.update_addrs hu).trans i3⟩
          · by_cases hin : i = n
            · subst hin; rw [hat, if_pos rfl, if_pos hc]
            · rw [hat, if_neg (hnew i (by omega)), i1 i (by omega)]
          · rw [hat, if_neg (fun he => hx n (by omega) he.symm), i2 x fun i hi => hx i (by omega)]
      · rw [if_neg hc] at h
        cases h
        refine ⟨fun i hi => ?_, fun x hx => i2 x fun i hi => hx i (by omega), i3⟩
        by_cases hin : i = n
        · subst hin; rw [if_neg hc]; exact i2 _ hnew
        · exact i1 i (by omega)

theorem pushLine_total {s : Grid K} {loc : Nat → Outcome (K × K × K)} {k : Nat → Key} {l : Line K} {n : Nat}
    (hk : ∀ i < n, AtKey s (loc i) (k i)) (hinj : ∀ i < n, ∀ j < n, k i = k j → i = j) {db : Db K}
    (hs : ∀ i < n, (db.payloadAt (k i)).isSome) : ∃ db', pushLine s loc l n db = .ok db' () := by
  induction n with
  | zero => exact ⟨db, rfl⟩
  | succ n ih =>
    have hk' : ∀ i < n, AtKey s (loc i) (k i) := fun i hi => hk i (by omega)
    have hinj' : ∀ i < n, ∀ j < n, k i = k j → i = j := fun i hi j hj => hinj i (by omega) j (by omega)
    obtain ⟨db1, h1⟩ := ih hk' hinj' fun i hi => hs i (by omega)
    obtain ⟨-, i2, -⟩ := pushLine_ok hk' hinj' h1
    unfold pushLine
    rw [h1, Run.bind_ok]
    split
    · obtain ⟨lon, lat, elev, a, e1, e2, e3⟩ := hk n (by omega)
      simp only [e1, pushData, e2, e3]
      have hsn := hs n (by omega)
      rw [← i2 (k n) fun i hi he => by have := hinj i (by omega) n (by omega) he; omega] at hsn
      obtain ⟨p, hp⟩ := Option.isSome_iff_exists.1 hsn
      obtain ⟨db2, h2⟩ := Db.update_isSome (p := l.data n) hp
      rw [h2]
      exact ⟨_, rfl⟩
    · exact ⟨_, rfl⟩

/-- The cells of a line. -/
structure Cells (s : Grid K) (loc : Nat → Outcome (K × K × K)) (k : Nat → Key) (lv n : Nat) : Prop where
  at_ : ∀ i < n, AtKey s (loc i) (k i)
  aligned : ∀ i < n, (k i).Aligned
  level : ∀ i < n, (k i).level = lv
  inj : ∀ i < n, ∀ j < n, k i = k j → i = j

theorem gradeLine_ok {s : Grid K} {loc : Nat → Outcome (K × K × K)} {k : Nat → Key} {m : K} {junk : Payload K} {lv n : Nat}
    (hc : Cells s loc k lv n) {db db' : Db K} (hl : db.OneLevel lv) (h : gradeLine s loc m junk n db = .ok db' ()) :
    ∃ d, (∀ i < n, db.payloadAt (k i) = some (d i)) ∧
      (∀ i < n, db'.payloadAt (k i) = some ((limitDiff s.rd m n d).data i)) ∧
      (∀ x, (∀ i < n, k i ≠ x) → db'.payloadAt x = db.payloadAt x) ∧
      db'.entries.map (·.addr) = db.entries.map (·.addr) := by
  unfold gradeLine at h
  cases hp : pullLine s loc db junk n with
  | exc m => rw [hp] at h; cases h
  | ub => rw [hp] at h; cases h
  | ok d =>
    rw [hp] at h
    have h1 := pullLine_ok (k := k) (fun i hi => ⟨hc.at_ i hi, hc.aligned i hi, by rw [hc.level i hi]; exact hl⟩) hp
    obtain ⟨h2, h3, h4⟩ := pushLine_ok hc.at_ hc.inj h
    refine ⟨d, h1, fun i hi => ?_, h3, h4⟩
    rw [h2 i hi]
    split
    · rfl
    · rename_i hf
      rw [limitDiff_unchanged (by simpa using hf), h1 i hi]

theorem gradeLine_total {s : Grid K} {loc : Nat → Outcome (K × K × K)} {k : Nat → Key} {m : K} {junk : Payload K} {lv n : Nat}
    (hc : Cells s loc k lv n) {db : Db K} (hl : db.OneLevel lv) (hs : ∀ i < n, (db.payloadAt (k i)).isSome) :
    ∃ db', gradeLine s loc m junk n db = .ok db' () := by
  unfold gradeLine
  obtain ⟨d, hd⟩ := pullLine_total (junk := junk) (k := k)
    (fun i hi => ⟨hc.at_ i hi, hc.aligned i hi, by rw [hc.level i hi]; exact hl⟩) hs
  rw [hd]
  exact pushLine_total hc.at_ hc.inj hs

theorem oneLevel_of_addrs {db db' : Db K} {lv : Nat} (h : db'.entries.map (·.addr) = db.entries.map (·.addr))
    (hl : db.OneLevel lv) : db'.OneLevel lv := by
  intro e he
  have : e.addr ∈ db'.entries.map (·.addr) := List.mem_map.2 ⟨e, he, rfl⟩
  rw [h] at this
  obtain ⟨f, hf, hfe⟩ := List.mem_map.1 this
  rw [← hfe]; exact hl f hf

/-- What a pass does: `B` lines of `n` points with cells `k` are replaced by their limits. -/
structure Limited (rd : Rd K) (m : K) (n B : Nat) (k : Nat → Nat → Key) (db db' : Db K) : Prop where
  lines : ∀ j < B, ∃ d, (∀ i < n, db.payloadAt (k j i) = some (d i)) ∧
    ∀ i < n, db'.payloadAt (k j i) = some ((limitDiff rd m n d).data i)
  rest : ∀ x, (∀ j < B, ∀ i < n, k j i ≠ x) → db'.payloadAt x = db.payloadAt x
  addrs : db'.entries.map (·.addr) = db.entries.map (·.addr)

/-- A loop over lines. -/
theorem lines_ok {s : Grid K} {loc : Nat → Nat → Outcome (K × K × K)} {k : Nat → Nat → Key} {m : K} {junk : Payload K} {lv n B : Nat}
    (hc : ∀ j < B, Cells s (loc j) (k j) lv n) (hinj : ∀ j < B, ∀ j' < B, ∀ i < n, ∀ i' < n, k j i = k j' i' → j = j')
    {db db' : Db K} (hl : db.OneLevel lv) (h : loop (fun j db => gradeLine s (loc j) m junk n db) B db = .ok db' ()) :
    Limited s.rd m n B k db db' := by
  induction B generalizing db' with
  | zero => cases h; exact ⟨fun j hj => by omega, fun _ _ => rfl, rfl⟩
  | succ B ih =>
    unfold loop at h
    cases hp : loop (fun j db => gradeLine s (loc j) m junk n db) B db with
    | exc m x => rw [hp] at h; cases h
    | ub => rw [hp] at h; cases h
    | ok db1 u =>
      cases u
      rw [hp, Run.bind_ok] at h
      obtain ⟨i1, i2, i3⟩ := ih (fun j hj => hc j (by omega)) (fun j hj j' hj' => hinj j (by omega) j' (by omega)) hp
      obtain ⟨d, d1, d2, d3, d4⟩ := gradeLine_ok (hc B (by omega)) (oneLevel_of_addrs i3 hl) h
      refine ⟨fun j hj => ?_, fun x hx => ?_, d4.trans i3⟩
      · by_cases hjB : j = B
        · subst hjB
          refine ⟨d, fun i hi => ?_, d2⟩
          rw [← i2 (k j i) fun j' hj' i' hi' he => by have := hinj j' (by omega) j (by omega) i' hi' i hi he; omega]
          exact d1 i hi
        · obtain ⟨e, e1, e2⟩ := i1 j (by omega)
          refine ⟨e, e1, fun i hi => ?_⟩
          rw [d3 (k j i) fun i' hi' he => by have := hinj B (by omega) j (by omega) i' hi' i hi he; omega]
          exact e2 i hi
      · rw [d3 x fun i hi => hx B (by omega) i hi, i2 x fun j hj i hi => hx j (by omega) i hi]

theorem lines_total {s : Grid K} {loc : Nat → Nat → Outcome (K × K × K)} {k : Nat → Nat → Key} {m : K} {junk : Payload K} {lv n B : Nat}
    (hc : ∀ j < B, Cells s (loc j) (k j) lv n) (hinj : ∀ j < B, ∀ j' < B, ∀ i < n, ∀ i' < n, k j i = k j' i' → j = j')
    {db : Db K} (hl : db.OneLevel lv) (hs : ∀ j < B, ∀ i < n, (db.payloadAt (k j i)).isSome) :
    ∃ db', loop (fun j db => gradeLine s (loc j) m junk n db) B db = .ok db' () := by
  induction B with
  | zero => exact ⟨db, rfl⟩
  | succ B ih =>
    have hc' : ∀ j < B, Cells s (loc j) (k j) lv n := fun j hj => hc j (by omega)
    have hinj' : ∀ j < B, ∀ j' < B, ∀ i < n, ∀ i' < n, k j i = k j' i' → j = j' :=
      fun j hj j' hj' => hinj j (by omega) j' (by omega)
    obtain ⟨db1, h1⟩ := ih hc' hinj' fun j hj => hs j (by omega)
    obtain ⟨-, i2, i3⟩ := lines_ok hc' hinj' hl h1
    unfold loop
    rw [h1, Run.bind_ok]
    refine gradeLine_total (hc B (by omega)) (oneLevel_of_addrs i3 hl) fun i hi => ?_
    rw [i2 (k B i) fun j' hj' i' hi' he => by have := hinj j' (by omega) B (by omega) i' hi' i hi he; omega]
    exact hs B (by omega) i hi

/-- What a whole pass does: all lines of a grid of `A` by `B` lines are replaced by their limits. -/
structure LimitedAll (rd : Rd K) (m : K) (n A B : Nat) (k : Nat → Nat → Nat → Key) (db db' : Db K) : Prop where
  lines : ∀ a < A, ∀ j < B, ∃ d, (∀ i < n, db.payloadAt (k a j i) = some (d i)) ∧
    ∀ i < n, db'.payloadAt (k a j i) = some ((limitDiff rd m n d).data i)
  rest : ∀ x, (∀ a < A, ∀ j < B, ∀ i < n, k a j i ≠ x) → db'.payloadAt x = db.payloadAt x
  addrs : db'.entries.map (·.addr) = db.entries.map (·.addr)

/-- Different points have different cells. -/
def Inj3 (A B n : Nat) (k : Nat → Nat → Nat → Key) : Prop :=
  ∀ a < A, ∀ a' < A, ∀ j < B, ∀ j' < B, ∀ i < n, ∀ i' < n, k a j i = k a' j' i' → a = a' ∧ j = j' ∧ i = i'

theorem pass_ok {s : Grid K} {loc : Nat → Nat → Nat → Outcome (K × K × K)} {k : Nat → Nat → Nat → Key} {m : K} {junk : Payload K}
    {lv n A B : Nat} (hc : ∀ a < A, ∀ j < B, Cells s (loc a j) (k a j) lv n) (hinj : Inj3 A B n k)
    {db db' : Db K} (hl : db.OneLevel lv)
    (h : loop (fun a db => loop (fun j db => gradeLine s (loc a j) m junk n db) B db) A db = .ok db' ()) :
    LimitedAll s.rd m n A B k db db' := by
  induction A generalizing db' with
  | zero => cases h; exact ⟨fun j hj => by omega, fun _ _ => rfl, rfl⟩
  | succ A ih =>
    unfold loop at h
    cases hp : loop (fun a db => loop (fun j db => gradeLine s (loc a j) m junk n db) B db) A db with
    | exc m x => rw [hp] at h; cases h
    | ub => rw [hp] at h; cases h
    | ok db1 u =>
      cases u
      rw [hp, Run.bind_ok] at h
      obtain ⟨i1, i2, i3⟩ := ih (fun a ha => hc a (by omega)) (fun a ha a' ha' => hinj a (by omega) a' (by omega)) hp
      obtain ⟨d1, d3, d4⟩ := lines_ok (hc A (by omega))
        (fun j hj j' hj' i hi i' hi' he => (hinj A (by omega) A (by omega) j hj j' hj' i hi i' hi' he).2.1)
        (oneLevel_of_addrs i3 hl) h
      refine ⟨fun a ha j hj => ?_, fun x hx => ?_, d4.trans i3⟩
      · by_cases haA : a = A
        · subst haA
          obtain ⟨d, e1, e2⟩ := d1 j hj
          refine ⟨d, fun i hi => ?_, e2⟩
          rw [← i2 (k a j i) fun a' ha' j' hj' i' hi' he => by
            have := (hinj a' (by omega) a (by omega) j' hj' j hj i' hi' i hi he).1; omega]
          exact e1 i hi
        · obtain ⟨e, e1, e2⟩ := i1 a (by omega) j hj
          refine ⟨e, e1, fun i hi => ?_⟩
          rw [d3 (k a j i) fun j' hj' i' hi' he => by
            have := (hinj A (by omega) a (by omega) j' hj' j hj i' hi' i hi he).1; omega]
          exact e2 i hi
      · rw [d3 x fun j hj i hi => hx A (by omega) j hj i hi, i2 x fun a ha j hj i hi => hx a (by omega) j hj i hi]

theorem pass_total {s : Grid K} {loc : Nat → Nat → Nat → Outcome (K × K × K)} {k : Nat → Nat → Nat → Key} {m : K} {junk : Payload K}
    {lv n A B : Nat} (hc : ∀ a < A, ∀ j < B, Cells s (loc a j) (k a j) lv n) (hinj : Inj3 A B n k)
    {db : Db K} (hl : db.OneLevel lv) (hs : ∀ a < A, ∀ j < B, ∀ i < n, (db.payloadAt (k a j i)).isSome) :
    ∃ db', loop (fun a db => loop (fun j db => gradeLine s (loc a j) m junk n db) B db) A db = .ok db' () := by
  induction A with
  | zero => exact ⟨db, rfl⟩
  | succ A ih =>
    have hc' : ∀ a < A, ∀ j < B, Cells s (loc a j) (k a j) lv n := fun j hj => hc j (by omega)
    have hinj' : Inj3 A B n k := fun a ha a' ha' => hinj a (by omega) a' (by omega)
    obtain ⟨db1, h1⟩ := ih hc' hinj' fun j hj => hs j (by omega)
    obtain ⟨-, i2, i3⟩ := pass_ok hc' hinj' hl h1
    unfold loop
    rw [h1, Run.bind_ok]
    refine lines_total (hc A (by omega))
      (fun j hj j' hj' i hi i' hi' he => (hinj A (by omega) A (by omega) j hj j' hj' i hi i' hi' he).2.1)
      (oneLevel_of_addrs i3 hl) fun j hj i hi => ?_
    rw [i2 (k A j i) fun a' ha' j' hj' i' hi' he => by
      have := (hinj a' (by omega) A (by omega) j' hj' j hj i' hi' i hi he).1; omega]
    exact hs A (by omega) j hj i hi

/-! ### The three passes -/

/-- The database holds the volume `V` at the cells `k` of a grid. -/
def Holds (nL nW nH : Nat) (k : Nat → Nat → Nat → Key) (db : Db K) (V : Nat → Nat → Nat → Payload K) : Prop :=
  ∀ l < nL, ∀ w < nW, ∀ h < nH, db.payloadAt (k l w h) = some (V l w h)

/-- The volume after the pass along the height, the length, the width. -/
def passHt (rd : Rd K) (m : K) (n : Nat) (V : Nat → Nat → Nat → Payload K) : Nat → Nat → Nat → Payload K :=
  fun l w h => (limitDiff rd m n (V l w)).data h
/-- See `passHt`. -/
def passLen (rd : Rd K) (m : K) (n : Nat) (V : Nat → Nat → Nat → Payload K) : Nat → Nat → Nat → Payload K :=
  fun l w h => (limitDiff rd m n fun l => V l w h).data l
/-- See `passHt`. -/
def passWidth (rd : Rd K) (m : K) (n : Nat) (V : Nat → Nat → Nat → Payload K) : Nat → Nat → Nat → Payload K :=
  fun l w h => (limitDiff rd m n fun w => V l w h).data w

/-- The cells of the grid. -/
structure GridCells (s : Grid K) (nL nW nH lv : Nat) (k : Nat → Nat → Nat → Key) : Prop where
  at_ : ∀ l < nL, ∀ w < nW, ∀ h < nH, AtKey s (s.loc l w h) (k l w h)
  aligned : ∀ l < nL, ∀ w < nW, ∀ h < nH, (k l w h).Aligned
  level : ∀ l < nL, ∀ w < nW, ∀ h < nH, (k l w h).level = lv
  inj : Inj3 nL nW nH k

theorem volume_of_isSome {nL nW nH : Nat} {k : Nat → Nat → Nat → Key} {db : Db K}
    (h : ∀ l < nL, ∀ w < nW, ∀ i < nH, (db.payloadAt (k l w i)).isSome) (junk : Payload K) :
    Holds nL nW nH k db fun l w i => (db.payloadAt (k l w i)).getD junk := by
  intro l hl w hw i hi
  obtain ⟨p, hp⟩ := Option.isSome_iff_exists.1 (h l hl w hw i hi)
  simp [hp]

/-- Grading, in terms of volumes. -/
theorem grade_ok {s : Grid K} {nL nW nH lv : Nat} {k : Nat → Nat → Nat → Key} (hk : GridCells s nL nW nH lv k)
    (hnL : s.numLen = .ok nL) (hnW : s.numWidth = .ok nW) (hnH : s.numHt = .ok nH) {junk : Payload K} {db db' : Db K}
    (hl : db.OneLevel lv) (h : grade s junk db = .ok db' ()) :
    ∃ V, Holds nL nW nH k db V ∧
      Holds nL nW nH k db' (passWidth s.rd (s.rd.double (s.gradientMax * s.resHoriz)) nW (passLen s.rd (s.rd.double (s.gradientMax * s.resHoriz)) nL
        (passHt s.rd (s.rd.double (s.gradientMax * s.resVert)) nH V))) ∧
      (∀ x, (∀ l < nL, ∀ w < nW, ∀ h < nH, k l w h ≠ x) → db'.payloadAt x = db.payloadAt x) ∧
      db'.entries.map (·.addr) = db.entries.map (·.addr) := by
  unfold grade at h
  simp only [hnL, hnW, hnH] at h
  cases h1 : loop (fun iLen db => loop (fun iWidth db =>
        gradeLine s (fun iHt => s.loc iLen iWidth iHt) (s.rd.double (s.gradientMax * s.resVert)) junk nH db) nW db) nL db with
  | exc m x => rw [h1] at h; cases h
  | ub => rw [h1] at h; cases h
  | ok db1 u =>
    rw [h1, Run.bind_ok] at h
    cases h2 : loop (fun iHt db => loop (fun iWidth db =>
        gradeLine s (fun iLen => s.loc iLen iWidth iHt) (s.rd.double (s.gradientMax * s.resHoriz)) junk nL db) nW db) nH db1 with
    | exc m x => rw [h2] at h; cases h
    | ub => rw [h2] at h; cases h
    | ok db2 u =>
      rw [h2, Run.bind_ok] at h
      have p1 := pass_ok (loc := fun l w h => s.loc l w h) (k := fun l w h => k l w h)
        (fun l hl w hw => ⟨hk.at_ l hl w hw, hk.aligned l hl w hw, hk.level l hl w hw,
          fun i hi j hj he => (hk.inj l hl l hl w hw w hw i hi j hj he).2.2⟩) hk.inj hl h1
      have hl1 := oneLevel_of_addrs p1.addrs hl
      have p2 := pass_ok (loc := fun h w l => s.loc l w h) (k := fun h w l => k l w h)
        (fun h hh w hw => ⟨fun l hl => hk.at_ l hl w hw h hh, fun l hl => hk.aligned l hl w hw h hh,
          fun l hl => hk.level l hl w hw h hh,
          fun i hi j hj he => (hk.inj i hi j hj w hw w hw h hh h hh he).1⟩)
        (fun a ha a' ha' j hj j' hj' i hi i' hi' he => by
          obtain ⟨e1, e2, e3⟩ := hk.inj i hi i' hi' j hj j' hj' a ha a' ha' he
          exact ⟨e3, e2, e1⟩) hl1 h2
      have hl2 := oneLevel_of_addrs p2.addrs hl1
      have p3 := pass_ok (loc := fun h l w => s.loc l w h) (k := fun h l w => k l w h)
        (fun h hh l hl => ⟨fun w hw => hk.at_ l hl w hw h hh, fun w hw => hk.aligned l hl w hw h hh,
          fun w hw => hk.level l hl w hw h hh,
          fun i hi j hj he => (hk.inj l hl l hl i hi j hj h hh h hh he).2.1⟩)
        (fun a ha a' ha' j hj j' hj' i hi i' hi' he => by
          obtain ⟨e1, e2, e3⟩ := hk.inj j hj j' hj' i hi i' hi' a ha a' ha' he
          exact ⟨e3, e1, e2⟩) hl2 h
      have hsome : ∀ l < nL, ∀ w < nW, ∀ i < nH, (db.payloadAt (k l w i)).isSome := by
        intro l hl w hw i hi
        obtain ⟨d, d1, -⟩ := p1.lines l hl w hw
        rw [d1 i hi]; rfl
      have hV := volume_of_isSome hsome junk
      refine ⟨_, hV, ?_, fun x hx => ?_, p3.addrs.trans (p2.addrs.trans p1.addrs)⟩
      · have H1 : Holds nL nW nH k db1 (passHt s.rd (s.rd.double (s.gradientMax * s.resVert)) nH
            fun l w i => (db.payloadAt (k l w i)).getD junk) := by
          intro l hl w hw i hi
          obtain ⟨d, d1, d2⟩ := p1.lines l hl w hw
          rw [d2 i hi]
          unfold passHt
          have e : ∀ i < nH, (db.payloadAt (k l w i)).getD junk = d i := fun i hi => by simp [d1 i hi]
          rw [limitDiff_congr e hi]
        have H2 : Holds nL nW nH k db2 (passLen s.rd (s.rd.double (s.gradientMax * s.resHoriz)) nL (passHt s.rd (s.rd.double (s.gradientMax * s.resVert)) nH
            fun l w i => (db.payloadAt (k l w i)).getD junk)) := by
          intro l hl w hw i hi
          obtain ⟨d, d1, d2⟩ := p2.lines i hi w hw
          rw [d2 l hl]
          unfold passLen
          refine congrArg some (limitDiff_congr (fun l' hl' => ?_) hl)
          have := d1 l' hl'
          rw [H1 l' hl' w hw i hi] at this
          exact (Option.some.inj this).symm
        intro l hl w hw i hi
        obtain ⟨d, d1, d2⟩ := p3.lines i hi l hl
        rw [d2 w hw]
        unfold passWidth
        refine congrArg some (limitDiff_congr (fun w' hw' => ?_) hw)
        have := d1 w' hw'
        rw [H2 l hl w' hw' i hi] at this
        exact (Option.some.inj this).symm
      · rw [p3.rest x fun a ha j hj i hi => hx j hj i hi a ha, p2.rest x fun a ha j hj i hi => hx i hi j hj a ha,
          p1.rest x hx]

/-- Grading a complete grid succeeds. -/
theorem grade_total {s : Grid K} {nL nW nH lv : Nat} {k : Nat → Nat → Nat → Key} (hk : GridCells s nL nW nH lv k)
    (hnL : s.numLen = .ok nL) (hnW : s.numWidth = .ok nW) (hnH : s.numHt = .ok nH) {junk : Payload K} {db : Db K}
    (hl : db.OneLevel lv) (hs : ∀ l < nL, ∀ w < nW, ∀ i < nH, (db.payloadAt (k l w i)).isSome) :
    ∃ db', grade s junk db = .ok db' () := by
  unfold grade
  simp only [hnL, hnW, hnH]
  have c1 : ∀ l < nL, ∀ w < nW, Cells s (fun h => s.loc l w h) (fun h => k l w h) lv nH :=
    fun l hl w hw => ⟨hk.at_ l hl w hw, hk.aligned l hl w hw, hk.level l hl w hw,
          fun i hi j hj he => (hk.inj l hl l hl w hw w hw i hi j hj he).2.2⟩
  obtain ⟨db1, h1⟩ := pass_total (junk := junk) (m := s.rd.double (s.gradientMax * s.resVert)) (loc := fun l w h => s.loc l w h)
    (k := fun l w h => k l w h) c1 hk.inj hl hs
  rw [h1, Run.bind_ok]
  have p1 := pass_ok (loc := fun l w h => s.loc l w h) (k := fun l w h => k l w h) c1 hk.inj hl h1
  have hl1 := oneLevel_of_addrs p1.addrs hl
  have c2 : ∀ h < nH, ∀ w < nW, Cells s (fun l => s.loc l w h) (fun l => k l w h) lv nL :=
    fun h hh w hw => ⟨fun l hl => hk.at_ l hl w hw h hh, fun l hl => hk.aligned l hl w hw h hh,
          fun l hl => hk.level l hl w hw h hh,
          fun i hi j hj he => (hk.inj i hi j hj w hw w hw h hh h hh he).1⟩
  have j2 : Inj3 nH nW nL fun h w l => k l w h := fun a ha a' ha' j hj j' hj' i hi i' hi' he => by
          obtain ⟨e1, e2, e3⟩ := hk.inj i hi i' hi' j hj j' hj' a ha a' ha' he
          exact ⟨e3, e2, e1⟩
  have s1 : ∀ l < nL, ∀ w < nW, ∀ i < nH, (db1.payloadAt (k l w i)).isSome := by
    intro l hl w hw i hi
    obtain ⟨d, -, d1⟩ := p1.lines l hl w hw
    rw [d1 i hi]; rfl
  obtain ⟨db2, h2⟩ := pass_total (junk := junk) (m := s.rd.double (s.gradientMax * s.resHoriz)) (loc := fun h w l => s.loc l w h)
    (k := fun h w l => k l w h) c2 j2 hl1 (fun a ha j hj i hi => s1 i hi j hj a ha)
  rw [h2, Run.bind_ok]
  have p2 := pass_ok (loc := fun h w l => s.loc l w h) (k := fun h w l => k l w h) c2 j2 hl1 h2
  have hl2 := oneLevel_of_addrs p2.addrs hl1
  refine pass_total (loc := fun h l w => s.loc l w h) (k := fun h l w => k l w h)
    (fun h hh l hl => ⟨fun w hw => hk.at_ l hl w hw h hh, fun w hw => hk.aligned l hl w hw h hh,
          fun w hw => hk.level l hl w hw h hh,
          fun i hi j hj he => (hk.inj l hl l hl i hi j hj h hh h hh he).2.1⟩)
    (fun a ha a' ha' j hj j' hj' i hi i' hi' he => by
          obtain ⟨e1, e2, e3⟩ := hk.inj j hj j' hj' i hi i' hi' a ha a' ha' he
          exact ⟨e3, e1, e2⟩) hl2 ?_
  intro h hh l hl w hw
  obtain ⟨d, -, d1⟩ := p2.lines h hh w hw
  rw [d1 l hl]; rfl

end VsGrader
end CenCalVM
