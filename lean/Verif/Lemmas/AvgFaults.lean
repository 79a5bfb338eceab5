/-
Averaging with a storage layer that fails at arbitrary points.
-/
import Verif.Lemmas.AvgFacts

set_option linter.unusedSectionVars false

namespace CenCalVM
namespace AvgEngine
variable {K : Type} [Field K] [LinearOrder K]

/-- The first `n` operations on the output database do not fail. -/
def NoFault (env : Env K) (n : Nat) : Prop := ∀ j < n, env.writeFault j = false

/-- The same environment with a reliable output database. -/
def Env.quiet (env : Env K) : Env K := { env with writeFault := fun _ => false }

/-- Comparison of a run with the run with a reliable output database, which ends in state `s0`: the latter performs
further operations, and either none of them fails and the runs agree, or the run stops at the first failure. -/
def Seen (env : Env K) (L : List Bool) {α : Type} (r r0 : Run (Engine K) α) (s0 : Engine K) : Prop :=
  L <+: s0.log ∧ (NoFault env L.length → (NoFault env s0.log.length ∧ r = r0) ∨
    ∃ i < s0.log.length, NoFault env i ∧ env.writeFault i = true ∧
      ∃ m s', r = .exc m s' ∧ s'.log = s0.log.take i ++ [false])

/-- `Seen` for each way the run with a reliable output database ends. -/
def Sim (env : Env K) (L : List Bool) {α : Type} (r r0 : Run (Engine K) α) : Prop :=
  match r0 with
  | .ok s0 _ => Seen env L r r0 s0
  | .exc _ s0 => Seen env L r r0 s0
  | .ub => NoFault env L.length → r = .ub ∨ ∃ m s', r = .exc m s'

theorem Seen.refl (env : Env K) {α : Type} (r : Run (Engine K) α) (s : Engine K) : Seen env s.log r r s :=
  ⟨List.prefix_rfl, fun h => Or.inl ⟨h, rfl⟩⟩

theorem Sim.same {env : Env K} {L : List Bool} {α : Type} {r : Run (Engine K) α}
    (h1 : ∀ s a, r = .ok s a → s.log = L) (h2 : ∀ m s, r = .exc m s → s.log = L) : Sim env L r r := by
  cases r with
  | ok s a => have := h1 s a rfl; subst this; exact Seen.refl env _ s
  | exc m s => have := h2 m s rfl; subst this; exact Seen.refl env _ s
  | ub => exact fun _ => Or.inl rfl

theorem Sim.ok (env : Env K) {L : List Bool} {α : Type} (s : Engine K) (a : α) (h : s.log = L) :
    Sim env L (Run.ok s a) (Run.ok s a) := by subst h; exact Seen.refl env _ s

theorem Sim.exc (env : Env K) {L : List Bool} {α : Type} (m : String) (s : Engine K) (h : s.log = L) :
    Sim (α := α) env L (Run.exc m s) (Run.exc m s) := by subst h; exact Seen.refl env _ s

theorem Sim.ub (env : Env K) (L : List Bool) {α : Type} : Sim (α := α) env L Run.ub Run.ub := fun _ => Or.inl rfl

theorem Sim.assert (env : Env K) (s : Engine K) (b : Bool) : Sim env s.log (Run.assert s b) (Run.assert s b) := by
  unfold Run.assert
  split
  · exact Sim.ok env s () rfl
  · exact Sim.ub env _

theorem Sim.write (env : Env K) (s : Engine K) (r : Option (Db K)) (msg : String) :
    Sim env s.log (write env s r msg) (write env.quiet s r msg) := by
  have key : ∀ (b : Bool) (r0 : Run (Engine K) Unit) (s0 : Engine K), s0.log = s.log ++ [b] →
      (env.writeFault s.log.length = false → AvgEngine.write env s r msg = r0) →
      Seen env s.log (AvgEngine.write env s r msg) r0 s0 := by
    intro b r0 s0 hlog hr
    refine ⟨by rw [hlog]; exact List.prefix_append _ _, fun hn => ?_⟩
    cases hf : env.writeFault s.log.length with
    | false =>
      left
      refine ⟨fun j hj => ?_, hr hf⟩
      rw [hlog, List.length_append, List.length_singleton] at hj
      by_cases h : j < s.log.length
      · exact hn j h
      · have : j = s.log.length := by omega
        rw [this]; exact hf
    | true =>
      right
      refine ⟨s.log.length, by rw [hlog]; simp, hn, hf, msg, { s with log := s.log ++ [false] }, ?_, ?_⟩
      · unfold AvgEngine.write; rw [if_pos hf]
      · rw [hlog]; simp
  cases r with
  | none =>
    have e : AvgEngine.write env.quiet s none msg = .exc msg { s with log := s.log ++ [false] } := by
      simp [AvgEngine.write, Env.quiet]
    rw [e]
    exact key false _ _ rfl (fun hf => by simp [AvgEngine.write, hf])
  | some d =>
    have e : AvgEngine.write env.quiet s (some d) msg = .ok { s with out := d, log := s.log ++ [true] } () := by
      simp [AvgEngine.write, Env.quiet]
    rw [e]
    exact key true _ _ rfl (fun hf => by simp [AvgEngine.write, hf])

theorem Sim.bind {env : Env K} {L : List Bool} {α β : Type} {r r0 : Run (Engine K) α}
    {f f0 : Engine K → α → Run (Engine K) β} (h : Sim env L r r0) (hf : ∀ s a, Sim env s.log (f s a) (f0 s a)) :
    Sim env L (r.bind f) (r0.bind f0) := by
  cases r0 with
  | exc m0 s0 =>
    rw [Run.bind_exc]
    obtain ⟨h1, h2⟩ := h
    refine ⟨h1, fun hn => ?_⟩
    rcases h2 hn with ⟨h3, rfl⟩ | ⟨i, hi, h3, h4, m, s', rfl, h5⟩
    · exact Or.inl ⟨h3, rfl⟩
    · exact Or.inr ⟨i, hi, h3, h4, m, s', rfl, h5⟩
  | ub =>
    rw [Run.bind_ub]
    intro hn
    rcases h hn with rfl | ⟨m, s', rfl⟩
    · exact Or.inl rfl
    · exact Or.inr ⟨m, s', rfl⟩
  | ok s0 a =>
    rw [Run.bind_ok]
    obtain ⟨h1, h2⟩ := h
    have hs := hf s0 a
    have key : ∀ (t : Engine K), Seen env s0.log (f s0 a) (f0 s0 a) t → Seen env L (r.bind f) (f0 s0 a) t := by
      rintro t ⟨h3, h4⟩
      refine ⟨h1.trans h3, fun hn => ?_⟩
      rcases h2 hn with ⟨h5, rfl⟩ | ⟨i, hi, h5, h6, m, s', rfl, h7⟩
      · rw [Run.bind_ok]; exact h4 h5
      · right
        refine ⟨i, lt_of_lt_of_le hi h3.length_le, h5, h6, m, s', rfl, ?_⟩
        rw [h7]
        obtain ⟨u, hu⟩ := h3
        rw [← hu, List.take_append_of_le_length hi.le]
    cases hr : f0 s0 a with
    | ok t b => rw [hr] at hs key; exact key t hs
    | exc m t => rw [hr] at hs key; exact key t hs
    | ub =>
      intro hn
      rw [hr] at hs
      rcases h2 hn with ⟨h5, rfl⟩ | ⟨i, hi, h5, h6, m, s', rfl, h7⟩
      · rw [Run.bind_ok]; exact hs h5
      · exact Or.inr ⟨m, s', rfl⟩

theorem Sim.addToParent (env : Env K) (s : Engine K) (i : Nat) (a : Addr) (p : Payload K) :
    Sim env s.log (addToParent env s i a p) (addToParent env.quiet s i a p) := by
  unfold AvgEngine.addToParent
  refine Sim.bind (Sim.assert env s _) fun s _ => ?_
  split
  · exact Sim.exc env _ s rfl
  · exact Sim.ok env _ () rfl

theorem Sim.passUp (env : Env K) (s : Engine K) (i : Nat) (p : Payload K) :
    Sim env s.log (passUp env s i p) (passUp env.quiet s i p) := by
  cases i with
  | zero => exact Sim.ok env s () rfl
  | succ j =>
    refine Sim.bind (Sim.assert env s _) fun s _ => ?_
    exact Sim.addToParent env s _ _ _

theorem Sim.processOctant (env : Env K) (s : Engine K) (i : Nat) :
    Sim env s.log (processOctant env s i) (processOctant env.quiet s i) := by
  refine Sim.bind (Sim.assert env s _) fun s _ => Sim.bind (Sim.assert env s _) fun s _ =>
    Sim.bind (Sim.write env { s with cnt := countIncomplete s.cnt (s.pending i).mask } _ _) fun s _ =>
    Sim.bind (Sim.passUp env s _ _) fun s _ => ?_
  exact Sim.bind (Sim.assert env (setPending s i { s.pending i with valid := false }) _) fun s _ => Sim.ok env _ () rfl

theorem Sim.processDown (env : Env K) (l n : Nat) (s : Engine K) :
    Sim env s.log (processDown env l n s) (processDown env.quiet l n s) := by
  induction n generalizing s with
  | zero => exact Sim.ok env s () rfl
  | succ n ih =>
    unfold AvgEngine.processDown
    split
    · exact Sim.bind (Sim.processOctant env s n) fun s _ => ih s
    · exact Sim.ok env s () rfl

theorem Sim.closeLoop (env : Env K) (a : Addr) (n : Nat) (s : Engine K) :
    Sim env s.log (closeLoop env a n s) (closeLoop env.quiet a n s) := by
  induction n generalizing s with
  | zero => exact Sim.ok env s 0 rfl
  | succ n ih =>
    unfold AvgEngine.closeLoop
    split
    · cases findAncestor a n with
      | ok b =>
        dsimp only
        split
        · exact Sim.bind (Sim.assert env s _) fun s _ => Sim.bind (Sim.processOctant env s n) fun s _ => ih s
        · exact Sim.ok env s _ rfl
      | exc m => exact Sim.exc env m s rfl
      | ub => exact Sim.ub env _
    · exact Sim.ok env s _ rfl

theorem Sim.createOctant (env : Env K) (s : Engine K) (a : Addr) :
    Sim env s.log (createOctant env s a) (createOctant env.quiet s a) := by
  refine Sim.bind (Sim.assert env s _) fun s _ => Sim.bind (Sim.assert env s _) fun s _ =>
    Sim.bind (Sim.assert env s _) fun s _ => Sim.bind (Sim.write env s _ _) fun s _ => ?_
  exact Sim.ok env _ () rfl

theorem Sim.createLoop (env : Env K) (a : Addr) (n c : Nat) (s : Engine K) :
    Sim env s.log (createLoop env a n c s) (createLoop env.quiet a n c s) := by
  induction c generalizing n s with
  | zero => exact Sim.ok env s () rfl
  | succ c ih =>
    unfold AvgEngine.createLoop
    cases findAncestor a n with
    | ok b => exact Sim.bind (Sim.createOctant env s b) fun s _ => ih _ s
    | exc m => exact Sim.exc env m s rfl
    | ub => exact Sim.ub env _

theorem Sim.findParent (env : Env K) (s : Engine K) (a : Addr) :
    Sim env s.log (findParent env s a) (findParent env.quiet s a) := by
  refine Sim.bind (Sim.assert env s _) fun s _ => Sim.bind (Sim.processDown env _ _ s) fun s _ =>
    Sim.bind (Sim.closeLoop env _ _ s) fun s n => Sim.bind (Sim.createLoop env _ _ _ s) fun s _ => ?_
  exact Sim.ok env s _ rfl

theorem Sim.fullLoop (env : Env K) (n : Nat) (s : Engine K) :
    Sim env s.log (fullLoop env n s) (fullLoop env.quiet n s) := by
  induction n generalizing s with
  | zero => exact Sim.ok env s 0 rfl
  | succ n ih =>
    unfold AvgEngine.fullLoop
    split
    · exact Sim.bind (Sim.assert env s _) fun s _ => Sim.bind (Sim.assert env s _) fun s _ =>
        Sim.bind (Sim.processOctant env s n) fun s _ => ih s
    · exact Sim.ok env s _ rfl

theorem Sim.averageOctant (env : Env K) (s : Engine K) (e : Entry K) :
    Sim env s.log (averageOctant env s e) (averageOctant env.quiet s e) := by
  unfold AvgEngine.averageOctant
  split
  · exact Sim.ok env s () rfl
  · refine Sim.bind (Sim.findParent env s _) fun s n => Sim.bind (Sim.assert env s _) fun s _ =>
      Sim.bind (Sim.write env s _ _) fun s _ => ?_
    refine Sim.bind (Sim.addToParent env
      { s with cnt := { s.cnt with input := s.cnt.input + 1, output := s.cnt.output + 1 } } _ _ _) fun s _ =>
      Sim.bind (Sim.fullLoop env _ s) fun s n => Sim.assert env s _

theorem Sim.finishProcessing (env : Env K) (n : Nat) (s : Engine K) :
    Sim env s.log (finishProcessing env n s) (finishProcessing env.quiet n s) := by
  induction n generalizing s with
  | zero => exact Sim.ok env s () rfl
  | succ n ih =>
    unfold AvgEngine.finishProcessing
    split
    · exact Sim.bind (Sim.assert env s _) fun s _ => Sim.bind (Sim.processOctant env s n) fun s _ => ih s
    · exact ih s

theorem Sim.inputLoop (env : Env K) (i : Nat) (es : List (Entry K)) (s : Engine K) :
    Sim env s.log (inputLoop env i es s) (inputLoop env.quiet i es s) := by
  induction es generalizing i s with
  | nil => exact Sim.ok env s () rfl
  | cons e es ih =>
    unfold AvgEngine.inputLoop
    show Sim env s.log _ (if env.getFault i then _ else _)
    split
    · exact Sim.exc env _ s rfl
    · refine Sim.bind (Sim.averageOctant env s e) fun s _ => ?_
      show Sim env s.log _ (if env.advFault i then _ else _)
      split
      · exact Sim.ok env s () rfl
      · exact ih _ s

theorem Sim.average (env : Env K) (db : Db K) : Sim env [] (average env db) (average env.quiet db) := by
  unfold AvgEngine.average fillOctants
  split
  · exact Sim.exc env _ _ rfl
  · refine Sim.bind (Sim.write env (init env Db.empty) _ _) fun s _ => Sim.bind (Sim.inputLoop env _ _ s) fun s _ =>
      Sim.bind (Sim.finishProcessing env _ s) fun s _ => Sim.write env s _ _

/-! ### Failing reads of the input -/

/-- The same environment with a reliable input database. -/
def Env.readable (env : Env K) : Env K := { env with getFault := fun _ => false, advFault := fun _ => false }

theorem averageOctant_readable (env : Env K) (s : Engine K) (e : Entry K) :
    averageOctant env.readable s e = averageOctant env s e := by
  have hpo : ∀ (s : Engine K) i, processOctant env.readable s i = processOctant env s i := by
    intro s i
    unfold processOctant
    have hw : ∀ (s : Engine K) r m, write env.readable s r m = write env s r m := fun _ _ _ => rfl
    have hp : ∀ (s : Engine K) i p, passUp env.readable s i p = passUp env s i p := by
      intro s i p; cases i <;> rfl
    have hr : env.readable.rd = env.rd := rfl
    simp only [hw, hp, hr]
  have hpd : ∀ l n (s : Engine K), processDown env.readable l n s = processDown env l n s := by
    intro l n
    induction n with
    | zero => intro s; rfl
    | succ n ih => intro s; simp only [processDown, hpo, ih]
  have hcl : ∀ a n (s : Engine K), closeLoop env.readable a n s = closeLoop env a n s := by
    intro a n
    induction n with
    | zero => intro s; rfl
    | succ n ih => intro s; simp only [closeLoop, hpo, ih]
  have hcr : ∀ a c n (s : Engine K), createLoop env.readable a n c s = createLoop env a n c s := by
    intro a c
    induction c with
    | zero => intro n s; rfl
    | succ c ih =>
      intro n s
      have hco : ∀ (s : Engine K) b, createOctant env.readable s b = createOctant env s b := fun _ _ => rfl
      simp only [createLoop, hco, ih]
  have hfl : ∀ n (s : Engine K), fullLoop env.readable n s = fullLoop env n s := by
    intro n
    induction n with
    | zero => intro s; rfl
    | succ n ih => intro s; simp only [fullLoop, hpo, ih]
  have hfp : ∀ (s : Engine K) a, findParent env.readable s a = findParent env s a := by
    intro s a; simp only [findParent, hpd, hcl, hcr]
  have hw : ∀ (s : Engine K) r m, write env.readable s r m = write env s r m := fun _ _ _ => rfl
  have ha : ∀ (s : Engine K) i c p, addToParent env.readable s i c p = addToParent env s i c p := fun _ _ _ _ => rfl
  simp only [averageOctant, hfp, hw, ha, hfl]

theorem finish_readable (env : Env K) (n : Nat) (s : Engine K) :
    finishProcessing env.readable n s = finishProcessing env n s := by
  have hpo : ∀ (s : Engine K) i, processOctant env.readable s i = processOctant env s i := by
    intro s i
    unfold processOctant
    have hw : ∀ (s : Engine K) r m, write env.readable s r m = write env s r m := fun _ _ _ => rfl
    have hp : ∀ (s : Engine K) i p, passUp env.readable s i p = passUp env s i p := by
      intro s i p; cases i <;> rfl
    have hr : env.readable.rd = env.rd := rfl
    simp only [hw, hp, hr]
  induction n generalizing s with
  | zero => rfl
  | succ n ih => simp only [finishProcessing, hpo, ih]

/-- The loop over the input never sees what follows a failed advance. -/
theorem inputLoop_advFault {env : Env K} {es : List (Entry K)} {k i : Nat} (hk : k ≤ i)
    (hget : ∀ j, k ≤ j → j ≤ i → env.getFault j = false) (hadv : ∀ j, k ≤ j → j < i → env.advFault j = false)
    (hi : env.advFault i = true) (s : Engine K) :
    inputLoop env k es s = inputLoop env.readable k (es.take (i + 1 - k)) s := by
  induction es generalizing k s with
  | nil => simp [inputLoop]
  | cons e es ih =>
    have h1 : i + 1 - k = (i - k) + 1 := by omega
    rw [h1, List.take_succ_cons]
    simp only [inputLoop, hget k le_rfl hk, Bool.false_eq_true, if_false]
    rw [averageOctant_readable]
    show _ = (averageOctant env s e).bind fun s _ => if false = true then Run.ok s () else _
    simp only [Bool.false_eq_true, if_false]
    congr 1
    funext s u
    rcases Nat.lt_or_eq_of_le hk with h | h
    · rw [hadv k le_rfl h]
      simp only [Bool.false_eq_true, if_false]
      have := ih (k := k + 1) h (fun j h1 h2 => hget j (by omega) h2) (fun j h1 h2 => hadv j (by omega) h2) s
      rw [this, show i + 1 - (k + 1) = i - k by omega]
    · subst h
      rw [hi]
      simp [inputLoop]

/-- A failing read stops the run. -/
theorem inputLoop_getFault {env : Env K} {es : List (Entry K)} {k i : Nat} (hk : k ≤ i) (hlen : i - k < es.length)
    (hadv : ∀ j, k ≤ j → j < i → env.advFault j = false) (hi : env.getFault i = true) (s : Engine K) (t : Engine K) :
    inputLoop env k es s ≠ .ok t () := by
  induction es generalizing k s with
  | nil => simp at hlen
  | cons e es ih =>
    unfold inputLoop
    by_cases hg : env.getFault k = true
    · rw [if_pos hg]; simp
    · rw [if_neg hg]
      have hlt : k < i := by
        rcases Nat.lt_or_eq_of_le hk with h | h
        · exact h
        · subst h; exact absurd hi hg
      cases averageOctant env s e with
      | exc m s' => simp
      | ub => simp
      | ok s' u =>
        rw [Run.bind_ok, hadv k le_rfl hlt]
        simp only [Bool.false_eq_true, if_false]
        refine ih (k := k + 1) hlt ?_ (fun j h1 h2 => hadv j (by omega) h2) s'
        simp only [List.length_cons] at hlen
        omega

/-! ### No undefined behaviour -/

theorem average_ok_or_exc {env : Env K} (he : env.Reliable) {db : Db K} (hdb : db.Good) : average env db ≠ .ub := by
  by_cases hne : db.entries = []
  · simp [average, fillOctants, hne]
  by_cases hp : db.entries.Pairwise fun a b => 0 < a.addr.level → ¬ pathOf a <+: pathOf b
  · obtain ⟨s, fin, h, -⟩ := average_ok he hdb.octants hdb.sorted hne (by
      unfold below
      refine List.Pairwise.imp_of_mem ?_ (hp.filter _)
      intro a b ha hb hab
      exact hab (by simpa using (List.mem_filter.1 ha).2))
    rw [h]; simp
  · obtain ⟨pre, b, post, hsplit, h1, a, ha, hR⟩ := first_bad hp
    push Not at hR
    obtain ⟨s, h⟩ := average_reject he hdb.octants hdb.sorted hsplit (by
      unfold below
      refine List.Pairwise.imp_of_mem ?_ (h1.filter _)
      intro a b ha hb hab
      exact hab (by simpa using (List.mem_filter.1 ha).2)) (a := a)
      (by unfold below; rw [List.mem_filter]; exact ⟨ha, by simpa using hR.1⟩) hR.2
    rw [h]; simp

/-- The loop over the input up to a failing read is the loop over a shorter input. -/
theorem inputLoop_cut (env : Env K) (es : List (Entry K)) (k : Nat) (s : Engine K) :
    ∃ n, (inputLoop env k es s = inputLoop env.readable k (es.take n) s ∧ (n ≠ 0 ∨ es = [])) ∨
      ∃ m, inputLoop env k es s = (inputLoop env.readable k (es.take n) s).bind fun t _ => .exc m t := by
  induction es generalizing k s with
  | nil => exact ⟨0, Or.inl ⟨rfl, Or.inr rfl⟩⟩
  | cons e es ih =>
    by_cases hg : env.getFault k = true
    · refine ⟨0, Or.inr ⟨"Error occurred while trying to get payload at current cursor position.", ?_⟩⟩
      simp [inputLoop, hg]
    · have hstep : ∀ n, inputLoop env.readable k ((e :: es).take (n + 1)) s =
          (averageOctant env s e).bind fun s _ => inputLoop env.readable (k + 1) (es.take n) s := by
        intro n
        rw [List.take_succ_cons]
        simp only [inputLoop]
        rw [averageOctant_readable]
        rfl
      have hself : inputLoop env k (e :: es) s = (averageOctant env s e).bind fun s _ =>
          if env.advFault k then .ok s () else inputLoop env (k + 1) es s := by
        simp only [inputLoop, hg]; rfl
      cases hr : averageOctant env s e with
      | exc m t => refine ⟨1, Or.inl ⟨?_, by simp⟩⟩; rw [hself, hstep 0, hr]; rfl
      | ub => refine ⟨1, Or.inl ⟨?_, by simp⟩⟩; rw [hself, hstep 0, hr]; rfl
      | ok t u =>
        by_cases ha : env.advFault k = true
        · refine ⟨1, Or.inl ⟨?_, by simp⟩⟩; rw [hself, hstep 0, hr]; simp [ha, inputLoop]
        · obtain ⟨n, ⟨h, -⟩ | ⟨m, h⟩⟩ := ih (k + 1) t
          · refine ⟨n + 1, Or.inl ⟨?_, by simp⟩⟩; rw [hself, hstep n, hr]; simp [ha, h]
          · refine ⟨n + 1, Or.inr ⟨m, ?_⟩⟩; rw [hself, hstep n, hr]; simp [ha, h]

theorem finish_append {env : Env K} {db : Db K} (hne : db.entries ≠ []) :
    average env db = (write env (init env Db.empty) (some Db.empty)
        "Error occurred while trying to initiate appending of etree.").bind fun s _ =>
      (inputLoop env 0 db.entries s).bind fun s _ => (finishProcessing env pendingSize s).bind fun s _ =>
      write env s (some s.out) "Error occurred while trying to terminate appending of etree." := by
  unfold average fillOctants
  rw [if_neg hne]; rfl

/-- Averaging a database libetree can hold never runs into undefined behaviour, whatever fails. -/
theorem average_ne_ub (env : Env K) {db : Db K} (hdb : db.Good) : average env db ≠ .ub := by
  -- a reliable output database is enough
  have hq : average env.quiet db ≠ .ub := by
    by_cases hne : db.entries = []
    · simp [average, fillOctants, hne]
    have hrel : env.quiet.readable.Reliable := ⟨fun _ => rfl, fun _ => rfl, fun _ => rfl⟩
    have hpre : ∀ n, n ≠ 0 → average env.quiet.readable ⟨db.entries.take n⟩ ≠ .ub := by
      intro n _
      apply average_ok_or_exc hrel
      refine ⟨fun e he => hdb.octants e (List.mem_of_mem_take he), ?_⟩
      have := hdb.sorted
      unfold Db.Sorted at this ⊢
      exact this.sublist (List.take_sublist _ _)
    obtain ⟨n, hn⟩ := inputLoop_cut env.quiet db.entries 0 { init env.quiet Db.empty with log := [true] }
    have hstart : ∀ e : Env K, (∀ j, e.writeFault j = false) → ∀ msg,
        write e (init e Db.empty) (some Db.empty) msg = .ok { init e Db.empty with log := [true] } () := by
      intro e h msg; simp [write, h, init]
    rw [finish_append hne, hstart _ (fun _ => rfl), Run.bind_ok]
    by_cases h0 : n = 0
    · subst h0
      rcases hn with ⟨-, hn⟩ | ⟨m, hn⟩
      · simp [hne] at hn
      · rw [hn]; simp [inputLoop]
    · have hb := hpre n h0
      have hne' : (⟨db.entries.take n⟩ : Db K).entries ≠ [] := by
        simp [h0, hne]
      rw [finish_append hne', hstart _ (fun _ => rfl), Run.bind_ok] at hb
      have hinit : init env.quiet.readable (Db.empty : Db K) = init env.quiet Db.empty := rfl
      rw [hinit] at hb
      dsimp only at hb
      rcases hn with ⟨hn, -⟩ | ⟨m, hn⟩
      · rw [hn]
        cases hr : inputLoop env.quiet.readable 0 (db.entries.take n) { init env.quiet Db.empty with log := [true] } with
        | ub => rw [hr] at hb; exact absurd rfl hb
        | exc m t => simp
        | ok t u =>
          rw [hr] at hb
          simp only [Run.bind_ok] at hb ⊢
          simp only [finish_readable] at hb
          exact hb
      · rw [hn]
        cases hr : inputLoop env.quiet.readable 0 (db.entries.take n) { init env.quiet Db.empty with log := [true] } with
        | ub => rw [hr] at hb; exact absurd rfl hb
        | exc m t => simp
        | ok t u => simp
  have hs := Sim.average env db
  intro h
  rw [h] at hs
  cases hr : average env.quiet db with
  | ub => exact hq hr
  | ok s0 u =>
    rw [hr] at hs
    rcases hs.2 (by intro j hj; simp at hj) with ⟨-, h1⟩ | ⟨i, -, -, -, m, s', h1, -⟩ <;> cases h1
  | exc m s0 =>
    rw [hr] at hs
    rcases hs.2 (by intro j hj; simp at hj) with ⟨-, h1⟩ | ⟨i, -, -, -, m, s', h1, -⟩ <;> cases h1

end AvgEngine
end CenCalVM
