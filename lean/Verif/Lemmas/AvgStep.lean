/-
Single operations of the averaging engine on the ghost description.
-/
import Verif.Lemmas.AvgSeg
import Verif.Lemmas.Search

set_option linter.unusedSectionVars false

namespace CenCalVM

/-! ### Output database -/

theorem Db.update_sorted {K : Type} {A B : List (Entry K)} {e : Entry K} (p : Payload K)
    (h : Db.Sorted ⟨A ++ e :: B⟩) :
    (⟨A ++ e :: B⟩ : Db K).update e.addr.toKey p = some ⟨A ++ { e with payload := p } :: B⟩ := by
  obtain ⟨x, hx⟩ := Db.lookup_isSome (db := ⟨A ++ e :: B⟩) (e := e) (by simp)
  unfold Db.Sorted at h
  simp only [List.pairwise_append, List.pairwise_cons, List.mem_cons] at h
  obtain ⟨-, ⟨h2, -⟩, h3⟩ := h
  unfold Db.update
  rw [hx]
  have hA : ∀ y ∈ A, (if y.addr.toKey = e.addr.toKey then ({ y with payload := p } : Entry K) else y) = y := by
    intro y hy
    rw [if_neg]
    intro hk
    have := h3 y hy e (Or.inl rfl)
    rw [hk] at this; exact lt_irrefl _ this
  have hB : ∀ y ∈ B, (if y.addr.toKey = e.addr.toKey then ({ y with payload := p } : Entry K) else y) = y := by
    intro y hy
    rw [if_neg]
    intro hk
    have := h2 y hy
    rw [hk] at this; exact lt_irrefl _ this
  simp only [List.map_append, List.map_cons, if_true]
  rw [List.map_congr_left hA, List.map_congr_left hB]
  simp

theorem Db.append_ok {K : Type} {db : Db K} {e : Entry K} (h : ∀ x ∈ db.entries, x.addr.zkey < e.addr.zkey) :
    db.append e = some ⟨db.entries ++ [e]⟩ := by
  unfold Db.append
  cases hl : db.entries.getLast? with
  | none =>
    have : db.entries = [] := by simpa using hl
    simp [this]
  | some l =>
    have hm : l ∈ db.entries := List.mem_of_getLast? hl
    dsimp only
    rw [if_pos (h l hm)]

theorem Db.append_fail {K : Type} {db : Db K} {e x : Entry K} (hs : db.Sorted) (hx : x ∈ db.entries)
    (h : ¬ x.addr.zkey < e.addr.zkey) : db.append e = none := by
  unfold Db.append
  cases hl : db.entries.getLast? with
  | none =>
    have : db.entries = [] := by simpa using hl
    rw [this] at hx; simp at hx
  | some l =>
    dsimp only
    rw [if_neg]
    intro hlt
    apply h
    obtain ⟨ys, hys⟩ := List.getLast?_eq_some_iff.1 hl
    unfold Db.Sorted at hs
    rw [hys] at hx hs
    simp only [List.mem_append, List.mem_singleton] at hx
    rcases hx with hx | rfl
    · exact lt_trans ((List.pairwise_append.1 hs).2.2 x hx l (by simp)) hlt
    · exact hlt

theorem Db.sorted_append {K : Type} {l : List (Entry K)} {e : Entry K} (hs : Db.Sorted ⟨l⟩)
    (h : ∀ x ∈ l, x.addr.zkey < e.addr.zkey) : Db.Sorted (⟨l ++ [e]⟩ : Db K) := by
  unfold Db.Sorted at *
  rw [List.pairwise_append]
  exact ⟨hs, List.pairwise_singleton _ _, fun a ha b hb => by simp at hb; subst hb; exact h a ha⟩

theorem Db.sorted_map {K : Type} {l l' : List (Entry K)} (hs : Db.Sorted ⟨l⟩)
    (h : l.map Entry.addr = l'.map Entry.addr) : Db.Sorted (⟨l'⟩ : Db K) := by
  unfold Db.Sorted at *
  have h1 : (l.map Entry.addr).Pairwise fun a b => a.zkey < b.zkey := by rw [List.pairwise_map]; exact hs
  rw [h, List.pairwise_map] at h1; exact h1

namespace AvgEngine
variable {K : Type} [Field K] [LinearOrder K]

/-! ### Counters -/

/-- Counters for given numbers of octants and children bits of the finished interior octants. -/
def tally (input output interior : Nat) (ms : List (BitVec 8)) : Counters :=
  { input := input, output := output, interior := interior
    incX := ms.countP (· = 0x55), incY := ms.countP (· = 0x33), incZ := ms.countP (· = 0x0F)
    incXY := ms.countP (· = 0x11), incYZ := ms.countP (· = 0x03), incXZ := ms.countP (· = 0x05)
    incXYZ := ms.countP (· = 0x01)
    incInvalid := ms.countP fun m =>
      m ≠ 0xFF ∧ m ≠ 0x55 ∧ m ≠ 0x33 ∧ m ≠ 0x0F ∧ m ≠ 0x11 ∧ m ≠ 0x03 ∧ m ≠ 0x05 ∧ m ≠ 0x01 }

theorem tally_perm {i o n : Nat} {ms ms' : List (BitVec 8)} (h : ms.Perm ms') : tally i o n ms = tally i o n ms' := by
  simp only [tally, h.countP_eq]

theorem tally_cons (i o n : Nat) (ms : List (BitVec 8)) (m : BitVec 8) :
    countIncomplete (tally i o n ms) m = tally i o n (m :: ms) := by
  unfold countIncomplete tally
  by_cases h0 : m = 0xFF; · subst h0; simp
  by_cases h1 : m = 0x55; · subst h1; simp
  by_cases h2 : m = 0x33; · subst h2; simp
  by_cases h3 : m = 0x0F; · subst h3; simp
  by_cases h4 : m = 0x11; · subst h4; simp
  by_cases h5 : m = 0x03; · subst h5; simp
  by_cases h6 : m = 0x05; · subst h6; simp
  by_cases h7 : m = 0x01; · subst h7; simp
  simp only [h0, h1, h2, h3, h4, h5, h6, h7, if_false, List.countP_cons, decide_false]
  simp
  exact ⟨h0, h1, h2, h3, h4, h5, h6, h7⟩

/-! ### The relation between engine and ghost description -/

/-- Roots of the finished children. -/
def Frame.roots (f : Frame K) : List (Entry K) := f.done.map Seg.root

/-- The array element of an unfinished octant. -/
def slotOf (rd : K → K) (f : Frame K) : Pending K :=
  { sum := (fold rd f.roots).1, num := (fold rd f.roots).2, addr := f.addr, mask := maskOf f.roots, valid := true }

/-- The array of pending octants describes the stack. -/
def StackOk (rd : K → K) (pend : Nat → Pending K) : List (Frame K) → Prop
  | [] => True
  | f :: fs => pend fs.length = slotOf rd f ∧ f.addr.level = fs.length ∧ f.addr.type = .interior ∧
      f.addr.toKey.Octant ∧ (∀ c ∈ f.done, Built rd c) ∧ (∀ c ∈ f.done, ChildOf f.addr c.root.addr) ∧
      (∀ g ∈ fs.head?, ChildOf g.addr f.addr) ∧ StackOk rd pend fs

theorem StackOk.congr {rd : K → K} {p p' : Nat → Pending K} {fs : List (Frame K)} (h : StackOk rd p fs)
    (hp : ∀ i < fs.length, p' i = p i) : StackOk rd p' fs := by
  induction fs with
  | nil => trivial
  | cons f fs ih =>
    obtain ⟨h1, h2⟩ := h
    refine ⟨by rw [hp _ (by simp)]; exact h1, h2.1, h2.2.1, h2.2.2.1, h2.2.2.2.1, h2.2.2.2.2.1, h2.2.2.2.2.2.1, ?_⟩
    exact ih h2.2.2.2.2.2.2 (fun i hi => hp i (by simp; omega))

/-- All finished interior octants. -/
def allNodes (fin : List (Seg K)) (fs : List (Frame K)) : List (Entry K × List (Entry K)) :=
  fin.flatMap Seg.nodes ++ flatNodes fs

/-- All input octants. -/
def allLeaves (fin : List (Seg K)) (fs : List (Frame K)) : List (Entry K) := fin.flatMap Seg.leaves ++ flatLeaves fs

/-- The engine state described by finished root octants and a stack of unfinished octants. -/
structure R (env : Env K) (s : Engine K) (fin : List (Seg K)) (fs : List (Frame K)) : Prop where
  out : s.out.entries = fin.flatMap Seg.all ++ flat env.junk fs
  ncur : s.ncur = fs.length
  stack : StackOk env.rd s.pending fs
  free : ∀ i, fs.length ≤ i → (s.pending i).valid = false
  sorted : s.out.Sorted
  roots : ∀ c ∈ fin, Built env.rd c ∧ c.root.addr.level = 0
  cnt : s.cnt = tally (allLeaves fin fs).length s.out.entries.length ((allNodes fin fs).length + fs.length)
    ((allNodes fin fs).map fun n => maskOf n.2)

/-- The ghost description after finishing the innermost octant. -/
def pop (rd : K → K) (fin : List (Seg K)) (f : Frame K) : List (Frame K) → List (Seg K) × List (Frame K)
  | [] => (fin ++ [Seg.node rd f.addr f.done], [])
  | g :: fs => (fin, ⟨g.addr, g.done ++ [Seg.node rd f.addr f.done]⟩ :: fs)

theorem pop_length (rd : K → K) (fin : List (Seg K)) (f : Frame K) (fs : List (Frame K)) : (pop rd fin f fs).2.length = fs.length := by
  cases fs <;> rfl

theorem pop_leaves (rd : K → K) (fin : List (Seg K)) (f : Frame K) (fs : List (Frame K)) :
    allLeaves (pop rd fin f fs).1 (pop rd fin f fs).2 = allLeaves fin (f :: fs) := by
  cases fs <;> simp [pop, allLeaves, flatLeaves, Seg.node, List.flatMap_append]

theorem pop_nodes (rd : K → K) (fin : List (Seg K)) (f : Frame K) (fs : List (Frame K)) :
    (allNodes (pop rd fin f fs).1 (pop rd fin f fs).2).Perm
      ((⟨f.addr, meanOf rd f.roots⟩, f.roots) :: allNodes fin (f :: fs)) := by
  cases fs with
  | nil =>
    simp only [pop, allNodes, flatNodes, Seg.node, List.flatMap_append, List.flatMap_cons, List.flatMap_nil,
      List.append_nil, List.nil_append]
    exact List.perm_middle
  | cons g fs =>
    simp only [pop, allNodes, flatNodes, Seg.node, List.flatMap_append, List.flatMap_cons, List.flatMap_nil,
      List.append_nil, ← List.append_assoc]
    exact List.perm_middle

/-! ### Finishing the innermost octant -/

theorem write_ok {env : Env K} (hw : ∀ n, env.writeFault n = false) (s : Engine K) {r : Option (Db K)} {d : Db K}
    (hr : r = some d) (msg : String) :
    write env s r msg = .ok { s with out := d, log := s.log ++ [true] } () := by
  subst hr; simp [write, hw]

theorem write_fail {env : Env K} (s : Engine K) {r : Option (Db K)} (hr : r = none) (msg : String) :
    write env s r msg = .exc msg { s with log := s.log ++ [false] } := by
  subst hr; simp [write]

theorem roots_level {f : Frame K} (h : ∀ c ∈ f.done, ChildOf f.addr c.root.addr) :
    ∀ e ∈ f.roots, e.addr.level < 32 := by
  intro e he
  simp only [Frame.roots, List.mem_map] at he
  obtain ⟨c, hc, rfl⟩ := he
  have := (h c hc).1.level_le
  omega

/-- Adding a child that is not there yet. -/
theorem addToParent_ok {env : Env K} {s : Engine K} {f : Frame K} {i : Nat} {e : Entry K}
    (hs : s.pending i = slotOf env.rd f) (hc : ChildOf f.addr e.addr) (hch : ∀ c ∈ f.done, ChildOf f.addr c.root.addr)
    (hnew : ∀ c ∈ f.done, lastDigit c.root.addr ≠ lastDigit e.addr) (g : Seg K) (hg : g.root = e) :
    addToParent env s i e.addr e.payload = .ok (setPending s i (slotOf env.rd ⟨f.addr, f.done ++ [g]⟩)) () := by
  unfold addToParent
  have hl : e.addr.level = (s.pending i).addr.level + 1 := by rw [hs]; exact hc.2.1
  have hr := roots_level hch
  have he : e.addr.level < 32 := by have := hc.1.level_le; omega
  have hm : ¬ (s.pending i).mask &&& childOctantBit e.addr ≠ 0 := by
    rw [hs]
    show ¬ maskOf f.roots &&& childOctantBit e.addr ≠ 0
    rw [maskOf_and hr he]
    rintro ⟨x, hx, hxd⟩
    simp only [Frame.roots, List.mem_map] at hx
    obtain ⟨c, hc, rfl⟩ := hx
    exact hnew c hc hxd
  simp only [Run.assert, hl, decide_true, if_true, Run.bind_ok, if_neg hm]
  rw [hs]
  simp only [slotOf, Frame.roots, List.map_append, List.map_cons, List.map_nil, fold_append, maskOf_append, hg]

theorem passUp_cons {env : Env K} {s : Engine K} {f : Frame K} {j : Nat} {e : Entry K}
    (hs : s.pending j = slotOf env.rd f) (ha : (s.pending (j + 1)).addr = e.addr)
    (hc : ChildOf f.addr e.addr) (hch : ∀ c ∈ f.done, ChildOf f.addr c.root.addr)
    (hnew : ∀ c ∈ f.done, lastDigit c.root.addr ≠ lastDigit e.addr) (g : Seg K) (hg : g.root = e) :
    passUp env s (j + 1) e.payload = .ok (setPending s j (slotOf env.rd ⟨f.addr, f.done ++ [g]⟩)) () := by
  unfold passUp
  have h1 : (s.pending j).addr.level + 1 = (s.pending (j + 1)).addr.level := by rw [hs, ha]; exact hc.2.1.symm
  simp only [Run.assert, h1, decide_true, if_true, Run.bind_ok, ha]
  exact addToParent_ok hs hc hch hnew g hg

/-- Different octants with the same parent differ in the last digit. -/
theorem lastDigit_ne {a b c : Addr} (hb : ChildOf a b) (hc : ChildOf a c) (h : b.toKey ≠ c.toKey) :
    lastDigit b ≠ lastDigit c := by
  intro he
  exact h (Key.path_inj hb.1 hc.1 (by rw [hb.path, hc.path, he]))

theorem mem_all_of_done {env : Env K} {s : Engine K} {fin : List (Seg K)} {f : Frame K} {fs : List (Frame K)}
    (h : R env s fin (f :: fs)) {c : Seg K} (hc : c ∈ f.done) {e : Entry K} (he : e ∈ c.all) : e ∈ s.out.entries := by
  rw [h.out]
  simp only [flat, List.mem_append, List.mem_cons, List.mem_flatMap]
  exact Or.inr (Or.inr (Or.inr ⟨c, hc, he⟩))

theorem processOctant_pop {env : Env K} (hw : ∀ n, env.writeFault n = false) {s : Engine K} {fin : List (Seg K)}
    {f : Frame K} {fs : List (Frame K)} (h : R env s fin (f :: fs)) (hne : f.done ≠ []) :
    ∃ s', processOctant env s fs.length = .ok s' () ∧ R env s' (pop env.rd fin f fs).1 (pop env.rd fin f fs).2 := by
  obtain ⟨hslot, hlev, hty, hoct, hbuilt, hch, hpar, hst⟩ := h.stack
  have hlt : fs.length < pendingSize := by
    have := hoct.level_le; unfold pendingSize ETREE_MAXLEVEL; omega
  obtain ⟨A, hA⟩ : ∃ A, A = fin.flatMap Seg.all ++ flat env.junk fs := ⟨_, rfl⟩
  have hout : s.out.entries = A ++ ⟨f.addr, env.junk⟩ :: f.done.flatMap Seg.all := by
    rw [h.out, hA]; simp [flat]
  have hsorted := h.sorted
  have hdb : s.out = ⟨A ++ ⟨f.addr, env.junk⟩ :: f.done.flatMap Seg.all⟩ := by rw [← hout]
  rw [hdb] at hsorted
  have hupd := Db.update_sorted (meanOf env.rd f.roots) hsorted
  obtain ⟨out', hout'⟩ : ∃ o : Db K, o = ⟨A ++ ⟨f.addr, meanOf env.rd f.roots⟩ :: f.done.flatMap Seg.all⟩ := ⟨_, rfl⟩
  have hsort' : out'.Sorted := by
    rw [hout']; exact Db.sorted_map hsorted (by simp)
  have hlen' : out'.entries.length = s.out.entries.length := by rw [hout', hout]; simp
  -- the counters
  have hcnt : countIncomplete s.cnt (maskOf f.roots) =
      tally (allLeaves (pop env.rd fin f fs).1 (pop env.rd fin f fs).2).length out'.entries.length
        ((allNodes (pop env.rd fin f fs).1 (pop env.rd fin f fs).2).length + (pop env.rd fin f fs).2.length)
        ((allNodes (pop env.rd fin f fs).1 (pop env.rd fin f fs).2).map fun n => maskOf n.2) := by
    rw [h.cnt, tally_cons, pop_leaves, hlen', (pop_nodes env.rd fin f fs).length_eq, pop_length]
    rw [tally_perm ((pop_nodes env.rd fin f fs).map fun n => maskOf n.2)]
    simp only [List.map_cons, List.length_cons]
    congr 1; omega
  obtain ⟨s1, hs1⟩ : ∃ s1 : Engine K, s1 = { s with cnt := countIncomplete s.cnt (maskOf f.roots), out := out',
                                                     log := s.log ++ [true] } := ⟨_, rfl⟩
  have hwr : write env { s with cnt := countIncomplete s.cnt (s.pending fs.length).mask }
      (s.out.update (s.pending fs.length).addr.toKey
        (finalPayload env.rd (s.pending fs.length).sum (s.pending fs.length).num))
      "Could not update octant in etree database." = .ok s1 () := by
    rw [write_ok hw (d := out')]
    · rw [hslot, hs1]; rfl
    · rw [hslot, hdb, hout']; exact hupd
  have hs1p : s1.pending = s.pending := by rw [hs1]
  have hstep : ∀ s2 : Engine K, s2.ncur = fs.length + 1 →
      passUp env s1 fs.length (meanOf env.rd f.roots) = .ok s2 () →
      processOctant env s fs.length =
        .ok { setPending s2 fs.length { s2.pending fs.length with valid := false } with ncur := fs.length } () := by
    intro s2 hn hp
    unfold processOctant
    have hv : (s.pending fs.length).valid = true := by rw [hslot]; rfl
    simp only [Run.assert, hlt, hv, decide_true, if_true, Run.bind_ok]
    rw [hwr, Run.bind_ok]
    have hpay : finalPayload env.rd (s.pending fs.length).sum (s.pending fs.length).num = meanOf env.rd f.roots := by
      rw [hslot]; rfl
    rw [hpay, hp, Run.bind_ok]
    simp [setPending, hn]
  cases fs with
  | nil =>
    have hp : passUp env s1 ([] : List (Frame K)).length (meanOf env.rd f.roots) = .ok s1 () := rfl
    refine ⟨_, hstep s1 (by rw [hs1]; exact h.ncur) hp, ?_⟩
    refine { out := ?_, ncur := rfl, stack := trivial, free := ?_, sorted := ?_, roots := ?_, cnt := ?_ }
    · simp only [setPending, hs1, hout', hA, pop, flat, List.flatMap_append, List.flatMap_cons, List.flatMap_nil,
        Seg.node, List.append_nil]
      rfl
    · intro i _
      simp only [setPending, List.length_nil]
      by_cases hi : i = 0
      · simp [hi]
      · rw [if_neg hi, hs1p]; exact h.free i (by simp; omega)
    · show s1.out.Sorted
      rw [hs1]; exact hsort'
    · intro c hc
      simp only [pop, List.mem_append, List.mem_singleton] at hc
      rcases hc with hc | rfl
      · exact h.roots c hc
      · exact ⟨Built.node _ _ hoct hty hne hbuilt hch, hlev⟩
    · show s1.cnt = _
      rw [hs1]
      exact hcnt
  | cons g fs =>
    obtain ⟨gslot, glev, gty, goct, gbuilt, gch, gpar, gst⟩ := hst
    have hchild : ChildOf g.addr f.addr := hpar g (by simp)
    have hpf : ∀ c ∈ g.done, lastDigit c.root.addr ≠ lastDigit f.addr := by
      intro c hc
      refine lastDigit_ne (gch c hc) hchild ?_
      intro hk
      have hcA : c.root ∈ A := by
        rw [hA]
        simp only [flat, List.mem_append, List.mem_cons, List.mem_flatMap]
        exact Or.inr (Or.inr (Or.inr ⟨c, hc, (gbuilt c hc).root_mem⟩))
      unfold Db.Sorted at hsorted
      have := (List.pairwise_append.1 hsorted).2.2 c.root hcA ⟨f.addr, env.junk⟩ (by simp)
      rw [hk] at this; exact lt_irrefl _ this
    have hp : passUp env s1 (g :: fs).length (meanOf env.rd f.roots) =
        .ok (setPending s1 fs.length (slotOf env.rd ⟨g.addr, g.done ++ [Seg.node env.rd f.addr f.done]⟩)) () := by
      refine passUp_cons (e := ⟨f.addr, meanOf env.rd f.roots⟩) (f := g) ?_ ?_ hchild gch hpf _ rfl
      · rw [hs1p]; exact gslot
      · rw [hs1p]; rw [List.length_cons] at hslot; rw [hslot]; rfl
    refine ⟨_, hstep _ (by rw [hs1]; exact h.ncur) hp, ?_⟩
    refine { out := ?_, ncur := rfl, stack := ?_, free := ?_, sorted := ?_, roots := h.roots, cnt := ?_ }
    · simp only [setPending, hs1, hout', hA, pop, flat, List.flatMap_append, List.flatMap_cons, List.flatMap_nil,
        Seg.node, List.append_nil, List.append_assoc, List.cons_append]
      rfl
    · refine ⟨?_, glev, gty, goct, ?_, ?_, gpar, ?_⟩
      · simp [setPending]
      · intro c hc
        simp only [List.mem_append, List.mem_singleton] at hc
        rcases hc with hc | rfl
        · exact gbuilt c hc
        · exact Built.node _ _ hoct hty hne hbuilt hch
      · intro c hc
        simp only [List.mem_append, List.mem_singleton] at hc
        rcases hc with hc | rfl
        · exact gch c hc
        · exact hchild
      · refine gst.congr ?_
        intro i hi
        simp only [setPending, List.length_cons]
        rw [if_neg (by omega), if_neg (by omega), hs1p]
    · intro i hi
      simp only [pop, List.length_cons] at hi
      simp only [setPending, List.length_cons]
      by_cases hie : i = fs.length + 1
      · simp [hie]
      · rw [if_neg hie, if_neg (by omega), hs1p]; exact h.free i (by simp; omega)
    · show s1.out.Sorted
      rw [hs1]; exact hsort'
    · show s1.cnt = _
      rw [hs1]
      exact hcnt

/-! ### Starting an octant and adding an input octant -/

theorem createOctant_push {env : Env K} (hw : ∀ n, env.writeFault n = false) {s : Engine K} {fin : List (Seg K)}
    {fs : List (Frame K)} (h : R env s fin fs) {a : Addr} (hl : a.level = fs.length) (ho : a.toKey.Octant)
    (ht : a.type = .interior) (hpar : ∀ g ∈ fs.head?, ChildOf g.addr a)
    (hlt : ∀ x ∈ s.out.entries, x.addr.zkey < a.zkey) :
    ∃ s', createOctant env s a = .ok s' () ∧ R env s' fin (⟨a, []⟩ :: fs) := by
  have hsz : a.level < pendingSize := by
    have := ho.level_le; unfold pendingSize ETREE_MAXLEVEL; omega
  have hv : (s.pending a.level).valid = false := h.free _ (by omega)
  have hn : a.level = s.ncur := by rw [hl, h.ncur]
  have e1 : decide (a.level < pendingSize) = true := by simp [hsz]
  have e2 : (!(s.pending a.level).valid) = true := by simp [hv]
  have e3 : decide (a.level = s.ncur) = true := by simp [hn]
  have happ : s.out.append ⟨a, env.junk⟩ = some ⟨s.out.entries ++ [⟨a, env.junk⟩]⟩ := Db.append_ok hlt
  refine ⟨{ (setPending { s with out := ⟨s.out.entries ++ [⟨a, env.junk⟩]⟩, log := s.log ++ [true] } a.level
    (newPending a)) with
      ncur := a.level + 1
      cnt := { s.cnt with output := s.cnt.output + 1, interior := s.cnt.interior + 1 } }, ?_, ?_⟩
  · unfold createOctant
    simp only [Run.assert, e1, e2, e3, if_true, Run.bind_ok]
    rw [write_ok hw _ happ, Run.bind_ok]
    rfl
  · refine { out := ?_, ncur := ?_, stack := ?_, free := ?_, sorted := ?_, roots := h.roots, cnt := ?_ }
    · simp [setPending, h.out, flat]
    · simp [hl]
    · refine ⟨?_, hl, ht, ho, by simp, by simp, hpar, ?_⟩
      · simp only [setPending, hl, if_true]; rfl
      · refine h.stack.congr ?_
        intro i hi
        simp only [setPending]
        rw [if_neg (by omega)]
    · intro i hi
      simp only [List.length_cons] at hi
      simp only [setPending]
      rw [if_neg (by omega)]
      exact h.free i (by omega)
    · exact Db.sorted_append h.sorted hlt
    · show ({ s.cnt with output := s.cnt.output + 1, interior := s.cnt.interior + 1 } : Counters) = _
      rw [h.cnt]
      simp [tally, setPending, allLeaves, flatLeaves, allNodes, flatNodes, Nat.add_assoc]

theorem createOctant_fail {env : Env K} {s : Engine K} {fin : List (Seg K)}
    {fs : List (Frame K)} (h : R env s fin fs) {a : Addr} (hl : a.level = fs.length) (ho : a.level ≤ 31)
    {x : Entry K} (hx : x ∈ s.out.entries) (hnlt : ¬ x.addr.zkey < a.zkey) :
    ∃ s', createOctant env s a = .exc "Error occurred while appending new octant to etree." s' := by
  have hsz : a.level < pendingSize := by unfold pendingSize ETREE_MAXLEVEL; omega
  have hv : (s.pending a.level).valid = false := h.free _ (by omega)
  have hn : a.level = s.ncur := by rw [hl, h.ncur]
  have e1 : decide (a.level < pendingSize) = true := by simp [hsz]
  have e2 : (!(s.pending a.level).valid) = true := by simp [hv]
  have e3 : decide (a.level = s.ncur) = true := by simp [hn]
  have happ : s.out.append ⟨a, env.junk⟩ = none := Db.append_fail h.sorted hx hnlt
  refine ⟨{ s with log := s.log ++ [false] }, ?_⟩
  unfold createOctant
  simp only [Run.assert, e1, e2, e3, if_true, Run.bind_ok]
  rw [write_fail _ happ, Run.bind_exc]

/-- The state after an input octant has been appended and added to its parent. -/
theorem leaf_push {env : Env K} {s : Engine K} {fin : List (Seg K)}
    {f : Frame K} {fs : List (Frame K)} (h : R env s fin (f :: fs)) {e : Entry K} (hc : ChildOf f.addr e.addr)
    (hlt : ∀ x ∈ s.out.entries, x.addr.zkey < e.addr.zkey) :
    ∃ s', addToParent env { s with
            out := ⟨s.out.entries ++ [e]⟩, log := s.log ++ [true]
            cnt := { s.cnt with input := s.cnt.input + 1, output := s.cnt.output + 1 } }
          fs.length e.addr e.payload = .ok s' () ∧
      R env s' fin (⟨f.addr, f.done ++ [Seg.leaf e]⟩ :: fs) := by
  obtain ⟨hslot, hlev, hty, hoct, hbuilt, hch, hpar, hst⟩ := h.stack
  have hnew : ∀ c ∈ f.done, lastDigit c.root.addr ≠ lastDigit e.addr := by
    intro c hcd
    refine lastDigit_ne (hch c hcd) hc ?_
    intro hk
    have := hlt c.root (mem_all_of_done h hcd (hbuilt c hcd).root_mem)
    rw [hk] at this; exact lt_irrefl _ this
  refine ⟨_, addToParent_ok (f := f) (by exact hslot) hc hch hnew (Seg.leaf e) rfl, ?_⟩
  have hb : Built env.rd (Seg.leaf e) := Built.leaf e hc.1 (by have := hc.2.1; omega)
  refine { out := ?_, ncur := ?_, stack := ?_, free := ?_, sorted := ?_, roots := h.roots, cnt := ?_ }
  · simp [setPending, h.out, flat, Seg.leaf]
  · exact h.ncur
  · refine ⟨?_, hlev, hty, hoct, ?_, ?_, hpar, ?_⟩
    · simp [setPending]
    · intro c hcd
      simp only [List.mem_append, List.mem_singleton] at hcd
      rcases hcd with hcd | rfl
      · exact hbuilt c hcd
      · exact hb
    · intro c hcd
      simp only [List.mem_append, List.mem_singleton] at hcd
      rcases hcd with hcd | rfl
      · exact hch c hcd
      · exact hc
    · refine hst.congr ?_
      intro i hi
      simp only [setPending]
      rw [if_neg (by omega)]
  · intro i hi
    simp only [List.length_cons] at hi
    simp only [setPending]
    rw [if_neg (by omega)]
    exact h.free i (by simp; omega)
  · exact Db.sorted_append h.sorted hlt
  · show ({ s.cnt with input := s.cnt.input + 1, output := s.cnt.output + 1 } : Counters) = _
    rw [h.cnt]
    simp [tally, setPending, allLeaves, flatLeaves, allNodes, flatNodes, Seg.leaf, Nat.add_assoc]

end AvgEngine
end CenCalVM
