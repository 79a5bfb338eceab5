/-
Lemmas for the arrays of cencalvmisosurface.
-/
import Verif.Model.IsoHeap
import Verif.Lemmas.Heap
import Verif.Lemmas.PrintText

set_option linter.unusedSectionVars false

namespace CenCalVM
namespace IsoApp
open QueryApp (Env)
open Mem (Heap Block Has)
open Print (bind_eq_ok)
variable {K : Type} [Field K] [LinearOrder K]

/-! ### The same run -/

/-- A result without the memory. -/
def dropHeap {α : Type} (r : Outcome (α × Heap)) : Outcome α := do
  let r ← r
  .ok r.1

theorem drop_bind {α β : Type} (x : Outcome (α × Heap)) (f : α × Heap → Outcome (β × Heap)) (g : α → Outcome β)
    (hf : ∀ a h, dropHeap (f (a, h)) = g a) : dropHeap (x >>= f) = dropHeap x >>= g := by
  cases x with
  | ub => rfl
  | exc m => rfl
  | ok r => exact hf r.1 r.2

theorem drop_value (fmt : Fmt K) (p : Nat) (q : VMQuery K) (fs : Files) (lon lat elev : K) (h : Heap) :
    dropHeap (valueAtMem fmt p q fs lon lat elev h) = valueAt fmt q fs lon lat elev := by
  unfold valueAtMem
  cases valueAt fmt q fs lon lat elev <;> rfl

theorem drop_ground (ar : Arith K) (fmt : Fmt K) (p : Nat) (lon lat elev : K) (n iter : Nat) (q : VMQuery K) (fs : Files) (h : Heap) :
    dropHeap (groundLoopMem ar fmt p lon lat elev n iter q fs h) = groundLoop ar fmt lon lat elev n iter q fs := by
  induction n generalizing iter q fs h with
  | zero => rfl
  | succ n ih =>
    unfold groundLoopMem groundLoop
    dsimp only
    rw [drop_bind _ _ (fun r => if r.1 > 0 then .ok (ar.rd (elev + ar.rd (iter * (-12.5))), r.2) else
      groundLoop ar fmt lon lat elev n (iter + 1) r.2.1 r.2.2), drop_value]
    intro a h
    dsimp only
    split
    · rfl
    · exact ih _ _ _ _

theorem drop_queryElev (ar : Arith K) (fmt : Fmt K) (q : VMQuery K) (fs : Files) (lon lat : K) (h : Heap) :
    dropHeap (queryElevMem ar fmt q fs lon lat h) = queryElev ar fmt q fs lon lat := by
  unfold queryElevMem queryElev
  cases VMQuery.setQueryVals q ["Elevation"] 1 with
  | ub => rfl
  | exc m => rfl
  | ok q =>
    simp only [Outcome.bind_ok]
    split
    · rfl
    · rw [← drop_value fmt h.next q fs lon lat (-5000) (h.array 1)]
      refine drop_bind _ _ _ ?_
      intro a h'
      dsimp only
      cases VMQuery.setQueryVals a.2.1 ["Vs"] 1 with
      | ub => rfl
      | exc m => rfl
      | ok q =>
        simp only [Outcome.bind_ok]
        rw [← drop_ground ar fmt h.next lon lat a.1 10 0 q a.2.2 h']
        cases groundLoopMem ar fmt h.next lon lat a.1 10 0 q a.2.2 h' <;> rfl

theorem drop_round (ar : Arith K) (fmt : Fmt K) (p : Nat) (target lon lat upper lower : K) (q : VMQuery K) (fs : Files) (h : Heap) :
    dropHeap (searchRoundMem ar fmt p target lon lat upper lower q fs h) = searchRound ar fmt target lon lat upper lower q fs := by
  unfold searchRoundMem searchRound
  rw [← drop_value fmt p q fs lon lat upper h]
  refine drop_bind _ _ _ fun a h => ?_
  dsimp only
  rw [← drop_value fmt p a.2.1 a.2.2 lon lat lower h]
  refine drop_bind _ _ _ fun b h => ?_
  dsimp only
  rw [← drop_value fmt p b.2.1 b.2.2 lon lat _ h]
  exact drop_bind _ _ _ fun c h => rfl

theorem drop_search (ar : Arith K) (fmt : Fmt K) (p : Nat) (target lon lat : K) (n : Nat) (upper lower e : K) (q : VMQuery K) (fs : Files) (h : Heap) :
    dropHeap (searchLoopMem ar fmt p target lon lat n upper lower e q fs h) = searchLoop ar fmt target lon lat n upper lower e q fs := by
  induction n generalizing upper lower e q fs h with
  | zero => rfl
  | succ n ih =>
    unfold searchLoopMem searchLoop
    rw [← drop_round ar fmt p target lon lat upper lower q fs h]
    refine drop_bind _ _ _ fun a h => ?_
    dsimp only
    cases a.1 with
    | next u l e => exact ih _ _ _ _ _ _
    | done e => rfl
    | exit => rfl

theorem drop_searchVs (ar : Arith K) (fmt : Fmt K) (q : VMQuery K) (fs : Files) (target lon lat upper lower : K) (h : Heap) :
    dropHeap (searchVsMem ar fmt q fs target lon lat upper lower h) = searchVs ar fmt q fs target lon lat upper lower := by
  unfold searchVsMem searchVs
  cases niters ar upper lower with
  | ub => rfl
  | exc m => rfl
  | ok n =>
    simp only [Outcome.bind_ok]
    cases VMQuery.setQueryVals q ["Vs"] 1 with
    | ub => rfl
    | exc m => rfl
    | ok q => exact drop_search _ _ _ _ _ _ _ _ _ _ _ _ _

theorem drop_locate (ar : Arith K) (fmt : Fmt K) (o : Options K) (q : VMQuery K) (fs : Files) (lon lat : K) (h : Heap) :
    dropHeap (locateMem ar fmt o q fs lon lat h) = locate ar fmt o q fs lon lat := by
  unfold locateMem locate
  rw [← drop_queryElev ar fmt q fs lon lat h]
  refine drop_bind _ _ _ fun a h => ?_
  dsimp only
  rw [← drop_searchVs ar fmt a.2.1 a.2.2 o.vs lon lat _ _ h]
  exact drop_bind _ _ _ fun b h => rfl

theorem drop_leave (env : Env K) (q : VMQuery K) (code : Int) (lines : List (Line K)) (h : Heap) :
    dropHeap (leaveMem env q code lines h) = leave env q code lines := by
  unfold leaveMem
  cases leave env q code lines <;> rfl

theorem drop_loop (ar : Arith K) (env : Env K) (o : Options K) (n : Nat) (s : Stream) (loc : K × K) (q : VMQuery K) (fs : Files)
    (lines : List (Line K)) (h : Heap) :
    dropHeap (loopMem ar env o n s loc q fs lines h) = loop ar env o n s loc q fs lines := by
  induction n generalizing s loc q fs lines h with
  | zero => rfl
  | succ n ih =>
    unfold loopMem loop
    split
    · rw [← drop_locate ar env.fmt o q fs loc.1 loc.2 h]
      match locateMem ar env.fmt o q fs loc.1 loc.2 h with
      | .ub => rfl
      | .exc m => rfl
      | .ok ((none, _, _), h) => rfl
      | .ok ((some d, q, fs), h) =>
        show dropHeap (if _ then _ else _) = if _ then _ else _
        split
        · exact drop_leave _ _ _ _ _
        · exact ih _ _ _ _ _ _
    · unfold finishMem finish
      dsimp only
      split <;> exact drop_leave _ _ _ _ _

theorem drop_run (ar : Arith K) (env : Env K) (o : Options K) : dropHeap (runMem ar env o) = run ar env o := by
  unfold runMem run
  cases setup env o (VMQuery.init env.geom) with
  | ub => rfl
  | exc m => rfl
  | ok q =>
    simp only [Outcome.bind_ok]
    cases env.input o.filenameIn with
    | none => exact drop_leave _ _ _ _ _
    | some text =>
      dsimp only
      split
      · exact drop_loop _ _ _ _ _ _ _ _ _ _
      · exact drop_leave _ _ _ _ _

/-! ### The blocks that are there -/

theorem value_has {fmt : Fmt K} {p : Nat} {q : VMQuery K} {fs : Files} {lon lat elev : K} {h h' : Heap} {x : K × VMQuery K × Files}
    {own : List Block} (hh : Has h own) (hp : (⟨p, 1, true⟩ : Block) ∈ own) (he : valueAtMem fmt p q fs lon lat elev h = .ok (x, h')) :
    Has h' own := by
  unfold valueAtMem at he
  obtain ⟨r, -, he⟩ := bind_eq_ok he
  cases he
  exact (hh.accesses hp (by simp)).access (b := ⟨p, 1, true⟩) hp Mem.one_lt

theorem ground_has {ar : Arith K} {fmt : Fmt K} {p : Nat} {lon lat elev : K} {n iter : Nat} {q : VMQuery K} {fs : Files} {h h' : Heap}
    {x : K × VMQuery K × Files} {own : List Block} (hh : Has h own) (hp : (⟨p, 1, true⟩ : Block) ∈ own)
    (he : groundLoopMem ar fmt p lon lat elev n iter q fs h = .ok (x, h')) : Has h' own := by
  induction n generalizing iter q fs h with
  | zero => cases he; exact hh
  | succ n ih =>
    unfold groundLoopMem at he
    obtain ⟨r, hr, he⟩ := bind_eq_ok he
    have h1 := value_has hh hp hr
    split at he
    · cases he; exact h1
    · exact ih h1 he

theorem queryElev_has {ar : Arith K} {fmt : Fmt K} {q : VMQuery K} {fs : Files} {lon lat : K} {h h' : Heap} {x : K × VMQuery K × Files}
    {own : List Block} (hh : Has h own) (he : queryElevMem ar fmt q fs lon lat h = .ok (x, h')) : Has h' own := by
  unfold queryElevMem at he
  obtain ⟨q1, -, he⟩ := bind_eq_ok he
  split at he
  · cases he
  · obtain ⟨r, hr, he⟩ := bind_eq_ok he
    obtain ⟨q2, -, he⟩ := bind_eq_ok he
    obtain ⟨r2, hr2, he⟩ := bind_eq_ok he
    cases he
    have h1 := value_has (hh.array 1) List.mem_cons_self hr
    exact (ground_has h1 List.mem_cons_self hr2).deleteArray

theorem search_has {ar : Arith K} {fmt : Fmt K} {p : Nat} {target lon lat : K} {n : Nat} {upper lower e : K} {q : VMQuery K} {fs : Files}
    {h h' : Heap} {x : Option K × VMQuery K × Files} {own : List Block} (hh : Has h own) (hp : (⟨p, 1, true⟩ : Block) ∈ own)
    (he : searchLoopMem ar fmt p target lon lat n upper lower e q fs h = .ok (x, h')) : Has h' own := by
  induction n generalizing upper lower e q fs h with
  | zero => cases he; exact hh
  | succ n ih =>
    unfold searchLoopMem at he
    obtain ⟨r, hr, he⟩ := bind_eq_ok he
    have h1 : Has r.2 own := by
      unfold searchRoundMem at hr
      obtain ⟨u, hu, hr⟩ := bind_eq_ok hr
      obtain ⟨l, hl, hr⟩ := bind_eq_ok hr
      obtain ⟨m, hm, hr⟩ := bind_eq_ok hr
      cases hr
      exact value_has (value_has (value_has hh hp hu) hp hl) hp hm
    split at he
    · exact ih h1 he
    · cases he; exact h1
    · cases he; exact h1

theorem locate_has {ar : Arith K} {fmt : Fmt K} {o : Options K} {q : VMQuery K} {fs : Files} {lon lat : K} {h h' : Heap}
    {x : Option K × VMQuery K × Files} {own : List Block} (hh : Has h own) (he : locateMem ar fmt o q fs lon lat h = .ok (x, h')) :
    ∃ p, Has h' (⟨p, 1, true⟩ :: own) := by
  unfold locateMem at he
  obtain ⟨t, ht, he⟩ := bind_eq_ok he
  obtain ⟨r, hr, he⟩ := bind_eq_ok he
  cases he
  have h1 := queryElev_has hh ht
  unfold searchVsMem at hr
  obtain ⟨n, -, hr⟩ := bind_eq_ok hr
  obtain ⟨q2, -, hr⟩ := bind_eq_ok hr
  exact ⟨_, search_has (h1.array 1) List.mem_cons_self hr⟩

theorem leaveMem_eq {env : Env K} {q : VMQuery K} {code : Int} {lines : List (Line K)} {h : Heap} {r : Result K × Heap}
    (he : leaveMem env q code lines h = .ok r) : r = (⟨.ret code, lines⟩, h) := by
  unfold leaveMem leave at he
  obtain ⟨x, hx, he⟩ := bind_eq_ok he
  obtain ⟨_, -, hx⟩ := bind_eq_ok hx
  cases hx; cases he; rfl

/-- One block more for each line, and perhaps one for a location without a line. -/
theorem loop_has {ar : Arith K} {env : Env K} {o : Options K} {n : Nat} {s : Stream} {loc : K × K} {q : VMQuery K} {fs : Files}
    {lines : List (Line K)} {h : Heap} {r : Result K × Heap} {own : List Block} (hh : Has h own) (ho : ∀ b ∈ own, b.size = 1 ∧ b.arr = true)
    (he : loopMem ar env o n s loc q fs lines h = .ok r) :
    ∃ more, Has r.2 (more ++ own) ∧ (∀ b ∈ more, b.size = 1 ∧ b.arr = true) ∧ r.1.lines.length ≤ more.length + lines.length ∧
      more.length + lines.length ≤ r.1.lines.length + 1 ∧ (r.1.ending = .ret 0 → more.length + lines.length = r.1.lines.length) := by
  induction n generalizing s loc q fs lines h own with
  | zero => cases he
  | succ n ih =>
    unfold loopMem at he
    split at he
    · split at he
      · cases he
      · cases he
        exact ⟨[], hh, by simp, by simp, by simp, by simp⟩
      · rename_i heq
        cases he
        obtain ⟨p, hp⟩ := locate_has hh heq
        exact ⟨[⟨p, 1, true⟩], hp, by simp, by simp, by simp; omega, by simp⟩
      · rename_i heq
        obtain ⟨p, hp⟩ := locate_has hh heq
        split at he
        · rw [leaveMem_eq he]
          exact ⟨[⟨p, 1, true⟩], hp, by simp, by simp, by simp; omega, by simp⟩
        · obtain ⟨more, h1, h2, h3, h4, h5⟩ := ih hp (by
            intro b hb
            rcases List.mem_cons.1 hb with rfl | hb
            · exact ⟨rfl, rfl⟩
            · exact ho b hb) he
          rw [List.length_append, List.length_singleton] at h3 h4 h5
          refine ⟨more ++ [⟨p, 1, true⟩], ?_, ?_, ?_, ?_, ?_⟩
          · rw [List.append_assoc]; exact h1
          · intro b hb
            rcases List.mem_append.1 hb with hb | hb
            · exact h2 b hb
            · rw [List.mem_singleton] at hb; subst hb; exact ⟨rfl, rfl⟩
          · rw [List.length_append, List.length_singleton]; omega
          · rw [List.length_append, List.length_singleton]; omega
          · intro h0
            have := h5 h0
            rw [List.length_append, List.length_singleton]; omega
    · unfold finishMem at he
      dsimp only at he
      split at he <;> rw [leaveMem_eq he] <;> exact ⟨[], hh, by simp, by simp, by simp, by simp⟩

end IsoApp
end CenCalVM
