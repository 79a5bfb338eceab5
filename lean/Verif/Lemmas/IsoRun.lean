/-
Lemmas on the program cencalvmisosurface as a whole.
-/
import Verif.Lemmas.IsoApp

set_option linter.unusedSectionVars false

namespace CenCalVM
namespace IsoApp
open GridIngester
variable {K : Type} [Field K] [LinearOrder K]

/-! ### The ground -/

theorem groundLoop_back {fmt : Fmt K} {q : VMQuery K} {lon lat e0 : K} {ar : Arith K} (n : Nat) : ∀ {k : Nat} {er : ErrorHandler} {fs : Files}
    {r : K × VMQuery K × Files}, groundLoop ar fmt lon lat e0 n k (asking q 1 er) fs = .ok r →
    Later q 1 er r.2.1 ∧
      ((∃ j : Nat, k ≤ j ∧ j < k + n ∧ r.1 = ar.rd (e0 + ar.rd (j * (-12.5))) ∧ (∃ v, ValueAt fmt q 1 lon lat r.1 v ∧ 0 < v) ∧
          ∀ i : Nat, k ≤ i → i < j → ∃ v, ValueAt fmt q 1 lon lat (ar.rd (e0 + ar.rd (i * (-12.5)))) v ∧ v ≤ 0) ∨
        (r.1 = e0 ∧ ∀ i : Nat, k ≤ i → i < k + n → ∃ v, ValueAt fmt q 1 lon lat (ar.rd (e0 + ar.rd (i * (-12.5)))) v ∧ v ≤ 0)) := by
  induction n with
  | zero =>
    intro k er fs r h
    cases h
    exact ⟨Later.refl q 1 er, Or.inr ⟨rfl, fun i h1 h2 => by omega⟩⟩
  | succ n ih =>
    intro k er fs r h
    unfold groundLoop at h
    dsimp only at h
    cases hv : valueAt fmt (asking q 1 er) fs lon lat (ar.rd (e0 + ar.rd (k * (-12.5)))) with
    | ub => rw [hv] at h; cases h
    | exc m => rw [hv] at h; cases h
    | ok rv =>
    obtain ⟨v, q', fs'⟩ := rv
    obtain ⟨a1, w, hw, hw', rfl⟩ := valueAt_back hv
    rw [hv, Outcome.bind_ok] at h
    dsimp only at h
    by_cases hp : v > 0
    · rw [if_pos hp] at h
      cases h
      exact ⟨⟨w, hw, hw', rfl⟩, Or.inl ⟨k, le_rfl, by omega, rfl, ⟨v, a1, hp⟩, fun i h1 h2 => by omega⟩⟩
    · rw [if_neg hp] at h
      obtain ⟨hl, hd⟩ := ih h
      refine ⟨hl.trans hw hw', ?_⟩
      have hstep : ∀ i : Nat, k ≤ i → ¬ k + 1 ≤ i → ∃ v, ValueAt fmt q 1 lon lat (ar.rd (e0 + ar.rd (i * (-12.5)))) v ∧ v ≤ 0 := by
        intro i h1 h2
        obtain rfl : i = k := by omega
        exact ⟨v, a1, not_lt.1 hp⟩
      rcases hd with ⟨j, h1, h2, h3, h4, h5⟩ | ⟨h1, h2⟩
      · refine Or.inl ⟨j, by omega, by omega, h3, h4, fun i h6 h7 => ?_⟩
        by_cases h8 : k + 1 ≤ i
        · exact h5 i h8 h7
        · exact hstep i h6 h8
      · refine Or.inr ⟨h1, fun i h6 h7 => ?_⟩
        by_cases h8 : k + 1 ≤ i
        · exact h2 i h8 (by omega)
        · exact hstep i h6 h8

theorem groundLoop_total {ar : Arith K} {fmt : Fmt K} {q : VMQuery K} {lon lat e0 : K} (hv : ∀ e, ∃ v, ValueAt fmt q 1 lon lat e v) (n : Nat) :
    ∀ (k : Nat) (er : ErrorHandler) (fs : Files), ∃ r, groundLoop ar fmt lon lat e0 n k (asking q 1 er) fs = .ok r := by
  induction n with
  | zero => intro k er fs; exact ⟨_, rfl⟩
  | succ n ih =>
    intro k er fs
    unfold groundLoop
    obtain ⟨v, h1⟩ := hv (ar.rd (e0 + ar.rd (k * (-12.5))))
    obtain ⟨er', fs', h2⟩ := valueAt_forth h1 er fs
    dsimp only
    rw [h2, Outcome.bind_ok]
    dsimp only
    split
    · exact ⟨_, rfl⟩
    · exact ih _ _ _

/-- The elevation of the ground found by `queryElev`. -/
theorem queryElev_back {ar : Arith K} (hst : ∀ k : Nat, k < 10 → ar.rd ((k : K) * (-12.5)) = k * (-12.5)) {fmt : Fmt K} {q : VMQuery K} {vs : List (Option Nat)} {fs : Files} {lon lat : K}
    {r : K × VMQuery K × Files} (h : queryElev ar fmt { q with queryVals := vs } fs lon lat = .ok r) :
    Ground ar.rd fmt q lon lat r.1 ∧ ∃ w, VMQuery.Raised w ∧ (q.err.status = .OK → ¬ ErrorAt fmt q 8 lon lat (-5000) → VMQuery.Warned w) ∧
      r.2.1 = asking q 1 (VMQuery.mark q.err w) := by
  unfold queryElev at h
  rw [setQueryVals_elev, Outcome.bind_ok] at h
  split at h
  · cases h
  rw [show asking { q with queryVals := vs } 8 ({ q with queryVals := vs } : VMQuery K).err = asking q 8 q.err from rfl] at h
  rcases valueAt_cases fmt q 8 lon lat (-5000) with ⟨h1, -⟩ | ⟨e0, w, hw, h1, herr, h2⟩
  · rw [h1] at h; cases h
  · obtain ⟨f, h3⟩ := h2 q.err fs
    rw [h3, Outcome.bind_ok] at h
    dsimp only at h
    rw [setQueryVals_vs, Outcome.bind_ok] at h
    rw [show asking (asking q 8 (VMQuery.mark q.err w)) 1 (asking q 8 (VMQuery.mark q.err w)).err = asking q 1 (VMQuery.mark q.err w) from rfl] at h
    obtain ⟨⟨w2, hr2, hw2, hq⟩, hd⟩ := groundLoop_back 10 h
    have hcv : ∀ j : Nat, j < 10 → ar.rd (e0 + ar.rd ((j : K) * (-12.5))) = ar.rd (e0 - 12.5 * j) := fun j hj => by
      rw [hst j hj]; congr 1; ring
    refine ⟨⟨e0, h1, ?_⟩, VMQuery.later w w2, VMQuery.raised_later hw.1 hr2, fun hs he => ?_, ?_⟩
    · rcases hd with ⟨j, -, h4, h5, h6, h7⟩ | ⟨h4, h5⟩
      · refine Or.inl ⟨j, by omega, ?_, h6, fun i hi => ?_⟩
        · rw [h5, hcv _ (by omega)]
        · rw [← hcv _ (by omega)]; exact h7 i (by omega) hi
      · refine Or.inr ⟨h4, fun i hi => ?_⟩
        rw [← hcv _ (by omega)]; exact h5 i (by omega) (by omega)
    · refine VMQuery.warned_later ?_ (hw2 (by omega))
      rw [herr] at he
      cases w with
      | none => trivial
      | some x =>
        obtain ⟨st, m⟩ := x
        have h9 : st ≠ .ERROR := he
        have h10 : st ≠ .OK := hw.1
        change st = .WARNING
        cases st with
        | OK => exact absurd rfl h10
        | WARNING => rfl
        | ERROR => exact absurd rfl h9
    · rw [hq, VMQuery.mark_mark]

theorem queryElev_total {ar : Arith K} {fmt : Fmt K} {q : VMQuery K} (hs : q.err.status = .OK) (vs : List (Option Nat)) (fs : Files) {lon lat : K}
    (h8 : ∃ v, ValueAt fmt q 8 lon lat (-5000) v) (hv : ∀ e, ∃ v, ValueAt fmt q 1 lon lat e v) :
    ∃ r, queryElev ar fmt { q with queryVals := vs } fs lon lat = .ok r := by
  unfold queryElev
  rw [setQueryVals_elev, Outcome.bind_ok, if_neg (by intro h; exact h hs)]
  obtain ⟨e0, h1⟩ := h8
  obtain ⟨er', fs', h2⟩ := valueAt_forth h1 q.err fs
  rw [show asking { q with queryVals := vs } 8 ({ q with queryVals := vs } : VMQuery K).err = asking q 8 q.err from rfl, h2, Outcome.bind_ok]
  dsimp only
  rw [setQueryVals_vs, Outcome.bind_ok]
  exact groundLoop_total hv 10 0 er' fs'

/-! ### One location -/

section
variable [IsStrictOrderedRing K]

/-- What the search needs of the arithmetic: middles in the bracket and near the middle, and enough iterations. -/
def Searches (ar : Arith K) (width u l : K) : Prop :=
  ∃ (D : K → Prop) (ε : K) (m : Int) (n : Nat), MiddleOk ar D l u ε ∧ D l ∧ D u ∧ l ≤ u ∧ ar.middle u l = ar.rd ((u + l) / 2) ∧
    niters ar u l = .ok m ∧ m.toNat = n + 1 ∧ (u - l) / 2 ^ (n + 1) + 2 * ε * (1 - 1 / 2 ^ (n + 1)) ≤ width

theorem searchVs_back {ar : Arith K} {fmt : Fmt K} {q : VMQuery K} {er : ErrorHandler} {fs : Files} {t lon lat u l width : K}
    {r : Option K × VMQuery K × Files} (h : searchVs ar fmt (asking q 1 er) fs t lon lat u l = .ok r) (hS : Searches ar width u l) :
    Later q 1 er r.2.1 ∧ ∃ vU vL vM, ValueAt fmt q 1 lon lat u vU ∧ ValueAt fmt q 1 lon lat l vL ∧
      ValueAt fmt q 1 lon lat (ar.rd ((u + l) / 2)) vM ∧
      ((r.1 = none ∧ vU < t ∧ vM < t ∧ vL < t ∧ 0 ≤ vL) ∨ ∃ e, r.1 = some e ∧ Reported width (ValueAt fmt q 1 lon lat) t u l e) := by
  obtain ⟨D, ε, m, n, hmid, dl, du, hlu, hm, hni, hn, hwd⟩ := hS
  unfold searchVs at h
  rw [hni, Outcome.bind_ok, setQueryVals_vs, Outcome.bind_ok, hn] at h
  obtain ⟨hl, vU, vL, vM, a1, a2, a3, hd⟩ := searchLoop_back (q := q) (er := er) hmid dl du hlu h
  rw [hm] at a3
  refine ⟨hl, vU, vL, vM, a1, a2, a3, ?_⟩
  rcases hd with hd | ⟨h1, h2, h3, h4, h5⟩ | ⟨h1, h2, -⟩ | ⟨-, e, h1, h2, h3, h4, e', v', h5, h6, h7, h8⟩
  · exact Or.inl hd
  · exact Or.inr ⟨_, h1, Or.inr (Or.inr ⟨rfl, ⟨vL, a2, h5, h4⟩, vU, a1, h2⟩)⟩
  · exact Or.inr ⟨_, h1, Or.inl ⟨rfl, vU, a1, h2⟩⟩
  · exact Or.inr ⟨_, h1, Or.inr (Or.inl ⟨h2, h3, h4, e', v', h5, h6, h7.trans hwd, h8⟩)⟩

theorem searchVs_total {ar : Arith K} {fmt : Fmt K} {q : VMQuery K} {t lon lat u l width : K} (hS : Searches ar width u l)
    (hv : ∀ e, l ≤ e → e ≤ u → ∃ v, ValueAt fmt q 1 lon lat e v)
    (er : ErrorHandler) (fs : Files) : ∃ r, searchVs ar fmt (asking q 1 er) fs t lon lat u l = .ok r := by
  obtain ⟨D, ε, m, n, hmid, dl, du, hlu, hm, hni, hn, hwd⟩ := hS
  unfold searchVs
  rw [hni, Outcome.bind_ok, setQueryVals_vs, Outcome.bind_ok]
  exact searchLoop_total (q := q) _ er fs hmid dl du hlu hv

/-- What the program needs of the arithmetic for a location with ground at `g`. -/
def LimitsOk (ar : Arith K) (o : Options K) (width g : K) : Prop :=
  limits ar o g = (ar.rd (g - (if o.squashLimit = 1000000 then 0 else g)), ar.rd (o.elevMin - (if o.squashLimit = 1000000 then 0 else g))) ∧
    Searches ar width (limits ar o g).1 (limits ar o g).2

/-- `Answered`, with what the program needs of the arithmetic. -/
def Located (ar : Arith K) (width : K) (fmt : Fmt K) (o : Options K) (q : VMQuery K) (l : K × K) : Prop :=
  (∃ v, ValueAt fmt q 8 l.1 l.2 (-5000) v) ∧ ¬ ErrorAt fmt q 8 l.1 l.2 (-5000) ∧ (∀ e, ∃ v, ValueAt fmt q 1 l.1 l.2 e v) ∧
    ∀ g, Ground ar.rd fmt q l.1 l.2 g → LimitsOk ar o width g

/-- The queries for one location. -/
theorem locate_spec {ar : Arith K} (hst : ∀ k : Nat, k < 10 → ar.rd ((k : K) * (-12.5)) = k * (-12.5)) {width : K} {fmt : Fmt K} {o : Options K} {q : VMQuery K} (hs : q.err.status = .OK)
    (vs : List (Option Nat)) (fs : Files) {l : K × K} (ha : Located ar width fmt o q l) :
    ∃ r q' fs', locate ar fmt o { q with queryVals := vs } fs l.1 l.2 = .ok (r, q', fs') ∧
      (∃ w, VMQuery.Warned w ∧ q' = asking q 1 (VMQuery.mark q.err w)) ∧
      ((r = none ∧ OutOfRange ar.rd fmt o q l) ∨ ∃ d, r = some d ∧ LineFor ar.rd width fmt o q l ⟨l.1, l.2, d⟩) := by
  obtain ⟨h8, he, hv, hg⟩ := ha
  obtain ⟨⟨g, q1, f1⟩, h1⟩ := queryElev_total hs vs fs h8 hv
  obtain ⟨hgr, w, hw, hww, hq1⟩ := queryElev_back hst h1
  dsimp only at hgr hq1
  subst hq1
  obtain ⟨hlim, hS⟩ := hg g hgr
  obtain ⟨⟨r, q2, f2⟩, h2⟩ := searchVs_total (t := o.vs) (q := q) hS (fun e _ _ => hv e) (VMQuery.mark q.err w) f1
  obtain ⟨⟨w2, hr2, hw2, hq2⟩, vU, vL, vM, a1, a2, a3, hd⟩ := searchVs_back h2 hS
  refine ⟨r.map (distIsosurf ar g), q2, f2, ?_, ?_, ?_⟩
  · unfold locate
    rw [h1, Outcome.bind_ok]
    dsimp only
    rw [h2, Outcome.bind_ok]
  · exact ⟨VMQuery.later w w2, VMQuery.warned_later (hww hs he) (hw2 (by omega)), by rw [← VMQuery.mark_mark]; exact hq2⟩
  · rw [hlim] at hd a1 a2 a3
    dsimp only at hd a1 a2 a3
    rcases hd with ⟨h3, h4, h5, h6, h7⟩ | ⟨e, h3, h4⟩
    · left
      subst h3
      exact ⟨rfl, g, _, hgr, rfl, ⟨vU, a1, h4⟩, ⟨vM, a3, h5⟩, vL, a2, h6, h7⟩
    · right
      subst h3
      refine ⟨_, rfl, rfl, g, e, _, hgr, rfl, h4, ?_⟩
      unfold distIsosurf
      by_cases h : e = 1000000
      · rw [if_neg (by simp [h]), if_pos h]
      · rw [if_pos h, if_neg h]

section
variable [FloorRing K]

theorem searches_exact {u l : K} (hw : 12.5 < u - l) : Searches Arith.exact 12.5 u l := by
  have hlu : l < u := by
    have : (0 : K) < u - l := lt_trans (by norm_num) hw
    linarith
  obtain ⟨n, hn, hn1, -⟩ := niters_width hw
  exact ⟨fun _ => True, 0, _, n, middleOk_exact l u, trivial, trivial, hlu.le, middle_exact u l, niters_eq hlu, hn, by simpa using hn1⟩

theorem located_exact {fmt : Fmt K} {o : Options K} {q : VMQuery K} {l : K × K} (h : Answered id 12.5 fmt o q l) :
    Located Arith.exact 12.5 fmt o q l := by
  obtain ⟨h1, h2, h3, h4⟩ := h
  refine ⟨h1, h2, h3, fun g hg => ⟨?_, searches_exact ?_⟩⟩
  · unfold limits
    by_cases h : o.squashLimit = 1000000
    · rw [if_neg (by simp [h]), if_pos h]; simp [Arith.exact]
    · rw [if_pos h, if_neg h]
      show ((0 : K), -g + o.elevMin) = (g - g, o.elevMin - g)
      rw [sub_self, neg_add_eq_sub]
  · have := h4 g hg
    unfold limits
    split <;> simp only [Arith.exact, id] <;> linarith

theorem exact_step (k : Nat) (_ : k < 10) : (Arith.exact : Arith K).rd ((k : K) * (-12.5)) = k * (-12.5) := rfl

end

end

/-! ### Reading locations -/

theorem readLoc_eq {nf : NumFmt K} {s : Stream} {t : List Char} {l old : K × K} (hs : s.good = true) (h : LocText nf s.rest l t) :
    readLoc nf s old = (⟨t, t.isEmpty, false⟩, l) := by
  obtain ⟨t1, ⟨w1, a1, b1⟩, ⟨w2, a2, b2⟩⟩ := h
  unfold readLoc readReal
  rw [extract_word hs a1 b1]
  dsimp only
  rw [extract_word (good_of_word a2) a2 b2]

theorem readLoc_good {nf : NumFmt K} {s : Stream} {old : K × K} (h : (readLoc nf s old).1.good = true) :
    s.good = true ∧ LocText nf s.rest (readLoc nf s old).2 (readLoc nf s old).1.rest ∧ (readLoc nf s old).1.rest ≠ [] := by
  unfold readLoc at h ⊢
  rcases h1 : readReal nf s old.1 with ⟨⟨r1, e1, f1⟩, v1⟩
  rcases h2 : readReal nf ⟨r1, e1, f1⟩ old.2 with ⟨⟨r2, e2, f2⟩, v2⟩
  simp only [h1, h2] at h ⊢
  unfold Stream.good at h
  simp only [Bool.and_eq_true, Bool.not_eq_eq_eq_not, Bool.not_true] at h
  obtain ⟨rfl, rfl⟩ := h
  obtain ⟨x1, rfl, y2, q2⟩ := extract_back h2
  obtain ⟨g1, g2, y1, q1⟩ := extract_back h1
  refine ⟨by simp [Stream.good, g1, g2], ⟨r1, q1, q2⟩, ?_⟩
  rintro rfl
  cases y2

theorem locText_shorter {nf : NumFmt K} (hnf : nf.real [] = none) {t t' : List Char} {l : K × K} (h : LocText nf t l t') :
    t'.length < t.length := by
  obtain ⟨t1, h1, h2⟩ := h
  have := QueryApp.realText_shorter hnf h1
  have := QueryApp.realText_shorter hnf h2
  omega

theorem locText_unique {nf : NumFmt K} {t t' t'' : List Char} {l l' : K × K} (h : LocText nf t l t') (h' : LocText nf t l' t'') :
    l = l' ∧ t' = t'' := by
  have h1 := readLoc_eq (old := (0, 0)) (s := ⟨t, false, false⟩) rfl h
  rw [readLoc_eq rfl h'] at h1
  cases h1
  exact ⟨rfl, rfl⟩

/-- What is left to do: the location read last, if the stream is good, and those in the rest of the text. -/
def Pending (nf : NumFmt K) (s : Stream) (loc : K × K) (ls : List (K × K)) : Prop :=
  if s.good = true then s.rest ≠ [] ∧ ∃ ls', ls = loc :: ls' ∧ LocsText nf s.rest ls' else ls = []

theorem pending_readLoc {nf : NumFmt K} {s : Stream} {old : K × K} {ls : List (K × K)} (hs : s.good = true)
    (h : LocsText nf s.rest ls) : Pending nf (readLoc nf s old).1 (readLoc nf s old).2 ls := by
  unfold Pending
  split
  · next hg =>
    obtain ⟨-, h1, h2⟩ := readLoc_good hg
    generalize hr : s.rest = rest at *
    cases h with
    | nil h3 => exact absurd (h3 _ _ h1) h2
    | cons h3 h4 h5 =>
      obtain ⟨rfl, rfl⟩ := locText_unique h1 h3
      exact ⟨h2, _, rfl, h5⟩
  · next hg =>
    generalize hr : s.rest = rest at *
    cases h with
    | nil h3 => rfl
    | cons h3 h4 h5 =>
      subst hr
      rw [readLoc_eq hs h3] at hg
      rename_i t' l ls
      cases t' with
      | nil => exact absurd rfl h4
      | cons a b => exact absurd rfl hg

theorem exists_locsText (nf : NumFmt K) (hnf : nf.real [] = none) (text : List Char) : ∃ ls, LocsText nf text ls := by
  induction hn : text.length using Nat.strong_induction_on generalizing text with
  | _ n ih =>
    by_cases h : ∃ l t', LocText nf text l t' ∧ t' ≠ []
    · obtain ⟨l, t', h1, h2⟩ := h
      obtain ⟨ls, h3⟩ := ih t'.length (by have := locText_shorter hnf h1; omega) t' rfl
      exact ⟨l :: ls, .cons h1 h2 h3⟩
    · exact ⟨[], .nil fun l t' h1 => by by_contra h2; exact h ⟨l, t', h1, h2⟩⟩

theorem locsText_unique {nf : NumFmt K} {text : List Char} {ls ls' : List (K × K)} (h : LocsText nf text ls) (h' : LocsText nf text ls') :
    ls = ls' := by
  induction h generalizing ls' with
  | nil h1 =>
    cases h' with
    | nil h2 => rfl
    | cons h2 h3 h4 => exact absurd (h1 _ _ h2) h3
  | cons h1 h2 h3 ih =>
    cases h' with
    | nil h4 => exact absurd (h4 _ _ h1) h2
    | cons h4 h5 h6 =>
      obtain ⟨rfl, rfl⟩ := locText_unique h1 h4
      rw [ih h6]

/-! ### The loop -/

theorem settle_asking {q : VMQuery K} {w : Option (Status × String)} (hr : VMQuery.Raised w) (hs : q.err.status = .OK) (hm : q.err.message = "") :
    QueryApp.settle (asking q 1 (VMQuery.mark q.err w)) = { q with queryVals := [some 1] } :=
  QueryApp.settle_eq (q := { q with queryVals := [some 1] }) hr hs hm

section
variable [IsStrictOrderedRing K]

/-- How the loop ends: after all locations, or with `exit(1)` at one out of range. -/
inductive Ends (rd : K → K) (width : K) (env : QueryApp.Env K) (o : Options K) (q : VMQuery K) (lines : List (Line K)) (ls : List (K × K)) (out : Outcome (Result K)) : Prop
  | all (new : List (Line K)) (vs : List (Option Nat)) (h : List.Forall₂ (LineFor rd width env.fmt o q) ls new)
      (ho : out = finish env { q with queryVals := vs } (lines ++ new))
  | exit (k : Nat) (l : K × K) (new : List (Line K)) (hk : ls[k]? = some l) (he : OutOfRange rd env.fmt o q l)
      (h : List.Forall₂ (LineFor rd width env.fmt o q) (ls.take k) new) (ho : out = .ok ⟨.exit, lines ++ new⟩)

theorem loop_ends {ar : Arith K} (hst : ∀ k : Nat, k < 10 → ar.rd ((k : K) * (-12.5)) = k * (-12.5)) {width : K} {env : QueryApp.Env K} {o : Options K} (hnf : env.nf.real [] = none) (hw : ∀ n, env.outGood n = true) {q : VMQuery K}
    (hs : q.err.status = .OK) (hm : q.err.message = "") (n : Nat) (s : Stream) (loc : K × K) (vs : List (Option Nat)) (fs : Files)
    (lines : List (Line K)) (ls : List (K × K)) (ha : ∀ l ∈ ls, Located ar width env.fmt o q l) (hp : Pending env.nf s loc ls) (hn : 0 < n)
    (hf : s.good = true → s.rest.length < n) : Ends ar.rd width env o q lines ls (loop ar env o n s loc { q with queryVals := vs } fs lines) := by
  induction n generalizing s loc vs fs lines ls with
  | zero => omega
  | succ n ih =>
    unfold loop
    unfold Pending at hp
    by_cases hg : s.good = true
    · rw [if_pos hg] at hp
      obtain ⟨hne, ls', rfl, hl⟩ := hp
      rw [hg, hw]
      rw [if_pos (show (true && true) = true from rfl)]
      obtain ⟨r, q', fs', h1, ⟨w, hw1, rfl⟩, ⟨rfl, h2⟩ | ⟨d, rfl, h2⟩⟩ := locate_spec hst hs vs fs (ha loc (by simp))
      · rw [h1]
        exact .exit 0 loc [] rfl h2 .nil (by rw [List.append_nil])
      · rw [h1]
        dsimp only
        rw [if_neg (show ¬ (asking q 1 (VMQuery.mark q.err w)).err.status = .ERROR from VMQuery.mark_warned hw1 (by rw [hs]; decide)),
          settle_asking hw1.raised hs hm]
        have hlen := hf hg
        have hpos : 0 < s.rest.length := List.length_pos_iff.2 hne
        rcases ih (readLoc env.nf s loc).1 (readLoc env.nf s loc).2 [some 1] fs' (lines ++ [⟨loc.1, loc.2, d⟩]) ls'
          (fun l hl => ha l (by simp [hl])) (pending_readLoc hg hl) (by omega) (fun hg' => by
            have := locText_shorter hnf (readLoc_good hg').2.1
            omega) with ⟨new, vs', h3, h4⟩ | ⟨k, l, new, h3, h4, h5, h6⟩
        · exact .all (⟨loc.1, loc.2, d⟩ :: new) vs' (.cons h2 h3) (by rw [h4, List.append_assoc]; rfl)
        · exact .exit (k + 1) l (⟨loc.1, loc.2, d⟩ :: new) (by simpa using h3) h4
            (by rw [List.take_succ_cons]; exact .cons h2 h5) (by rw [h6, List.append_assoc]; rfl)
    · rw [if_neg hg] at hp
      subst hp
      have : s.good = false := by simpa using hg
      rw [this]
      exact .all [] vs .nil (by rw [List.append_nil]; rfl)

end

/-! ### Setting up -/

/-- The query object before opening. -/
def prepared (g : Geom K) (o : Options K) : VMQuery K :=
  { VMQuery.init g with
    filename := o.filenameDB
    filenameExt := o.filenameDBExt
    cacheSize := if 0 < o.cacheSize then o.cacheSize else 128
    cacheSizeExt := if 0 < o.cacheSize then o.cacheSize else 128
    squashTopo := decide (o.squashLimit ≠ 1000000)
    squashLimit := if o.squashLimit = 1000000 then -2000 else o.squashLimit }

theorem openDb_prepared (disk : String → Option (Db K)) (g : Geom K) (o : Options K) :
    ∃ q, VMQuery.openDb disk (prepared g o) = .ok q ∧
      ((∃ d x, disk o.filenameDB = some d ∧
          ((o.filenameDBExt = "" ∧ x = none) ∨ (o.filenameDBExt ≠ "" ∧ ∃ d', disk o.filenameDBExt = some d' ∧ x = some d')) ∧
          q = { prepared g o with db := some d, dbExt := x }) ∨
        (q.err.status = .ERROR ∧ (disk o.filenameDB = none ∨ (o.filenameDBExt ≠ "" ∧ disk o.filenameDBExt = none)))) := by
  have hc : (prepared g o).cacheSize > 0 := by unfold prepared; dsimp only; split <;> omega
  have hcx : (prepared g o).cacheSizeExt > 0 := by unfold prepared; dsimp only; split <;> omega
  unfold VMQuery.openDb VMQuery.openMain
  rw [show (prepared g o).db = none from rfl]
  dsimp only
  rw [if_pos hc, show (prepared g o).filename = o.filenameDB from rfl]
  cases hd : disk o.filenameDB with
  | none =>
    dsimp only
    rw [Outcome.bind_ok]
    unfold VMQuery.openExt
    dsimp only
    rw [show (prepared g o).filenameExt = o.filenameDBExt from rfl, show (prepared g o).dbExt = none from rfl]
    dsimp only
    by_cases hx : o.filenameDBExt = ""
    · rw [if_neg (by simp [hx])]
      exact ⟨_, rfl, Or.inr ⟨rfl, Or.inl rfl⟩⟩
    · rw [if_pos hx, if_pos hcx]
      cases disk o.filenameDBExt with
      | none => exact ⟨_, rfl, Or.inr ⟨rfl, Or.inl rfl⟩⟩
      | some d => exact ⟨_, rfl, Or.inr ⟨rfl, Or.inl rfl⟩⟩
  | some d =>
    dsimp only
    rw [Outcome.bind_ok]
    unfold VMQuery.openExt
    dsimp only
    rw [show (prepared g o).filenameExt = o.filenameDBExt from rfl, show (prepared g o).dbExt = none from rfl]
    dsimp only
    by_cases hx : o.filenameDBExt = ""
    · rw [if_neg (by simp [hx])]
      exact ⟨_, rfl, Or.inl ⟨d, none, rfl, Or.inl ⟨hx, rfl⟩, rfl⟩⟩
    · rw [if_pos hx, if_pos hcx]
      cases hdx : disk o.filenameDBExt with
      | none => exact ⟨_, rfl, Or.inr ⟨rfl, Or.inr ⟨hx, rfl⟩⟩⟩
      | some d' => exact ⟨_, rfl, Or.inl ⟨d, some d', rfl, Or.inr ⟨hx, d', rfl, rfl⟩, rfl⟩⟩

/-- The set up: as asked, or with an error. -/
theorem setup_cases (env : QueryApp.Env K) (o : Options K) :
    ∃ q, setup env o (VMQuery.init env.geom) = .ok q ∧
      (Configured env o q ∨ ((∀ q', ¬ Configured env o q') ∧ q.err.status = .ERROR)) := by
  have hp : setup env o (VMQuery.init env.geom) = (VMQuery.openDb env.disk (prepared env.geom o) >>= fun q =>
      if q.err.status ≠ .OK then .ok q else .ok (VMQuery.queryType q 0)) := by
    unfold setup prepared VMQuery.setFilename VMQuery.setFilenameExt VMQuery.setCacheSize VMQuery.setCacheSizeExt VMQuery.squash VMQuery.init
    by_cases h1 : 0 < o.cacheSize <;> by_cases h3 : o.squashLimit = 1000000 <;> simp [h1, h3]
  obtain ⟨q, hq, ⟨d, x, hd, hx, rfl⟩ | ⟨he, hn⟩⟩ := openDb_prepared env.disk env.geom o
  · rw [hp, hq, Outcome.bind_ok]
    exact ⟨_, rfl, Or.inl ⟨d, x, hd, hx, rfl⟩⟩
  · rw [hp, hq, Outcome.bind_ok, if_pos (by rw [he]; decide)]
    refine ⟨q, rfl, Or.inr ⟨?_, he⟩⟩
    rintro q ⟨d, x, hd, hx, -⟩
    rcases hn with hn | ⟨h1, hn⟩
    · rw [hd] at hn; cases hn
    · rcases hx with ⟨h2, -⟩ | ⟨-, d', h2, -⟩
      · exact h1 h2
      · rw [hn] at h2; cases h2

theorem configured_unique {env : QueryApp.Env K} {o : Options K} {q q' : VMQuery K} (h : Configured env o q) (h' : Configured env o q') : q = q' := by
  obtain ⟨d, x, h1, h2, rfl⟩ := h
  obtain ⟨d', x', h1', h2', rfl⟩ := h'
  have hd : d = d' := by rw [h1] at h1'; cases h1'; rfl
  have hx : x = x' := by
    rcases h2 with ⟨h2, rfl⟩ | ⟨h2, y, h5, rfl⟩ <;> rcases h2' with ⟨h2', rfl⟩ | ⟨h2', y', h5', rfl⟩
    · rfl
    · exact absurd h2 h2'
    · exact absurd h2' h2
    · rw [h5] at h5'; cases h5'; rfl
  subst hd hx
  rfl

/-- Leaving after everything was written. -/
theorem finish_eq {env : QueryApp.Env K} {o : Options K} {q : VMQuery K} (hq : Configured env o q) (vs : List (Option Nat)) (lines : List (Line K)) :
    ∃ c, finish env { q with queryVals := vs } lines = .ok ⟨.ret c, lines⟩ ∧ (c = 0 ∨ c = 1) ∧ (c = 0 ↔ ¬ CloseFails env o) := by
  obtain ⟨d, x, h1, h2, rfl⟩ := hq
  unfold finish leave VMQuery.destroy VMQuery.close VMQuery.closeErr CloseFails VMQuery.init ErrorHandler.init
  rcases h2 with ⟨h2, rfl⟩ | ⟨h2, y, h5, rfl⟩ <;> cases hc : env.closeFail <;> cases hx : env.closeFailExt <;>
    simp [h2, ErrorHandler.error]

section
variable [IsStrictOrderedRing K]

/-- The run of the program. -/
theorem run_spec {ar : Arith K} (hst : ∀ k : Nat, k < 10 → ar.rd ((k : K) * (-12.5)) = k * (-12.5)) {width : K} {env : QueryApp.Env K} {o : Options K} {q : VMQuery K} (hnf : env.nf.real [] = none) (hw : ∀ n, env.outGood n = true)
    (hq : Configured env o q) {text : List Char} (hi : env.input o.filenameIn = some text) (ho : env.canWrite o.filenameOut = true)
    {ls : List (K × K)} (hl : LocsText env.nf text ls) (ha : ∀ l ∈ ls, Located ar width env.fmt o q l) :
    (∃ c lines, run ar env o = .ok ⟨.ret c, lines⟩ ∧ List.Forall₂ (LineFor ar.rd width env.fmt o q) ls lines ∧ (c = 0 ∨ c = 1) ∧
      (c = 0 ↔ ¬ CloseFails env o)) ∨
    ∃ k l lines, run ar env o = .ok ⟨.exit, lines⟩ ∧ ls[k]? = some l ∧ OutOfRange ar.rd env.fmt o q l ∧
      List.Forall₂ (LineFor ar.rd width env.fmt o q) (ls.take k) lines := by
  obtain ⟨q', hq', hc | ⟨hn, -⟩⟩ := setup_cases env o
  · obtain rfl := configured_unique hc hq
    have hs : q'.err.status = .OK ∧ q'.err.message = "" := by
      obtain ⟨d, x, -, -, rfl⟩ := hq
      exact ⟨rfl, rfl⟩
    have hends := loop_ends hst hnf hw hs.1 hs.2 (text.length + 1) (readLoc env.nf (Stream.ofText text) (0, 0)).1
      (readLoc env.nf (Stream.ofText text) (0, 0)).2 q'.queryVals (fun _ => "") [] ls ha (pending_readLoc rfl hl) (by omega) (fun hg => by
        have := locText_shorter hnf (readLoc_good hg).2.1
        have h0 : (Stream.ofText text).rest = text := rfl
        rw [h0] at this
        omega)
    have hrun : run ar env o = loop ar env o (text.length + 1) (readLoc env.nf (Stream.ofText text) (0, 0)).1
        (readLoc env.nf (Stream.ofText text) (0, 0)).2 { q' with queryVals := q'.queryVals } (fun _ => "") [] := by
      unfold run
      rw [hq', Outcome.bind_ok, hi]
      dsimp only
      rw [ho]
      rfl
    rw [hrun]
    rcases hends with ⟨new, vs, h1, h2⟩ | ⟨k, l, new, h1, h2, h3, h4⟩
    · left
      obtain ⟨c, h5, h6, h7⟩ := finish_eq hq vs ([] ++ new)
      exact ⟨c, new, h2.trans h5, h1, h6, h7⟩
    · right
      exact ⟨k, l, new, h4, h1, h2, h3⟩
  · exact absurd hq (hn q)

end

end IsoApp
end CenCalVM
