/-
Lemmas about the parameter file of the grader.
-/
import Verif.Lemmas.Create
import Verif.Lemmas.GradeRun
import Verif.Lemmas.QueryApp
import Verif.Spec.GradeApp

set_option linter.unusedSectionVars false

namespace CenCalVM
namespace VsGrader

/-! ### Streams -/

theorem skip_ok {d : Char} {n : Nat} {t t' : List Char} : Stream.skip d n t = (t', false) ↔
    ∃ gap, d ∉ gap ∧ ((gap.length < n ∧ t = gap ++ d :: t') ∨ (gap.length = n ∧ t = gap ++ t')) := by
  induction n generalizing t with
  | zero =>
    unfold Stream.skip
    simp only [Prod.mk.injEq, and_true, Nat.not_lt_zero, false_and, false_or, List.length_eq_zero_iff]
    constructor
    · rintro rfl; exact ⟨[], by simp, rfl, rfl⟩
    · rintro ⟨g, -, rfl, h⟩; exact h
  | succ n ih =>
    cases t with
    | nil =>
      unfold Stream.skip
      constructor
      · intro h; cases h
      · rintro ⟨g, -, ⟨-, h⟩ | ⟨h1, h2⟩⟩
        · simp at h
        · simp only [List.nil_eq, List.append_eq_nil_iff] at h2
          rw [h2.1] at h1; cases h1
    | cons c t =>
      unfold Stream.skip
      split
      · rename_i hc
        subst hc
        simp only [Prod.mk.injEq, and_true]
        constructor
        · rintro rfl; exact ⟨[], by simp, Or.inl ⟨Nat.succ_pos _, rfl⟩⟩
        · rintro ⟨g, hg, ⟨-, h⟩ | ⟨h1, h⟩⟩
          · cases g with
            | nil => simpa using h
            | cons a g => simp at h hg; exact absurd h.1 hg.1
          · cases g with
            | nil => cases h1
            | cons a g => simp at h hg; exact absurd h.1 hg.1
      · rename_i hc
        rw [ih]
        constructor
        · rintro ⟨g, hg, ⟨h1, h2⟩ | ⟨h1, h2⟩⟩
          · exact ⟨c :: g, by simp [hg, Ne.symm hc], Or.inl ⟨by simpa using h1, by simp [h2]⟩⟩
          · exact ⟨c :: g, by simp [hg, Ne.symm hc], Or.inr ⟨by simpa using h1, by simp [h2]⟩⟩
        · rintro ⟨g, hg, ⟨h1, h2⟩ | ⟨h1, h2⟩⟩
          · cases g with
            | nil => simp at h2; exact absurd h2.1 hc
            | cons a g =>
              simp only [List.cons_append, List.cons.injEq] at h2
              exact ⟨g, fun h => hg (by simp [h]), Or.inl ⟨by simpa using h1, h2.2⟩⟩
          · cases g with
            | nil => cases h1
            | cons a g =>
              simp only [List.cons_append, List.cons.injEq] at h2
              exact ⟨g, fun h => hg (by simp [h]), Or.inr ⟨by simpa using h1, h2.2⟩⟩

theorem skip_end {d : Char} {n : Nat} {t t' : List Char} (h : Stream.skip d n t = (t', true)) : t' = [] := by
  induction n generalizing t with
  | zero => cases h
  | succ n ih =>
    cases t with
    | nil => cases h; rfl
    | cons c t =>
      unfold Stream.skip at h
      split at h
      · cases h
      · exact ih h

theorem after_ne {d : Char} {t t' : List Char} (h : After d t t') : t ≠ [] := by
  obtain ⟨g, -, ⟨-, h⟩ | ⟨h1, h⟩⟩ := h
  · rw [h]; simp
  · rw [h]; intro h0; rw [(List.append_eq_nil_iff.1 h0).1] at h1; cases h1

theorem after_length {d : Char} {t t' : List Char} (h : After d t t') : t'.length ≤ t.length := by
  obtain ⟨g, -, ⟨-, h⟩ | ⟨h1, h⟩⟩ := h <;> rw [h] <;> simp <;> omega

theorem wordAt_ne {t w t' : List Char} (h : WordAt t w t') : t ≠ [] := by
  obtain ⟨sp, h1, -, h3, -⟩ := h
  rw [h1]; simp [h3]

theorem wordAt_length {t w t' : List Char} (h : WordAt t w t') : t'.length < t.length := by
  obtain ⟨sp, h1, -, h3, -⟩ := h
  have := List.length_pos_iff.2 h3
  rw [h1]; simp; omega

/-- A stream that was not read past its end. -/
def Fresh (s : Stream) : Prop := s.fail = false ∧ (s.eof = true → s.rest = [])

theorem fresh_rest (t : List Char) : Fresh ⟨t, t.isEmpty, false⟩ := ⟨rfl, fun h => by simpa using h⟩
theorem fresh_text (t : List Char) : Fresh ⟨t, false, false⟩ := ⟨rfl, fun h => by cases h⟩

theorem good_of_ne {s : Stream} (hs : Fresh s) (h : s.rest ≠ []) : s.good = true := by
  unfold Stream.good
  rw [hs.1]
  cases he : s.eof with
  | false => rfl
  | true => exact absurd (hs.2 he) h

theorem ignore_after {s : Stream} {d : Char} {t : List Char} (hs : Fresh s) (h : After d s.rest t) :
    s.ignore 128 d = ⟨t, false, false⟩ := by
  unfold Stream.ignore
  rw [good_of_ne hs (after_ne h), skip_ok.2 h]
  rfl

theorem ignore_good {s : Stream} {d : Char} (h : (s.ignore 128 d).good = true) :
    s.good = true ∧ ∃ t, After d s.rest t ∧ s.ignore 128 d = ⟨t, false, false⟩ := by
  unfold Stream.ignore at h ⊢
  cases hg : s.good with
  | false => rw [hg] at h; simp [Stream.good] at h
  | true =>
    rw [hg] at h
    refine ⟨rfl, ?_⟩
    simp only [Bool.not_true, Bool.false_eq_true, if_false] at h ⊢
    rcases hk : Stream.skip d 128 s.rest with ⟨t, _ | _⟩
    · exact ⟨t, skip_ok.1 hk, rfl⟩
    · rw [hk] at h; cases h

theorem ignore_fail {s : Stream} {d : Char} (h : s.good = true) : (s.ignore 128 d).fail = false := by
  unfold Stream.ignore
  rw [h]; rfl

theorem span_word {w t : List Char} (hw : ∀ c ∈ w, Stream.isSpace c = false) (ht : ∀ c ∈ t.head?, Stream.isSpace c = true) :
    List.span (fun ch => !Stream.isSpace ch) (w ++ t) = (w, t) := by
  rw [List.span_eq_takeWhile_dropWhile]
  induction w with
  | nil =>
    cases t with
    | nil => rfl
    | cons c t => have := ht c (by simp); simp [this]
  | cons a w ih =>
    have := ih (fun c hc => hw c (by simp [hc]))
    simp only [Prod.mk.injEq] at this ⊢
    simp [hw a (by simp), this.1, this.2]

theorem word_at {s : Stream} {w t : List Char} (hs : Fresh s) (h : WordAt s.rest w t) (old : String) :
    s.word old = (⟨t, t.isEmpty, false⟩, String.ofList w) := by
  have hg := good_of_ne hs (wordAt_ne h)
  obtain ⟨sp, h1, h2, h3, h4, h5⟩ := h
  unfold Stream.word Stream.extract
  cases w with
  | nil => exact absurd rfl h3
  | cons a w =>
    rw [hg, h1, dropWhile_append_space h2 (by intro c hc; simp at hc; subst hc; exact h4 _ (by simp))]
    simp only [Bool.not_true, Bool.false_eq_true, if_false, List.cons_append]
    have := span_word h4 h5
    simp only [List.cons_append] at this
    rw [this]

theorem word_ok {s : Stream} {old : String} (h : (s.word old).1.fail = false) :
    s.good = true ∧ ∃ w t, WordAt s.rest w t ∧ s.word old = (⟨t, t.isEmpty, false⟩, String.ofList w) := by
  cases hg : s.good with
  | false =>
    unfold Stream.word at h
    rw [Stream.not_good_extract hg] at h
    cases h
  | true =>
    refine ⟨rfl, ?_⟩
    have hd : s.rest = s.rest.takeWhile Stream.isSpace ++ s.rest.dropWhile Stream.isSpace :=
      (List.takeWhile_append_dropWhile).symm
    have hh := head_dropWhile s.rest
    cases hb : s.rest.dropWhile Stream.isSpace with
    | nil =>
      unfold Stream.word Stream.extract at h
      rw [hg, hb] at h
      cases h
    | cons c cs =>
      rw [hb] at hd hh
      have hsp := List.span_eq_takeWhile_dropWhile (p := fun ch => !Stream.isSpace ch) (l := c :: cs)
      refine ⟨(c :: cs).takeWhile fun ch => !Stream.isSpace ch, (c :: cs).dropWhile fun ch => !Stream.isSpace ch, ⟨_, ?_, takeWhile_space s.rest, ?_, ?_, ?_⟩, ?_⟩
      · rw [List.takeWhile_append_dropWhile]; exact hd
      · have := hh c (by simp)
        simp [this]
      · intro x hx
        simpa using List.mem_takeWhile_imp hx
      · intro x hx
        have := List.head?_dropWhile_not (fun ch => !Stream.isSpace ch) (c :: cs)
        rw [Option.mem_def.1 hx] at this
        simpa using this
      · unfold Stream.word Stream.extract
        rw [hg, hb]
        simp only [Bool.not_true, Bool.false_eq_true, if_false, hsp]

/-! ### Settings -/

section
variable {K : Type} [Field K] [LinearOrder K]

theorem sameName_of {w : List Char} {name : String} (hn : name.toList.map Char.toLower = name.toList) :
    VMQuery.sameName (String.ofList w) name = decide (Lower w name) := by
  rw [Bool.eq_iff_iff, QueryApp.sameName_lower hn, decide_eq_true_iff, String.toList_ofList]
  rfl

theorem sameName_of' {w : List Char} {name : String} (hn : name.toList.map Char.toLower = name.toList) :
    VMQuery.sameName name (String.ofList w) = decide (Lower w name) := by
  rw [← sameName_of hn]
  unfold VMQuery.sameName
  rw [Bool.eq_iff_iff, beq_iff_eq, beq_iff_eq]
  exact eq_comm

theorem realKey_eq (w : List Char) : realKey (String.ofList w) = (realNames.find? fun nk => decide (Lower w nk.1)).map (·.2) := by
  unfold realKey realNames
  rw [sameName_of (by decide +kernel), sameName_of (by decide +kernel), sameName_of (by decide +kernel), sameName_of (by decide +kernel),
    sameName_of (by decide +kernel), sameName_of (by decide +kernel), sameName_of (by decide +kernel), sameName_of (by decide +kernel),
    sameName_of (by decide +kernel)]
  simp only [List.find?_cons, List.find?_nil]
  split_ifs <;> simp_all

theorem lower_unique {w : List Char} {a b : String} (h1 : Lower w a) (h2 : Lower w b) : a = b :=
  String.toList_inj.1 (h1.symm.trans h2)

theorem realKey_some {w : List Char} {k : RealKey} : realKey (String.ofList w) = some k ↔
    ∃ name, (name, k) ∈ realNames ∧ Lower w name := by
  rw [realKey_eq, Option.map_eq_some_iff]
  constructor
  · rintro ⟨⟨name, k'⟩, h1, rfl⟩
    exact ⟨name, List.mem_of_find?_eq_some h1, by simpa using List.find?_some h1⟩
  · rintro ⟨name, h1, h2⟩
    cases hf : realNames.find? (fun nk => decide (Lower w nk.1)) with
    | none => have := List.find?_eq_none.1 hf _ h1; simp [h2] at this
    | some x =>
      have hx := List.find?_some hf
      have hm := List.mem_of_find?_eq_some hf
      simp only [decide_eq_true_iff] at hx
      refine ⟨x, rfl, ?_⟩
      have hn := lower_unique hx h2
      have : ∀ x ∈ realNames, ∀ y ∈ realNames, x.1 = y.1 → x.2 = y.2 := by decide +kernel
      exact this x hm _ h1 hn

theorem realKey_none {w : List Char} {name : String} (h : Lower w name) (hn : ∀ x ∈ realNames, x.1 ≠ name) :
    realKey (String.ofList w) = none := by
  rw [realKey_eq, Option.map_eq_none_iff, List.find?_eq_none]
  intro x hx
  simp only [decide_eq_true_iff]
  exact fun hl => hn x hx (lower_unique hl h)

/-- The effect of a setting. -/
def Setting.apply (p : Params K) : Setting K → Params K
  | .real k v => { p with real := Function.update p.real k v }
  | .cacheSize v => if v > 0 then { p with cacheSize := v } else p
  | .queryRes v => if v ≥ 0 then { p with queryRes := v } else p
  | .queryType v => { p with queryType := v }

theorem not_lower {w : List Char} {a b : String} (h : Lower w a) (hab : a ≠ b) : decide (Lower w b) = false := by
  rw [decide_eq_false_iff_not]
  exact fun hb => hab (lower_unique h hb)

theorem readSetting_value {nf : NumFmt K} {s : Stream} {w t' : List Char} {x : Setting K} (hs : Fresh s)
    (h : ValueText nf w s.rest x t') (p : Params K) :
    readSetting nf s (String.ofList w) p = .ok (⟨t', t'.isEmpty, false⟩, x.apply p) := by
  unfold readSetting
  cases h with
  | real hk hw ht hv =>
    obtain ⟨w', b1, b2⟩ := hv
    simp only [realKey_some.2 ⟨_, hk, hw⟩, ignore_after hs ht]
    rw [extract_word rfl b1 b2]
    rfl
  | cacheSize hw ht hv =>
    obtain ⟨w', b1, b2⟩ := hv
    simp only [realKey_none hw (by decide +kernel), ignore_after hs ht, sameName_of (w := w) (name := "cache-size") (by decide +kernel), hw, decide_true, if_true]
    rw [extract_word rfl b1 (congrArg (Option.map some) b2)]
    rfl
  | queryRes hw ht hv =>
    obtain ⟨w', b1, b2⟩ := hv
    simp only [realKey_none hw (by decide +kernel), ignore_after hs ht, sameName_of (w := w) (name := "cache-size") (by decide +kernel),
      sameName_of (w := w) (name := "query-resolution") (by decide +kernel), not_lower hw (b := "cache-size") (by decide), hw, decide_true, if_true,
      Bool.false_eq_true, if_false]
    rw [extract_word rfl b1 (congrArg (Option.map some) b2)]
    rfl
  | queryType hw ht hv hn hw' =>
    rename_i name t1 w' n
    simp only [realKey_none hw (by decide +kernel), ignore_after hs ht, sameName_of (w := w) (name := "cache-size") (by decide +kernel),
      sameName_of (w := w) (name := "query-resolution") (by decide +kernel), not_lower hw (b := "cache-size") (by decide),
      not_lower hw (b := "query-resolution") (by decide), sameName_of (w := w) (name := "query-type") (by decide +kernel), hw, decide_true, if_true,
      Bool.false_eq_true, if_false]
    rw [word_at (fresh_text _) hv]
    simp only [sameName_of' (w := w') (name := "maxres") (by decide +kernel), sameName_of' (w := w') (name := "fixedres") (by decide +kernel),
      sameName_of' (w := w') (name := "waveres") (by decide +kernel)]
    simp only [typeNames, List.mem_cons, Prod.mk.injEq, List.not_mem_nil, or_false] at hn
    rcases hn with ⟨rfl, rfl⟩ | ⟨rfl, rfl⟩ | ⟨rfl, rfl⟩
    · simp only [hw', decide_true, if_true]; rfl
    · simp only [hw', not_lower hw' (b := "maxres") (by decide), decide_true, if_true, Bool.false_eq_true, if_false]; rfl
    · simp only [hw', not_lower hw' (b := "maxres") (by decide), not_lower hw' (b := "fixedres") (by decide), decide_true, if_true,
        Bool.false_eq_true, if_false]; rfl

/-- What was read for a setting was there. -/
theorem readSetting_back {nf : NumFmt K} {s : Stream} {w : List Char} {p p' : Params K} {s' : Stream}
    (h : readSetting nf s (String.ofList w) p = .ok (s', p')) (hf : s'.fail = false) :
    ∃ x t', ValueText nf w s.rest x t' ∧ s' = ⟨t', t'.isEmpty, false⟩ ∧ p' = x.apply p := by
  unfold readSetting at h
  rw [sameName_of (by decide +kernel), sameName_of (by decide +kernel), sameName_of (by decide +kernel)] at h
  cases hk : realKey (String.ofList w) with
  | some k =>
    rw [hk] at h
    simp only [Outcome.ok.injEq, Prod.mk.injEq] at h
    obtain ⟨h1, h2⟩ := h
    obtain ⟨name, n1, n2⟩ := realKey_some.1 hk
    rw [← h1] at hf
    obtain ⟨hg, w', t', v, b1, b2, b3⟩ := CenCalVM.extract_ok hf
    obtain ⟨-, t1, c1, c2⟩ := ignore_good hg
    rw [c2] at b1
    rw [b3] at h1 h2
    exact ⟨.real k v, t', .real n1 n2 c1 ⟨w', b1, b2⟩, h1.symm, h2.symm⟩
  | none =>
    rw [hk] at h
    simp only at h
    split at h
    · rename_i hw
      rw [decide_eq_true_iff] at hw
      split at h
      · cases h
      rename_i v hv
      simp only [Outcome.ok.injEq, Prod.mk.injEq] at h
      obtain ⟨h1, h2⟩ := h
      rw [← h1] at hf
      obtain ⟨hg, w', t', v', b1, b2, b3⟩ := CenCalVM.extract_ok hf
      obtain ⟨-, t1, c1, c2⟩ := ignore_good hg
      rw [c2] at b1
      rw [b3] at h1 hv
      simp only at hv
      subst hv
      obtain ⟨v', b2, b4⟩ := Option.map_eq_some_iff.1 b2
      cases b4
      exact ⟨.cacheSize v, t', .cacheSize hw c1 ⟨w', b1, b2⟩, h1.symm, h2.symm⟩
    split at h
    · rename_i hw
      rw [decide_eq_true_iff] at hw
      split at h
      · cases h
      rename_i v hv
      simp only [Outcome.ok.injEq, Prod.mk.injEq] at h
      obtain ⟨h1, h2⟩ := h
      rw [← h1] at hf
      obtain ⟨hg, w', t', v', b1, b2, b3⟩ := CenCalVM.extract_ok hf
      obtain ⟨-, t1, c1, c2⟩ := ignore_good hg
      rw [c2] at b1
      rw [b3] at h1 hv
      simp only at hv
      subst hv
      obtain ⟨v', b2, b4⟩ := Option.map_eq_some_iff.1 b2
      cases b4
      exact ⟨.queryRes v, t', .queryRes hw c1 ⟨w', b1, b2⟩, h1.symm, h2.symm⟩
    split at h
    · rename_i hw
      rw [decide_eq_true_iff] at hw
      have key : ∀ (name : String) (n : Int), (name, n) ∈ typeNames → VMQuery.sameName name ((s.ignore 128 '=').word "").2 = true →
          s' = ((s.ignore 128 '=').word "").1 → p' = { p with queryType := n } →
          ∃ x t', ValueText nf w s.rest x t' ∧ s' = ⟨t', t'.isEmpty, false⟩ ∧ p' = x.apply p := by
        intro name n hn hsn h1 h2
        rw [h1] at hf
        obtain ⟨hg, w', t', b1, b3⟩ := word_ok hf
        obtain ⟨-, t1, c1, c2⟩ := ignore_good hg
        rw [c2] at b1
        rw [b3] at h1 hsn
        have hlow : ∀ x ∈ typeNames, x.1.toList.map Char.toLower = x.1.toList := by decide +kernel
        rw [sameName_of' (hlow _ hn), decide_eq_true_iff] at hsn
        exact ⟨.queryType n, t', .queryType hw c1 b1 hn hsn, h1, h2⟩
      split at h
      · rename_i hm
        cases h
        exact key _ 0 (by simp [typeNames]) hm rfl rfl
      split at h
      · rename_i hm
        cases h
        exact key _ 1 (by simp [typeNames]) hm rfl rfl
      split at h
      · rename_i hm
        cases h
        exact key _ 2 (by simp [typeNames]) hm rfl rfl
      cases h
    cases h

/-- Nothing is read if there is no value. -/
theorem extract_none {α : Type} {bad : α} {scan : List Char → List Char × List Char} {conv : List Char → Option α} {s : Stream} :
    (s.extract scan (fun w => (conv w).map some) (some bad) none).2 = none ↔
      (s.good = true → ∀ c ∈ s.rest, Stream.isSpace c = true) := by
  unfold Stream.extract
  cases hg : s.good with
  | false => simp
  | true =>
    simp only [Bool.not_true, Bool.false_eq_true, if_false, forall_const]
    cases hb : s.rest.dropWhile Stream.isSpace with
    | nil => simpa using List.dropWhile_eq_nil_iff.1 hb
    | cons c cs =>
      simp only
      have hne : ¬ ∀ c ∈ s.rest, Stream.isSpace c = true := fun h => by
        rw [List.dropWhile_eq_nil_iff.2 h] at hb; cases hb
      cases hv : conv (scan (c :: cs)).1 <;> simp [hne]

theorem noValue_iff {s : Stream} (hs : s.good = true) :
    ((s.ignore 128 '=').good = true → ∀ c ∈ (s.ignore 128 '=').rest, Stream.isSpace c = true) ↔ NoValue s.rest := by
  have hfr : Fresh s := by
    unfold Stream.good at hs
    simp only [Bool.and_eq_true, Bool.not_eq_eq_eq_not, Bool.not_true] at hs
    exact ⟨hs.2, fun h => by rw [hs.1] at h; cases h⟩
  constructor
  · intro h t1 ht
    rw [ignore_after hfr ht] at h
    exact h rfl
  · intro h hg
    obtain ⟨-, t, h1, h2⟩ := ignore_good hg
    rw [h2]
    exact h t h1

theorem readSetting_ub {nf : NumFmt K} {s : Stream} (hs : s.good = true) {w : List Char} {p : Params K} :
    readSetting nf s (String.ofList w) p = .ub ↔ (Lower w "cache-size" ∨ Lower w "query-resolution") ∧ NoValue s.rest := by
  unfold readSetting
  rw [sameName_of (by decide +kernel), sameName_of (by decide +kernel), sameName_of (by decide +kernel)]
  rw [← noValue_iff hs]
  cases hk : realKey (String.ofList w) with
  | some k =>
    simp only [reduceCtorEq, false_iff]
    rintro ⟨h | h, -⟩
    · rw [realKey_none h (by decide +kernel)] at hk; cases hk
    · rw [realKey_none h (by decide +kernel)] at hk; cases hk
  | none =>
    simp only
    by_cases h1 : Lower w "cache-size"
    · simp only [h1, decide_true, if_true, true_or, true_and]
      rw [← extract_none (scan := nf.scan) (conv := nf.int) (bad := 0)]
      split
      · rename_i h; simp [h]
      · rename_i h; simp [h]
    · by_cases h2 : Lower w "query-resolution"
      · simp only [h1, h2, decide_true, decide_false, Bool.false_eq_true, if_false, if_true, or_true, true_and]
        rw [← extract_none (scan := nf.scan) (conv := nf.real) (bad := 0)]
        split
        · rename_i h; simp [h]
        · rename_i h; simp [h]
      · simp only [h1, h2, decide_false, Bool.false_eq_true, if_false, or_self, false_and, iff_false]
        split_ifs <;> simp

/-! ### The loop -/

theorem word_bad {s : Stream} {old : String} (h : s.good = false) : (s.word old).1.good = false := by
  unfold Stream.word
  rw [Stream.not_good_extract h]
  simp [Stream.good]

theorem word_failed {s : Stream} {old : String} (h : s.fail = true) : (s.word old).1.good = false := by
  unfold Stream.word
  rw [Stream.not_good_extract (by simp [Stream.good, h])]
  simp [Stream.good]

theorem value_length {nf : NumFmt K} {w t t' : List Char} {x : Setting K} (h : ValueText nf w t x t') : t'.length ≤ t.length := by
  have hword : ∀ {t w t' : List Char}, Word nf t w t' → t'.length ≤ t.length := by
    rintro t w t' ⟨sp, body, rfl, -, -, -, h5⟩
    have := congrArg List.length (nf.scan_eq body)
    rw [h5] at this
    simp at this ⊢
    omega
  cases h with
  | real hk hw ht hv => obtain ⟨w', b1, -⟩ := hv; exact (hword b1).trans (after_length ht)
  | cacheSize hw ht hv => obtain ⟨w', b1, -⟩ := hv; exact (hword b1).trans (after_length ht)
  | queryRes hw ht hv => obtain ⟨w', b1, -⟩ := hv; exact (hword b1).trans (after_length ht)
  | queryType hw ht hv hn hw' => exact (wordAt_length hv).le.trans (after_length ht)

theorem lower_brace {w : List Char} {nf : NumFmt K} {t t' : List Char} {x : Setting K} (h : ValueText nf w t x t') : w ≠ ['}'] := by
  rintro rfl
  have hr : ∀ x ∈ realNames, ¬ Lower ['}'] x.1 := by decide +kernel
  cases h with
  | real hk hw ht hv => exact hr _ hk hw
  | cacheSize hw ht hv => exact absurd hw (by decide +kernel)
  | queryRes hw ht hv => exact absurd hw (by decide +kernel)
  | queryType hw ht hv hn hw' => exact absurd hw (by decide +kernel)

theorem value_ne {nf : NumFmt K} {w t t' : List Char} {x : Setting K} (h : ValueText nf w t x t') : t ≠ [] := by
  cases h with
  | real hk hw ht hv => exact after_ne ht
  | cacheSize hw ht hv => exact after_ne ht
  | queryRes hw ht hv => exact after_ne ht
  | queryType hw ht hv hn hw' => exact after_ne ht

theorem ofList_ne {w : List Char} (h : w ≠ ['}']) : (String.ofList w != "}") = true := by
  rw [bne_iff_ne]
  intro he
  exact h (by simpa using congrArg String.toList he)

/-- Settings that are there are read. -/
theorem readSettings_text {nf : NumFmt K} {t t' : List Char} {xs : List (Setting K)} (h : SettingsText nf t xs t') :
    ∀ {s : Stream} {n : Nat} {old : String} {p : Params K}, Fresh s → s.rest = t → s.rest.length < n →
    ∃ s' m old', Fresh s' ∧ s'.rest = t' ∧ t'.length < m ∧
      readSettings nf n (s.word old).1 (s.word old).2 p = readSettings nf m (s'.word old').1 (s'.word old').2 (xs.foldl Setting.apply p) := by
  induction h with
  | nil t => intro s n old p h1 h2 h3; exact ⟨s, n, old, h1, h2, by rw [← h2]; exact h3, rfl⟩
  | cons hw hv hs ih =>
    rename_i t w t1 t2 t3 x xs
    intro s n old p h1 h2 h3
    subst h2
    have l1 := wordAt_length hw
    have l2 := value_length hv
    rw [word_at h1 hw]
    obtain ⟨n, rfl⟩ : ∃ k, n = k + 1 := ⟨n - 1, by omega⟩
    have hg : Stream.good ⟨t1, t1.isEmpty, false⟩ = true := good_of_ne (fresh_rest _) (value_ne hv)
    obtain ⟨s', m, old', a1, a2, a3, a4⟩ := ih (s := ⟨t2, t2.isEmpty, false⟩) (n := n) (old := String.ofList w) (p := x.apply p)
      (fresh_rest _) rfl (by simp only; omega)
    refine ⟨s', m, old', a1, a2, a3, ?_⟩
    rw [List.foldl_cons, ← a4]
    conv_lhs => unfold readSettings
    rw [hg, ofList_ne (lower_brace hv)]
    simp only [Bool.and_self, if_true]
    rw [readSetting_value (fresh_rest _) hv]

theorem readSettings_close {nf : NumFmt K} {s : Stream} {n : Nat} {old : String} {p : Params K} {t : List Char} (hs : Fresh s)
    (h : WordAt s.rest ['}'] t) (hn : s.rest.length < n) :
    readSettings nf n (s.word old).1 (s.word old).2 p = .ok (⟨t, t.isEmpty, false⟩, p) := by
  obtain ⟨n, rfl⟩ : ∃ k, n = k + 1 := ⟨n - 1, by omega⟩
  rw [word_at hs h]
  unfold readSettings
  simp

/-- The loop ends well only at a closing brace after settings. -/
theorem readSettings_back {nf : NumFmt K} {n : Nat} {s s' : Stream} {old : String} {p p' : Params K}
    (h : readSettings nf n (s.word old).1 (s.word old).2 p = .ok (s', p')) (hg : s'.good = true) :
    ∃ xs t t', SettingsText nf s.rest xs t ∧ WordAt t ['}'] t' ∧ t' ≠ [] ∧ p' = xs.foldl Setting.apply p := by
  induction n generalizing s old p with
  | zero => cases h
  | succ n ih =>
    unfold readSettings at h
    split at h
    · rename_i hc
      rw [Bool.and_eq_true] at hc
      obtain ⟨hc1, hc2⟩ := hc
      have hf : (s.word old).1.fail = false := by
        unfold Stream.good at hc1; simp only [Bool.and_eq_true, Bool.not_eq_eq_eq_not, Bool.not_true] at hc1; exact hc1.2
      obtain ⟨-, w, t, b1, b2⟩ := word_ok hf
      rw [b2] at h
      simp only at h
      split at h
      · cases h
      · cases h
      · rename_i r hr
        cases hrf : r.1.fail with
        | true =>
          exfalso
          cases n with
          | zero => cases h
          | succ n =>
            unfold readSettings at h
            rw [word_failed hrf] at h
            simp only [Bool.false_and, Bool.false_eq_true, if_false, Outcome.ok.injEq, Prod.mk.injEq] at h
            have := word_failed (old := String.ofList w) hrf
            rw [h.1, hg] at this
            cases this
        | false =>
          obtain ⟨x, t', c1, c2, c3⟩ := readSetting_back (s' := r.1) (p' := r.2) hr hrf
          obtain ⟨xs, t3, t4, d1, d2, d3, d4⟩ := ih h
          rw [c2] at d1
          refine ⟨x :: xs, t3, t4, .cons b1 c1 d1, d2, d3, ?_⟩
          rw [d4, c3]; rfl
    · rename_i hc
      cases h
      rw [hg, Bool.true_and] at hc
      have hf : (s.word old).1.fail = false := by
        unfold Stream.good at hg; simp only [Bool.and_eq_true, Bool.not_eq_eq_eq_not, Bool.not_true] at hg; exact hg.2
      obtain ⟨-, w, t, b1, b2⟩ := word_ok hf
      rw [b2] at hc hg
      have hw : w = ['}'] := by
        by_contra hne
        exact hc (ofList_ne hne)
      subst hw
      refine ⟨[], _, t, .nil _, b1, ?_, rfl⟩
      rintro rfl
      cases hg

theorem readSettings_ub {nf : NumFmt K} {n : Nat} {s : Stream} {old : String} {p : Params K} (hn : s.rest.length < n)
    (h : readSettings nf n (s.word old).1 (s.word old).2 p = .ub) :
    ∃ xs t w t', SettingsText nf s.rest xs t ∧ WordAt t w t' ∧ t' ≠ [] ∧ (Lower w "cache-size" ∨ Lower w "query-resolution") ∧
      NoValue t' := by
  induction n generalizing s old p with
  | zero => omega
  | succ n ih =>
    unfold readSettings at h
    split at h
    · rename_i hc
      rw [Bool.and_eq_true] at hc
      obtain ⟨hc1, hc2⟩ := hc
      have hf : (s.word old).1.fail = false := by
        unfold Stream.good at hc1; simp only [Bool.and_eq_true, Bool.not_eq_eq_eq_not, Bool.not_true] at hc1; exact hc1.2
      obtain ⟨-, w, t, b1, b2⟩ := word_ok hf
      rw [b2] at h hc1
      simp only at h hc1
      have l1 := wordAt_length b1
      split at h
      · cases h
      · rename_i hub
        rw [readSetting_ub hc1] at hub
        refine ⟨[], _, w, t, .nil _, b1, ?_, hub⟩
        rintro rfl
        cases hc1
      · rename_i r hr
        cases hrf : r.1.fail with
        | true =>
          exfalso
          obtain ⟨n, rfl⟩ : ∃ k, n = k + 1 := ⟨n - 1, by omega⟩
          unfold readSettings at h
          rw [word_failed hrf] at h
          simp at h
        | false =>
          obtain ⟨x, t', c1, c2, c3⟩ := readSetting_back (s' := r.1) (p' := r.2) hr hrf
          have l2 := value_length c1
          simp only at l2
          obtain ⟨xs, t3, w3, t4, d1, d2, d3⟩ := ih (by rw [c2]; simp only; omega) h
          rw [c2] at d1
          exact ⟨x :: xs, t3, w3, t4, .cons b1 c1 d1, d2, d3⟩
    · cases h

theorem readSettings_noValue {nf : NumFmt K} {n : Nat} {s : Stream} {old : String} {p : Params K} (hs : Fresh s) (hn : s.rest.length < n)
    {w t : List Char} (h : WordAt s.rest w t) (ht : t ≠ []) (hw : Lower w "cache-size" ∨ Lower w "query-resolution")
    (hv : NoValue t) : readSettings nf n (s.word old).1 (s.word old).2 p = .ub := by
  obtain ⟨n, rfl⟩ : ∃ k, n = k + 1 := ⟨n - 1, by omega⟩
  rw [word_at hs h]
  have hg : Stream.good ⟨t, t.isEmpty, false⟩ = true := good_of_ne (fresh_rest _) ht
  have hb : w ≠ ['}'] := by
    rintro rfl
    revert hw
    decide +kernel
  unfold readSettings
  rw [hg, ofList_ne hb]
  simp only [Bool.and_self, if_true]
  rw [(readSetting_ub hg).2 ⟨hw, hv⟩]

/-! ### The effect of settings -/

theorem foldl_real (k : RealKey) (xs : List (Setting K)) (p : Params K) :
    (xs.foldl Setting.apply p).real k = (realValues k xs).getLast?.getD (p.real k) := by
  induction xs generalizing p with
  | nil => rfl
  | cons x xs ih =>
    rw [List.foldl_cons, ih]
    unfold realValues
    rw [List.filterMap_cons]
    cases x with
    | real k' v =>
      by_cases hk : k' = k
      · subst hk
        simp only [if_true, List.getLast?_cons, Option.getD_some, Setting.apply, Function.update_self]
      · simp only [hk, if_false, Setting.apply, Function.update_of_ne (Ne.symm hk)]
    | cacheSize v => simp only [Setting.apply]; split <;> rfl
    | queryRes v => simp only [Setting.apply]; split <;> rfl
    | queryType v => rfl

theorem foldl_cache (xs : List (Setting K)) (p : Params K) :
    (xs.foldl Setting.apply p).cacheSize = (cacheValues xs).getLast?.getD p.cacheSize := by
  induction xs generalizing p with
  | nil => rfl
  | cons x xs ih =>
    rw [List.foldl_cons, ih]
    unfold cacheValues
    rw [List.filterMap_cons]
    cases x with
    | cacheSize v =>
      simp only [Setting.apply, gt_iff_lt]
      by_cases hv : 0 < v
      · simp only [hv, if_true, List.getLast?_cons, Option.getD_some]
      · simp only [hv, if_false]
    | real k v => rfl
    | queryRes v => simp only [Setting.apply]; split <;> rfl
    | queryType v => rfl

theorem foldl_res (xs : List (Setting K)) (p : Params K) :
    (xs.foldl Setting.apply p).queryRes = (resValues xs).getLast?.getD p.queryRes := by
  induction xs generalizing p with
  | nil => rfl
  | cons x xs ih =>
    rw [List.foldl_cons, ih]
    unfold resValues
    rw [List.filterMap_cons]
    cases x with
    | queryRes v =>
      simp only [Setting.apply, ge_iff_le]
      by_cases hv : 0 ≤ v
      · simp only [hv, if_true, List.getLast?_cons, Option.getD_some]
      · simp only [hv, if_false]
    | real k v => rfl
    | cacheSize v => simp only [Setting.apply]; split <;> rfl
    | queryType v => rfl

theorem foldl_type (xs : List (Setting K)) (p : Params K) :
    (xs.foldl Setting.apply p).queryType = (typeValues xs).getLast?.getD p.queryType := by
  induction xs generalizing p with
  | nil => rfl
  | cons x xs ih =>
    rw [List.foldl_cons, ih]
    unfold typeValues
    rw [List.filterMap_cons]
    cases x with
    | queryType v => simp only [Setting.apply, List.getLast?_cons, Option.getD_some]
    | real k v => rfl
    | cacheSize v => simp only [Setting.apply]; split <;> rfl
    | queryRes v => simp only [Setting.apply]; split <;> rfl

theorem setBy_iff {xs : List (Setting K)} {old p : Params K} :
    SetBy xs old p ↔ p = xs.foldl Setting.apply { old with real := fun _ => 0 } := by
  constructor
  · rintro ⟨h1, h2, h3, h4⟩
    have e1 : p.real = (xs.foldl Setting.apply { old with real := fun _ => 0 }).real := by
      funext k; rw [foldl_real]; exact h1 k
    have e2 := h2.trans (foldl_cache xs { old with real := fun _ => 0 }).symm
    have e3 := h3.trans (foldl_res xs { old with real := fun _ => 0 }).symm
    have e4 := h4.trans (foldl_type xs { old with real := fun _ => 0 }).symm
    cases p
    simp only at e1 e2 e3 e4
    rw [e1, e2, e3, e4]
  · rintro rfl
    exact ⟨fun k => foldl_real k xs _, foldl_cache xs _, foldl_res xs _, foldl_type xs _⟩

theorem incomplete_iff {p : Params K} : ¬ p.incomplete ↔ Complete p := by
  unfold Params.incomplete Complete
  simp only [not_or, not_and_or, not_not, not_le, ← ne_eq]
  constructor
  · rintro ⟨a1, a2, a3, a4, a5, a6, a7, a8, a9, a10⟩
    exact ⟨fun k => by cases k <;> assumption, a10⟩
  · rintro ⟨h1, h2⟩
    exact ⟨h1 _, h1 _, h1 _, h1 _, h1 _, h1 _, h1 _, h1 _, h1 _, h2⟩

end

/-! ### Files that are touched -/

/-- What holds for the state a method leaves, also if it throws. -/
def Leaves {σ α : Type} (P : σ → Prop) : Run σ α → Prop
  | .ok s _ => P s
  | .exc _ s => P s
  | .ub => True

theorem Leaves.bind {σ α β : Type} {P : σ → Prop} {r : Run σ α} {f : σ → α → Run σ β} (h : Leaves P r)
    (hf : ∀ s a, P s → Leaves P (f s a)) : Leaves P (r.bind f) := by
  cases r with
  | ok s a => exact hf s a h
  | exc m s => exact h
  | ub => trivial

theorem Leaves.loop {σ : Type} {P : σ → Prop} {body : Nat → σ → Run σ Unit} (hb : ∀ i s, P s → Leaves P (body i s)) (n : Nat) {s : σ}
    (h : P s) : Leaves P (loop body n s) := by
  induction n with
  | zero => exact h
  | succ n ih => exact ih.bind fun s _ hs => hb n s hs

section
variable {K : Type} [Field K] [LinearOrder K]

theorem openDB_holds (env : EtreeEnv) (disk : EtreeDisk K) (name d st : String) :
    Leaves (fun c => c.disk = disk ∧ ∀ x ∈ c.pDB, x.1 = name) (VMCreator.openDB env (VMCreator.init disk) name d st) := by
  unfold VMCreator.openDB
  split_ifs
  all_goals exact ⟨rfl, fun x hx => by simp at hx; try (subst hx; rfl)⟩

theorem insert_holds (env : EtreeEnv) {c : VMCreator.Creator K} {disk : EtreeDisk K} {name : String}
    (hc : c.disk = disk ∧ ∀ x ∈ c.pDB, x.1 = name) (p : Payload K) (lon lat elev res : K) (g : Option (Geom K)) :
    Leaves (fun c => c.disk = disk ∧ ∀ x ∈ c.pDB, x.1 = name) (VMCreator.insert env c p lon lat elev res g) := by
  unfold VMCreator.insert
  split
  · rename_i g' nm f hp
    split
    · exact hc
    · trivial
    · split
      · trivial
      · split
        · exact hc
        · trivial
        · unfold VMCreator.insertEntry
          split
          · exact hc
          · split
            · exact hc
            · refine ⟨hc.1, fun x hx => ?_⟩
              simp at hx
              subst hx
              exact hc.2 (nm, f) (by rw [hp]; rfl)
  · trivial

theorem closeDB_frame {c : VMCreator.Creator K} {disk : EtreeDisk K} {name : String}
    (hc : c.disk = disk ∧ ∀ x ∈ c.pDB, x.1 = name) : ∀ n, n ≠ name → (VMCreator.closeDB c).disk n = disk n := by
  intro n hn
  unfold VMCreator.closeDB
  split
  · rw [hc.1]
  · rename_i nm f hp
    have := hc.2 (nm, f) (by rw [hp]; rfl)
    simp only at this
    subst this
    rw [← hc.1]
    simp [EtreeDisk.set, hn]

theorem packDB_holds (env : EtreeEnv) (disk : EtreeDisk K) (packed unpacked : String) :
    Leaves (fun d => ∀ n, n ≠ packed → d n = disk n) (VMCreator.packDB env disk packed unpacked) := by
  have hset : ∀ f, ∀ n, n ≠ packed → disk.set packed f n = disk n := fun f n hn => by simp [EtreeDisk.set, hn]
  unfold VMCreator.packDB
  split
  · exact fun _ _ => rfl
  · split_ifs
    · exact fun _ _ => rfl
    · trivial
    all_goals try exact hset _
    all_goals
      simp only
      split
      · trivial
      · exact hset _
      · exact hset _

variable [FloorRing K]

theorem extractPoint_holds (fmt : Fmt K) (env : EtreeEnv) (s : Grid K) (l w h : Nat) {x : Work K} {disk : EtreeDisk K} {name : String}
    (hx : x.c.disk = disk ∧ ∀ y ∈ x.c.pDB, y.1 = name) :
    Leaves (fun x : Work K => x.c.disk = disk ∧ ∀ y ∈ x.c.pDB, y.1 = name) (extractPoint fmt env s l w h x) := by
  unfold extractPoint
  split
  · exact hx
  · trivial
  · rename_i r _
    split
    · exact hx
    · trivial
    · split
      · exact hx
      · trivial
      · rename_i p _
        have := insert_holds env hx p r.1 r.2.1 r.2.2 s.resHoriz (some s.geom)
        split
        · rename_i he; rw [he] at this; exact this
        · trivial
        · rename_i he; rw [he] at this; exact this

theorem extract_holds (fmt : Fmt K) (env : EtreeEnv) (s : Grid K) (nm : Names K) (gq : Geom K) (fs : Files) (disk : EtreeDisk K) :
    Leaves (fun d => ∀ n, n ≠ nm.fileTmp → d n = disk n) (extract fmt env s nm gq fs disk) := by
  unfold extract
  split
  · exact fun _ _ => rfl
  · trivial
  · rename_i q _
    have ho := openDB_holds env disk nm.fileTmp nm.description nm.stamp
    split
    · rename_i he
      rw [he] at ho
      exact closeDB_frame ho
    · trivial
    · rename_i c u hc
      rw [hc] at ho
      split
      · trivial
      · have hl : ∀ q, Leaves (fun x : Work K => x.c.disk = disk ∧ ∀ y ∈ x.c.pDB, y.1 = nm.fileTmp)
            (extractLoops fmt env s ⟨q, fs, c⟩) := by
          intro q
          unfold extractLoops
          split
          · exact Leaves.loop (fun i x hx => Leaves.loop (fun j x hx => Leaves.loop (fun k x hx => extractPoint_holds fmt env s i j k hx) _ hx) _ hx) _ ho
          · trivial
        split
        · rename_i he
          have := hl q
          rw [he] at this
          exact closeDB_frame this
        · trivial
        · rename_i he
          have := hl q
          rw [he] at this
          exact closeDB_frame this

/-- A run touches only the temporary and the output file. -/
theorem run_holds (fmt : Fmt K) (env : EtreeEnv) (s : Grid K) (nm : Names K) (gq : Geom K) (junk : Payload K) (fs : Files)
    (disk : EtreeDisk K) : Leaves (fun d => ∀ n, n ≠ nm.fileTmp → n ≠ nm.fileOut → d n = disk n) (run fmt env s nm gq junk fs disk) := by
  unfold run
  have h1 : Leaves (fun d => ∀ n, n ≠ nm.fileTmp → n ≠ nm.fileOut → d n = disk n) (extract fmt env s nm gq fs disk) := by
    have := extract_holds fmt env s nm gq fs disk
    cases he : extract fmt env s nm gq fs disk with
    | ub => trivial
    | exc m d => rw [he] at this; exact fun n h1 _ => this n h1
    | ok d u => rw [he] at this; exact fun n h1 _ => this n h1
  refine h1.bind fun d _ hd => ?_
  have h2 : Leaves (fun d => ∀ n, n ≠ nm.fileTmp → n ≠ nm.fileOut → d n = disk n) (VMCreator.packDB env d nm.fileOut nm.fileTmp) := by
    have := packDB_holds env d nm.fileOut nm.fileTmp
    cases he : VMCreator.packDB env d nm.fileOut nm.fileTmp with
    | ub => trivial
    | exc m d => rw [he] at this; exact fun n h1 h2 => (this n h2).trans (hd n h1 h2)
    | ok d u => rw [he] at this; exact fun n h1 h2 => (this n h2).trans (hd n h1 h2)
  refine h2.bind fun d _ hd => ?_
  have hset : ∀ f, ∀ n, n ≠ nm.fileTmp → n ≠ nm.fileOut → d.set nm.fileOut f n = disk n := fun f n h1 h2 => by
    rw [← hd n h1 h2]; simp [EtreeDisk.set, h2]
  split
  · exact hd
  · split
    · exact hset _
    · trivial
    · exact hset _

end

end VsGrader
end CenCalVM
