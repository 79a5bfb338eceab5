/-
Numbers as text, and reading them back.
-/
import Verif.Spec.Print
import Verif.Lemmas.Float
import Mathlib.Tactic.Linarith
import Mathlib.Tactic.Ring
import Mathlib.Tactic.Positivity
import Mathlib.Tactic.FieldSimp
import Mathlib.Tactic.NormNum

namespace CenCalVM
namespace Print

/-! ### Digits -/

theorem digitChar_facts : ∀ d : Fin 10, (digitChar d).isDigit = true ∧ (digitChar d).toNat - '0'.toNat = d.val ∧
    isBlank (digitChar d) = false ∧ digitChar d ≠ '.' ∧ digitChar d ≠ '-' := by decide

theorem digitChar_lt {d : Nat} (h : d < 10) : (digitChar d).isDigit = true ∧ (digitChar d).toNat - '0'.toNat = d ∧
    isBlank (digitChar d) = false ∧ digitChar d ≠ '.' ∧ digitChar d ≠ '-' := digitChar_facts ⟨d, h⟩

/-- Characters of numbers without sign and point. -/
def Digits (t : List Char) : Prop := ∀ c ∈ t, c.isDigit = true ∧ isBlank c = false ∧ c ≠ '.' ∧ c ≠ '-'

theorem Digits.append {a b : List Char} (ha : Digits a) (hb : Digits b) : Digits (a ++ b) := by
  intro c hc
  rcases List.mem_append.1 hc with h | h
  · exact ha c h
  · exact hb c h

theorem digits_one {d : Nat} (h : d < 10) : Digits [digitChar d] := by
  intro c hc
  obtain rfl := List.mem_singleton.1 hc
  obtain ⟨h1, -, h3, h4, h5⟩ := digitChar_lt h
  exact ⟨h1, h3, h4, h5⟩

/-- Value of a row of digits from the left. -/
def horner (t : List Char) : Nat := t.foldl (fun v c => 10 * v + (c.toNat - '0'.toNat)) 0

theorem horner_snoc (t : List Char) (c : Char) : horner (t ++ [c]) = 10 * horner t + (c.toNat - '0'.toNat) := by
  unfold horner
  rw [List.foldl_append]
  rfl

theorem horner_digit (t : List Char) {d : Nat} (h : d < 10) : horner (t ++ [digitChar d]) = 10 * horner t + d := by
  rw [horner_snoc, (digitChar_lt h).2.1]

theorem natValue_digits {t : List Char} (h : Digits t) (hne : t ≠ []) : natValue t = some (horner t) := by
  unfold natValue
  rw [if_pos ⟨hne, fun c hc => (h c hc).1⟩]
  rfl

theorem digitsUpTo_facts : ∀ f n, n < f → Digits (digitsUpTo f n) ∧ digitsUpTo f n ≠ [] ∧ horner (digitsUpTo f n) = n ∧
    ∀ k, 0 < k → ((digitsUpTo f n).length ≤ k ↔ n < 10 ^ k) := by
  intro f
  induction f with
  | zero => intro n h; omega
  | succ f ih =>
    intro n h
    unfold digitsUpTo
    by_cases h10 : n < 10
    · rw [if_pos h10]
      refine ⟨digits_one h10, by simp, ?_, ?_⟩
      · have := horner_digit [] h10
        simpa [horner] using this
      · intro k hk
        constructor
        · intro _
          calc n < 10 := h10
            _ = 10 ^ 1 := by norm_num
            _ ≤ 10 ^ k := Nat.pow_le_pow_right (by norm_num) hk
        · intro _; rw [List.length_singleton]; exact hk
    · rw [if_neg h10]
      obtain ⟨h1, h2, h3, h4⟩ := ih (n / 10) (by omega)
      have hm : n % 10 < 10 := Nat.mod_lt _ (by norm_num)
      refine ⟨h1.append (digits_one hm), by simp, ?_, ?_⟩
      · rw [horner_digit _ hm, h3]; omega
      · intro k hk
        rw [List.length_append, List.length_singleton]
        obtain ⟨k, rfl⟩ : ∃ j, k = j + 1 := ⟨k - 1, by omega⟩
        rcases Nat.eq_zero_or_pos k with rfl | hk'
        · have : 0 < (digitsUpTo f (n / 10)).length := List.length_pos_of_ne_nil h2
          constructor
          · intro h; omega
          · intro h; omega
        · have := h4 k hk'
          rw [pow_succ]
          constructor
          · intro h
            have h5 := this.1 (by omega)
            omega
          · intro h
            have h5 := this.2 (by omega)
            omega

theorem digits_facts (n : Nat) : Digits (digits n) ∧ digits n ≠ [] ∧ horner (digits n) = n ∧
    ∀ k, 0 < k → ((digits n).length ≤ k ↔ n < 10 ^ k) := digitsUpTo_facts _ _ (by omega)

theorem lastDigits_facts : ∀ p n, Digits (lastDigits p n) ∧ (lastDigits p n).length = p ∧ horner (lastDigits p n) = n % 10 ^ p := by
  intro p
  induction p with
  | zero => intro n; refine ⟨?_, rfl, ?_⟩; · intro c hc; cases hc
            · simp [horner, lastDigits, Nat.mod_one]
  | succ p ih =>
    intro n
    obtain ⟨h1, h2, h3⟩ := ih (n / 10)
    have hm : n % 10 < 10 := Nat.mod_lt _ (by norm_num)
    unfold lastDigits
    refine ⟨h1.append (digits_one hm), by simp [h2], ?_⟩
    rw [horner_digit _ hm, h3, pow_succ, mul_comm (10 ^ p) 10, Nat.mod_mul]
    omega

/-! ### Integers -/

theorem intText_blank (n : Int) : ∀ c ∈ intText n, isBlank c = false := by
  intro c hc
  unfold intText at hc
  rcases List.mem_append.1 hc with h | h
  · split at h
    · obtain rfl := List.mem_singleton.1 h; decide
    · cases h
  · exact ((digits_facts _).1 c h).2.1

theorem intText_ne (n : Int) : intText n ≠ [] := by
  unfold intText
  intro h
  exact (digits_facts n.natAbs).2.1 (List.append_eq_nil_iff.1 h).2

theorem intText_length (n : Int) (k : Nat) (hk : 0 < k) :
    ((intText n).length ≤ k + 1 ↔ -10 ^ k < n ∧ n < 10 ^ (k + 1)) := by
  obtain ⟨-, h2, -, h4⟩ := digits_facts n.natAbs
  have hp : (0 : Int) < 10 ^ k := by positivity
  have e1 : (((10 : Nat) ^ k : Nat) : Int) = 10 ^ k := by push_cast; rfl
  have e2 : (((10 : Nat) ^ (k + 1) : Nat) : Int) = 10 ^ (k + 1) := by push_cast; rfl
  have a := h4 k hk
  have b := h4 (k + 1) (by omega)
  unfold intText
  rw [List.length_append]
  by_cases hn : n < 0
  · rw [if_pos hn, List.length_singleton]
    have e3 : (10 : Int) ^ (k + 1) > 0 := by positivity
    constructor
    · intro h
      have := a.1 (by omega)
      zify at this
      rw [e1.symm] at *
      constructor
      · have : |n| = -n := abs_of_neg hn
        omega
      · omega
    · rintro ⟨h, -⟩
      have := a.2 (by zify; rw [abs_of_neg hn]; omega)
      omega
  · rw [if_neg hn, List.length_nil]
    constructor
    · intro h
      have := b.1 (by omega)
      zify at this
      rw [abs_of_nonneg (by omega)] at this
      exact ⟨by omega, this⟩
    · rintro ⟨-, h⟩
      have := b.2 (by zify; rw [abs_of_nonneg (by omega)]; exact h)
      omega

variable {K : Type} [Field K] [LinearOrder K] [IsStrictOrderedRing K]

omit [LinearOrder K] [IsStrictOrderedRing K] in
theorem span_digits {a : List Char} (h : Digits a) : a.span (· ≠ '.') = (a, []) := by
  rw [List.span_eq_takeWhile_dropWhile]
  have : ∀ c ∈ a, decide (c ≠ '.') = true := fun c hc => decide_eq_true (h c hc).2.2.1
  have h1 := List.takeWhile_append_of_pos (l₂ := []) this
  have h2 := List.dropWhile_append_of_pos (l₂ := []) this
  simp only [List.append_nil, List.takeWhile_nil, List.dropWhile_nil] at h1 h2
  rw [h1, h2]

theorem span_point {a b : List Char} (h : Digits a) : (a ++ '.' :: b).span (· ≠ '.') = (a, '.' :: b) := by
  rw [List.span_eq_takeWhile_dropWhile]
  have : ∀ c ∈ a, decide (c ≠ '.') = true := fun c hc => decide_eq_true (h c hc).2.2.1
  rw [List.takeWhile_append_of_pos this, List.dropWhile_append_of_pos this]
  simp

omit [LinearOrder K] [IsStrictOrderedRing K] in
theorem numberValue_digits {t : List Char} (hd : ∀ c ∈ t.head?, c ≠ '-') : numberValue (K := K) t = unsignedValue t := by
  unfold numberValue
  split
  · rename_i u
    exact absurd rfl (hd '-' rfl)
  · rfl

theorem head_digits {t u : List Char} (h : Digits t) (hne : t ≠ []) : ∀ c ∈ (t ++ u).head?, c ≠ '-' := by
  cases t with
  | nil => exact absurd rfl hne
  | cons a t =>
    intro c hc
    obtain rfl : a = c := by simpa using hc
    exact (h a (by simp)).2.2.2

omit [LinearOrder K] [IsStrictOrderedRing K] in
theorem numberValue_intText (n : Int) : numberValue (K := K) (intText n) = some (n : K) := by
  obtain ⟨h1, h2, h3, -⟩ := digits_facts n.natAbs
  have hu : unsignedValue (K := K) (digits n.natAbs) = some ((n.natAbs : Nat) : K) := by
    unfold unsignedValue
    rw [span_digits h1]
    simp only [natValue_digits h1 h2, h3, Option.map_some]
  unfold intText
  by_cases hn : n < 0
  · rw [if_pos hn]
    show (unsignedValue (digits n.natAbs)).map (fun x : K => -x) = _
    rw [hu, Option.map_some]
    congr 1
    have : (n : Int) = -(n.natAbs : Int) := by omega
    rw [this]
    simp
  · rw [if_neg hn, List.nil_append, numberValue_digits (by simpa using head_digits (u := []) h1 h2), hu]
    congr 1
    have : (n : Int) = (n.natAbs : Int) := by omega
    conv_rhs => rw [this]
    simp

/-! ### Numbers with decimals -/

omit [IsStrictOrderedRing K] in
theorem fixedText_blank (ri : IntRound K) (p : Nat) (x : K) : ∀ c ∈ fixedText ri p x, isBlank c = false := by
  intro c hc
  unfold fixedText at hc
  dsimp only at hc
  rcases List.mem_append.1 hc with h | h
  · split at h
    · obtain rfl := List.mem_singleton.1 h; decide
    · cases h
  · rcases List.mem_append.1 h with h | h
    · exact ((digits_facts _).1 c h).2.1
    · split at h
      · cases h
      · rcases List.mem_cons.1 h with rfl | h
        · decide
        · exact ((lastDigits_facts _ _).1 c h).2.1

omit [IsStrictOrderedRing K] in
theorem fixedText_ne (ri : IntRound K) (p : Nat) (x : K) : fixedText ri p x ≠ [] := by
  unfold fixedText
  intro h
  exact (digits_facts _).2.1 (List.append_eq_nil_iff.1 (List.append_eq_nil_iff.1 h).2).1

/-- The value of the text is that of the rounded number. -/
theorem numberValue_fixedText (ri : IntRound K) {p : Nat} (hp : 0 < p) (x : K) :
    numberValue (fixedText ri p x) =
      some ((if x < 0 then -1 else 1) * (((ri.toInt (|x| * 10 ^ p)).toNat : K) / 10 ^ p)) := by
  unfold fixedText
  dsimp only
  generalize (ri.toInt (|x| * 10 ^ p)).toNat = m
  obtain ⟨h1, h2, h3, -⟩ := digits_facts (m / 10 ^ p)
  obtain ⟨g1, g2, g3⟩ := lastDigits_facts p (m % 10 ^ p)
  have gne : lastDigits p (m % 10 ^ p) ≠ [] := by
    intro h
    rw [h] at g2
    simp at g2
    omega
  rw [if_neg (by omega : ¬ p = 0)]
  have hu : unsignedValue (K := K) (digits (m / 10 ^ p) ++ '.' :: lastDigits p (m % 10 ^ p)) = some ((m : K) / 10 ^ p) := by
    unfold unsignedValue
    rw [span_point h1]
    simp only [natValue_digits h1 h2, natValue_digits g1 gne, h3, g2, g3, Option.bind_some, Option.map_some, Nat.mod_mod]
    congr 1
    have hq : (10 : K) ^ p ≠ 0 := by positivity
    have : (m : K) = 10 ^ p * ((m / 10 ^ p : Nat) : K) + ((m % 10 ^ p : Nat) : K) := by
      exact_mod_cast (Nat.div_add_mod m (10 ^ p)).symm
    conv_rhs => rw [this]
    field_simp
  by_cases hx : x < 0
  · rw [if_pos hx, if_pos hx]
    show (unsignedValue (digits (m / 10 ^ p) ++ '.' :: lastDigits p (m % 10 ^ p))).map (fun x : K => -x) = _
    rw [hu]
    simp
  · rw [if_neg hx, if_neg hx, List.nil_append, numberValue_digits (head_digits h1 h2), hu]
    simp

omit [IsStrictOrderedRing K] in
theorem toInt_nonneg (ri : IntRound K) {y : K} (h : 0 ≤ y) : 0 ≤ ri.toInt y := by
  have := ri.mono ((0 : ℤ) : K) y (by simpa using h)
  rwa [ri.fix] at this

/-- Reading back gives the number up to half a unit of the last decimal. -/
theorem reads_fixedText {ri : IntRound K} (hn : Nearest ri) {p : Nat} (hp : 0 < p) {ε : K} (he : ε = 1 / 2 / 10 ^ p) (x : K) :
    Reads ε x (fixedText ri p x) := by
  refine ⟨_, numberValue_fixedText ri hp x, ?_⟩
  have hq : (0 : K) < 10 ^ p := by positivity
  have h0 : 0 ≤ ri.toInt (|x| * 10 ^ p) := toInt_nonneg ri (by positivity)
  have e : (((ri.toInt (|x| * 10 ^ p)).toNat : Nat) : K) = (ri.toInt (|x| * 10 ^ p) : K) := by
    exact_mod_cast congrArg (Int.cast (R := K)) (Int.toNat_of_nonneg h0)
  rw [e]
  have h1 := hn (|x| * 10 ^ p)
  generalize (ri.toInt (|x| * 10 ^ p) : K) = m at h1
  have h2 : |m / 10 ^ p - abs x| ≤ ε := by
    have : m / 10 ^ p - abs x = (m - |x| * 10 ^ p) / 10 ^ p := by field_simp
    rw [this, abs_div, abs_of_pos hq, he]
    exact div_le_div_of_nonneg_right h1 hq.le
  by_cases hx : x < 0
  · rw [if_pos hx]
    rw [abs_of_neg hx] at h2
    rw [show -1 * (m / 10 ^ p) - x = -(m / 10 ^ p - -x) by ring, abs_neg]
    exact h2
  · rw [if_neg hx, one_mul]
    rwa [abs_of_nonneg (not_lt.1 hx)] at h2

theorem reads_intText (n : Int) : Reads (0 : K) (n : K) (intText n) := ⟨n, numberValue_intText n, by simp⟩

/-- How long the text of a number is: at most `k + 1 + 1 + p` characters for numbers that have `k` digits before the point if
negative, `k + 1` otherwise; and longer for larger numbers. -/
theorem fixedText_fits (ri : IntRound K) {p k : Nat} (hp : 0 < p) (hk : 0 < k) {x : K}
    (h : Within (-(10 ^ k - 1 / 10 ^ p)) (10 ^ (k + 1) - 1 / 10 ^ p) x) : (fixedText ri p x).length ≤ k + 2 + p := by
  have hq : (0 : K) < 10 ^ p := by positivity
  have hm : ∀ j : Nat, |x| ≤ 10 ^ j - 1 / 10 ^ p → (ri.toInt (|x| * 10 ^ p)).toNat / 10 ^ p < 10 ^ j := by
    intro j hj
    have h1 : |x| * 10 ^ p ≤ ((10 ^ j * 10 ^ p - 1 : ℤ) : K) := by
      push_cast
      calc |x| * 10 ^ p ≤ (10 ^ j - 1 / 10 ^ p) * 10 ^ p := mul_le_mul_of_nonneg_right hj hq.le
        _ = _ := by field_simp
    have h2 := ri.mono _ _ h1
    rw [ri.fix] at h2
    rw [Nat.div_lt_iff_lt_mul (by positivity)]
    have h3 : ((10 ^ j * 10 ^ p : Nat) : Int) = 10 ^ j * 10 ^ p := by push_cast; rfl
    have h4 : (0 : Int) < 10 ^ j * 10 ^ p := by positivity
    omega
  unfold fixedText
  dsimp only
  rw [if_neg (by omega : ¬ p = 0)]
  simp only [List.length_append, List.length_cons, (lastDigits_facts _ _).2.1]
  by_cases hx : x < 0
  · rw [if_pos hx, List.length_singleton]
    have := ((digits_facts _).2.2.2 k hk).2 (hm k (by rw [abs_of_neg hx]; linarith [h.1]))
    omega
  · rw [if_neg hx, List.length_nil]
    have := ((digits_facts _).2.2.2 (k + 1) (by omega)).2 (hm (k + 1) (by rw [abs_of_nonneg (not_lt.1 hx)]; exact h.2))
    omega

theorem fixedText_overflows (ri : IntRound K) {p k : Nat} (hp : 0 < p) (hk : 0 < k) {x : K}
    (h : x ≤ -10 ^ k ∨ 10 ^ (k + 1) ≤ x) : k + 2 + p < (fixedText ri p x).length := by
  have hm : ∀ j : Nat, (10 : K) ^ j ≤ |x| → 10 ^ j ≤ (ri.toInt (|x| * 10 ^ p)).toNat / 10 ^ p := by
    intro j hj
    have h1 : ((10 ^ j * 10 ^ p : ℤ) : K) ≤ |x| * 10 ^ p := by
      push_cast
      exact mul_le_mul_of_nonneg_right hj (by positivity)
    have h2 := ri.mono _ _ h1
    rw [ri.fix] at h2
    rw [Nat.le_div_iff_mul_le (by positivity)]
    have h3 : ((10 ^ j * 10 ^ p : Nat) : Int) = 10 ^ j * 10 ^ p := by push_cast; rfl
    omega
  have hk0 : (0 : K) < 10 ^ k := by positivity
  have hk1 : (0 : K) < 10 ^ (k + 1) := by positivity
  unfold fixedText
  dsimp only
  rw [if_neg (by omega : ¬ p = 0)]
  simp only [List.length_append, List.length_cons, (lastDigits_facts _ _).2.1]
  rcases h with h | h
  · have hx : x < 0 := by linarith
    rw [if_pos hx, List.length_singleton]
    have h1 := hm k (by rw [abs_of_neg hx]; linarith)
    have h2 := ((digits_facts ((ri.toInt (|x| * 10 ^ p)).toNat / 10 ^ p)).2.2.2 k hk).1
    omega
  · have hx : ¬ x < 0 := not_lt.2 (by linarith)
    rw [if_neg hx, List.length_nil]
    have h1 := hm (k + 1) (by rw [abs_of_nonneg (not_lt.1 hx)]; exact h)
    have h2 := ((digits_facts ((ri.toInt (|x| * 10 ^ p)).toNat / 10 ^ p)).2.2.2 (k + 1) (by omega)).1
    omega

/-! ### Words -/

/-- A text without white space. -/
def Solid (w : List Char) : Prop := w ≠ [] ∧ ∀ c ∈ w, isBlank c = false

omit [IsStrictOrderedRing K] in
theorem solid_fixedText (ri : IntRound K) (p : Nat) (x : K) : Solid (fixedText ri p x) := ⟨fixedText_ne ri p x, fixedText_blank ri p x⟩

theorem solid_intText (n : Int) : Solid (intText n) := ⟨intText_ne n, intText_blank n⟩

theorem words_nil : words [] = [] := rfl

theorem words_blank {c : Char} (h : isBlank c = true) (t : List Char) : words (c :: t) = words t := by
  unfold words
  rw [List.splitOnP_cons_eq_if_modifyHead, if_pos h]
  simp

theorem words_blanks (n : Nat) (t : List Char) : words (List.replicate n ' ' ++ t) = words t := by
  induction n with
  | zero => rfl
  | succ n ih => rw [List.replicate_succ, List.cons_append, words_blank rfl, ih]

theorem splitOnP_solid {w : List Char} (h : ∀ c ∈ w, isBlank c = false) (t : List Char) :
    (w ++ t).splitOnP isBlank = (t.splitOnP isBlank).modifyHead (w ++ ·) := by
  induction w with
  | nil =>
    rw [List.nil_append]
    cases t.splitOnP isBlank <;> rfl
  | cons c w ih =>
    rw [List.cons_append, List.splitOnP_cons_eq_if_modifyHead, if_neg (by rw [h c (by simp)]; simp), ih fun d hd => h d (List.mem_cons_of_mem _ hd)]
    cases t.splitOnP isBlank <;> rfl

theorem words_solid {w : List Char} (h : Solid w) : words w = [w] := by
  have := splitOnP_solid h.2 []
  rw [List.append_nil] at this
  unfold words
  rw [this]
  simp [List.splitOnP_nil, h.1]

theorem words_solid_blank {w : List Char} (h : Solid w) {c : Char} (hc : isBlank c = true) (t : List Char) :
    words (w ++ c :: t) = w :: words t := by
  have := splitOnP_solid h.2 (c :: t)
  rw [List.splitOnP_cons_eq_if_modifyHead, if_pos hc] at this
  unfold words
  rw [this]
  simp [h.1]

/-- Text directly before a word joins it. -/
theorem words_solid_solid {w : List Char} (h : Solid w) {c : Char} (hc : isBlank c = false) (t : List Char) :
    (words (w ++ c :: t)).length = (words (c :: t)).length := by
  have := splitOnP_solid h.2 (c :: t)
  rw [List.splitOnP_cons_eq_if_modifyHead, if_neg (by rw [hc]; simp)] at this
  unfold words
  rw [this, List.splitOnP_cons_eq_if_modifyHead, if_neg (by rw [hc]; simp)]
  cases t.splitOnP isBlank with
  | nil => rfl
  | cons a b => simp

/-! ### Columns -/

/-- A column: its width and the text in it. -/
abbrev Col := Nat × List Char

/-- The text of some columns. -/
def cols (cs : List Col) : List Char := cs.flatMap fun c => padLeft c.1 c.2

theorem cols_cons (c : Col) (cs : List Col) : cols (c :: cs) = padLeft c.1 c.2 ++ cols cs := rfl

theorem words_padLeft (w : Nat) (t r : List Char) : words (padLeft w t ++ r) = words (t ++ r) := by
  unfold padLeft
  rw [List.append_assoc, words_blanks]

/-- Columns with a blank in front, but for the first, are read back as their texts. -/
theorem words_cols {c : Col} {cs : List Col} (hc : Solid c.2) (hs : ∀ d ∈ cs, Solid d.2 ∧ d.2.length < d.1) :
    words (cols (c :: cs)) = (c :: cs).map (·.2) := by
  induction cs generalizing c with
  | nil => rw [cols_cons, words_padLeft]; simpa [cols] using words_solid hc
  | cons d cs ih =>
    have hd := hs d (by simp)
    have ih' := ih hd.1 (fun e he => hs e (List.mem_cons_of_mem _ he))
    rw [cols_cons, words_padLeft]
    have e : cols (d :: cs) = ' ' :: (List.replicate (d.1 - d.2.length - 1) ' ' ++ d.2 ++ cols cs) := by
      rw [cols_cons]
      unfold padLeft
      obtain ⟨n, hn⟩ : ∃ n, d.1 - d.2.length = n + 1 := ⟨d.1 - d.2.length - 1, by omega⟩
      rw [hn, List.replicate_succ]
      simp
    rw [e] at ih' ⊢
    rw [words_solid_blank hc rfl, ← words_blank (c := ' ') rfl, ih']
    rfl

/-- There are at most as many words as columns. -/
theorem words_cols_le {cs : List Col} (hs : ∀ d ∈ cs, Solid d.2) : (words (cols cs)).length ≤ cs.length := by
  induction cs with
  | nil => rfl
  | cons c cs ih =>
    have ih' := ih fun d hd => hs d (List.mem_cons_of_mem _ hd)
    have hc := hs c (by simp)
    rw [cols_cons, words_padLeft, List.length_cons]
    cases hcs : cols cs with
    | nil => rw [List.append_nil, words_solid hc]; simp
    | cons a t =>
      rw [hcs] at ih'
      cases ha : isBlank a with
      | true => rw [words_solid_blank hc ha, List.length_cons]; rw [words_blank ha] at ih'; omega
      | false => rw [words_solid_solid hc ha]; omega

/-- If a column other than the first is filled there are fewer words than columns. -/
theorem words_cols_lt {c : Col} {cs : List Col} (hs : ∀ d ∈ c :: cs, Solid d.2) (hx : ∃ d ∈ cs, d.1 ≤ d.2.length) :
    (words (cols (c :: cs))).length < cs.length + 1 := by
  induction cs generalizing c with
  | nil => obtain ⟨d, hd, -⟩ := hx; cases hd
  | cons d cs ih =>
    have hc := hs c (by simp)
    have hd := hs d (by simp)
    have hs' : ∀ e ∈ d :: cs, Solid e.2 := fun e he => hs e (List.mem_cons_of_mem _ he)
    rw [cols_cons, words_padLeft, List.length_cons]
    by_cases hfull : d.1 ≤ d.2.length
    · have e : cols (d :: cs) = d.2 ++ cols cs := by
        rw [cols_cons]
        unfold padLeft
        rw [Nat.sub_eq_zero_of_le hfull]
        simp
      have hle := words_cols_le hs'
      rw [List.length_cons] at hle
      rw [e] at hle ⊢
      cases h2 : d.2 with
      | nil => exact absurd h2 hd.1
      | cons a t =>
        rw [h2] at hle
        have ha : isBlank a = false := hd.2 a (by rw [h2]; simp)
        rw [List.cons_append, words_solid_solid hc ha]
        rw [List.cons_append] at hle
        omega
    · obtain ⟨e, he, hfe⟩ := hx
      have he' : e ∈ cs := by
        rcases List.mem_cons.1 he with rfl | h
        · exact absurd hfe hfull
        · exact h
      have ih' := ih hs' ⟨e, he', hfe⟩
      cases hcs : cols (d :: cs) with
      | nil => rw [List.append_nil, words_solid hc]; simp
      | cons a t =>
        rw [hcs] at ih'
        cases ha : isBlank a with
        | true => rw [words_solid_blank hc ha, List.length_cons]; rw [words_blank ha] at ih'; omega
        | false => rw [words_solid_solid hc ha]; omega

theorem cols_newline {cs : List Col} (hs : ∀ d ∈ cs, Solid d.2) : '\n' ∉ cols cs := by
  intro h
  unfold cols at h
  obtain ⟨d, hd, hm⟩ := List.mem_flatMap.1 h
  unfold padLeft at hm
  rcases List.mem_append.1 hm with h | h
  · exact absurd (List.eq_of_mem_replicate h) (by decide)
  · exact absurd ((hs d hd).2 _ h) (by decide)

end Print
end CenCalVM
