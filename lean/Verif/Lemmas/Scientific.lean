/-
Reading back numbers in scientific notation.
-/
import Verif.Lemmas.Print
import Verif.Spec.Scientific
import Verif.Spec.QueryLog

set_option linter.unusedSectionVars false

namespace CenCalVM
namespace Print
variable {K : Type} [Field K] [LinearOrder K] [IsStrictOrderedRing K] [FloorRing K]

/-- What the digits and the exponent are. -/
theorem sciDigits_facts (ri : IntRound K) (p : Nat) (x : K) :
    let d := sciDigits ri p x
    d.1 < 10 ^ (p + 1) ∧ (d.1 : K) * 10 ^ (d.2 - p) = ri.toInt (|x| / 10 ^ (Int.log 10 |x| - p)) * 10 ^ (Int.log 10 |x| - p) ∧
      (x ≠ 0 → 10 ^ p ≤ d.1) := by
  have h10 : (0 : K) < 10 := by norm_num
  dsimp only
  unfold sciDigits
  dsimp only
  set e := Int.log 10 |x| with he
  have hpos : (0 : K) < 10 ^ (e - p) := zpow_pos h10 _
  have hn : 0 ≤ ri.toInt (|x| / 10 ^ (e - p)) := by
    have := ri.mono 0 (|x| / 10 ^ (e - p)) (by positivity)
    have h0 := ri.fix 0
    rw [Int.cast_zero] at h0
    omega
  obtain ⟨m, hm⟩ := Int.eq_ofNat_of_zero_le hn
  have hup : (m : ℤ) ≤ 10 ^ (p + 1) := by
    rw [← hm]
    have h1 : |x| < 10 ^ (e + 1) := by
      have := Int.lt_zpow_succ_log_self (R := K) (b := 10) (by norm_num) |x|
      exact_mod_cast this
    have := ri.mono (|x| / 10 ^ (e - p)) (((10 ^ (p + 1) : ℤ) : ℤ) : K) (by
      rw [div_le_iff₀ hpos]
      push_cast
      rw [show (10 : K) ^ (p + 1) = 10 ^ ((p : ℤ) + 1) by rw [← zpow_natCast]; push_cast; rfl, ← zpow_add₀ h10.ne']
      refine h1.le.trans (le_of_eq ?_)
      congr 1
      ring)
    rwa [ri.fix] at this
  have hlow : x ≠ 0 → (10 ^ p : ℤ) ≤ m := by
    intro hx
    rw [← hm]
    have h1 : (10 : K) ^ e ≤ |x| := by
      have := Int.zpow_log_le_self (R := K) (b := 10) (by norm_num) (abs_pos.2 hx)
      exact_mod_cast this
    have := ri.mono (((10 ^ p : ℤ) : ℤ) : K) (|x| / 10 ^ (e - p)) (by
      rw [le_div_iff₀ hpos]
      push_cast
      rw [show (10 : K) ^ p = 10 ^ (p : ℤ) by rw [zpow_natCast], ← zpow_add₀ h10.ne']
      refine le_trans (le_of_eq ?_) h1
      congr 1
      ring)
    rwa [ri.fix] at this
  rw [hm]
  simp only [Int.toNat_natCast]
  split
  · next h =>
    refine ⟨Nat.pow_lt_pow_right (by norm_num) (by omega), ?_, fun _ => le_refl _⟩
    rw [h]
    push_cast
    rw [show (10 : K) ^ (p + 1) = 10 ^ ((p : ℤ) + 1) by rw [← zpow_natCast]; push_cast; rfl,
      show (10 : K) ^ p = 10 ^ (p : ℤ) by rw [zpow_natCast], ← zpow_add₀ h10.ne', ← zpow_add₀ h10.ne']
    congr 1
    ring
  · next h =>
    refine ⟨?_, by push_cast; rfl, fun hx => by exact_mod_cast hlow hx⟩
    have : m ≤ 10 ^ (p + 1) := by exact_mod_cast hup
    omega

theorem expValue_expText (e : Int) : expValue (K := K) (expText e) = some (10 ^ e) := by
  have h10 : (10 : K) ≠ 0 := by norm_num
  have hd : natValue (if e.natAbs < 10 then ['0', digitChar e.natAbs] else digits e.natAbs) = some e.natAbs := by
    split
    · next h =>
      rw [natValue_digits (t := ['0', digitChar e.natAbs])]
      · have := horner_digit ['0'] h
        rw [show ['0'] ++ [digitChar e.natAbs] = ['0', digitChar e.natAbs] from rfl] at this
        rw [this]
        simp [horner]
      · exact (digits_one (d := 0) (by norm_num)).append (digits_one h)
      · simp
    · obtain ⟨h1, h2, h3, -⟩ := digits_facts e.natAbs
      rw [natValue_digits h1 h2, h3]
  unfold expText
  split
  · next h =>
    rw [expValue, hd]
    rw [Option.map_some, ← zpow_natCast, one_div, ← zpow_neg, show -((e.natAbs : ℕ) : ℤ) = e by omega]
  · next h =>
    rw [expValue, hd, Option.map_some]
    rw [← zpow_natCast, show ((e.natAbs : ℕ) : ℤ) = e by omega]

theorem isDigit_ne {c d : Char} (h : c.isDigit = true) (hd : d.isDigit = false) : c ≠ d := by
  rintro rfl
  rw [h] at hd
  cases hd

/-- The text of the digits has one before the point. -/
theorem sciMantissa (ri : IntRound K) {p : Nat} (hp : 0 < p) (x : K) :
    let a := digits ((sciDigits ri p x).1 / 10 ^ p) ++ '.' :: lastDigits p ((sciDigits ri p x).1 % 10 ^ p)
    unsignedValue (K := K) a = some (((sciDigits ri p x).1 : K) / 10 ^ p) ∧ a.length = p + 2 ∧ a[1]? = some '.' ∧
      (∀ c ∈ a, c.isDigit = true ∨ c = '.') ∧ ∀ u, ∀ c ∈ (a ++ u).head?, c ≠ '-' := by
  have hlt := (sciDigits_facts ri p x).1
  dsimp only at hlt ⊢
  generalize (sciDigits ri p x).1 = m at hlt
  obtain ⟨h1, h2, h3, h4⟩ := digits_facts (m / 10 ^ p)
  obtain ⟨g1, g2, g3⟩ := lastDigits_facts p (m % 10 ^ p)
  have gne : lastDigits p (m % 10 ^ p) ≠ [] := by
    intro h
    rw [h] at g2
    simp at g2
    omega
  have hl : (digits (m / 10 ^ p)).length = 1 := by
    have h5 : (digits (m / 10 ^ p)).length ≤ 1 := (h4 1 one_pos).2 (by
      rw [pow_one]
      exact Nat.div_lt_of_lt_mul (by rw [← pow_succ]; exact hlt))
    have := List.length_pos_iff.2 h2
    omega
  obtain ⟨d, hd⟩ := List.length_eq_one_iff.1 hl
  refine ⟨?_, ?_, ?_, ?_, ?_⟩
  · unfold unsignedValue
    rw [span_point h1]
    simp only [natValue_digits h1 h2, natValue_digits g1 gne, h3, g2, g3, Option.bind_some, Option.map_some, Nat.mod_mod]
    congr 1
    have hq : (10 : K) ^ p ≠ 0 := by positivity
    have : (m : K) = 10 ^ p * ((m / 10 ^ p : Nat) : K) + ((m % 10 ^ p : Nat) : K) := by
      exact_mod_cast (Nat.div_add_mod m (10 ^ p)).symm
    conv_rhs => rw [this]
    field_simp
  · rw [List.length_append, hl, List.length_cons, g2]
    omega
  · rw [hd]; rfl
  · intro c hc
    rcases List.mem_append.1 hc with hc | hc
    · exact Or.inl (h1 c hc).1
    · rcases List.mem_cons.1 hc with rfl | hc
      · exact Or.inr rfl
      · exact Or.inl (g1 c hc).1
  · intro u
    rw [List.append_assoc]
    exact head_digits h1 h2

theorem span_e {a b : List Char} (h : ∀ c ∈ a, c.isDigit = true ∨ c = '.') : (a ++ 'e' :: b).span (· ≠ 'e') = (a, 'e' :: b) := by
  rw [List.span_eq_takeWhile_dropWhile]
  have : ∀ c ∈ a, decide (c ≠ 'e') = true := fun c hc => decide_eq_true (by
    rcases h c hc with h | rfl
    · exact isDigit_ne h (by decide)
    · decide)
  rw [List.takeWhile_append_of_pos this, List.dropWhile_append_of_pos this]
  simp

/-- The value of the text. -/
theorem sciValue_sciText (ri : IntRound K) {p : Nat} (hp : 0 < p) (x : K) :
    sciValue (sciText ri p x) =
      some ((if x < 0 then -1 else 1) * ((ri.toInt (|x| / 10 ^ (Int.log 10 |x| - p)) : K) * 10 ^ (Int.log 10 |x| - p))) := by
  obtain ⟨h1, h2, h3, h4, h5⟩ := sciMantissa ri hp x
  obtain ⟨-, g2, -⟩ := sciDigits_facts ri p x
  unfold sciText
  dsimp only at h1 h2 h3 h4 h5 g2 ⊢
  rw [← g2]
  generalize sciDigits ri p x = d at h1 h2 h3 h4 h5
  generalize digits (d.1 / 10 ^ p) ++ '.' :: lastDigits p (d.1 % 10 ^ p) = a at h1 h2 h3 h4 h5
  have hu : unsignedSci (K := K) (a ++ 'e' :: expText d.2) = some ((d.1 : K) * 10 ^ (d.2 - p)) := by
    unfold unsignedSci
    rw [span_e h4]
    simp only [h1, expValue_expText, Option.bind_some, Option.map_some]
    congr 1
    rw [zpow_sub₀ (by norm_num : (10 : K) ≠ 0), zpow_natCast]
    ring
  by_cases hx : x < 0
  · rw [if_pos hx, if_pos hx]
    show (unsignedSci (a ++ 'e' :: expText d.2)).map (fun x : K => -x) = _
    rw [hu]
    simp
  · rw [if_neg hx, if_neg hx, List.nil_append]
    have : sciValue (K := K) (a ++ 'e' :: expText d.2) = unsignedSci (a ++ 'e' :: expText d.2) := by
      unfold sciValue
      split
      · rename_i u hu'
        exact absurd rfl (h5 ('e' :: expText d.2) '-' (by rw [hu']; rfl))
      · rfl
    rw [this, hu]
    simp

/-- Reading back gives the number up to half a unit of its seventh digit. -/
theorem reads_sciText {ri : IntRound K} (hn : Nearest ri) (x : K) : ReadsSci x (sciText ri 6 x) := by
  constructor
  · by_cases h0 : x = 0
    · refine ⟨_, sciValue_sciText ri (by norm_num) x, ?_⟩
      have h1 : ri.toInt (0 : K) = 0 := by
        have := ri.fix 0
        rwa [Int.cast_zero] at this
      subst h0
      simp [h1]
    refine ⟨_, sciValue_sciText ri (by norm_num) x, ?_⟩
    have h10 : (0 : K) < 10 := by norm_num
    set e := Int.log 10 |x| with he
    have hpos : (0 : K) < 10 ^ (e - ((6 : ℕ) : ℤ)) := zpow_pos h10 _
    have h1 := hn (|x| / 10 ^ (e - ((6 : ℕ) : ℤ)))
    generalize (ri.toInt (|x| / 10 ^ (e - ((6 : ℕ) : ℤ))) : K) = m at h1
    have h2 : |m * 10 ^ (e - ((6 : ℕ) : ℤ)) - abs x| ≤ |x| / 2000000 := by
      have h3 : m * 10 ^ (e - ((6 : ℕ) : ℤ)) - abs x = (m - |x| / 10 ^ (e - ((6 : ℕ) : ℤ))) * 10 ^ (e - ((6 : ℕ) : ℤ)) := by
        field_simp
      have h4 : (10 : K) ^ e ≤ |x| := by
        have := Int.zpow_log_le_self (R := K) (b := 10) (by norm_num) (abs_pos.2 h0)
        exact_mod_cast this
      have h5 : (10 : K) ^ (e - ((6 : ℕ) : ℤ)) = 10 ^ e / 1000000 := by
        rw [zpow_sub₀ h10.ne', zpow_natCast]
        norm_num
      rw [h3, abs_mul, abs_of_pos hpos]
      calc |m - |x| / 10 ^ (e - ((6 : ℕ) : ℤ))| * 10 ^ (e - ((6 : ℕ) : ℤ)) ≤ 1 / 2 * 10 ^ (e - ((6 : ℕ) : ℤ)) :=
            mul_le_mul_of_nonneg_right h1 hpos.le
        _ ≤ |x| / 2000000 := by rw [h5]; linarith
    by_cases hx : x < 0
    · rw [if_pos hx]
      rw [show -1 * (m * 10 ^ (e - ((6 : ℕ) : ℤ))) - x = -(m * 10 ^ (e - ((6 : ℕ) : ℤ)) - -x) by ring, abs_neg]
      rwa [abs_of_neg hx] at h2 ⊢
    · rw [if_neg hx, one_mul]
      rwa [abs_of_nonneg (not_lt.1 hx)] at h2 ⊢
  · obtain ⟨-, h2, h3, -, -⟩ := sciMantissa ri (p := 6) (by norm_num) x
    refine ⟨if x < 0 then ['-'] else [], _, _, rfl, ?_, h2, h3⟩
    split
    · exact Or.inr rfl
    · exact Or.inl rfl

/-- The characters of a number in scientific notation. -/
theorem sciText_chars (ri : IntRound K) {p : Nat} (hp : 0 < p) (x : K) :
    ∀ c ∈ sciText ri p x, c ≠ ',' ∧ c ≠ '\n' ∧ isBlank c = false := by
  have hdig : ∀ c : Char, c.isDigit = true → c ≠ ',' ∧ c ≠ '\n' ∧ isBlank c = false := by
    intro c hc
    refine ⟨isDigit_ne hc (by decide), isDigit_ne hc (by decide), ?_⟩
    unfold isBlank
    simp [isDigit_ne hc (show ' '.isDigit = false by decide), isDigit_ne hc (show '\t'.isDigit = false by decide),
      isDigit_ne hc (show '\n'.isDigit = false by decide), isDigit_ne hc (show '\r'.isDigit = false by decide)]
  obtain ⟨-, -, -, h4, -⟩ := sciMantissa ri hp x
  intro c hc
  unfold sciText at hc
  dsimp only at hc h4
  rcases List.mem_append.1 hc with hc | hc
  · rcases List.mem_append.1 hc with hc | hc
    · split at hc
      · obtain rfl := List.mem_singleton.1 hc; decide
      · cases hc
    · rcases h4 c hc with h | rfl
      · exact hdig c h
      · decide
  · rcases List.mem_cons.1 hc with rfl | hc
    · decide
    · unfold expText at hc
      rcases List.mem_cons.1 hc with rfl | hc
      · split <;> decide
      · split at hc
        · next h =>
          rcases List.mem_cons.1 hc with rfl | hc
          · decide
          · obtain rfl := List.mem_singleton.1 hc
            exact hdig _ (digitChar_lt h).1
        · exact hdig c ((digits_facts _).1 c hc).1

theorem sciText_ne (ri : IntRound K) (p : Nat) (x : K) : sciText ri p x ≠ [] := by
  unfold sciText
  intro h
  exact List.cons_ne_nil _ _ (List.append_eq_nil_iff.1 h).2

/-! ### Rows and cells -/

theorem splitOnP_none {α : Type} {p : α → Bool} {w : List α} (h : ∀ c ∈ w, p c = false) (t : List α) :
    (w ++ t).splitOnP p = (t.splitOnP p).modifyHead (w ++ ·) := by
  induction w with
  | nil =>
    rw [List.nil_append]
    cases t.splitOnP p <;> rfl
  | cons c w ih =>
    rw [List.cons_append, List.splitOnP_cons_eq_if_modifyHead, if_neg (by rw [h c (by simp)]; simp), ih fun d hd => h d (List.mem_cons_of_mem _ hd)]
    cases t.splitOnP p <;> rfl

theorem splitOnP_sep {α : Type} {p : α → Bool} {w : List α} (h : ∀ c ∈ w, p c = false) {s : α} (hs : p s = true) (t : List α) :
    (w ++ s :: t).splitOnP p = w :: t.splitOnP p := by
  rw [splitOnP_none h, List.splitOnP_cons_eq_if_modifyHead, if_pos hs]
  simp

theorem splitOnP_last {α : Type} {p : α → Bool} {w : List α} (h : ∀ c ∈ w, p c = false) : w.splitOnP p = [w] := by
  have := splitOnP_none h []
  rw [List.append_nil] at this
  rw [this]
  simp [List.splitOnP_nil]

theorem dropWhile_solid {w : List Char} (h : ∀ c ∈ w, isBlank c = false) : w.dropWhile isBlank = w := by
  cases w with
  | nil => rfl
  | cons c w => rw [List.dropWhile_cons, if_neg (by rw [h c (by simp)]; simp)]

theorem append_sep {α : Type} {s : α} {a a' t t' : List α} (h : ∀ c ∈ a, c ≠ s) (h' : ∀ c ∈ a', c ≠ s)
    (he : a ++ s :: t = a' ++ s :: t') : a = a' ∧ t = t' := by
  induction a generalizing a' with
  | nil =>
    cases a' with
    | nil => exact ⟨rfl, (List.cons.inj he).2⟩
    | cons c a' => exact absurd (List.cons.inj he).1.symm (h' c (by simp))
  | cons c a ih =>
    cases a' with
    | nil => exact absurd (List.cons.inj he).1 (h c (by simp))
    | cons d a' =>
      obtain ⟨e1, e2⟩ := List.cons.inj he
      obtain ⟨e3, e4⟩ := ih (fun c hc => h c (by simp [hc])) (fun c hc => h' c (by simp [hc])) e2
      exact ⟨by rw [e1, e3], e4⟩

/-- The text of a row of the log, without the end of the line. -/
def rowText (ri : IntRound K) (l : K × K × K) : List Char :=
  sciText ri 6 l.1 ++ ',' :: (' ' :: sciText ri 6 l.2.1 ++ ',' :: (' ' :: sciText ri 6 l.2.2 ++ ',' :: " No data".toList))

theorem rowText_row {ri : IntRound K} (hn : Nearest ri) (l : K × K × K) : LogRow l (rowText ri l) := by
  have hc := fun x : K => sciText_chars ri (p := 6) (by norm_num) x
  have h1 : ∀ x : K, ∀ c ∈ sciText ri 6 x, decide (c = ',') = false := fun x c h => decide_eq_false (hc x c h).1
  have h2 : ∀ x : K, ∀ c ∈ ' ' :: sciText ri 6 x, decide (c = ',') = false := by
    intro x c h
    rcases List.mem_cons.1 h with rfl | h
    · decide
    · exact h1 x c h
  have h3 : ∀ x : K, (' ' :: sciText ri 6 x).dropWhile isBlank = sciText ri 6 x := by
    intro x
    rw [List.dropWhile_cons, if_pos (by decide), dropWhile_solid fun c h => (hc x c h).2.2]
  refine ⟨_, _, _, ?_, reads_sciText hn _, reads_sciText hn _, reads_sciText hn _⟩
  unfold cells rowText
  rw [splitOnP_sep (h1 _) (by decide), splitOnP_sep (h2 _) (by decide), splitOnP_sep (h2 _) (by decide), splitOnP_last (by decide)]
  simp only [List.map_cons, List.map_nil, h3, dropWhile_solid fun c h => (hc l.1 c h).2.2]
  rfl

theorem rowText_newline (ri : IntRound K) (l : K × K × K) : ∀ c ∈ rowText ri l, decide (c = '\n') = false := by
  have hc := fun x : K => sciText_chars ri (p := 6) (by norm_num) x
  have h1 : ∀ x : K, ∀ c ∈ sciText ri 6 x, decide (c = '\n') = false := fun x c h => decide_eq_false (hc x c h).2.1
  intro c h
  unfold rowText at h
  rcases List.mem_append.1 h with h | h
  · exact h1 _ c h
  rcases List.mem_cons.1 h with rfl | h
  · decide
  rcases List.mem_append.1 h with h | h
  · rcases List.mem_cons.1 h with rfl | h
    · decide
    · exact h1 _ c h
  rcases List.mem_cons.1 h with rfl | h
  · decide
  rcases List.mem_append.1 h with h | h
  · rcases List.mem_cons.1 h with rfl | h
    · decide
    · exact h1 _ c h
  rcases List.mem_cons.1 h with rfl | h
  · decide
  exact (show ∀ c ∈ " No data".toList, decide (c = '\n') = false by decide) c h

/-- The text the log gets for a location. -/
theorem noDataText_eq {fmt : Fmt K} {ri : IntRound K} (hf : ∀ x, fmt.sci x = String.ofList (sciText ri 6 x)) (lon lat elev : K) :
    (QueryApp.noDataText fmt lon lat elev).toList = rowText ri (lon, lat, elev) ++ ['\n'] := by
  unfold QueryApp.noDataText rowText
  simp [hf, String.toList_append, List.append_assoc]

/-- The rows of a log. -/
theorem rows_log {fmt : Fmt K} {ri : IntRound K} (hf : ∀ x, fmt.sci x = String.ofList (sciText ri 6 x)) (ls : List (K × K × K)) :
    rows (String.join (ls.map fun l => QueryApp.noDataText fmt l.1 l.2.1 l.2.2)).toList = ls.map (rowText ri) ++ [[]] := by
  induction ls with
  | nil => simp [String.join, rows]
  | cons l ls ih =>
    rw [List.map_cons, String.join_cons, String.toList_append, noDataText_eq hf, List.append_assoc]
    unfold rows at ih ⊢
    rw [List.singleton_append, splitOnP_sep (rowText_newline ri _) (by decide), ih]
    rfl

end Print
end CenCalVM
