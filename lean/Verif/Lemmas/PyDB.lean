/-
Lemmas on the Python class for the spatial database.
-/
import Verif.Spec.PyDB

set_option linter.unusedSectionVars false

namespace CenCalVM
namespace PyDB
variable {K : Type} [Field K] [LinearOrder K]

theorem strOf_ok {set : Settings K} {name dflt : String} (h : ∀ v, set name = some v → ∃ s, v = .str s) :
    ∃ s, strOf set name dflt = .ok s ∧ Value set name (.str dflt) (.str s) := by
  unfold strOf Value
  cases hs : set name with
  | none => exact ⟨dflt, rfl, Or.inr ⟨rfl, rfl⟩⟩
  | some v => obtain ⟨s, rfl⟩ := h v hs; exact ⟨s, rfl, Or.inl rfl⟩
theorem numOf_ok {set : Settings K} {name : String} {dflt : K} (h : ∀ v, set name = some v → ∃ x, v = .num x) :
    ∃ x, numOf set name dflt = .ok x ∧ Value set name (.num dflt) (.num x) := by
  unfold numOf Value
  cases hs : set name with
  | none => exact ⟨dflt, rfl, Or.inr ⟨rfl, rfl⟩⟩
  | some v => obtain ⟨s, rfl⟩ := h v hs; exact ⟨s, rfl, Or.inl rfl⟩
theorem intOf_ok {set : Settings K} {name : String} {dflt : Int} (h : ∀ v, set name = some v → ∃ k, v = .int k) :
    ∃ k, intOf set name dflt = .ok k ∧ Value set name (.int dflt) (.int k) := by
  unfold intOf Value
  cases hs : set name with
  | none => exact ⟨dflt, rfl, Or.inr ⟨rfl, rfl⟩⟩
  | some v => obtain ⟨s, rfl⟩ := h v hs; exact ⟨s, rfl, Or.inl rfl⟩
theorem boolOf_ok {set : Settings K} {name : String} {dflt : Bool} (h : ∀ v, set name = some v → ∃ b, v = .bool b) :
    ∃ b, boolOf set name dflt = .ok b ∧ Value set name (.bool dflt) (.bool b) := by
  unfold boolOf Value
  cases hs : set name with
  | none => exact ⟨dflt, rfl, Or.inr ⟨rfl, rfl⟩⟩
  | some v => obtain ⟨s, rfl⟩ := h v hs; exact ⟨s, rfl, Or.inl rfl⟩

/-- The inventory of settings of the right types. -/
theorem inventory_ok {set : Settings K} (h : Typed set) {t : String} (ht : Value set "query_type" (.str "maxres") (.str t))
    (hm : t ∈ ["maxres", "fixedres", "waveres"]) :
    ∃ i, inventory set = .ok i ∧ i.queryType = t ∧ Value set "query_res" (.num 100) (.num i.queryRes) ∧
      Value set "filename" (.str "") (.str i.filename) ∧ Value set "cache_size" (.int 128) (.int i.cacheSize) ∧
      Value set "filename_ext" (.str "") (.str i.filenameExt) ∧ i.cacheSizeExt = i.cacheSize ∧
      Value set "squash" (.bool false) (.bool i.squash) ∧ Value set "squash_limit" (.num (-2000)) (.num i.squashLimit) ∧
      Value set "min_vs" (.num 0) (.num i.minVs) ∧ Value set "project_downward" (.bool false) (.bool i.projectDownward) := by
  obtain ⟨h1, h2, h3, h4⟩ := h
  have hq : strOf set "query_type" "maxres" = .ok t := by
    unfold strOf
    rcases ht with ht | ⟨ht, he⟩
    · rw [ht]
    · rw [ht]; cases he; rfl
  obtain ⟨r, e2, v2⟩ := numOf_ok (dflt := (100 : K)) (h2 "query_res" (by simp))
  obtain ⟨f, e3, v3⟩ := strOf_ok (dflt := "") (h1 "filename" (by simp))
  obtain ⟨c, e4, v4⟩ := intOf_ok (dflt := 128) (h3 "cache_size" (by simp))
  obtain ⟨x, e5, v5⟩ := strOf_ok (dflt := "") (h1 "filename_ext" (by simp))
  obtain ⟨sq, e6, v6⟩ := boolOf_ok (dflt := false) (h4 "squash" (by simp))
  obtain ⟨l, e7, v7⟩ := numOf_ok (dflt := (-2000 : K)) (h2 "squash_limit" (by simp))
  obtain ⟨m, e8, v8⟩ := numOf_ok (dflt := (0 : K)) (h2 "min_vs" (by simp))
  obtain ⟨p, e9, v9⟩ := boolOf_ok (dflt := false) (h4 "project_downward" (by simp))
  refine ⟨⟨t, r, f, c, x, c, sq, l, m, p⟩, ?_, rfl, v2, v3, v4, v5, rfl, v6, v7, v8, v9⟩
  unfold inventory
  rw [hq, Outcome.bind_ok, if_pos hm, e2, Outcome.bind_ok, e3, Outcome.bind_ok, e4, Outcome.bind_ok, e5, Outcome.bind_ok,
    Outcome.bind_ok, e6, Outcome.bind_ok, e7, Outcome.bind_ok, e8, Outcome.bind_ok, e9, Outcome.bind_ok]

theorem numOf_setting {set : Settings K} {name n : String} {v : Val K} {d : K} (h : n ≠ name) : numOf (setting set name v) n d = numOf set n d := by
  unfold numOf setting; rw [if_neg h]
theorem strOf_setting {set : Settings K} {name n : String} {v : Val K} {d : String} (h : n ≠ name) : strOf (setting set name v) n d = strOf set n d := by
  unfold strOf setting; rw [if_neg h]
theorem intOf_setting {set : Settings K} {name n : String} {v : Val K} {d : Int} (h : n ≠ name) : intOf (setting set name v) n d = intOf set n d := by
  unfold intOf setting; rw [if_neg h]
theorem boolOf_setting {set : Settings K} {name n : String} {v : Val K} {d : Bool} (h : n ≠ name) : boolOf (setting set name v) n d = boolOf set n d := by
  unfold boolOf setting; rw [if_neg h]

/-- The query type has no influence on the rest of the inventory. -/
theorem inventory_type (set : Settings K) {t : String} (ht : t ∈ ["maxres", "fixedres", "waveres"]) :
    inventory (setting set "query_type" (.str t)) =
      (inventory (setting set "query_type" (.str "maxres")) >>= fun i => .ok { i with queryType := t }) := by
  have hq : ∀ t, strOf (setting set "query_type" (.str t)) "query_type" "maxres" = .ok t := fun t => by unfold strOf setting; rw [if_pos rfl]
  unfold inventory
  rw [hq, hq, Outcome.bind_ok, Outcome.bind_ok, if_pos ht, if_pos (by simp)]
  simp only [numOf_setting (show "query_res" ≠ "query_type" by decide), numOf_setting (show "squash_limit" ≠ "query_type" by decide),
    numOf_setting (show "min_vs" ≠ "query_type" by decide), strOf_setting (show "filename" ≠ "query_type" by decide),
    strOf_setting (show "filename_ext" ≠ "query_type" by decide), intOf_setting (show "cache_size" ≠ "query_type" by decide),
    boolOf_setting (show "squash" ≠ "query_type" by decide), boolOf_setting (show "project_downward" ≠ "query_type" by decide)]
  cases numOf set "query_res" (100 : K) <;> try rfl
  cases strOf set "filename" "" <;> try rfl
  cases intOf set "cache_size" 128 <;> try rfl
  cases strOf set "filename_ext" "" <;> try rfl
  cases boolOf set "squash" false <;> try rfl
  cases numOf set "squash_limit" (-2000 : K) <;> try rfl
  cases numOf set "min_vs" (0 : K) <;> try rfl
  cases boolOf set "project_downward" false <;> rfl

end PyDB
end CenCalVM
