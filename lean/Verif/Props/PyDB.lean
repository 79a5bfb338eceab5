/-
Property C96: the Python class for the spatial database.
-/
import Verif.Lemmas.PyDB
import Verif.Props.ExampleData

set_option linter.unusedSectionVars false

namespace CenCalVM
namespace PyDB
variable {K : Type} [Field K] [LinearOrder K]

/-! ### C96 -/

/-- C96, what holds: with values of the right types and the query type `maxres` or `waveres` (in an object without an earlier
error), the object has the query type, files, squashing, minimum shear speed and projection set or, if nothing was set, their
defaults; the resolution and the size of the caches if these are positive.  Missing: the query type `fixedres` (`C96_false`),
and the size of the second cache, which is that of the first (`C96_false_cache`). -/
theorem C96_partial {set : Settings K} (h : Typed set) {t : String} (ht : Value set "query_type" (.str "maxres") (.str t))
    (hm : t = "maxres" ∨ t = "waveres") {s : CenCalVMDB K} (hs : s.q.err.status ≠ .ERROR) (fmt : Fmt K) :
    ∃ r f c x sq lim mv pd,
      Value set "query_res" (.num 100) (.num r) ∧ Value set "filename" (.str "") (.str f) ∧ Value set "cache_size" (.int 128) (.int c) ∧
      Value set "filename_ext" (.str "") (.str x) ∧ Value set "squash" (.bool false) (.bool sq) ∧
      Value set "squash_limit" (.num (-2000)) (.num lim) ∧ Value set "min_vs" (.num 0) (.num mv) ∧
      Value set "project_downward" (.bool false) (.bool pd) ∧
      configure fmt set s = .ok { s with
        minVs := mv
        projectDownward := pd
        q := { s.q with
          queryFn := if t = "maxres" then .MAXRES else .WAVERES
          queryRes := if 0 < r then r else s.q.queryRes
          filename := f
          cacheSize := if 0 < c then c else s.q.cacheSize
          filenameExt := x
          cacheSizeExt := if 0 < c then c else s.q.cacheSizeExt
          squashTopo := sq
          squashLimit := lim } } () := by
  obtain ⟨i, hi, h1, v2, v3, v4, v5, h6, v6, v7, v8, v9⟩ := inventory_ok h ht (by rcases hm with rfl | rfl <;> simp)
  refine ⟨i.queryRes, i.filename, i.cacheSize, i.filenameExt, i.squash, i.squashLimit, i.minVs, i.projectDownward, v2, v3, v4, v5, v6, v7, v8, v9, ?_⟩
  have hty : setType s i.queryType = .ok { s with q := { s.q with queryFn := if t = "maxres" then .MAXRES else .WAVERES } } () := by
    rw [h1]
    unfold setType CenCalVMDB.queryType CenCalVMDB.throwOnError VMQuery.queryType
    rcases hm with rfl | rfl <;> simp [hs]
  unfold configure
  rw [hi]
  dsimp only
  rw [hty, h6]
  simp only [Run.bind_ok, CenCalVMDB.call, VMQuery.setQueryRes, VMQuery.setFilename, VMQuery.setCacheSize, VMQuery.setFilenameExt,
    VMQuery.setCacheSizeExt, VMQuery.squash]
  by_cases hr : 0 < i.queryRes <;> by_cases hc : 0 < i.cacheSize <;> simp [hr, hc]

/-- Some settings. -/
def exSettings : Settings ℚ := fun n =>
  if n = "query_type" then some (.str "waveres") else if n = "query_res" then some (.num (1 / 5))
  else if n = "filename" then some (.str "det") else if n = "squash" then some (.bool true) else none
example : Value exSettings "query_type" (.str "maxres") (.str "waveres") := Or.inl rfl
example : Typed exSettings := by
  unfold Typed exSettings
  refine ⟨?_, ?_, ?_, ?_⟩ <;> intro n hn v hv <;> simp only [List.mem_cons, List.not_mem_nil, or_false] at hn
  · rcases hn with rfl | rfl | rfl <;> simp at hv <;> exact ⟨_, hv.symm⟩
  · rcases hn with rfl | rfl | rfl <;> simp at hv; exact ⟨_, hv.symm⟩
  · rcases hn with rfl | rfl <;> simp at hv
  · rcases hn with rfl | rfl <;> simp at hv; exact ⟨_, hv.symm⟩
example : (CenCalVMDB.init exGeom fun _ => "").q.err.status ≠ .ERROR := by decide
/-- What the settings give, to compare. -/
def exSeen : Run (CenCalVMDB ℚ) Unit → Option (QueryType × ℚ × String × Bool × ℚ)
  | .ok s _ => some (s.q.queryFn, s.q.queryRes, s.q.filename, s.q.squashTopo, s.q.squashLimit)
  | _ => none
example : exSeen (configure exFmt exSettings (CenCalVMDB.init exGeom fun _ => "")) = some (.WAVERES, 1 / 5, "det", true, -2000) := by
  decide +kernel

/-- C96, other types: any other text for the query type raises an exception and changes nothing. -/
theorem C96_refused {set : Settings K} {t : String} (ht : set "query_type" = some (.str t)) (hm : t ∉ ["maxres", "fixedres", "waveres"])
    (s : CenCalVMDB K) (fmt : Fmt K) : ∃ m, configure fmt set s = .exc m s := by
  have hi : inventory set = .exc "query_type" := by
    unfold inventory strOf
    rw [ht]
    dsimp only
    rw [Outcome.bind_ok, if_neg hm]
  unfold configure
  rw [hi]
  exact ⟨_, rfl⟩
example : setting exSettings "query_type" (.str "MAXRES") "query_type" = some (.str "MAXRES") ∧ "MAXRES" ∉ ["maxres", "fixedres", "waveres"] :=
  ⟨rfl, by decide +kernel⟩

/-- C96 is false: the query type `fixedres` is set as `maxres` is, whatever else is set. -/
theorem C96_false (set : Settings K) (s : CenCalVMDB K) (fmt : Fmt K) :
    configure fmt (setting set "query_type" (.str "fixedres")) s = configure fmt (setting set "query_type" (.str "maxres")) s := by
  unfold configure
  rw [inventory_type set (t := "fixedres") (by simp)]
  cases hi : inventory (setting set "query_type" (.str "maxres")) with
  | ub => rfl
  | exc m => rfl
  | ok i =>
    have : i.queryType = "maxres" := by
      have := inventory_type set (t := "maxres") (by simp)
      rw [hi] at this
      rw [Outcome.bind_ok] at this
      cases i
      cases this
      rfl
    rw [Outcome.bind_ok]
    dsimp only
    rw [this]
    rfl
example : (exSeen (configure exFmt (setting exSettings "query_type" (.str "fixedres")) (CenCalVMDB.init exGeom fun _ => ""))).map (·.1) =
    some .MAXRES := by decide +kernel

/-- C96 is false: setting `cache_size_ext` has no effect. -/
theorem C96_false_cache (set : Settings K) (v : Val K) (s : CenCalVMDB K) (fmt : Fmt K) :
    configure fmt (setting set "cache_size_ext" v) s = configure fmt set s := by
  have : inventory (setting set "cache_size_ext" v) = inventory set := by
    unfold inventory strOf numOf intOf boolOf setting
    simp only [String.reduceEq, if_false]
  unfold configure
  rw [this]
example : exSettings "cache_size" = none := rfl

end PyDB
end CenCalVM
