/-
C74: ingesting grids in another order.
-/
import Verif.Lemmas.CreateOrder

set_option linter.unusedSectionVars false

namespace CenCalVM
open GridIngester VMCreator
variable {K : Type} [Field K] [LinearOrder K] [IsStrictOrderedRing K]

theorem run_perm {env : EtreeEnv} (he : env.Reliable) {nf : NumFmt K} {junk : Payload K} {g : Geom K}
    {files : String → Option (List Char)} {disk d : EtreeDisk K} {params params' tmp out description stamp : String}
    {text text' : List Char} (hp : files params = some text) (hp' : files params' = some text')
    (hw : (readParams text').Perm (readParams text))
    (h : run env nf junk (some g) files disk params tmp out description stamp = .ok d ()) :
    run env nf junk (some g) files disk params' tmp out description stamp = .ok d () := by
  unfold run at h ⊢
  rw [hp] at h
  rw [hp']
  simp only at h ⊢
  cases ho : openDB env (init disk) tmp description stamp with
  | ub => rw [ho] at h; cases h
  | exc m c => rw [ho] at h; cases h
  | ok c _ =>
    have hc : c.pDB = some (tmp, ⟨Db.empty, some SCHEMA, some (metainfo description stamp)⟩) := by
      unfold openDB at ho
      split at ho
      · cases ho
      split at ho
      · cases ho
      split at ho
      · cases ho
      cases ho; rfl
    rw [ho, Run.bind_ok] at h
    rw [Run.bind_ok]
    cases ha : addGrids env nf junk (some g) files (readParams text) c with
    | ub => rw [ha] at h; cases h
    | exc m c => rw [ha] at h; cases h
    | ok c' _ =>
      rw [ha] at h
      rw [addGrids_perm he hw hc List.Pairwise.nil ha]
      exact h

/-- C74: two parameter files that name the same grid files in different orders lead to the same disk: ingestion of one succeeds exactly if
ingestion of the other does, and both leave the same databases (temporary and packed) with the same contents. -/
theorem C74 {env : EtreeEnv} (he : env.Reliable) {nf : NumFmt K} {junk : Payload K} {g : Geom K}
    {files : String → Option (List Char)} {disk : EtreeDisk K} {params params' tmp out description stamp : String}
    {text text' : List Char} {ws ws' : List String} (hp : files params = some text) (hp' : files params' = some text')
    (hw : WordsOf text ws) (hb : EndsBlank text) (hw' : WordsOf text' ws') (hb' : EndsBlank text') (hperm : ws.Perm ws') (d : EtreeDisk K) :
    run env nf junk (some g) files disk params tmp out description stamp = .ok d () ↔
      run env nf junk (some g) files disk params' tmp out description stamp = .ok d () := by
  have e : readParams text = ws := C53_partial hw hb
  have e' : readParams text' = ws' := C53_partial hw' hb'
  constructor <;> intro h
  · exact run_perm he hp hp' (by rw [e, e']; exact hperm.symm) h
  · exact run_perm he hp' hp (by rw [e, e']; exact hperm) h

/-- Two grids of one point each, and parameter files naming them in both orders. -/
def exOrderFiles (n : String) : Option (List Char) :=
  if n = "p" then some "a b\n".toList
  else if n = "q" then some "b\na ".toList
  else if n = "a" then some "819.2 204.8 1 1 1 1\n220 40 -350 2 1.5 2.5 100 50 -999 1 7 3\n".toList
  else if n = "b" then some "819.2 204.8 1 1 1 1\n220 40 -0.1 2 1.5 2.5 100 50 0.03 3 7 3\n".toList
  else none

/-- The packed octants of an ingestion. -/
def packedOf : Run (EtreeDisk ℚ) Unit → Option (List (Entry ℚ))
  | .ok d _ => (d "o").map fun f => f.db.entries
  | _ => none

example : exEtree.Reliable ∧ exOrderFiles "p" = some "a b\n".toList ∧ exOrderFiles "q" = some "b\na ".toList ∧
    WordsOf "a b\n".toList ["a", "b"] ∧ EndsBlank "a b\n".toList ∧ WordsOf "b\na ".toList ["b", "a"] ∧ EndsBlank "b\na ".toList ∧
    ["a", "b"].Perm ["b", "a"] ∧
    packedOf (run exEtree exNumFmt exStored (some exGeom) exOrderFiles (fun _ => none) "p" "t" "o" "d" "s") =
      some [⟨⟨⟨0, 0, 0, 1⟩, .leaf⟩, exStored⟩, ⟨⟨⟨0, 0, 0x40000000, 1⟩, .leaf⟩, ⟨2000, 1500, 2500, 100, 50, 30, 3, 7⟩⟩] ∧
    packedOf (run exEtree exNumFmt exStored (some exGeom) exOrderFiles (fun _ => none) "q" "t" "o" "d" "s") =
      some [⟨⟨⟨0, 0, 0, 1⟩, .leaf⟩, exStored⟩, ⟨⟨⟨0, 0, 0x40000000, 1⟩, .leaf⟩, ⟨2000, 1500, 2500, 100, 50, 30, 3, 7⟩⟩] :=
  ⟨exEtree_reliable, by decide +kernel, by decide +kernel,
    WordsOf.cons (space := []) (w := ['a']) (t := " b\n".toList) (by simp) (by decide) (by decide +kernel) (by decide +kernel)
      (WordsOf.cons (space := [' ']) (w := ['b']) (t := ['\n']) (by decide) (by decide) (by decide +kernel) (by decide) (.nil (by decide))),
    by decide +kernel,
    WordsOf.cons (space := []) (w := ['b']) (t := "\na ".toList) (by simp) (by decide) (by decide +kernel) (by decide +kernel)
      (WordsOf.cons (space := ['\n']) (w := ['a']) (t := [' ']) (by decide) (by decide) (by decide +kernel) (by decide) (.nil (by decide))),
    by decide +kernel, List.Perm.swap _ _ _, by decide +kernel, by decide +kernel⟩

end CenCalVM
