/-
Lemmas about console output.
-/
import Verif.Spec.Console
import Verif.Lemmas.Create

set_option linter.unusedSectionVars false

namespace CenCalVM
namespace Console
open GridIngester (Counts Point Header readPoint readHeader keeps convert toMeters tolerance ratioOff datumOf keeps_iff readPoint_iff
  good_eq)
open VMCreator (Creator)
variable {K : Type} [Field K] [LinearOrder K] [IsStrictOrderedRing K]

theorem concat_append (a b : List String) : concat (a ++ b) = concat a ++ concat b := by
  induction a with
  | nil => simp [concat]
  | cons s l ih => simp [concat, ih, String.append_assoc]

@[simp] theorem cout_true (con : Console) (t : String) : con.cout true t = con := rfl
@[simp] theorem cout_false (con : Console) (t : String) : con.cout false t = ⟨con.out ++ t, con.err⟩ := rfl
@[simp] theorem cerr_def (con : Console) (t : String) : con.cerr t = ⟨con.out, con.err ++ t⟩ := rfl

theorem ignoredLine_spec (fmt : Fmt K) (rd : Rd K) (p : Point K) : IgnoredLine fmt rd p (ignoredLine fmt rd p) := by
  refine ⟨toMeters rd.double p.elev, (GridIngester.datumOf_stored rd p).elev, ?_⟩
  unfold ignoredLine NODATABLOCK
  by_cases h : p.payload.faultBlock = 0
  · exact ⟨_, rfl, Or.inl ⟨by simp [h], h⟩⟩
  · exact ⟨_, rfl, Or.inr ⟨by simp [h], h⟩⟩

theorem ignoredLine_map (fmt : Fmt K) (rd : Rd K) (ps : List (Point K)) :
    List.Forall₂ (IgnoredLine fmt rd) ps (ps.map (ignoredLine fmt rd)) := by
  induction ps with
  | nil => exact .nil
  | cons p ps ih => exact .cons (ignoredLine_spec fmt rd p) ih

/-- An insertion that fails leaves the creator alone. -/
theorem insert_exc {env : EtreeEnv} {c c' : Creator K} {p : Payload K} {lon lat elev res : K} {g : Option (Geom K)} {m : String}
    (h : VMCreator.insert env c p lon lat elev res g = .exc m c') : c' = c := by
  unfold VMCreator.insert at h
  split at h
  · split at h
    · cases h; rfl
    · cases h
    · split at h
      · cases h
      · split at h
        · cases h; rfl
        · cases h
        · unfold VMCreator.insertEntry at h
          split at h
          · cases h; rfl
          · split at h
            · cases h; rfl
            · cases h
  · cases h

/-- What the loop over the data lines has done when it ends (`b`) or fails. -/
theorem pointLoop_trace {env : EtreeEnv} {fmt : Fmt K} {nf : NumFmt K} {junk : Payload K} {g : Geom K} {quiet : Bool} {res : K} {b : Bool}
    {k : Nat} {s : Stream} {t t' : Reading K}
    (h : (b = true ∧ pointLoop env fmt nf junk g quiet res k s t = .ok t' ()) ∨
      (b = false ∧ ∃ m, pointLoop env fmt nf junk g quiet res k s t = .exc m t')) :
    ∃ pts rest, PointsText nf s.rest pts rest ∧ (b = true → pts.length = k) ∧ (b = false → pts.length < k) ∧
      t'.counts.added = t.counts.added + pts.countP (fun p => decide (HasData p)) ∧
      t'.counts.ignored = t.counts.ignored + pts.countP (fun p => !decide (HasData p)) ∧
      insertAll env g res ((pts.filter fun p => decide (HasData p)).map (datumOf nf.rd)) t.creator = .ok t'.creator () ∧
      t'.con.out = t.con.out ∧
      t'.con.err = t.con.err ++ (if quiet then "" else concat ((pts.filter fun p => !decide (HasData p)).map (ignoredLine fmt nf.rd))) := by
  induction k generalizing s t with
  | zero =>
    rcases h with ⟨hb, h⟩ | ⟨_, m, h⟩
    · cases h; exact ⟨[], s.rest, rfl, fun _ => rfl, by simp [hb], rfl, rfl, rfl, rfl, by cases quiet <;> simp [concat]⟩
    · cases h
  | succ k ih =>
    unfold pointLoop at h
    dsimp only at h
    cases hg : (readPoint nf junk s).1.good with
    | false =>
      rw [hg] at h
      rcases h with ⟨_, h⟩ | ⟨hb, m, h⟩
      · cases h
      · cases h; exact ⟨[], s.rest, rfl, by simp [hb], fun _ => Nat.succ_pos _, rfl, rfl, rfl, rfl, by cases quiet <;> simp [concat]⟩
    | true =>
      rw [hg] at h
      simp only [Bool.not_true, Bool.false_eq_true, if_false] at h
      rcases hr : readPoint nf junk s with ⟨s', p⟩
      rw [hr] at hg h
      dsimp only at hg h
      rw [good_eq hg] at hr
      obtain ⟨h1, h2, h3⟩ := readPoint_iff.2 hr
      rw [keeps_iff] at h
      by_cases hd : HasData p
      · simp only [hd, decide_true, if_true] at h
        cases hi : VMCreator.insert env t.creator (convert nf.rd p.payload) p.lon p.lat (toMeters nf.rd.double p.elev) res (some g) with
        | ub => rw [hi] at h; rcases h with ⟨_, h⟩ | ⟨_, m, h⟩ <;> cases h
        | exc m cx =>
          rw [hi] at h
          rcases h with ⟨_, h⟩ | ⟨hb, m, h⟩
          · cases h
          · cases h
            cases insert_exc hi
            exact ⟨[], s.rest, rfl, by simp [hb], fun _ => Nat.succ_pos _, rfl, rfl, rfl, rfl, by cases quiet <;> simp [concat]⟩
        | ok cx _ =>
          rw [hi] at h
          dsimp only at h
          obtain ⟨pts, rest, a1, a2, a3, a4, a5, a6, a7, a8⟩ := ih h
          dsimp only at a4 a5 a6 a7 a8
          refine ⟨p :: pts, rest, ⟨_, h2, h3, a1⟩, fun hb => by simp [a2 hb], fun hb => by simp [a3 hb], ?_, ?_, ?_, a7, ?_⟩
          · rw [a4, List.countP_cons_of_pos (by simpa using hd)]; omega
          · rw [a5, List.countP_cons_of_neg (by simpa using hd)]
          · rw [List.filter_cons_of_pos (by simpa using hd), List.map_cons]
            unfold insertAll
            dsimp only [datumOf]
            rw [hi]
            exact a6
          · rw [a8, List.filter_cons_of_neg (by simpa using hd)]
      · simp only [hd, decide_false, Bool.false_eq_true, if_false] at h
        obtain ⟨pts, rest, a1, a2, a3, a4, a5, a6, a7, a8⟩ := ih h
        dsimp only at a4 a5 a6 a7 a8
        refine ⟨p :: pts, rest, ⟨_, h2, h3, a1⟩, fun hb => by simp [a2 hb], fun hb => by simp [a3 hb], ?_, ?_, ?_, ?_, ?_⟩
        · rw [a4, List.countP_cons_of_neg (by simpa using hd)]
        · rw [a5, List.countP_cons_of_pos (by simpa using hd)]; omega
        · rw [List.filter_cons_of_neg (by simpa using hd)]; exact a6
        · rw [a7]; cases quiet <;> rfl
        · rw [a8, List.filter_cons_of_pos (by simpa using hd)]
          cases quiet <;> simp [concat, String.append_assoc]

/-- Forgetting the console of a loop over data lines. -/
def Reading.drop (r : Run (Reading K) Unit) : Run (Creator K) Counts :=
  match r with
  | .ok t _ => .ok t.creator t.counts
  | .exc m t => .exc m t.creator
  | .ub => .ub

theorem pointLoop_drop {env : EtreeEnv} {fmt : Fmt K} {nf : NumFmt K} {junk : Payload K} {g : Geom K} {quiet : Bool} {res : K} {k : Nat}
    {s : Stream} {t : Reading K} :
    Reading.drop (pointLoop env fmt nf junk g quiet res k s t) = GridIngester.pointLoop env nf junk g res k s t.counts t.creator := by
  induction k generalizing s t with
  | zero => rfl
  | succ k ih =>
    unfold pointLoop GridIngester.pointLoop
    dsimp only
    split
    · rfl
    · split
      · cases VMCreator.insert env t.creator (convert nf.rd (readPoint nf junk s).2.payload) (readPoint nf junk s).2.lon
          (readPoint nf junk s).2.lat (toMeters nf.rd.double (readPoint nf junk s).2.elev) res (some g) with
        | ub => rfl
        | exc m c => rfl
        | ok c _ => exact ih
      · exact ih

/-- The same outcome and state, whatever the messages. -/
def Same {σ α : Type} : Run σ α → Run σ α → Prop
  | .ok s a, .ok s' a' => s = s' ∧ a = a'
  | .exc _ s, .exc _ s' => s = s'
  | .ub, .ub => True
  | _, _ => False

theorem Same.refl {σ α : Type} (r : Run σ α) : Same r r := by cases r <;> simp [Same]

/-- Forgetting the console. -/
def drop {σ α : Type} (r : Run (σ × Console) α) : Run σ α :=
  match r with
  | .ok t a => .ok t.1 a
  | .exc m t => .exc m t.1
  | .ub => .ub

theorem addGrid_drop {env : EtreeEnv} {fmt : Fmt K} {nf : NumFmt K} {junk : Payload K} {g : Option (Geom K)} {quiet : Bool}
    {files : String → Option (List Char)} {c : Creator K} {con : Console} {w : String} :
    Same (drop (addGrid env fmt nf junk g quiet files c con w))
      ((GridIngester.addGrid env nf junk g files c w).bind fun c _ => .ok c ()) := by
  unfold addGrid GridIngester.addGrid
  cases g with
  | none => exact trivial
  | some g =>
    dsimp only
    cases files w with
    | none => exact rfl
    | some text =>
      dsimp only
      unfold tryGrid
      dsimp only
      by_cases h1 : ratioOff nf.rd (nf.rd.double ((readHeader nf (Stream.ofText text)).2.resHoriz * 1000))
          (nf.rd.double ((readHeader nf (Stream.ofText text)).2.resVert * 1000)) g.vertExag (tolerance nf.rd) = true
      · rw [if_pos h1, if_pos h1]; exact rfl
      · rw [if_neg h1, if_neg h1]
        cases g.level (nf.rd.double ((readHeader nf (Stream.ofText text)).2.resHoriz * 1000)) with
        | exc m => exact rfl
        | ub => exact trivial
        | ok n =>
          dsimp only
          by_cases h2 : n < 0 ∨ 31 < n
          · rw [if_pos h2, if_pos h2]; exact trivial
          · rw [if_neg h2, if_neg h2]
            by_cases h3 : |nf.rd.double (1 - nf.rd.double (nf.rd.double ((readHeader nf (Stream.ofText text)).2.resHoriz * 1000) /
                g.edgeLen n.toNat))| > tolerance nf.rd
            · rw [if_pos h3, if_pos h3]; exact rfl
            · rw [if_neg h3, if_neg h3]
              have h := pointLoop_drop (env := env) (fmt := fmt) (nf := nf) (junk := junk) (g := g) (quiet := quiet)
                (res := nf.rd.double ((readHeader nf (Stream.ofText text)).2.resHoriz * 1000))
                (k := (readHeader nf (Stream.ofText text)).2.numTotal.toNat) (s := (readHeader nf (Stream.ofText text)).1)
                (t := ⟨c, con.cout quiet ("Beginning processing of '" ++ w ++ "'...\n"), ⟨0, 0⟩⟩)
              dsimp only at h
              rw [← h]
              cases pointLoop env fmt nf junk g quiet (nf.rd.double ((readHeader nf (Stream.ofText text)).2.resHoriz * 1000))
                (readHeader nf (Stream.ofText text)).2.numTotal.toNat (readHeader nf (Stream.ofText text)).1
                ⟨c, con.cout quiet ("Beginning processing of '" ++ w ++ "'...\n"), ⟨0, 0⟩⟩ with
              | ok t _ => exact ⟨rfl, rfl⟩
              | exc m t => exact rfl
              | ub => exact trivial

theorem addGrids_drop {env : EtreeEnv} {fmt : Fmt K} {nf : NumFmt K} {junk : Payload K} {g : Option (Geom K)} {quiet : Bool}
    {files : String → Option (List Char)} {ws : List String} {c : Creator K} {con : Console} :
    Same (drop (addGrids env fmt nf junk g quiet files ws c con)) (GridIngester.addGrids env nf junk g files ws c) := by
  induction ws generalizing c con with
  | nil => exact ⟨rfl, rfl⟩
  | cons w ws ih =>
    unfold addGrids GridIngester.addGrids
    have h := addGrid_drop (env := env) (fmt := fmt) (nf := nf) (junk := junk) (g := g) (quiet := quiet) (files := files) (c := c)
      (con := con) (w := w)
    cases h1 : addGrid env fmt nf junk g quiet files c con w with
    | ub =>
      rw [h1] at h
      cases h2 : GridIngester.addGrid env nf junk g files c w <;> rw [h2] at h <;> first | exact h.elim | exact trivial
    | exc m t =>
      rw [h1] at h
      cases h2 : GridIngester.addGrid env nf junk g files c w <;> rw [h2] at h <;> first | exact h.elim | exact h
    | ok t u =>
      rw [h1] at h
      cases h2 : GridIngester.addGrid env nf junk g files c w with
      | ub => rw [h2] at h; exact h.elim
      | exc m t => rw [h2] at h; exact h.elim
      | ok t' n =>
        rw [h2] at h
        obtain ⟨h3, -⟩ := h
        rw [Run.bind_ok, ← h3]
        exact ih

theorem packDB_drop {env : EtreeEnv} {quiet : Bool} {disk : EtreeDisk K} {a b : String} {con : Console} :
    drop (packDB env quiet disk a b con) = VMCreator.packDB env disk a b := by
  unfold packDB
  dsimp only
  cases VMCreator.packDB env disk a b <;> rfl

theorem run_drop {env : EtreeEnv} {fmt : Fmt K} {nf : NumFmt K} {junk : Payload K} {g : Option (Geom K)} {quiet : Bool}
    {files : String → Option (List Char)} {disk : EtreeDisk K} {params tmp out description stamp : String} {con : Console} :
    Same (drop (run env fmt nf junk g quiet files disk params tmp out description stamp con))
      (GridIngester.run env nf junk g files disk params tmp out description stamp) := by
  unfold run GridIngester.run
  cases files params with
  | none => exact rfl
  | some text =>
    dsimp only
    unfold openDB
    dsimp only
    cases VMCreator.openDB env (VMCreator.init disk) tmp description stamp with
    | ub => exact trivial
    | exc m c => exact rfl
    | ok c _ =>
      rw [Run.bind_ok]
      have h := addGrids_drop (env := env) (fmt := fmt) (nf := nf) (junk := junk) (g := g) (quiet := quiet) (files := files)
        (ws := GridIngester.readParams text) (c := c)
        (con := ((con.cout quiet ("Starting processing of " ++ toString (GridIngester.readParams text).length ++ " grid files.\n")).cout quiet
          ("Opening new etree database '" ++ tmp ++ "'.\n")).cout quiet "Finished preparing database.\n")
      dsimp only
      generalize addGrids env fmt nf junk g quiet files (GridIngester.readParams text) c _ = r at h ⊢
      generalize GridIngester.addGrids env nf junk g files (GridIngester.readParams text) c = r' at h ⊢
      cases r <;> cases r' <;> first | exact h.elim | skip
      · obtain ⟨h, -⟩ := h
        rw [← h, packDB_drop (quiet := quiet)]
        exact Same.refl _
      · have h : _ = _ := h
        rw [← h]; exact rfl
      · exact trivial

theorem finish_drop {r : Run (EtreeDisk K × Console) Unit} {r' : Run (EtreeDisk K) Unit} (h : Same (drop r) r') :
    files (finish r) = FileApps.finish r' := by
  cases r <;> cases r' <;> first | exact h.elim | skip
  · obtain ⟨h, -⟩ := h; rw [← h]; rfl
  · have h : _ = _ := h; rw [← h]; rfl
  · rfl

theorem average_drop {env : Averager.Env K} {size : String → Nat} {quiet : Bool} {disk : EtreeDisk K} {i o stamp : String} {con : Console} :
    Same (drop (average env size quiet disk i o stamp con)) (Averager.average env disk i o stamp) := by
  unfold average
  cases Averager.average env disk i o stamp with
  | ub => exact trivial
  | exc m d => exact rfl
  | ok d _ =>
    dsimp only
    split <;> exact ⟨rfl, rfl⟩

/-! ### Grammar -/

theorem pointsText_unique {nf : NumFmt K} {t : List Char} {ps ps' : List (Point K)} {r r' : List Char} (h : PointsText nf t ps r)
    (h' : PointsText nf t ps' r') (hl : ps.length = ps'.length) : ps = ps' := by
  induction ps generalizing t ps' with
  | nil => cases ps' with
    | nil => rfl
    | cons p ps' => cases hl
  | cons p ps ih => cases ps' with
    | nil => cases hl
    | cons p' ps' =>
      obtain ⟨t1, a1, a2, a3⟩ := h
      obtain ⟨t2, b1, b2, b3⟩ := h'
      have junk : Payload K := p.payload
      have e1 := (readPoint_iff (junk := junk) (s := ⟨t, false, false⟩)).1 ⟨rfl, a1, a2⟩
      have e2 := (readPoint_iff (junk := junk) (s := ⟨t, false, false⟩)).1 ⟨rfl, b1, b2⟩
      rw [e1] at e2
      cases e2
      rw [ih a3 b3 (by simpa using hl)]

theorem headerText_unique {nf : NumFmt K} {text : List Char} {h h' : Header K} {r r' : List Char} (a : HeaderText nf text h r)
    (b : HeaderText nf text h' r') : h = h' ∧ r = r' := by
  have e1 := GridIngester.readHeader_iff.1 ⟨a, rfl⟩
  have e2 := GridIngester.readHeader_iff.1 ⟨b, rfl⟩
  rw [e1] at e2
  cases e2
  exact ⟨rfl, rfl⟩

theorem gridCount_unique {nf : NumFmt K} {files : String → Option (List Char)} {w : String} {c c' : Nat}
    (h : FileApps.GridCount nf files w c) (h' : FileApps.GridCount nf files w c') : c = c' := by
  obtain ⟨text, hf, h⟩ := h
  obtain ⟨text', hf', h'⟩ := h'
  rw [hf] at hf'; cases hf'
  rcases h with ⟨hd, t, pts, t1, a1, a2, a3, a4⟩ | ⟨a1, a2⟩ <;> rcases h' with ⟨hd', t', pts', t1', b1, b2, b3, b4⟩ | ⟨b1, b2⟩
  · obtain ⟨rfl, rfl⟩ := headerText_unique a1 b1
    rw [a4, b4, pointsText_unique a2 b2 (a3.trans b3.symm)]
  · exact absurd a1 (b1 _ _)
  · exact absurd b1 (a1 _ _)
  · rw [a2, b2]

theorem GridReport.count {fmt : Fmt K} {nf : NumFmt K} {files : String → Option (List Char)} {w : String} {r : GridSays}
    (h : GridReport fmt nf files w r) : FileApps.GridCount nf files w r.added := by
  obtain ⟨-, text, hf, ⟨hd, t, pts, t', lines, a1, a2, a3, a4, -⟩ | ⟨a1, a2, -⟩⟩ := h
  · exact ⟨text, hf, Or.inl ⟨hd, t, pts, t', a1, a2, a3, a4⟩⟩
  · exact ⟨text, hf, Or.inr ⟨a1, a2⟩⟩

theorem counts_unique {fmt : Fmt K} {nf : NumFmt K} {files : String → Option (List Char)} {ws : List String} {rs : List GridSays}
    (h : List.Forall₂ (GridReport fmt nf files) ws rs) {cs : List Nat} (h' : List.Forall₂ (FileApps.GridCount nf files) ws cs) :
    rs.map GridSays.added = cs := by
  induction h generalizing cs with
  | nil => cases h'; rfl
  | cons hw _ ih =>
    cases h' with
    | cons hc h' => rw [List.map_cons, ih h', gridCount_unique hw.count hc]

/-! ### Reading grids -/

/-- What the `try` block has passed. -/
theorem tryGrid_ok {env : EtreeEnv} {fmt : Fmt K} {nf : NumFmt K} {junk : Payload K} {g : Geom K} {quiet : Bool} {w : String}
    {text : List Char} {t t' : Reading K} (h : tryGrid env fmt nf junk g quiet w text t = .ok t' ()) :
    pointLoop env fmt nf junk g quiet (nf.rd.double ((readHeader nf (Stream.ofText text)).2.resHoriz * 1000))
      (readHeader nf (Stream.ofText text)).2.numTotal.toNat (readHeader nf (Stream.ofText text)).1 t = .ok t' () := by
  unfold tryGrid at h
  dsimp only at h
  split at h
  · cases h
  · split at h
    · cases h
    · cases h
    · split at h
      · cases h
      · split at h
        · cases h
        · exact h

/-- Where the `try` block fails: before the first data line, or in the loop. -/
theorem tryGrid_exc {env : EtreeEnv} {fmt : Fmt K} {nf : NumFmt K} {junk : Payload K} {g : Geom K} {quiet : Bool} {w : String}
    {text : List Char} {t t' : Reading K} {m : String} (h : tryGrid env fmt nf junk g quiet w text t = .exc m t') :
    t' = t ∨
    pointLoop env fmt nf junk g quiet (nf.rd.double ((readHeader nf (Stream.ofText text)).2.resHoriz * 1000))
      (readHeader nf (Stream.ofText text)).2.numTotal.toNat (readHeader nf (Stream.ofText text)).1 t = .exc m t' := by
  unfold tryGrid at h
  dsimp only at h
  split at h
  · cases h; exact Or.inl rfl
  · split at h
    · cases h; exact Or.inl rfl
    · cases h
    · split at h
      · cases h
      · split at h
        · cases h; exact Or.inl rfl
        · exact Or.inr h

theorem countP_not (ps : List (Point K)) : ps.countP (fun p => !decide (HasData p)) = ps.countP (fun p => decide ¬ HasData p) := by
  congr 1; funext p; simp

theorem filter_not (ps : List (Point K)) : ps.filter (fun p => !decide (HasData p)) = ps.filter (fun p => decide ¬ HasData p) := by
  congr 1; funext p; simp

theorem addGrid_says {env : EtreeEnv} {fmt : Fmt K} {nf : NumFmt K} {junk : Payload K} {g : Geom K} {files : String → Option (List Char)}
    {c c' : Creator K} {con con' : Console} {w : String}
    (h : addGrid env fmt nf junk (some g) false files c con w = .ok (c', con') ()) :
    ∃ r, GridReport fmt nf files w r ∧ con'.out = con.out ++ r.out ∧ con'.err = con.err ++ r.err := by
  unfold addGrid at h
  dsimp only at h
  cases hf : files w with
  | none => rw [hf] at h; cases h
  | some text =>
    rw [hf] at h
    dsimp only at h
    split at h
    · cases h
    · cases h
    · rename_i t u ht
      cases h
      have hl := tryGrid_ok ht
      rcases hr : readHeader nf (Stream.ofText text) with ⟨⟨rest, e, fl⟩, hd⟩
      have e1 : ∀ a b : Nat, ("Beginning processing of '" ++ w ++ "'...\n") ++ ("Done procesing '" ++ w ++ "'.  # points added: " ++ toString a ++
          ",  # points ignored: " ++ toString b ++ "\n") =
          s!"Beginning processing of '{w}'...\n" ++ s!"Done procesing '{w}'.  # points added: {a},  # points ignored: {b}\n" := by
        intro a b
        simp only [String.append_assoc]
        rfl
      obtain ⟨D, hD⟩ : ∃ D : Nat → Nat → String, ∀ a b, D a b = ("Beginning processing of '" ++ w ++ "'...\n") ++
          ("Done procesing '" ++ w ++ "'.  # points added: " ++ toString a ++ ",  # points ignored: " ++ toString b ++ "\n") :=
        ⟨_, fun _ _ => rfl⟩
      cases fl with
      | true =>
        have h0 : (readHeader nf (Stream.ofText text)).2.numTotal = 0 := GridIngester.readHeader_fail (by rw [hr])
        rw [h0] at hl
        cases hl
        refine ⟨⟨0, 0, D 0 0, ""⟩, ⟨(hD _ _).trans (e1 _ _), text, hf, Or.inr ⟨fun hd' t' hh => ?_, rfl, rfl, rfl⟩⟩, ?_, ?_⟩
        · have := GridIngester.readHeader_iff.1 ⟨hh, rfl⟩
          rw [hr] at this
          cases this
        · rw [hD]; simp only [cout_false, String.append_assoc]
        · simp [cout_false]
      | false =>
        obtain ⟨hh, -⟩ := GridIngester.readHeader_iff.2 hr
        rw [hr] at hl
        obtain ⟨pts, t', h1, h2, -, h3, h4, -, h6, h7⟩ := pointLoop_trace (Or.inl ⟨rfl, hl⟩)
        dsimp only at h3 h4 h6 h7
        refine ⟨⟨t.counts.added, t.counts.ignored, D t.counts.added t.counts.ignored, _⟩, ⟨(hD _ _).trans (e1 _ _), text, hf, Or.inl ⟨hd, rest, pts, t', _, hh, h1, h2 rfl, ?_, ?_,
          ignoredLine_map _ _ _, rfl⟩⟩, ?_, ?_⟩
        · show t.counts.added = _
          rw [h3]; simp
        · show t.counts.ignored = _
          rw [h4, countP_not]; simp
        · rw [hD]; simp only [cout_false, h6, String.append_assoc]
        · rw [← filter_not]
          simp only [cout_false, h7, Bool.false_eq_true, if_false]

theorem addGrids_says {env : EtreeEnv} {fmt : Fmt K} {nf : NumFmt K} {junk : Payload K} {g : Geom K} {files : String → Option (List Char)}
    {ws : List String} {c c' : Creator K} {con con' : Console}
    (h : addGrids env fmt nf junk (some g) false files ws c con = .ok (c', con') ()) :
    ∃ rs, List.Forall₂ (GridReport fmt nf files) ws rs ∧ con'.out = con.out ++ concat (rs.map GridSays.out) ∧
      con'.err = con.err ++ concat (rs.map GridSays.err) := by
  induction ws generalizing c con with
  | nil => cases h; exact ⟨[], .nil, by simp [concat], by simp [concat]⟩
  | cons w ws ih =>
    unfold addGrids at h
    split at h
    · cases h
    · cases h
    · rename_i c1 con1 u h1
      obtain ⟨r, a1, a2, a3⟩ := addGrid_says h1
      obtain ⟨rs, b1, b2, b3⟩ := ih h
      refine ⟨r :: rs, .cons a1 b1, ?_, ?_⟩
      · rw [b2, a2]; simp [concat, String.append_assoc]
      · rw [b3, a3]; simp [concat, String.append_assoc]

/-! ### The name of the open file -/

theorem insert_filename {env : EtreeEnv} {c c' : Creator K} {p : Payload K} {lon lat elev res : K} {g : Option (Geom K)} {u : Unit}
    (h : VMCreator.insert env c p lon lat elev res g = .ok c' u) : c'.filename = c.filename := by
  unfold VMCreator.insert at h
  split at h
  · split at h
    · cases h
    · cases h
    · split at h
      · cases h
      · split at h
        · cases h
        · cases h
        · unfold VMCreator.insertEntry at h
          split at h
          · cases h
          · split at h
            · cases h
            · cases h; rfl
  · cases h

theorem pointLoop_filename {env : EtreeEnv} {fmt : Fmt K} {nf : NumFmt K} {junk : Payload K} {g : Geom K} {quiet : Bool} {res : K} {k : Nat}
    {s : Stream} {t t' : Reading K} (h : pointLoop env fmt nf junk g quiet res k s t = .ok t' ()) :
    t'.creator.filename = t.creator.filename := by
  induction k generalizing s t with
  | zero => cases h; rfl
  | succ k ih =>
    unfold pointLoop at h
    dsimp only at h
    split at h
    · cases h
    · split at h
      · split at h
        · cases h
        · cases h
        · rename_i hi
          rw [ih h]; exact insert_filename hi
      · have := ih h
        exact this

theorem addGrid_filename {env : EtreeEnv} {fmt : Fmt K} {nf : NumFmt K} {junk : Payload K} {g : Geom K} {quiet : Bool}
    {files : String → Option (List Char)} {c c' : Creator K} {con con' : Console} {w : String} {u : Unit}
    (h : addGrid env fmt nf junk (some g) quiet files c con w = .ok (c', con') u) : c'.filename = c.filename := by
  unfold addGrid at h
  dsimp only at h
  split at h
  · cases h
  · split at h
    · cases h
    · cases h
    · rename_i ht
      cases h
      exact pointLoop_filename (tryGrid_ok ht)

theorem addGrids_filename {env : EtreeEnv} {fmt : Fmt K} {nf : NumFmt K} {junk : Payload K} {g : Geom K} {quiet : Bool}
    {files : String → Option (List Char)} {ws : List String} {c c' : Creator K} {con con' : Console} {u : Unit}
    (h : addGrids env fmt nf junk (some g) quiet files ws c con = .ok (c', con') u) : c'.filename = c.filename := by
  induction ws generalizing c con with
  | nil => cases h; rfl
  | cons w ws ih =>
    unfold addGrids at h
    split at h
    · cases h
    · cases h
    · rename_i h1
      rw [ih h]; exact addGrid_filename h1

/-! ### Quiet runs -/

theorem addGrid_quiet {env : EtreeEnv} {fmt : Fmt K} {nf : NumFmt K} {junk : Payload K} {g : Option (Geom K)}
    {files : String → Option (List Char)} {c : Creator K} {con : Console} {w : String} :
    (∀ c' con' u, addGrid env fmt nf junk g true files c con w = .ok (c', con') u → con' = con) ∧
    ∀ m c' con', addGrid env fmt nf junk g true files c con w = .exc m (c', con') → con'.out = con.out := by
  constructor
  · intro c' con' u h
    unfold addGrid at h
    split at h
    · cases h
    · split at h
      · cases h
      · split at h
        · cases h
        · cases h
        · rename_i t _ ht
          cases h
          obtain ⟨_, _, _, _, _, _, _, _, h6, h7⟩ := pointLoop_trace (Or.inl ⟨rfl, tryGrid_ok ht⟩)
          rw [cout_true]
          rw [cout_true] at h6 h7
          rcases t with ⟨a, ⟨o, e⟩, n⟩
          rcases con with ⟨o', e'⟩
          simp at h6 h7
          rw [h6, h7]
  · intro m c' con' h
    unfold addGrid at h
    split at h
    · cases h
    · split at h
      · cases h; rfl
      · split at h
        · cases h
        · rename_i t ht
          cases h
          rcases tryGrid_exc ht with rfl | ht
          · rfl
          · obtain ⟨_, _, _, _, _, _, _, _, h6, _⟩ := pointLoop_trace (Or.inr ⟨rfl, _, ht⟩)
            exact h6
        · cases h

theorem addGrids_quiet {env : EtreeEnv} {fmt : Fmt K} {nf : NumFmt K} {junk : Payload K} {g : Option (Geom K)}
    {files : String → Option (List Char)} {ws : List String} {c : Creator K} {con : Console} :
    (∀ c' con' u, addGrids env fmt nf junk g true files ws c con = .ok (c', con') u → con' = con) ∧
    ∀ m c' con', addGrids env fmt nf junk g true files ws c con = .exc m (c', con') → con'.out = con.out := by
  induction ws generalizing c con with
  | nil => exact ⟨fun _ _ _ h => by cases h; rfl, fun _ _ _ h => by cases h⟩
  | cons w ws ih =>
    unfold addGrids
    cases h1 : addGrid env fmt nf junk g true files c con w with
    | ub => exact ⟨fun _ _ _ h => (by cases h), fun _ _ _ h => (by cases h)⟩
    | exc m t => exact ⟨fun _ _ _ h => (by cases h), fun _ _ _ h => (by cases h; exact addGrid_quiet.2 _ _ _ h1)⟩
    | ok t u =>
      obtain ⟨c1, con1⟩ := t
      have := addGrid_quiet.1 _ _ _ h1
      subst this
      exact ih

end Console
end CenCalVM
