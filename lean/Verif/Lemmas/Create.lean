/-
Insertion, packing and reading of grid files.
-/
import Verif.Spec.Create
import Verif.Lemmas.Octree
import Verif.Lemmas.Search
import Mathlib.Data.List.TakeWhile

set_option linter.unusedSectionVars false

namespace CenCalVM

namespace Db
variable {K : Type}

theorem insertSorted_perm (e : Entry K) (l : List (Entry K)) : (insertSorted e l).Perm (e :: l) := by
  induction l with
  | nil => exact List.Perm.refl _
  | cons f l ih =>
    unfold insertSorted
    split
    · exact List.Perm.refl _
    · exact (ih.cons f).trans (List.Perm.swap e f l)

theorem insertSorted_mem {e x : Entry K} {l : List (Entry K)} : x ∈ insertSorted e l ↔ x = e ∨ x ∈ l := by
  rw [(insertSorted_perm e l).mem_iff, List.mem_cons]

theorem insertSorted_sorted {e : Entry K} {l : List (Entry K)} (hl : l.Pairwise fun a b => a.addr.zkey < b.addr.zkey)
    (hn : ∀ f ∈ l, f.addr.toKey ≠ e.addr.toKey) :
    (insertSorted e l).Pairwise fun a b => a.addr.zkey < b.addr.zkey := by
  induction l with
  | nil => simp [insertSorted]
  | cons f l ih =>
    obtain ⟨h1, h2⟩ := List.pairwise_cons.1 hl
    unfold insertSorted
    split
    · rename_i hlt
      refine List.pairwise_cons.2 ⟨fun x hx => ?_, hl⟩
      rcases List.mem_cons.1 hx with rfl | hx
      · exact hlt
      · exact lt_trans hlt (h1 x hx)
    · rename_i hlt
      refine List.pairwise_cons.2 ⟨fun x hx => ?_, ih h2 fun g hg => hn g (List.mem_cons_of_mem _ hg)⟩
      rcases insertSorted_mem.1 hx with rfl | hx
      · rcases lt_trichotomy f.addr.zkey x.addr.zkey with h | h | h
        · exact h
        · exact absurd (Key.zkey_inj h) (hn f List.mem_cons_self)
        · exact absurd h hlt
      · exact h1 x hx

theorem insert_some {db db' : Db K} {e : Entry K} (h : db.insert e = some db') :
    (∀ f ∈ db.entries, f.addr.toKey ≠ e.addr.toKey) ∧ db'.entries.Perm (e :: db.entries) ∧ (db.Sorted → db'.Sorted) := by
  unfold insert at h
  cases hl : db.lookup e.addr.toKey with
  | some f => rw [hl] at h; cases h
  | none =>
    rw [hl] at h
    cases h
    exact ⟨lookup_none hl, insertSorted_perm _ _, fun hs => insertSorted_sorted hs (lookup_none hl)⟩

theorem insert_none_iff {db : Db K} {e : Entry K} :
    db.insert e = none ↔ ∃ f ∈ db.entries, f.addr.toKey = e.addr.toKey := by
  unfold insert
  cases hl : db.lookup e.addr.toKey with
  | some f =>
    obtain ⟨h1, h2⟩ := lookup_some hl
    exact iff_of_true rfl ⟨f, h1, h2⟩
  | none =>
    refine iff_of_false (by simp) ?_
    rintro ⟨f, h1, h2⟩
    exact lookup_none hl f h1 h2

theorem append_next {out : List (Entry K)} {e : Entry K} (h : ∀ x ∈ out, x.addr.zkey < e.addr.zkey) :
    Db.append ⟨out⟩ e = some ⟨out ++ [e]⟩ := by
  unfold append
  cases hl : out.getLast? with
  | none => rw [List.getLast?_eq_none_iff] at hl; subst hl; rfl
  | some l => simp only; rw [if_pos (h l (List.mem_of_getLast? hl))]

end Db

namespace VMCreator
variable {K : Type} [Field K] [LinearOrder K]

/-- The packing loop copies what it visits. -/
theorem packLoop_ok {env : EtreeEnv} {es : List (Entry K)} {out : List (Entry K)} {i : Nat} {r : Db K}
    (hadv : ∀ j, i ≤ j → j + 1 < i + es.length → env.adv j = false)
    (h : packLoop env i es ⟨out⟩ = .ok r ()) : r.entries = out ++ es := by
  induction es generalizing i out with
  | nil => cases h; simp
  | cons e es ih =>
    unfold packLoop at h
    split at h
    · cases h
    · split at h
      · cases h
      · cases ha : Db.append ⟨out⟩ e with
        | none => rw [ha] at h; cases h
        | some d =>
          have hd : d = ⟨out ++ [e]⟩ := by
            unfold Db.append at ha
            split at ha
            · rename_i hn
              have : out = [] := by simpa using hn
              subst this
              cases ha; rfl
            · split at ha
              · cases ha; rfl
              · cases ha
          subst hd
          rw [ha] at h
          simp only at h
          cases es with
          | nil =>
            split at h
            · cases h; rfl
            · unfold packLoop at h; cases h; rfl
          | cons e' es =>
            rw [hadv i le_rfl (by simp)] at h
            simp only [Bool.false_eq_true, if_false] at h
            have := ih (i := i + 1) (out := out ++ [e]) (fun j hj hj' => hadv j (by omega) (by simp at hj' ⊢; omega)) h
            simpa using this

theorem packLoop_sorted {env : EtreeEnv} (he : env.Reliable) {es : List (Entry K)} {out : List (Entry K)} {i : Nat}
    (hs : (out ++ es).Pairwise fun a b => a.addr.zkey < b.addr.zkey) :
    packLoop env i es ⟨out⟩ = .ok ⟨out ++ es⟩ () := by
  induction es generalizing i out with
  | nil => simp [packLoop]
  | cons e es ih =>
    unfold packLoop
    rw [he.get, he.append, Db.append_next]
    · simp only [Bool.false_eq_true, if_false, he.adv]
      rw [ih (by simpa using hs)]
      simp
    · intro x hx
      exact (List.pairwise_append.1 hs).2.2 x hx e List.mem_cons_self

/-- Insertion unfolded. -/
theorem insert_eq {env : EtreeEnv} (he : env.Reliable) {g : Geom K} {n : Nat} {res : K}
    (hlv : g.level res = .ok (n : Int)) {c : Creator K} {name : String} {f : EtreeFile K}
    (hc : c.pDB = some (name, f)) {d : Datum K} {a : Addr} {code : Int}
    (ha : g.lonLatElevToAddr { x := 0, y := 0, z := 0, level := n, type := .leaf } d.lon d.lat d.elev = .ok (a, code)) :
    insert env c d.payload d.lon d.lat d.elev res (some g) =
      match f.db.insert ⟨a, d.payload⟩ with
      | none => .exc env.str c
      | some db => .ok { c with pDB := some (name, { f with db := db }) } () := by
  unfold insert
  simp only [hc, hlv]
  rw [if_neg (by omega)]
  simp only [Int.toNat_natCast, ha]
  unfold insertEntry
  rw [he.insert]; rfl

end VMCreator

/-! ### Reading -/

namespace Stream

theorem not_good_extract {α : Type} {scan : List Char → List Char × List Char} {conv : List Char → Option α} {bad : α}
    {s : Stream} {old : α} (h : s.good = false) : s.extract scan conv bad old = ({ s with fail := true }, old) := by
  unfold extract; rw [h]; rfl

end Stream

section
variable {K : Type} [Field K] [LinearOrder K]

theorem takeWhile_space (t : List Char) : ∀ c ∈ t.takeWhile Stream.isSpace, Stream.isSpace c = true := by
  intro c hc
  exact List.mem_takeWhile_imp hc

theorem dropWhile_append_space {space body : List Char} (h : ∀ c ∈ space, Stream.isSpace c = true)
    (hb : ∀ c ∈ body.head?, Stream.isSpace c = false) : (space ++ body).dropWhile Stream.isSpace = body := by
  induction space with
  | nil =>
    cases body with
    | nil => rfl
    | cons b bs => simp [hb b (by simp)]
  | cons s ss ih =>
    simp only [List.cons_append, List.dropWhile_cons, h s List.mem_cons_self, if_true]
    exact ih fun c hc => h c (List.mem_cons_of_mem _ hc)

theorem head_dropWhile (t : List Char) : ∀ c ∈ (t.dropWhile Stream.isSpace).head?, Stream.isSpace c = false := by
  induction t with
  | nil => simp
  | cons a t ih =>
    rw [List.dropWhile_cons]
    split
    · exact ih
    · rename_i h; intro c hc; simp at hc; subst hc; simpa using h

/-- A word determines what is read. -/
theorem extract_word {α : Type} {nf : NumFmt K} {conv : List Char → Option α} {bad old v : α} {s : Stream} {w t : List Char}
    (hs : s.good = true) (hw : Word nf s.rest w t) (hv : conv w = some v) :
    s.extract nf.scan conv bad old = (⟨t, t.isEmpty, false⟩, v) := by
  obtain ⟨sp, body, h1, h2, h3, h4, h5⟩ := hw
  unfold Stream.extract
  rw [hs, h1, dropWhile_append_space h2 h4]
  cases body with
  | nil => exact absurd rfl h3
  | cons b bs => simp only [Bool.not_true, Bool.false_eq_true, if_false, h5, hv]

/-- What is read without failure was a word. -/
theorem extract_ok {α : Type} {nf : NumFmt K} {conv : List Char → Option α} {bad old : α} {s : Stream}
    (h : (s.extract nf.scan conv bad old).1.fail = false) :
    s.good = true ∧ ∃ w t v, Word nf s.rest w t ∧ conv w = some v ∧
      s.extract nf.scan conv bad old = (⟨t, t.isEmpty, false⟩, v) := by
  cases hg : s.good with
  | false => rw [Stream.not_good_extract hg] at h; cases h
  | true =>
    refine ⟨rfl, ?_⟩
    have hd : s.rest = s.rest.takeWhile Stream.isSpace ++ s.rest.dropWhile Stream.isSpace :=
      (List.takeWhile_append_dropWhile).symm
    have hh := head_dropWhile s.rest
    unfold Stream.extract at h ⊢
    rw [hg] at h ⊢
    simp only [Bool.not_true, Bool.false_eq_true, if_false] at h ⊢
    cases hb : s.rest.dropWhile Stream.isSpace with
    | nil => rw [hb] at h; cases h
    | cons c cs =>
      rw [hb] at h
      simp only at h
      cases hv : conv (nf.scan (c :: cs)).1 with
      | none => rw [hv] at h; cases h
      | some v =>
        refine ⟨(nf.scan (c :: cs)).1, (nf.scan (c :: cs)).2, v, ⟨_, c :: cs, ?_, takeWhile_space s.rest, by simp, ?_, rfl⟩, hv, ?_⟩
        · rw [← hb]; exact hd
        · rw [← hb]; exact hh
        · simp only [hv]

theorem word_nonempty {nf : NumFmt K} {text w t : List Char} (h : Word nf text w t) : text ≠ [] := by
  obtain ⟨sp, body, rfl, -, h3, -, -⟩ := h
  simp [h3]

theorem good_of_word {nf : NumFmt K} {text w t : List Char} (h : Word nf text w t) :
    Stream.good ⟨text, text.isEmpty, false⟩ = true := by
  have := word_nonempty h
  cases text with
  | nil => exact absurd rfl this
  | cons a b => rfl

/-- What was read without failure was there. -/
theorem extract_back {α : Type} {nf : NumFmt K} {conv : List Char → Option α} {bad old v : α} {s : Stream} {t : List Char} {e : Bool}
    (h : s.extract nf.scan conv bad old = (⟨t, e, false⟩, v)) :
    s.eof = false ∧ s.fail = false ∧ e = t.isEmpty ∧ ∃ w, Word nf s.rest w t ∧ conv w = some v := by
  obtain ⟨h1, w, t', v', h2, h3, h4⟩ := extract_ok (nf := nf) (conv := conv) (bad := bad) (old := old) (s := s) (by rw [h])
  rw [h] at h4
  cases h4
  unfold Stream.good at h1
  simp only [Bool.and_eq_true, Bool.not_eq_eq_eq_not, Bool.not_true] at h1
  exact ⟨h1.1, h1.2, rfl, w, h2, h3⟩

theorem extract_fail {α : Type} {nf : NumFmt K} {conv : List Char → Option α} {bad old : α} {s : Stream}
    (h : s.fail = true) : s.extract nf.scan conv bad old = (s, old) := by
  rw [Stream.not_good_extract (by simp [Stream.good, h])]
  cases s; cases h; rfl

/-- A failed extraction leaves the old value or the one for malformed input. -/
theorem extract_failed {α : Type} {nf : NumFmt K} {conv : List Char → Option α} {bad old : α} {s : Stream}
    (h : (s.extract nf.scan conv bad old).1.fail = true) : (s.extract nf.scan conv bad old).2 = old ∨ (s.extract nf.scan conv bad old).2 = bad := by
  unfold Stream.extract at h ⊢
  split
  · exact Or.inl rfl
  · rename_i hg
    rw [if_neg hg] at h
    split at h
    · exact Or.inl rfl
    · simp only at h
      split at h
      · cases h
      · rename_i hv
        dsimp only
        rw [hv]
        exact Or.inr rfl

namespace GridIngester
open VMCreator
variable {nf : NumFmt K}

/-- A header is read exactly if it is there. -/
theorem readHeader_iff {text rest : List Char} {h : Header K} {e : Bool} :
    (HeaderText nf text h rest ∧ e = rest.isEmpty) ↔ readHeader nf (Stream.ofText text) = (⟨rest, e, false⟩, h) := by
  constructor
  · rintro ⟨⟨t1, t2, t3, t4, t5, ⟨w1, a1, b1⟩, ⟨w2, a2, b2⟩, ⟨w3, a3, b3⟩, ⟨w4, a4, b4⟩, ⟨w5, a5, b5⟩, w6, a6, b6⟩, rfl⟩
    unfold readHeader readReal readInt
    rw [extract_word (v := h.resHoriz) rfl a1 b1]
    dsimp only
    rw [extract_word (v := h.resVert) (good_of_word a2) a2 b2]
    dsimp only
    rw [extract_word (v := h.numX) (good_of_word a3) a3 b3]
    dsimp only
    rw [extract_word (v := h.numY) (good_of_word a4) a4 b4]
    dsimp only
    rw [extract_word (v := h.numZ) (good_of_word a5) a5 b5]
    dsimp only
    rw [extract_word (v := h.numTotal) (good_of_word a6) a6 b6]
  · intro hr
    unfold readHeader at hr
    rcases h1 : readReal nf (Stream.ofText text) 0 with ⟨⟨r1, e1, f1⟩, v1⟩
    rcases h2 : readReal nf ⟨r1, e1, f1⟩ 0 with ⟨⟨r2, e2, f2⟩, v2⟩
    rcases h3 : readInt nf ⟨r2, e2, f2⟩ 0 with ⟨⟨r3, e3, f3⟩, v3⟩
    rcases h4 : readInt nf ⟨r3, e3, f3⟩ 0 with ⟨⟨r4, e4, f4⟩, v4⟩
    rcases h5 : readInt nf ⟨r4, e4, f4⟩ 0 with ⟨⟨r5, e5, f5⟩, v5⟩
    rcases h6 : readInt nf ⟨r5, e5, f5⟩ 0 with ⟨⟨r6, e6, f6⟩, v6⟩
    simp only [h1, h2, h3, h4, h5, h6] at hr
    cases hr
    obtain ⟨x5, rfl, y6, q6⟩ := extract_back h6
    obtain ⟨x4, rfl, y5, q5⟩ := extract_back h5
    obtain ⟨x3, rfl, y4, q4⟩ := extract_back h4
    obtain ⟨x2, rfl, y3, q3⟩ := extract_back h3
    obtain ⟨x1, rfl, y2, q2⟩ := extract_back h2
    obtain ⟨-, -, y1, q1⟩ := extract_back h1
    exact ⟨⟨r1, r2, r3, r4, r5, q1, q2, q3, q4, q5, q6⟩, y6⟩

/-- A header that cannot be read declares no points. -/
theorem readHeader_fail {s : Stream} (h : (readHeader nf s).1.fail = true) : (readHeader nf s).2.numTotal = 0 := by
  unfold readHeader at h ⊢
  dsimp only at h ⊢
  rcases extract_failed h with h' | h'
  · exact h'
  · exact h'

/-- A data line is read with something left exactly if it is there and something follows. -/
theorem readPoint_iff {junk : Payload K} {s : Stream} {t : List Char} {p : Point K} :
    (s.good = true ∧ PointText nf s.rest p t ∧ t ≠ []) ↔ readPoint nf junk s = (⟨t, false, false⟩, p) := by
  constructor
  · rintro ⟨hs, ⟨t1, t2, t3, t4, t5, t6, t7, t8, t9, t10, t11, ⟨w1, a1, b1⟩, ⟨w2, a2, b2⟩, ⟨w3, a3, b3⟩, ⟨w4, a4, b4⟩, ⟨w5, a5, b5⟩,
      ⟨w6, a6, b6⟩, ⟨w7, a7, b7⟩, ⟨w8, a8, b8⟩, ⟨w9, a9, b9⟩, ⟨w10, a10, b10⟩, ⟨w11, a11, b11⟩, w12, a12, b12⟩, ht⟩
    unfold readPoint readReal readReal32 readInt readInt16
    rw [extract_word hs a1 b1]
    dsimp only
    rw [extract_word (good_of_word a2) a2 b2]
    dsimp only
    rw [extract_word (good_of_word a3) a3 b3]
    dsimp only
    rw [extract_word (good_of_word a4) a4 b4]
    dsimp only
    rw [extract_word (good_of_word a5) a5 b5]
    dsimp only
    rw [extract_word (good_of_word a6) a6 b6]
    dsimp only
    rw [extract_word (good_of_word a7) a7 b7]
    dsimp only
    rw [extract_word (good_of_word a8) a8 b8]
    dsimp only
    rw [extract_word (good_of_word a9) a9 b9]
    dsimp only
    rw [extract_word (good_of_word a10) a10 b10]
    dsimp only
    rw [extract_word (good_of_word a11) a11 b11]
    dsimp only
    rw [extract_word (good_of_word a12) a12 b12]
    cases t with
    | nil => exact absurd rfl ht
    | cons a b => rfl
  · intro hr
    unfold readPoint at hr
    rcases h1 : readReal nf s 0 with ⟨⟨r1, e1, f1⟩, v1⟩
    rcases h2 : readReal nf ⟨r1, e1, f1⟩ 0 with ⟨⟨r2, e2, f2⟩, v2⟩
    rcases h3 : readReal nf ⟨r2, e2, f2⟩ 0 with ⟨⟨r3, e3, f3⟩, v3⟩
    rcases h4 : readReal32 nf ⟨r3, e3, f3⟩ junk.vp with ⟨⟨r4, e4, f4⟩, v4⟩
    rcases h5 : readReal32 nf ⟨r4, e4, f4⟩ junk.vs with ⟨⟨r5, e5, f5⟩, v5⟩
    rcases h6 : readReal32 nf ⟨r5, e5, f5⟩ junk.density with ⟨⟨r6, e6, f6⟩, v6⟩
    rcases h7 : readReal32 nf ⟨r6, e6, f6⟩ junk.qp with ⟨⟨r7, e7, f7⟩, v7⟩
    rcases h8 : readReal32 nf ⟨r7, e7, f7⟩ junk.qs with ⟨⟨r8, e8, f8⟩, v8⟩
    rcases h9 : readReal32 nf ⟨r8, e8, f8⟩ junk.depth with ⟨⟨r9, e9, f9⟩, v9⟩
    rcases h10 : readInt16 nf ⟨r9, e9, f9⟩ junk.faultBlock with ⟨⟨r10, e10, f10⟩, v10⟩
    rcases h11 : readInt16 nf ⟨r10, e10, f10⟩ junk.zone with ⟨⟨r11, e11, f11⟩, v11⟩
    rcases h12 : readInt nf ⟨r11, e11, f11⟩ 0 with ⟨⟨r12, e12, f12⟩, v12⟩
    simp only [h1, h2, h3, h4, h5, h6, h7, h8, h9, h10, h11, h12] at hr
    cases hr
    obtain ⟨x11, rfl, y12, q12⟩ := extract_back h12
    obtain ⟨x10, rfl, y11, q11⟩ := extract_back h11
    obtain ⟨x9, rfl, y10, q10⟩ := extract_back h10
    obtain ⟨x8, rfl, y9, q9⟩ := extract_back h9
    obtain ⟨x7, rfl, y8, q8⟩ := extract_back h8
    obtain ⟨x6, rfl, y7, q7⟩ := extract_back h7
    obtain ⟨x5, rfl, y6, q6⟩ := extract_back h6
    obtain ⟨x4, rfl, y5, q5⟩ := extract_back h5
    obtain ⟨x3, rfl, y4, q4⟩ := extract_back h4
    obtain ⟨x2, rfl, y3, q3⟩ := extract_back h3
    obtain ⟨x1, rfl, y2, q2⟩ := extract_back h2
    obtain ⟨g1, g2, y1, q1⟩ := extract_back h1
    refine ⟨by simp [Stream.good, g1, g2], ⟨r1, r2, r3, r4, r5, r6, r7, r8, r9, r10, r11, q1, q2, q3, q4, q5, q6, q7, q8, q9, q10, q11, q12⟩, ?_⟩
    rintro rfl
    cases y12

theorem good_eq {s : Stream} (h : s.good = true) : s = ⟨s.rest, false, false⟩ := by
  cases s with | mk r e f => cases e <;> cases f <;> first | rfl | (cases h)

/-- What is stored for a point. -/
def datumOf (rd : Rd K) (p : Point K) : Datum K := ⟨convert rd p.payload, p.lon, p.lat, toMeters rd.double p.elev⟩

theorem toMeters_converted (rnd : K → K) (v : K) : Converted rnd v (toMeters rnd v) := by
  unfold Converted toMeters NODATAVAL
  by_cases h : v = -999
  · left; simp [h]
  · right; simp [h, mul_comm]

theorem datumOf_stored (rd : Rd K) (p : Point K) : StoredFor rd p (datumOf rd p) :=
  ⟨rfl, rfl, toMeters_converted _ _, toMeters_converted _ _, toMeters_converted _ _, toMeters_converted _ _, toMeters_converted _ _,
    rfl, rfl, rfl, rfl⟩

theorem converted_unique {rnd : K → K} {a b b' : K} (h : Converted rnd a b) (h' : Converted rnd a b') : b = b' := by
  rcases h with ⟨h1, h2⟩ | ⟨h1, h2⟩ <;> rcases h' with ⟨h3, h4⟩ | ⟨h3, h4⟩
  · rw [h2, h4]
  · exact absurd h1 h3
  · exact absurd h3 h1
  · rw [h2, h4]

theorem stored_eq {rd : Rd K} {p : Point K} {d : Datum K} (h : StoredFor rd p d) : d = datumOf rd p := by
  have h' := datumOf_stored rd p
  cases d with | mk pl lo la el =>
  cases pl with | mk a b c d e f g i =>
  have h1 := converted_unique h.elev h'.elev
  have h2 := converted_unique h.vp h'.vp
  have h3 := converted_unique h.vs h'.vs
  have h4 := converted_unique h.density h'.density
  have h5 := converted_unique h.depth h'.depth
  have h6 := h.qp; have h7 := h.qs; have h8 := h.faultBlock; have h9 := h.zone
  have h10 := h.lon; have h11 := h.lat
  dsimp only [datumOf, convert] at *
  subst h1 h2 h3 h4 h5 h6 h7 h8 h9 h10 h11
  rfl

theorem stored_map (rd : Rd K) (ps : List (Point K)) : List.Forall₂ (StoredFor rd) ps (ps.map (datumOf rd)) := by
  induction ps with
  | nil => exact .nil
  | cons p ps ih => exact .cons (datumOf_stored rd p) ih

theorem stored_map_eq {rd : Rd K} {ps : List (Point K)} {ds : List (Datum K)} (h : List.Forall₂ (StoredFor rd) ps ds) : ds = ps.map (datumOf rd) := by
  induction h with
  | nil => rfl
  | cons h _ ih => rw [stored_eq h, ih]; rfl

theorem keeps_iff (p : Point K) : keeps p.payload = decide (HasData p) := by
  unfold keeps HasData NODATABLOCK NODATAZONE; rfl

variable {env : EtreeEnv} {junk : Payload K} {g : Geom K} {res : K}

/-- The loop over the data lines, when it ends normally. -/
theorem pointLoop_ok {k : Nat} {s : Stream} {n m : Counts} {c c' : Creator K}
    (h : pointLoop env nf junk g res k s n c = .ok c' m) :
    ∃ pts rest, PointsText nf s.rest pts rest ∧ pts.length = k ∧
      m.added = n.added + pts.countP (fun p => decide (HasData p)) ∧
      m.ignored = n.ignored + pts.countP (fun p => !decide (HasData p)) ∧
      insertAll env g res ((pts.filter fun p => decide (HasData p)).map (datumOf nf.rd)) c = .ok c' () := by
  induction k generalizing s n c with
  | zero => cases h; exact ⟨[], s.rest, rfl, rfl, rfl, rfl, rfl⟩
  | succ k ih =>
    unfold pointLoop at h
    dsimp only at h
    cases hg : (readPoint nf junk s).1.good with
    | false => rw [hg] at h; cases h
    | true =>
      rw [hg] at h
      simp only [Bool.not_true, Bool.false_eq_true, if_false] at h
      rcases hr : readPoint nf junk s with ⟨s', p⟩
      rw [hr] at hg h
      dsimp only at hg h
      rw [good_eq hg] at hr
      obtain ⟨h1, h2, h3⟩ := readPoint_iff.2 hr
      rw [keeps_iff] at h
      by_cases hd : HasData p
      · rw [if_pos (by simpa using hd)] at h
        cases hi : insert env c (convert nf.rd p.payload) p.lon p.lat (toMeters nf.rd.double p.elev) res (some g) with
        | ub => rw [hi] at h; cases h
        | exc m cx => rw [hi] at h; cases h
        | ok cx _ =>
          rw [hi, Run.bind_ok] at h
          obtain ⟨pts, rest, a1, a2, a3, a4, a5⟩ := ih h
          refine ⟨p :: pts, rest, ⟨_, h2, h3, a1⟩, by simp [a2], ?_, ?_, ?_⟩
          · rw [a3, List.countP_cons_of_pos (by simpa using hd)]; dsimp only; omega
          · rw [a4, List.countP_cons_of_neg (by simpa using hd)]
          · rw [List.filter_cons_of_pos (by simpa using hd), List.map_cons]
            unfold insertAll
            dsimp only [datumOf]
            rw [hi]
            exact a5
      · rw [if_neg (by simpa using hd)] at h
        obtain ⟨pts, rest, a1, a2, a3, a4, a5⟩ := ih h
        refine ⟨p :: pts, rest, ⟨_, h2, h3, a1⟩, by simp [a2], ?_, ?_, ?_⟩
        · rw [a3, List.countP_cons_of_neg (by simpa using hd)]
        · rw [a4, List.countP_cons_of_pos (by simpa using hd)]; dsimp only; omega
        · rw [List.filter_cons_of_neg (by simpa using hd)]; exact a5

/-- The loop over data lines that are all there: the insertions decide. -/
theorem pointLoop_eq {pts : List (Point K)} {s : Stream} {rest : List Char} {n : Counts} {c : Creator K} (hs : s.good = true ∨ pts = [])
    (h : PointsText nf s.rest pts rest) :
    pointLoop env nf junk g res pts.length s n c =
      (insertAll env g res ((pts.filter fun p => decide (HasData p)).map (datumOf nf.rd)) c).bind fun c _ =>
        .ok c ⟨n.added + pts.countP (fun p => decide (HasData p)), n.ignored + pts.countP (fun p => !decide (HasData p))⟩ := by
  induction pts generalizing s n c with
  | nil => rfl
  | cons p pts ih =>
    obtain ⟨t, h1, h2, h3⟩ := h
    have hs' : s.good = true := by rcases hs with h | h; exact h; cases h
    have hr := (readPoint_iff (junk := junk)).1 ⟨hs', h1, h2⟩
    rw [List.length_cons]
    unfold pointLoop
    dsimp only
    rw [hr]
    dsimp only
    rw [if_neg (by simp [Stream.good]), keeps_iff]
    by_cases hd : HasData p
    · rw [if_pos (by simpa using hd), List.filter_cons_of_pos (by simpa using hd), List.map_cons,
        List.countP_cons_of_pos (by simpa using hd), List.countP_cons_of_neg (by simpa using hd)]
      unfold insertAll
      dsimp only [datumOf]
      cases hi : insert env c (convert nf.rd p.payload) p.lon p.lat (toMeters nf.rd.double p.elev) res (some g) with
      | ub => rfl
      | exc m cx => rfl
      | ok cx _ =>
        rw [Run.bind_ok, Run.bind_ok, ih (Or.inl rfl) h3]
        simp only [Nat.add_assoc, Nat.add_comm 1]
    · rw [if_neg (by simpa using hd), List.filter_cons_of_neg (by simpa using hd),
        List.countP_cons_of_neg (by simpa using hd), List.countP_cons_of_pos (by simpa using hd)]
      rw [ih (Or.inl rfl) h3]
      simp only [Nat.add_assoc, Nat.add_comm 1]

end GridIngester

namespace VMCreator

/-- The octant an insertion stores. -/
def Placed (g : Geom K) (n : Nat) (d : Datum K) (e : Entry K) : Prop :=
  e.payload = d.payload ∧ ∃ code,
    g.lonLatElevToAddr { x := 0, y := 0, z := 0, level := n, type := .leaf } d.lon d.lat d.elev = .ok (e.addr, code)

/-- No key occurs twice. -/
def DistinctKeys (es : List (Entry K)) : Prop := es.Pairwise fun a b => a.addr.toKey ≠ b.addr.toKey

theorem insert_ok {env : EtreeEnv} {g : Geom K} {n : Nat} {res : K} (hlv : g.level res = .ok (n : Int)) {c c' : Creator K}
    {name : String} {f : EtreeFile K} (hc : c.pDB = some (name, f)) {d : Datum K}
    (h : insert env c d.payload d.lon d.lat d.elev res (some g) = .ok c' ()) :
    ∃ e db, Placed g n d e ∧ f.db.insert e = some db ∧ c' = { c with pDB := some (name, { f with db := db }) } := by
  unfold insert at h
  simp only [hc, hlv] at h
  rw [if_neg (by omega)] at h
  simp only [Int.toNat_natCast] at h
  cases ha : g.lonLatElevToAddr ⟨⟨0, 0, 0, n⟩, .leaf⟩ d.lon d.lat d.elev with
  | exc m => rw [ha] at h; cases h
  | ub => rw [ha] at h; cases h
  | ok r =>
    rw [ha] at h
    simp only [insertEntry] at h
    split at h
    · cases h
    · split at h
      · cases h
      · rename_i db hdb
        cases h
        exact ⟨⟨r.1, d.payload⟩, db, ⟨rfl, r.2, ha⟩, hdb, rfl⟩

/-- A sequence of insertions that all succeed. -/
theorem insertAll_ok {env : EtreeEnv} {g : Geom K} {n : Nat} {res : K} (hlv : g.level res = .ok (n : Int)) {data : List (Datum K)}
    {c c' : Creator K} {name : String} {f : EtreeFile K} (hc : c.pDB = some (name, f))
    (h : insertAll env g res data c = .ok c' ()) :
    ∃ es db, List.Forall₂ (Placed g n) data es ∧ db.entries.Perm (es ++ f.db.entries) ∧
      c' = { c with pDB := some (name, { f with db := db }) } ∧ (f.db.Sorted → db.Sorted) ∧
      DistinctKeys es ∧ ∀ e ∈ es, ∀ x ∈ f.db.entries, x.addr.toKey ≠ e.addr.toKey := by
  induction data generalizing c f with
  | nil =>
    cases h
    refine ⟨[], f.db, .nil, List.Perm.refl _, ?_, id, List.Pairwise.nil, fun e he => by simp at he⟩
    cases c'; cases f; cases hc; rfl
  | cons d data ih =>
    unfold insertAll at h
    cases hi : insert env c d.payload d.lon d.lat d.elev res (some g) with
    | ub => rw [hi] at h; cases h
    | exc m cx => rw [hi] at h; cases h
    | ok cx _ =>
      rw [hi, Run.bind_ok] at h
      obtain ⟨e, db, h1, h2, rfl⟩ := insert_ok hlv hc hi
      obtain ⟨i1, i2, i3⟩ := Db.insert_some h2
      obtain ⟨es, db', a1, a2, a3, a4, a5, a6⟩ := ih (f := { f with db := db }) rfl h
      refine ⟨e :: es, db', .cons h1 a1, ?_, a3, fun hs => a4 (i3 hs), ?_, ?_⟩
      · refine a2.trans ?_
        refine (i2.append_left es).trans ?_
        simp
      · refine List.pairwise_cons.2 ⟨fun x hx => ?_, a5⟩
        exact a6 x hx e (i2.symm.subset List.mem_cons_self)
      · intro x hx y hy
        rcases List.mem_cons.1 hx with rfl | hx
        · exact i1 y hy
        · exact a6 x hx y (i2.symm.subset (List.mem_cons_of_mem _ hy))

theorem insert_run {env : EtreeEnv} (he : env.Reliable) {g : Geom K} {n : Nat} {res : K} (hlv : g.level res = .ok (n : Int))
    {c : Creator K} {name : String} {f : EtreeFile K} (hc : c.pDB = some (name, f)) {d : Datum K} {e : Entry K}
    (hp : Placed g n d e) :
    insert env c d.payload d.lon d.lat d.elev res (some g) =
      match f.db.insert e with
      | none => .exc env.str c
      | some db => .ok { c with pDB := some (name, { f with db := db }) } () := by
  obtain ⟨h1, code, h2⟩ := hp
  rw [insert_eq he hlv hc h2, ← h1]

/-- A sequence of insertions in different cells, none of them stored. -/
theorem insertAll_run {env : EtreeEnv} (he : env.Reliable) {g : Geom K} {n : Nat} {res : K} (hlv : g.level res = .ok (n : Int))
    {data : List (Datum K)} {es : List (Entry K)} (hp : List.Forall₂ (Placed g n) data es)
    {c : Creator K} {name : String} {f : EtreeFile K} (hc : c.pDB = some (name, f)) (hd : DistinctKeys es)
    (hn : ∀ e ∈ es, ∀ x ∈ f.db.entries, x.addr.toKey ≠ e.addr.toKey) :
    ∃ c', insertAll env g res data c = .ok c' () := by
  induction hp generalizing c f with
  | nil => exact ⟨c, rfl⟩
  | @cons d e data es h1 h2 ih =>
    unfold insertAll
    rw [insert_run he hlv hc h1]
    cases hi : f.db.insert e with
    | none =>
      obtain ⟨x, hx, hk⟩ := Db.insert_none_iff.1 hi
      exact absurd hk (hn e List.mem_cons_self x hx)
    | some db =>
      simp only [Run.bind_ok]
      obtain ⟨d1, d2⟩ := List.pairwise_cons.1 hd
      obtain ⟨i1, i2, i3⟩ := Db.insert_some hi
      refine ih (f := { f with db := db }) rfl d2 fun y hy x hx => ?_
      rcases List.mem_cons.1 (i2.subset hx) with rfl | hx
      · exact d1 y hy
      · exact hn y (List.mem_cons_of_mem _ hy) x hx

/-- If two of the insertions fall in one cell, or one falls in a stored one, an exception ends the sequence. -/
theorem insertAll_exc {env : EtreeEnv} (he : env.Reliable) {g : Geom K} {n : Nat} {res : K} (hlv : g.level res = .ok (n : Int))
    {data : List (Datum K)} {es : List (Entry K)} (hp : List.Forall₂ (Placed g n) data es)
    {c : Creator K} {name : String} {f : EtreeFile K} (hc : c.pDB = some (name, f))
    (hn : ¬ (DistinctKeys es ∧ ∀ e ∈ es, ∀ x ∈ f.db.entries, x.addr.toKey ≠ e.addr.toKey)) :
    ∃ m c', insertAll env g res data c = .exc m c' := by
  induction hp generalizing c f with
  | nil => exact absurd ⟨List.Pairwise.nil, fun e he => by simp at he⟩ hn
  | @cons d e data es h1 h2 ih =>
    unfold insertAll
    rw [insert_run he hlv hc h1]
    cases hi : f.db.insert e with
    | none => exact ⟨_, _, rfl⟩
    | some db =>
      simp only [Run.bind_ok]
      obtain ⟨i1, i2, i3⟩ := Db.insert_some hi
      refine ih (f := { f with db := db }) rfl fun ⟨a1, a2⟩ => hn ⟨?_, ?_⟩
      · exact List.pairwise_cons.2 ⟨fun x hx => a2 x hx e (i2.symm.subset List.mem_cons_self), a1⟩
      · intro y hy x hx
        rcases List.mem_cons.1 hy with rfl | hy
        · exact i1 x hx
        · exact a2 y hy x (i2.symm.subset (List.mem_cons_of_mem _ hx))

end VMCreator
end
end CenCalVM
