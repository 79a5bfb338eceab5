/-
The whole run of the grader.
-/
import Verif.Lemmas.GradeBound

set_option linter.unusedSectionVars false

namespace CenCalVM

namespace VMCreator
variable {K : Type} [Field K] [LinearOrder K]

/-- Whatever fails, what the packing loop has written is a beginning of what there was. -/
theorem packLoop_prefix {env : EtreeEnv} {es out : List (Entry K)} {i : Nat} {r : Db K}
    (h : packLoop env i es ⟨out⟩ = .ok r ()) : ∃ k, r.entries = out ++ es.take k := by
  induction es generalizing i out with
  | nil => cases h; exact ⟨0, by simp⟩
  | cons e es ih =>
    unfold packLoop at h
    split at h
    · cases h
    · split at h
      · cases h
      · cases ha : Db.append ⟨out⟩ e with
        | none => rw [ha] at h; cases h
        | some d =>
          have hd : d = ⟨out ++ [e]⟩ := by
            unfold Db.append at ha
            split at ha
            · rename_i hn
              have : out = [] := by simpa using hn
              subst this
              cases ha; rfl
            · split at ha
              · cases ha; rfl
              · cases ha
          subst hd
          rw [ha] at h
          simp only at h
          split at h
          · cases h; exact ⟨1, by simp⟩
          · obtain ⟨k, hk⟩ := ih h
            exact ⟨k + 1, by simpa using hk⟩

theorem packDB_prefix {env : EtreeEnv} {disk disk' : EtreeDisk K} {packed unpacked : String} {f : EtreeFile K}
    (hf : disk unpacked = some f) (h : packDB env disk packed unpacked = .ok disk' ()) :
    ∃ f' k, disk' packed = some f' ∧ f'.db.entries = f.db.entries.take k := by
  unfold packDB at h
  simp only [hf] at h
  split at h
  · cases h
  split at h
  · cases h
  split at h
  · cases h
  split at h
  · cases h
  split at h
  · cases h
  split at h
  · cases h
  cases hl : packLoop env 0 f.db.entries Db.empty with
  | ub => rw [hl] at h; cases h
  | exc m o => rw [hl] at h; cases h
  | ok o _ =>
    rw [hl] at h
    simp only at h
    split at h
    · cases h
    · cases h
      obtain ⟨k, hk⟩ := packLoop_prefix (out := []) hl
      exact ⟨⟨o, some SCHEMA, f.appmeta⟩, k, by simp [EtreeDisk.set], by simpa using hk⟩

end VMCreator

namespace VsGrader
variable {K : Type} [Field K] [LinearOrder K] [IsStrictOrderedRing K] [FloorRing K]

theorem count_ok {rd : Rd K} {len res : K} {n : Nat} (hr : 0 < res) (h1 : (n : K) ≤ rd.double (1 + rd.double (len / res)))
    (h2 : rd.double (1 + rd.double (len / res)) < n + 1) (hn : n < 2 ^ 31) : count rd len res = .ok n := by
  have h0 : (0 : K) ≤ rd.double (1 + rd.double (len / res)) := (Nat.cast_nonneg n).trans h1
  have e : trunc (rd.double (1 + rd.double (len / res))) = (n : Int) := by
    unfold trunc
    rw [if_pos h0, Int.floor_eq_iff]
    exact ⟨by exact_mod_cast h1, by exact_mod_cast h2⟩
  unfold count
  simp only
  rw [if_neg hr.ne', e, if_pos ⟨by omega, by omega⟩]
  rfl

theorem Dims.counts {s : Grid K} {nL nW nH : Nat} (h : Dims s nL nW nH) :
    s.numLen = .ok nL ∧ s.numWidth = .ok nW ∧ s.numHt = .ok nH :=
  ⟨count_ok (mul_pos h.resVert h.vertExag) h.len.1 h.len.2 h.lenLt, count_ok (mul_pos h.resVert h.vertExag) h.width.1 h.width.2 h.widthLt,
    count_ok h.resVert h.ht.1 h.ht.2 h.htLt⟩

/-- The query object of the extraction. -/
theorem openQuery_ok {rd : Rd K} {g : Geom K} {type : Int} {res : K} {cacheSize : Int} {filename : String} {disk : String → Option (Db K)}
    {q : VMQuery K} (h : openQuery rd g type res cacheSize filename disk = .ok q) :
    q.queryVals = (List.range 8).map some ∧ q.squashTopo = false ∧ q.geom = some g ∧ q.db = disk filename ∧
      ∀ db, disk filename = some db → QueryFor rd g db type res q := by
  unfold openQuery at h
  simp only at h
  split at h
  · cases h
  · cases h
  rename_i q1 hq1
  have hvals : VMQuery.setQueryVals q1 valNames 8 = .ok { q1 with
      queryVals := (List.range 8).map some, err := (valNames.take 8).foldl VMQuery.nameErr q1.err } := by
    unfold VMQuery.setQueryVals
    have e : (valNames.take 8).map VMQuery.valueIndex = (List.range 8).map some := by decide +kernel
    simp only [show (8 : Int) > 0 from by decide, if_true, show (8 : Int).toNat = 8 from rfl,
      show 8 ≤ valNames.length from by decide, e]
  rw [hvals] at h
  cases h
  have ext : ∀ q : VMQuery K, q.filenameExt = "" → VMQuery.openExt disk q = .ok q := by
    intro q hq
    unfold VMQuery.openExt
    simp [hq]
  have fin : ∀ q0 : VMQuery K, VMQuery.openDb disk q0 = .ok q1 → q0.db = none → q0.dbExt = none → q0.filename = filename →
      q0.filenameExt = "" → q1.db = disk filename ∧ q1.dbExt = none ∧ q1.squashTopo = q0.squashTopo ∧ q1.geom = q0.geom ∧
        q1.queryFn = q0.queryFn ∧ q1.queryRes = q0.queryRes ∧ q1.rd = q0.rd := by
    intro q0 h0 h1 h2 h3 h4
    unfold VMQuery.openDb at h0
    unfold VMQuery.openMain at h0
    rw [h1, h3] at h0
    simp only at h0
    split at h0
    · cases hd : disk filename with
      | none =>
        rw [hd] at h0
        simp only [Outcome.bind_ok] at h0
        rw [ext] at h0
        · cases h0; exact ⟨rfl, h2, rfl, rfl, rfl, rfl, rfl⟩
        · exact h4
      | some d =>
        rw [hd] at h0
        simp only [Outcome.bind_ok] at h0
        rw [ext] at h0
        · cases h0; exact ⟨rfl, h2, rfl, rfl, rfl, rfl, rfl⟩
        · exact h4
    · cases h0
  have hset : ∀ q : VMQuery K, (VMQuery.setFilename (VMQuery.setCacheSize q cacheSize) filename) =
      { q with filename := filename, cacheSize := if cacheSize > 0 then cacheSize else q.cacheSize } := by
    intro q
    unfold VMQuery.setFilename VMQuery.setCacheSize
    split <;> rfl
  rw [hset] at hq1
  have hres : ∀ q : VMQuery K, VMQuery.setQueryRes q res = { q with queryRes := if res > 0 then res else q.queryRes } := by
    intro q
    unfold VMQuery.setQueryRes
    split <;> rfl
  rw [hres] at hq1
  have hty : ∃ fn err, VMQuery.queryType { VMQuery.init g with rd := rd } type = { VMQuery.init g with rd := rd, queryFn := fn, err := err } ∧
      ((type = 0 ∧ fn = .MAXRES) ∨ (type = 1 ∧ fn = .FIXEDRES) ∨ (type = 2 ∧ fn = .WAVERES) ∨
        (type ≠ 0 ∧ type ≠ 1 ∧ type ≠ 2 ∧ fn = .MAXRES)) := by
    unfold VMQuery.queryType
    split
    · rename_i h; exact ⟨_, _, rfl, Or.inl ⟨h, rfl⟩⟩
    · split
      · rename_i h; exact ⟨_, _, rfl, Or.inr (Or.inl ⟨h, rfl⟩)⟩
      · split
        · rename_i h; exact ⟨_, _, rfl, Or.inr (Or.inr (Or.inl ⟨h, rfl⟩))⟩
        · rename_i h0 h1 h2; exact ⟨_, _, rfl, Or.inr (Or.inr (Or.inr ⟨h0, h1, h2, rfl⟩))⟩
  obtain ⟨fn, err, ht, hfn⟩ := hty
  rw [ht] at hq1
  obtain ⟨f1, f2, f3, f4, f5, f6, f7⟩ := fin _ hq1 rfl rfl rfl rfl
  refine ⟨rfl, by rw [f3]; rfl, by rw [f4]; rfl, f1, fun db hdb => ⟨by rw [f4]; rfl, by rw [f1, hdb], f2, by rw [f3]; rfl,
    f7, ?_, ?_⟩⟩
  · rw [f5]; exact hfn
  · rw [f6]
    by_cases hr : 0 < res
    · exact Or.inl ⟨hr, by simp [hr]⟩
    · exact Or.inr ⟨not_lt.1 hr, by simp [hr, VMQuery.init]⟩

/-- What the extraction leaves in the temporary file. -/
theorem extract_ok {fmt : Fmt K} {env : EtreeEnv} {s : Grid K} {nm : Names K} {gq : Geom K} {fs : Files} {disk disk' : EtreeDisk K}
    {n nL nW nH : Nat} (hlv : s.geom.level s.resHoriz = .ok (n : Int)) (hgq : gq.Lawful)
    (hnL : s.numLen = .ok nL) (hnW : s.numWidth = .ok nW) (hnH : s.numHt = .ok nH) (hne : points nL nW nH ≠ [])
    (h : extract fmt env s nm gq fs disk = .ok disk' ()) :
    ∃ fi q f es, disk nm.fileIn = some fi ∧ QueryFor s.rd gq fi.db nm.queryType nm.queryRes q ∧ disk' nm.fileTmp = some f ∧
      f.db.Sorted ∧ f.db.entries.Perm es ∧ List.Forall₂ (ExtractedAt fmt q s n) (points nL nW nH) es ∧
      VMCreator.DistinctKeys es ∧ f.schema = some SCHEMA ∧
      (∀ name, name ≠ nm.fileTmp → disk' name = disk name) := by
  unfold extract at h
  split at h <;> try cases h
  rename_i q hq
  split at h <;> try cases h
  rename_i c u hc
  split at h
  · cases h
  split at h <;> try cases h
  rename_i w u' hw
  cases u
  cases u'
  obtain ⟨o1, o2, o3, o4, o5⟩ := openQuery_ok hq
  have hcdb : c = { VMCreator.init disk with filename := nm.fileTmp, pDB := some (nm.fileTmp,
      ⟨Db.empty, some SCHEMA, some (VMCreator.metainfo nm.description nm.stamp)⟩) } := by
    unfold VMCreator.openDB at hc
    split at hc
    · cases hc
    split at hc
    · cases hc
    split at hc
    · cases hc
    cases hc; rfl
  unfold extractLoops at hw
  simp only [hnL, hnW, hnH] at hw
  rw [loops_eq_each (fun pt w => extractPoint fmt env s pt.1 pt.2.1 pt.2.2 w)] at hw
  cases hd : disk nm.fileIn with
  | none =>
    exfalso
    rw [hd] at o4
    have o4 : q.db = none := o4
    cases hp : points nL nW nH with
    | nil => exact hne hp
    | cons pt pts =>
      rw [hp] at hw
      unfold each at hw
      unfold extractPoint at hw
      have hub : ∀ lon lat elev, VMQuery.query fmt q fs 8 lon lat elev = .ub := by
        intro lon lat elev
        unfold VMQuery.query
        rw [if_neg (by simp [o1]), o3, o4]
      split at hw
      · cases hw
      · cases hw
      · simp only [hub] at hw; cases hw
  | some fi =>
    have hqf := o5 fi.db (by simp [hd])
    obtain ⟨es, db, a1, a2, a3, a4, a5, a6⟩ := extractEach_ok hlv hgq hqf.geom hqf.db hqf.squash o1 (w := ⟨q, fs, c⟩)
      ⟨q.err, rfl⟩ (by rw [hcdb]) hw
    refine ⟨fi, q, ⟨db, some SCHEMA, some (VMCreator.metainfo nm.description nm.stamp)⟩, es, rfl, hqf, ?_, a3 List.Pairwise.nil, ?_, a1, a4, rfl, ?_⟩
    · rw [a6]
      simp [VMCreator.closeDB, EtreeDisk.set]
    · simpa [Db.empty] using a2
    · intro name hname
      rw [a6, hcdb]
      simp [VMCreator.closeDB, EtreeDisk.set, hname, VMCreator.init]

theorem separate_of_extracted {fmt : Fmt K} {q : VMQuery K} {s : Grid K} {n nL nW nH : Nat} {es : List (Entry K)}
    (hin : ∀ l < nL, ∀ w < nW, ∀ h < nH, ∃ a, PointCell s n l w h a)
    (hf : List.Forall₂ (ExtractedAt fmt q s n) (points nL nW nH) es) (hd : VMCreator.DistinctKeys es) :
    Separate s n nL nW nH := by
  refine ⟨hin, ?_⟩
  intro l hl w hw h hh l' hl' w' hw' h' hh' a a' ha ha' hk
  have cell : ∀ (i : Nat) (hi : i < (points nL nW nH).length) (hi' : i < es.length) (l w h : Nat) (a : Addr), PointCell s n l w h a →
      (points nL nW nH)[i] = (l, w, h) → es[i].addr = a := by
    intro i hi hi' l w h a ha he
    have := (List.forall₂_iff_get.1 hf).2 i hi hi'
    simp only [List.get_eq_getElem] at this
    obtain ⟨lon, lat, elev, p, code, b1, -, b3, -⟩ := this
    rw [he] at b1
    obtain ⟨lon', lat', elev', c1, c2⟩ := ha
    have e := (loc_of_pointAt b1).symm.trans (loc_of_pointAt c1)
    cases e
    have e := b3.symm.trans c2
    exact congrArg Prod.fst (Outcome.ok.inj e)
  obtain ⟨i, hi, ei⟩ := List.getElem_of_mem (mem_points.2 ⟨hl, hw, hh⟩)
  obtain ⟨j, hj, ej⟩ := List.getElem_of_mem (mem_points.2 ⟨hl', hw', hh'⟩)
  have hlen := hf.length_eq
  have c1 := cell i hi (by omega) _ _ _ _ ha ei
  have c2 := cell j hj (by omega) _ _ _ _ ha' ej
  have hij : i = j := by
    by_contra hne
    have hp := List.pairwise_iff_getElem.1 hd
    rcases Nat.lt_or_gt_of_ne hne with hlt | hlt
    · exact hp i j (by omega) (by omega) hlt (by rw [c1, c2]; exact hk)
    · exact hp j i (by omega) (by omega) hlt (by rw [c1, c2]; exact hk.symm)
  subst hij
  rw [ei] at ej
  simpa using ej

/-- What a run leaves in the output file. -/
theorem run_ok {fmt : Fmt K} {env : EtreeEnv} {s : Grid K} {nm : Names K} {gq : Geom K} {junk : Payload K} {fs : Files}
    {disk disk' : EtreeDisk K} {n nL nW nH : Nat} (hg : s.geom.Lawful) (hlv : s.geom.level s.resHoriz = .ok (n : Int)) (hgq : gq.Lawful)
    (hnL : s.numLen = .ok nL) (hnW : s.numWidth = .ok nW) (hnH : s.numHt = .ok nH) (hne : points nL nW nH ≠ [])
    (hin : ∀ l < nL, ∀ w < nW, ∀ h < nH, ∃ a, PointCell s n l w h a)
    (h : run fmt env s nm gq junk fs disk = .ok disk' ()) :
    ∃ fi q f V, disk nm.fileIn = some fi ∧ QueryFor s.rd gq fi.db nm.queryType nm.queryRes q ∧ disk' nm.fileOut = some f ∧
      OnGrid s n nL nW nH f.db ∧ f.db.entries.length = (points nL nW nH).length ∧
      (∀ l < nL, ∀ w < nW, ∀ h < nH, ∃ lon lat elev p, PointAt s l w h lon lat elev ∧ PayloadOf fmt q lon lat elev p ∧
        ExtractedFrom s.rd s.minVs p (V l w h)) ∧
      ∀ l < nL, ∀ w < nW, ∀ h < nH, ∀ p, PointPayload s n f.db l w h p ↔
          p = passes s.rd (s.rd.double (s.gradientMax * s.resHoriz)) (s.rd.double (s.gradientMax * s.resVert)) nL nW nH V l w h := by
  unfold run at h
  cases h1 : extract fmt env s nm gq fs disk with
  | exc m x => rw [h1] at h; cases h
  | ub => rw [h1] at h; cases h
  | ok disk1 u =>
    cases u
    rw [h1, Run.bind_ok] at h
    cases h2 : VMCreator.packDB env disk1 nm.fileOut nm.fileTmp with
    | exc m x => rw [h2] at h; cases h
    | ub => rw [h2] at h; cases h
    | ok disk2 u =>
      cases u
      rw [h2, Run.bind_ok] at h
      obtain ⟨fi, q, f, es, a1, a2, a3, a4, a5, a6, a7, -, -⟩ := extract_ok hlv hgq hnL hnW hnH hne h1
      obtain ⟨f2, k, b1, b2⟩ := VMCreator.packDB_prefix a3 h2
      rw [b1] at h
      simp only at h
      cases hgr : grade s junk f2.db with
      | exc m x => rw [hgr] at h; cases h
      | ub => rw [hgr] at h; cases h
      | ok db' u =>
        cases u
        rw [hgr] at h
        cases h
        have hsep := separate_of_extracted hin a6 a7
        have hsub : f2.db.entries.Sublist f.db.entries := by rw [b2]; exact List.take_sublist _ _
        have hsort : f2.db.Sorted := List.Pairwise.sublist hsub a4
        have hlev : f2.db.OneLevel n := by
          intro e he
          have he2 := a5.subset (hsub.subset he)
          obtain ⟨i, hi, rfl⟩ := List.getElem_of_mem he2
          have := (List.forall₂_iff_get.1 a6).2 i (by rw [a6.length_eq]; exact hi) hi
          simp only [List.get_eq_getElem] at this
          obtain ⟨lon, lat, elev, p, code, -, -, c3, -⟩ := this
          exact (hg.keeps _ _ _ _ _ _ c3).1
        obtain ⟨g1, g2, g3, V, g4, g5⟩ := grade_points hg hlv hnL hnW hnH hsep hsort hlev hgr
        have hval : ∀ l < nL, ∀ w < nW, ∀ h < nH, ∃ lon lat elev p, PointAt s l w h lon lat elev ∧
            PayloadOf fmt q lon lat elev p ∧ ExtractedFrom s.rd s.minVs p (V l w h) := by
          intro l hl w hw i hi
          obtain ⟨a, ha, e, he, hk, hV⟩ := (g4 l hl w hw i hi _).2 rfl
          obtain ⟨j, hj, ej⟩ := List.getElem_of_mem (a5.subset (hsub.subset he))
          have hj2 : j < (points nL nW nH).length := by rw [a6.length_eq]; exact hj
          have := (List.forall₂_iff_get.1 a6).2 j hj2 hj
          simp only [List.get_eq_getElem] at this
          obtain ⟨lon, lat, elev, p, code, c1, c2, c3, c4⟩ := this
          -- the octant is that of the point
          obtain ⟨j', hj', ej'⟩ := List.getElem_of_mem (mem_points.2 ⟨hl, hw, hi⟩)
          have hjl : j' < es.length := by rw [← a6.length_eq]; exact hj'
          have := (List.forall₂_iff_get.1 a6).2 j' hj' hjl
          simp only [List.get_eq_getElem] at this
          obtain ⟨lon', lat', elev', p', code', d1, d2, d3, d4⟩ := this
          rw [ej'] at d1
          have hcell : es[j'].addr = a := by
            obtain ⟨lo, la, el, e1, e2⟩ := ha
            have e := (loc_of_pointAt d1).symm.trans (loc_of_pointAt e1)
            cases e
            exact congrArg Prod.fst (Outcome.ok.inj (d3.symm.trans e2))
          have hjj : j = j' := by
            by_contra hne
            have hp := List.pairwise_iff_getElem.1 a7
            have e1 : es[j].addr.toKey = es[j'].addr.toKey := by rw [ej, hk, hcell]
            rcases Nat.lt_or_gt_of_ne hne with hlt | hlt
            · exact hp j j' hj hjl hlt e1
            · exact hp j' j hjl hj hlt e1.symm
          subst hjj
          refine ⟨lon', lat', elev', p', d1, d2, ?_⟩
          rw [← hV, ← ej]
          exact d4
        -- nothing was lost
        have hlen : f2.db.entries.length = (points nL nW nH).length := by
          have hle : f2.db.entries.length ≤ es.length := by rw [← a5.length_eq]; exact hsub.length_le
          have hge : es.length ≤ f2.db.entries.length := by
            have hnd : (es.map fun e => e.addr.toKey).Nodup := by
              rw [List.nodup_iff_pairwise_ne, List.pairwise_map]; exact a7
            have hss : (es.map fun e => e.addr.toKey) ⊆ (f2.db.entries.map fun e => e.addr.toKey) := by
              intro x hx
              obtain ⟨e, he, rfl⟩ := List.mem_map.1 hx
              obtain ⟨j, hj, rfl⟩ := List.getElem_of_mem he
              have hj2 : j < (points nL nW nH).length := by rw [a6.length_eq]; exact hj
              have := (List.forall₂_iff_get.1 a6).2 j hj2 hj
              simp only [List.get_eq_getElem] at this
              obtain ⟨lon, lat, elev, p, code, c1, c2, c3, c4⟩ := this
              have hm : (points nL nW nH)[j] ∈ points nL nW nH := List.getElem_mem hj2
              rcases hpt : (points nL nW nH)[j] with ⟨l, w, i⟩
              rw [hpt] at hm c1
              obtain ⟨hl, hw, hi⟩ := mem_points.1 hm
              obtain ⟨p0, a, ha, e0, he0, hk0, -⟩ := g1.stored l hl w hw i hi
              refine List.mem_map.2 ⟨e0, he0, ?_⟩
              rw [hk0]
              obtain ⟨lo, la, el, e1, e2⟩ := ha
              have e := (loc_of_pointAt c1).symm.trans (loc_of_pointAt e1)
              cases e
              exact (congrArg (fun x : Addr × Int => x.1.toKey) (Outcome.ok.inj (c3.symm.trans e2))).symm
            have := (List.subperm_of_subset hnd hss).length_le
            simpa using this
          have := a6.length_eq
          omega
        have hlen' : db'.entries.length = f2.db.entries.length := by
          have := congrArg List.length g3
          simpa using this
        exact ⟨fi, q, { f2 with db := db' }, V, a1, a2, by simp [EtreeDisk.set], g2, by rw [← hlen]; exact hlen', hval, g5⟩

theorem grade_dims {s : Grid K} {n nL nW nH : Nat} (hg : s.geom.Lawful)
    (hlv : s.geom.level (s.resVert * s.geom.vertExag) = .ok (n : Int)) (hd : Dims s nL nW nH) {db : Db K}
    (ho : OnGrid s n nL nW nH db) (junk : Payload K) :
    ∃ db', grade s junk db = .ok db' () ∧ OnGrid s n nL nW nH db' ∧ db'.entries.map (·.addr) = db.entries.map (·.addr) ∧
      ∃ V, (∀ l < nL, ∀ w < nW, ∀ h < nH, ∀ p, PointPayload s n db l w h p ↔ p = V l w h) ∧
        ∀ l < nL, ∀ w < nW, ∀ h < nH, ∀ p, PointPayload s n db' l w h p ↔
          p = passes s.rd (s.rd.double (s.gradientMax * s.resHoriz)) (s.rd.double (s.gradientMax * s.resVert)) nL nW nH V l w h := by
  obtain ⟨h1, h2, h3⟩ := hd.counts
  obtain ⟨db', h⟩ := grade_runs hg hlv h1 h2 h3 ho junk
  obtain ⟨-, g2, g3, g4⟩ := grade_points hg hlv h1 h2 h3 ho.separate ho.sorted ho.level h
  exact ⟨db', h, g2, g3, g4⟩

theorem _root_.CenCalVM.Rd.Exact.passes_eq {s : Grid K} (h : s.rd.Exact) (nL nW nH : Nat) (V : Nat → Nat → Nat → Payload K) (l w i : Nat) :
    passes s.rd (s.rd.double (s.gradientMax * s.resHoriz)) (s.rd.double (s.gradientMax * s.resVert)) nL nW nH V l w i =
      passes .exact (s.gradientMax * s.resHoriz) (s.gradientMax * s.resVert) nL nW nH V l w i := by
  rw [h.eq]; rfl

theorem Dims.res {s : Grid K} {nL nW nH : Nat} (hd : Dims s nL nW nH) (hm : 0 ≤ s.gradientMax) :
    0 ≤ s.gradientMax * s.resHoriz ∧ 0 ≤ s.gradientMax * s.resVert :=
  ⟨mul_nonneg hm (mul_pos hd.resVert hd.vertExag).le, mul_nonneg hm hd.resVert.le⟩

theorem openQuery_total (rd : Rd K) (g : Geom K) (type : Int) (res : K) (cacheSize : Int) (filename : String) (disk : String → Option (Db K)) :
    ∃ q, openQuery rd g type res cacheSize filename disk = .ok q := by
  have h1 : ∀ q : VMQuery K, q.db = none → q.filenameExt = "" → 0 < q.cacheSize → ∃ q', VMQuery.openDb disk q = .ok q' := by
    intro q h1 h2 h3
    unfold VMQuery.openDb VMQuery.openMain
    rw [h1]
    simp only [gt_iff_lt, h3, if_true]
    cases disk q.filename <;> simp [VMQuery.openExt, h2]
  have hp : ∀ q : VMQuery K, q.db = none → q.filenameExt = "" → 0 < q.cacheSize → ∃ q',
      VMQuery.openDb disk (VMQuery.setFilename (VMQuery.setCacheSize (VMQuery.setQueryRes (VMQuery.queryType q type) res) cacheSize)
        filename) = .ok q' := by
    intro q a b c
    refine h1 _ ?_ ?_ ?_ <;>
      (unfold VMQuery.setFilename VMQuery.setCacheSize VMQuery.setQueryRes VMQuery.queryType; split_ifs <;> first | exact a | exact b | exact c | assumption)
  obtain ⟨q, hq⟩ := hp { VMQuery.init g with rd := rd } rfl rfl (by simp [VMQuery.init])
  unfold openQuery
  simp only [hq]
  unfold VMQuery.setQueryVals
  exact ⟨_, rfl⟩

theorem points_head {nL nW nH : Nat} (h : 0 < nL ∧ 0 < nW ∧ 0 < nH) : ∃ rest, points nL nW nH = (0, 0, 0) :: rest := by
  obtain ⟨h1, h2, h3⟩ := h
  obtain ⟨a, rfl⟩ := Nat.exists_eq_succ_of_ne_zero h1.ne'
  obtain ⟨b, rfl⟩ := Nat.exists_eq_succ_of_ne_zero h2.ne'
  obtain ⟨c, rfl⟩ := Nat.exists_eq_succ_of_ne_zero h3.ne'
  unfold points
  simp only [Nat.succ_eq_add_one, List.range_succ_eq_map, List.flatMap_cons, List.map_cons, List.cons_append]
  exact ⟨_, rfl⟩

end VsGrader
end CenCalVM
