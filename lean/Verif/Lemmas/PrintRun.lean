/-
The lines that the query program prints: where their numbers come from, and their text.
-/
import Verif.Lemmas.Print
import Verif.Lemmas.Query
import Verif.Lemmas.QueryApp
import Verif.Lemmas.Search

set_option linter.unusedSectionVars false

namespace CenCalVM

namespace Print

theorem bind_eq_ok {α β : Type} {x : Outcome α} {f : α → Outcome β} {b : β} (h : (x >>= f) = .ok b) : ∃ a, x = .ok a ∧ f a = .ok b := by
  cases x with
  | ok a => exact ⟨a, rfl, h⟩
  | exc m => cases h
  | ub => cases h

end Print

namespace VMQuery
open Print
variable {K : Type} [Field K] [LinearOrder K]

theorem search_entry {db : Db K} {k : Key} {e : Entry K} (h : db.search k = some e) : e ∈ db.entries := by
  unfold Db.search at h
  generalize k.level = n at h
  induction n with
  | zero => exact List.mem_of_find?_eq_some h
  | succ n ih =>
    unfold Db.searchFrom at h
    split at h
    · rename_i e' he
      cases h
      exact List.mem_of_find?_eq_some he
    · exact ih h

/-- What holds of no data, of the payloads stored and of means holds of the payload a query takes. -/
theorem runQueryFn_payload {P : Payload K → Prop} (h0 : P noDataPayload) {fmt : Fmt K} {q : VMQuery K} {g : Geom K} {h : ErrorHandler}
    {addr : Addr} {db : Db K} {lon lat elev : K} {u : Bool} (hdb : ∀ e ∈ db.entries, P e.payload)
    (hav : ∀ c p, P c → P p → P (waveAverage q.rd c p)) {r : Payload K × Addr × ErrorHandler}
    (hr : runQueryFn fmt q g h addr db lon lat elev u = .ok r) : P r.1 := by
  unfold runQueryFn at hr
  cases hq : q.queryFn with
  | MAXRES =>
    rw [hq] at hr
    obtain ⟨p, hp, he⟩ := bind_eq_ok hr
    cases he
    have key : ∀ a : Addr × Int, (if a.2 ≠ 0 then Outcome.ok (noDataPayload, a.1) else match db.search a.1.toKey with
        | none => .ok (noDataPayload, a.1)
        | some e => if e.addr.type = .interior then .ok (noDataPayload, a.1) else .ok (e.payload, a.1)) = .ok p → P p.1 := by
      intro a hp
      split at hp
      · cases hp; exact h0
      · split at hp
        · cases hp; exact h0
        · rename_i e he
          split at hp
          · cases hp; exact h0
          · cases hp; exact hdb e (search_entry he)
    unfold queryMax at hp
    dsimp only at hp
    split at hp
    · obtain ⟨a, -, hp⟩ := bind_eq_ok hp
      exact key a hp
    · obtain ⟨a, -, hp⟩ := bind_eq_ok hp
      exact key a hp
  | FIXEDRES =>
    rw [hq] at hr
    obtain ⟨p, hp, he⟩ := bind_eq_ok hr
    cases he
    have key : ∀ a : Addr × Int, (if a.2 ≠ 0 then Outcome.ok (noDataPayload, a.1) else match db.search a.1.toKey with
        | none => .ok (noDataPayload, a.1)
        | some e => if e.addr.type = .interior ∧ a.1.level > e.addr.level then .ok (noDataPayload, a.1) else .ok (e.payload, a.1)) = .ok p → P p.1 := by
      intro a hp
      split at hp
      · cases hp; exact h0
      · split at hp
        · cases hp; exact h0
        · rename_i e he
          split at hp
          · cases hp; exact h0
          · cases hp; exact hdb e (search_entry he)
    unfold queryFixed at hp
    dsimp only at hp
    split at hp
    · obtain ⟨a, -, hp⟩ := bind_eq_ok hp
      exact key a hp
    · obtain ⟨n, -, hp⟩ := bind_eq_ok hp
      split at hp
      · cases hp
      · obtain ⟨a, -, hp⟩ := bind_eq_ok hp
        exact key a hp
  | WAVERES =>
    rw [hq] at hr
    dsimp only at hr
    have key : ∀ a : Addr × Int, (if a.2 ≠ 0 then Outcome.ok (noDataPayload, a.1, h) else match db.search a.1.toKey with
        | none => .ok (noDataPayload, a.1, h)
        | some e =>
          if e.addr.type = .interior ∧ quotGt q.rd (g.edgeLen e.addr.level) e.payload.vs (g.vertExag * q.queryRes) = true then
            .ok (noDataPayload, a.1, h)
          else do
            match ← waveLoop q.rd g db (g.vertExag * q.queryRes) e.addr.level e.payload e with
            | .reached child last => .ok (waveAverage q.rd child last, a.1, h)
            | .orphan parent child =>
              .ok (e.payload, a.1, h.warning (orphanMessage fmt parent child lon lat elev))) = .ok r → P r.1 := by
      intro a hr
      split at hr
      · cases hr; exact h0
      · split at hr
        · cases hr; exact h0
        · rename_i e he
          split at hr
          · cases hr; exact h0
          · obtain ⟨w, hw, hr⟩ := bind_eq_ok hr
            have hl : ∀ n c (res : Entry K), P c → P res.payload → ∀ w, waveLoop q.rd g db (g.vertExag * q.queryRes) n c res = .ok w →
                ∀ c' l', w = .reached c' l' → P c' ∧ P l' := by
              intro n
              induction n with
              | zero =>
                intro c res hc hres w hw c' l' hwe
                cases hw; cases hwe
                exact ⟨hc, hres⟩
              | succ n ih =>
                intro c res hc hres w hw c' l' hwe
                unfold waveLoop at hw
                split at hw
                · split at hw
                  · split at hw
                    · cases hw; cases hwe
                    · rename_i e' he'
                      exact ih _ _ hres (hdb e' (search_entry he')) w hw c' l' hwe
                  · cases hw
                  · cases hw
                · cases hw; cases hwe
                  exact ⟨hc, hres⟩
            have hpe := hdb e (search_entry he)
            have := hl _ _ e hpe hpe w hw
            cases w with
            | reached c l => cases hr; exact hav c l (this c l rfl).1 (this c l rfl).2
            | orphan a b => cases hr; exact hpe
    unfold queryWave at hr
    dsimp only at hr
    split at hr
    · obtain ⟨a, -, hr⟩ := bind_eq_ok hr
      exact key a hr
    · obtain ⟨a, -, hr⟩ := bind_eq_ok hr
      exact key a hr

theorem fetch_payload {P : Payload K → Prop} (h0 : P noDataPayload) {fmt : Fmt K} {q : VMQuery K} {g : Geom K}
    {addr : Addr} {db : Db K} {lon lat elev : K} (hdb : ∀ e ∈ db.entries, P e.payload)
    (hext : ∀ x, q.dbExt = some x → ∀ e ∈ x.entries, P e.payload)
    (hav : ∀ c p, P c → P p → P (waveAverage q.rd c p)) {f : Fetched K}
    (hf : fetch fmt q g db addr lon lat elev = .ok f) : P f.payload := by
  unfold fetch at hf
  obtain ⟨r, -, hf⟩ := bind_eq_ok hf
  obtain ⟨p, hp, hf⟩ := bind_eq_ok hf
  split at hf
  · split at hf
    · cases hf; exact runQueryFn_payload h0 hdb hav hp
    · rename_i x hx
      obtain ⟨p', hp', hf⟩ := bind_eq_ok hf
      cases hf
      exact runQueryFn_payload h0 (hext x hx) hav hp'
  · cases hf; exact runQueryFn_payload h0 hdb hav hp

/-- The elevation of a query is that of an octant stored, or no data. -/
theorem queryElev_value {rd : Rd K} {g : Geom K} {db : Db K} {ext : Option (Db K)} {addr : Addr} {lon lat elev : K} {r : K × Addr}
    (h : queryElev rd g db ext addr lon lat elev false = .ok r) :
    r.1 = NODATAVAL ∨ ∃ e c, (e ∈ db.entries ∧ e.addr.type ≠ .interior ∨ ∃ x, ext = some x ∧ e ∈ x.entries) ∧ g.addrToLonLatElev e.addr = .ok c ∧
      r.1 = rd.double (c.2.2 + e.payload.depth) := by
  unfold queryElev at h
  obtain ⟨a1, -, h⟩ := bind_eq_ok h
  split at h
  · cases h; exact Or.inl rfl
  · rename_i e d he
    obtain ⟨c, hc, h⟩ := bind_eq_ok h
    dsimp only at h
    obtain ⟨a2, -, h⟩ := bind_eq_ok h
    rw [if_neg (by simp)] at h
    cases h
    refine Or.inr ⟨e, c, ?_, hc, rfl⟩
    have hext : ∀ {p : Entry K × Db K}, elevOctantExt ext a1.1.toKey = some p → ∃ x, ext = some x ∧ p.1 ∈ x.entries := by
      intro p hp
      unfold elevOctantExt at hp
      split at hp
      · cases hp
      · rename_i x
        cases hs : x.search a1.1.toKey with
        | none => rw [hs] at hp; cases hp
        | some e => rw [hs] at hp; cases hp; exact ⟨x, rfl, search_entry hs⟩
    unfold elevOctant at he
    split at he
    · rename_i e' he'
      split at he
      · exact Or.inr (hext he)
      · rename_i hi
        cases he; exact Or.inl ⟨search_entry he', hi⟩
    · exact Or.inr (hext he)

end VMQuery

namespace QueryApp
open Print VMQuery
variable {K : Type} [Field K] [LinearOrder K]

/-- A query object that asks for all values in the usual order and computes exactly, and what is known of its databases. -/
def Asks (Q X : Db K → Prop) (g : Geom K) (q : VMQuery K) : Prop :=
  q.queryVals = (List.range 9).map some ∧ q.geom = some g ∧ q.rd = Rd.exact ∧ (∀ d, q.db = some d → Q d) ∧ ∀ d, q.dbExt = some d → X d

/-- The nine values of a line, given what holds of the payloads and the elevations. -/
def Answers (P : Payload K → Prop) (E : K → Prop) (vals : List K) : Prop :=
  ∃ p e, P p ∧ E e ∧ vals = [p.vp, p.vs, p.density, p.qp, p.qs, p.depth, (p.faultBlock : K), (p.zone : K), e]

theorem query_answers {Q X : Db K → Prop} {P : Payload K → Prop} {E : K → Prop} {g : Geom K} (h0 : P noDataPayload)
    (hQP : ∀ d, Q d ∨ X d → ∀ e ∈ d.entries, P e.payload) (hav : ∀ c p, P c → P p → P (waveAverage Rd.exact c p))
    (hE0 : E NODATAVAL) (hE : ∀ d e, (Q d ∧ e ∈ d.entries ∧ e.addr.type ≠ .interior ∨ X d ∧ e ∈ d.entries) → ∀ c, g.addrToLonLatElev e.addr = .ok c →
      E (c.2.2 + e.payload.depth))
    {fmt : Fmt K} {q q' : VMQuery K} {fs fs' : Files} {lon lat elev : K} {vals : List K} (hq : Asks Q X g q)
    (h : query fmt q fs 9 lon lat elev = .ok (q', fs', vals)) :
    Asks Q X g q' ∧ (q'.err.status ≠ .ERROR → Answers P E vals) := by
  obtain ⟨a1, a2, a3, a4, a5⟩ := hq
  obtain ⟨-, g', db, f, s, hg, hdb, hf, -, hc, rfl⟩ := query_ok h
  refine ⟨⟨a1, a2, a3, a4, a5⟩, fun herr => ?_⟩
  obtain rfl : g' = g := by rw [a2] at hg; cases hg; rfl
  have hp : P f.payload := fetch_payload h0 (hQP db (Or.inl (a4 db hdb))) (fun x hx => hQP x (Or.inr (a5 x hx))) (by rw [a3]; exact hav) hf
  rw [a1] at hc
  simp only [show (List.range 9).map some = [some 0, some 1, some 2, some 3, some 4, some 5, some 6, some 7, some 8] from rfl,
    copyValues, copyValue, Outcome.bind_ok] at hc
  cases he : queryElev q.rd g' db q.dbExt f.addr lon lat elev false with
  | ub => rw [he] at hc; cases hc
  | exc m =>
    rw [he] at hc
    cases hc
    exact absurd rfl herr
  | ok r =>
    rw [he] at hc
    cases hc
    refine ⟨f.payload, r.1, hp, ?_, rfl⟩
    rcases queryElev_value he with h | ⟨e, c, hm, hcc, hv⟩
    · rw [h]; exact hE0
    · rw [hv, a3]
      rcases hm with hm | ⟨x, hx, hm⟩
      · exact hE db e (Or.inl ⟨a4 db hdb, hm⟩) c hcc
      · exact hE x e (Or.inr ⟨a5 x hx, hm⟩) c hcc

theorem leave_answers {env : Env K} {r r' : Result K} (h : leave env r = .ok r') : r' = r := by
  unfold leave at h
  obtain ⟨-, -, h⟩ := bind_eq_ok h
  cases h; rfl

/-- What holds of the values of every answer holds of the lines written. -/
theorem loop_lines {Q X : Db K → Prop} {P : Payload K → Prop} {E : K → Prop} {g : Geom K} (h0 : P noDataPayload)
    (hQP : ∀ d, Q d ∨ X d → ∀ e ∈ d.entries, P e.payload) (hav : ∀ c p, P c → P p → P (waveAverage Rd.exact c p))
    (hE0 : E NODATAVAL) (hE : ∀ d e, (Q d ∧ e ∈ d.entries ∧ e.addr.type ≠ .interior ∨ X d ∧ e ∈ d.entries) → ∀ c, g.addrToLonLatElev e.addr = .ok c →
      E (c.2.2 + e.payload.depth))
    {env : Env K} : ∀ (n : Nat) (s : Stream) (loc : K × K × K) (q : VMQuery K) (fs : Files) (lines : List (Line K)) (r : Result K),
      Asks Q X g q → (∀ l ∈ lines, Answers P E l.vals) → loop env n s loc q fs lines = .ok r → ∀ l ∈ r.lines, Answers P E l.vals := by
  intro n
  induction n with
  | zero => intro s loc q fs lines r _ _ h; cases h
  | succ n ih =>
    intro s loc q fs lines r hq hl h
    unfold loop at h
    split at h
    · obtain ⟨⟨q', fs', vals⟩, hr, h⟩ := bind_eq_ok h
      obtain ⟨hq', ha⟩ := query_answers h0 hQP hav hE0 hE hq hr
      dsimp only at h
      split at h
      · rw [leave_answers h]; exact hl
      · rename_i herr
        refine ih _ _ _ _ _ r ?_ ?_ h
        · unfold settle
          split
          · exact hq'
          · exact hq'
        · intro l hm
          rcases List.mem_append.1 hm with hm | hm
          · exact hl l hm
          · obtain rfl := List.mem_singleton.1 hm
            exact ha herr
    · unfold finish at h
      dsimp only at h
      split at h
      · rw [leave_answers h]; exact hl
      · rw [leave_answers h]; exact hl

theorem run_lines {Q X : Db K → Prop} {P : Payload K → Prop} {E : K → Prop} (h0 : P noDataPayload)
    (hQP : ∀ d, Q d ∨ X d → ∀ e ∈ d.entries, P e.payload) (hav : ∀ c p, P c → P p → P (waveAverage Rd.exact c p))
    {env : Env K} (hE0 : E NODATAVAL)
    (hE : ∀ d e, (Q d ∧ e ∈ d.entries ∧ e.addr.type ≠ .interior ∨ X d ∧ e ∈ d.entries) → ∀ c, env.geom.addrToLonLatElev e.addr = .ok c →
      E (c.2.2 + e.payload.depth))
    {o : Options K} (hdisk : ∀ d, env.disk o.filenameDB = some d → Q d)
    (hdiskx : ∀ d, o.filenameDBExt ≠ "" → env.disk o.filenameDBExt = some d → X d) {fs : Files} {r : Result K} (hr : run env o fs = .ok r) :
    ∀ l ∈ r.lines, Answers P E l.vals := by
  rcases run_cases env o fs with ⟨q, hq, -, ⟨text, -, -, h⟩ | ⟨-, h⟩⟩ | ⟨-, q, h⟩
  · rw [h] at hr
    obtain ⟨d, x, fn, res, e, hd, hx, -, -, rfl⟩ := hq
    refine loop_lines h0 hQP hav hE0 hE _ _ _ _ _ _ r ⟨rfl, rfl, rfl, ?_, ?_⟩ (fun l hl => by cases hl) hr
    · intro d' hd'; cases hd'; exact hdisk _ hd
    · intro d' hd'
      rcases hx with ⟨-, rfl⟩ | ⟨hne, d2, h2, rfl⟩
      · cases hd'
      · cases hd'; exact hdiskx _ hne h2
  · rw [h] at hr
    rw [leave_answers hr]
    intro l hl; cases hl
  · rw [h] at hr
    rw [leave_answers hr]
    intro l hl; cases hl

end QueryApp
end CenCalVM
