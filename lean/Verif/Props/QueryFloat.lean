/-
C99: WAVERES queries in the precision of float and double.
-/
import Verif.Lemmas.QueryFloat
import Verif.Props.Query

set_option linter.unusedSectionVars false

namespace CenCalVM
open VMQuery
variable {K : Type} [Field K] [LinearOrder K] [IsStrictOrderedRing K]

section
variable [FloorRing K]

/-- C99: C12 in the precision of the code, values rounded to `float` and quotients to `double` in any direction.  If all ancestors are
stored and the requested period is a `double`, every octant the walk passes is shorter than the shear wavelength, and where the walk stops
the octant is the root, not solid, or not shorter than the wavelength by a fraction of more than 2^-52.  The values answered lie between
those of the two octants met last and are their mean up to a fraction 2^-23.  An average refused as too coarse is, and one used is not by
a fraction of more than 2^-52. -/
theorem C99 {fmt : Fmt K} {q : VMQuery K} {g : Geom K} {db : Db K} {ri rj : IntRound K} (ho : q.Open g db) (hrd : q.rd.Binary ri rj)
    (hq : q.queryFn = .WAVERES) (hanc : db.AncestorClosed) (hancx : ∀ x, q.dbExt = some x → x.AncestorClosed)
    (hsi : db.Single ri) (hsix : ∀ x, q.dbExt = some x → x.Single ri) (hlen : ∀ n, 0 < g.edgeLen n)
    {T : K} (hT : T = g.vertExag * q.queryRes) (hTd : fl rj 53 T = T)
    {lon lat elev : K} (hs : NotSquashed q elev) {p : Payload K} (hp : PayloadOf fmt q lon lat elev p) :
    (∃ a, CellOf g 31 lon lat elev a ∧ Combined (WaveAnswerUpTo (1 / 2 ^ 52) (1 / 2 ^ 23) g T a.toKey) db q.dbExt p) ∨
    (OutsideOf g 31 lon lat elev ∧ p = noDataPayload) := by
  obtain ⟨n, c, hn, hc, rfl⟩ := (payloadOf_plain ho.lawful ho.geom_eq ho.db_eq hs).1 hp
  have hn31 : n = 31 := by unfold LookupLevel at hn; rw [hq] at hn; exact hn
  subst hn31
  rcases conv_cases ho.lawful hc with ⟨h0, hcell, ha, hl, -⟩ | ⟨h0, hout, hx⟩
  · left
    refine ⟨c.1, hcell, ?_⟩
    have hc' : c = (c.1, 0) := Prod.ext rfl h0
    rw [hc']
    have key : ∀ d : Db K, d.Good → d.AncestorClosed → d.Single ri →
        WaveAnswerUpTo (1 / 2 ^ 52) (1 / 2 ^ 23) g T c.1.toKey d (ansP q g d c.1) := fun d hd hda hds =>
      waveAnswer_upTo hrd hq hlen hT hTd hd hda hds ha
    exact bothP_combined (key db ho.good hanc hsi) (fun x hx => key x (ho.goodExt x hx) (hancx x hx) (hsix x hx))
  · right
    exact ⟨hout, bothP_outside h0 hx (fun x hx => (ho.goodExt x hx).octants)⟩
end

/-- The example database with speeds whose mean is not a `float`. -/
def exDbF : Db ℚ := ⟨[⟨⟨⟨0, 0, 0, 0⟩, .interior⟩, exPay 1600 (-999)⟩,
  ⟨⟨⟨0, 0, 0x40000000, 1⟩, .interior⟩, { exPay 1800 (-999) with vp := 16777215 }⟩,
  ⟨⟨⟨0, 0, 0x60000000, 2⟩, .leaf⟩, { exPay 2000 1 with vp := 2 }⟩]⟩

/-- The query object of the example of C12 on this database, rounding to the nearest. -/
def exWaveF : VMQuery ℚ := { exWave with db := some exDbF, rd := ⟨fl IntRound.nearest 24, fl IntRound.nearest 53⟩ }

/-- The mean 8388608.5 of the speeds is rounded to 8388608. -/
example : exWaveF.Open exGeom exDbF ∧ exWaveF.rd.Binary IntRound.nearest IntRound.nearest ∧ exWaveF.queryFn = .WAVERES ∧
    exDbF.AncestorClosed ∧ exDbF.Single IntRound.nearest ∧ (∀ n, 0 < exGeom.edgeLen n) ∧
    fl IntRound.nearest 53 (exGeom.vertExag * exWaveF.queryRes) = exGeom.vertExag * exWaveF.queryRes ∧ NotSquashed exWaveF (-100) ∧
    PayloadOf exFmt exWaveF 220 40 (-100) ⟨8388608, 1900, 2500, 100, 50, 30, -999, 7⟩ :=
  ⟨⟨rfl, rfl, exGeom_lawful, ⟨by unfold Db.Octants; decide +kernel, by unfold Db.Sorted; decide +kernel⟩, fun _ h => by cases h⟩,
    ⟨rfl, rfl⟩, rfl, by unfold Db.AncestorClosed; decide +kernel, by unfold Db.Single; decide +kernel,
    fun n => by show 0 < GeomCenCA.edgeLen n; unfold GeomCenCA.edgeLen GeomCenCA.ROOTLEN; positivity, by decide +kernel, Or.inl rfl,
    payloadOf_of_vals (by decide +kernel)⟩

end CenCalVM
