import Verif.Model.FpCoords
import Verif.Model.Precession

/-
Nutation and the equation of the equinoxes with the rounding of every operation; `fmod` is exact, as IEEE 754 requires and as in
`Model/FpCode`.
-/
noncomputable section
namespace Sla.Fp

/-- One fundamental angle: degrees at J2000 plus arcseconds reduced to one turn (src/nutc.cc:661-699). -/
def nutAngle (R : ℝ → ℝ) (deg arcsec : ℝ) : ℝ :=
  R (R (R deg * R 1.745329251994329576923691e-2) + R (cfmod arcsec 1296000 * R 4.848136811095359935899141e-6))

/-- The polynomial in an argument of src/nutc.cc:661-684, innermost coefficient last. -/
def nutPoly (R : ℝ → ℝ) (t c0 c1 c2 c3 : ℝ) : ℝ :=
  R (t * R (c0 + R (t * R (c1 + R (t * R (c2 + R (t * c3)))))))

/-- The nine fundamental angles (src/nutc.cc:661-699). -/
def nutAngles (R : ℝ → ℝ) (t : ℝ) : List ℝ := [
  nutAngle R 134.96340251 (nutPoly R t (R 1717915923.2178) (R 31.8792) (R 0.051635) (-R 0.00024470)),
  nutAngle R 357.52910918 (nutPoly R t (R 129596581.0481) (-R 0.5532) (R 0.000136) (-R 0.00001149)),
  nutAngle R 93.27209062 (nutPoly R t (R 1739527262.8478) (-R 12.7512) (-R 0.001037) (R 0.00000417)),
  nutAngle R 297.85019547 (nutPoly R t (R 1602961601.209) (-R 6.3706) (R 0.006539) (-R 0.00003169)),
  nutAngle R 125.04455501 (nutPoly R t (-R 6962890.5431) (R 7.4722) (R 0.007702) (-R 0.00005939)),
  nutAngle R 181.97980085 (R (R 210664136.433548 * t)),
  nutAngle R 355.43299958 (R (R 68905077.493988 * t)),
  nutAngle R 34.35151874 (R (R 10925660.377991 * t)),
  nutAngle R 50.07744430 (R (R 4399609.855732 * t))]

/-- `theta` of one term (src/nutc.cc:707-715): the multipliers are small integers, so their conversion is exact. -/
def nutTheta (R : ℝ → ℝ) (fa : List Int) (angles : List ℝ) : ℝ :=
  match fa.zip angles with
  | [] => 0
  | q :: l => l.foldl (fun s p => R (s + R ((p.1 : ℝ) * p.2))) (R ((q.1 : ℝ) * q.2))

/-- The increment of one series by one term: cosine and sine coefficients, each with a rate (src/nutc.cc:718-719). -/
def nutIncr (R : ℝ → ℝ) (t c s : ℝ) (q : Int × Int × Int × Int) : ℝ :=
  R (R (R (R (tenth q.1) + R (R (tenth q.2.2.1) * t)) * c) + R (R (R (tenth q.2.1) + R (R (tenth q.2.2.2) * t)) * s))

/-- One iteration of the loop src/nutc.cc:706-720; the state is `(dp, de)`. -/
def nutStep (R : ℝ → ℝ) (sn cs : ℝ → ℝ) (t : ℝ) (angles : List ℝ) (st : ℝ × ℝ) (r : NutTerm) : ℝ × ℝ :=
  let theta := nutTheta R r.fa angles
  let c := cs theta
  let s := sn theta
  (R (st.1 + nutIncr R t c s r.p), R (st.2 + nutIncr R t c s r.e))

/-- src/nutc.cc:47-728 `nutc` (tables in Model/NutTables.lean) -/
def nutc (R : ℝ → ℝ) (sn cs : ℝ → ℝ) (tdb : ℝ) : NutResult :=
  let t := R (R (tdb - 51544.5) / 36525)
  let angles := nutAngles R t
  let ma_sun := angles.getD 1 0
  let dp := R (R (-R 153.1 * sn ma_sun) - R (R 1.9 * sn (R (2 * ma_sun))))
  let d := nutTerms.reverse.foldl (nutStep R sn cs t angles) (dp, 0)
  { psi := R (R (R (R (d.1 * R 1.0e-6) - R 0.042888) - R (R 0.29856 * t)) * R 4.848136811095359935899141e-6)
    eps := R (R (R (R (d.2 * R 1.0e-6) - R 0.005171) - R (R 0.02408 * t)) * R 4.848136811095359935899141e-6)
    eps0 := R (R (R 84381.412 + R (R (-R 46.80927 + R (R (-R 0.000152 + R (R (R 0.0019989 + R (R (-R 0.00000051 +
      R (-R 0.000000025 * t)) * t)) * t)) * t)) * t)) * R 4.848136811095359935899141e-6) }

/-- src/nut.cc:42-50 `nut` -/
def nut (R : ℝ → ℝ) (sn cs : ℝ → ℝ) (tdb : ℝ) : Mat :=
  let n := nutc R sn cs tdb
  deuler R sn cs ['X', 'Z', 'X'] n.eps0 (-n.psi) (-R (n.eps0 + n.eps))

/-- src/prenut.cc:33-44 `prenut` -/
def prenut (R : ℝ → ℝ) (sn cs : ℝ → ℝ) (je mjd : ℝ) : Mat :=
  dmxm R (nut R sn cs mjd) (prec R sn cs je (epj R mjd))

/-- src/eqeqx.cc:34-52 `eqeqx` -/
def eqeqx (R : ℝ → ℝ) (sn cs : ℝ → ℝ) (date : ℝ) : ℝ :=
  let t := R (R (date - 51544.5) / 36525)
  let om := R (R 0.484813681109535994e-5 * R (R 450160.280 + R (R (R (R (-5 * 1296000) - R 482890.539) +
    R (R (R 7.455 + R (R 0.008 * t)) * t)) * t)))
  let n := nutc R sn cs date
  R (R (n.psi * cs n.eps0) + R (R 0.484813681109535994e-5 *
    R (R (R 0.00264 * sn om) + R (R 0.000063 * sn (R (om + om))))))

end Sla.Fp
