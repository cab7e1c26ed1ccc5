import Verif.Model.Vectors
import Verif.Model.Angles
import Verif.Model.NutTables

/-
Precession, nutation and ecliptic rotation matrices.
The arcsecond literals 0.484813681109535994e-5 / 4.848136811095359935899141e-6 are pi/648000 and
1.745329251994329576923691e-2 is pi/180.
-/
noncomputable section
namespace Sla
open Real (pi)

/-- Arcseconds to radians (src/prec.cc:44, src/precl.cc:41, src/prebn.cc:38, src/ecmat.cc:35, src/nutc.cc:51). -/
def as2r : ℝ := pi / 648000

/-- The letters of the Euler order used by the precession routines (src/prec.cc:62). -/
def zyz : List Char := ['Z', 'Y', 'Z']

/-- src/prec.cc:42-63 `prec` -/
def prec (ep0 ep1 : ℝ) : Mat :=
  let t0 := (ep0 - 2000) / 100
  let t := (ep1 - ep0) / 100
  let tas2R := t * as2r
  let w := 2306.2181 + (1.39656 - 0.000139 * t0) * t0
  let zeta := (w + ((0.30188 - 0.000344 * t0) + 0.017998 * t) * t) * tas2R
  let z := (w + ((1.09468 + 0.000066 * t0) + 0.018203 * t) * t) * tas2R
  let theta := ((2004.3109 + (-0.85330 - 0.000217 * t0) * t0) + ((-0.42665 - 0.000217 * t0) -
    0.041833 * t) * t) * tas2R
  deuler zyz (-zeta) theta (-z)

/-- src/precl.cc:39-112 `precl` -/
def precl (ep0 ep1 : ℝ) : Mat :=
  let t0 := (ep0 - 2000) / 1000
  let t := (ep1 - ep0) / 1000
  let tas2r := t * as2r
  let w := 23060.9097 + (139.7459 + (-0.0038 + (-0.5918 + (-0.0037 + 0.0007 * t0) * t0) * t0) * t0) * t0
  let zeta := (w + (30.2226 + (-0.2523 + (-0.3840 + (-0.0014 + 0.0007 * t0) * t0) * t0) * t0 +
    (18.0183 + (-0.1326 + (0.0006 + 0.0005 * t0) * t0) * t0 + (-0.0583 + (-0.0001 + 0.0007 * t0) * t0 +
    (-0.0285 + -0.0002 * t) * t) * t) * t) * t) * tas2r
  let z := (w + (109.5270 + (0.2446 + (-1.3913 + (-0.0134 + 0.0026 * t0) * t0) * t0) * t0 +
    (18.2667 + (-1.1400 + (-0.0173 + 0.0044 * t0) * t0) * t0 + (-0.2821 + (-0.0093 + 0.0032 * t0) * t0 +
    (-0.0301 + 0.0006 * t0 - 0.0001 * t) * t) * t) * t) * t) * tas2r
  let theta := (20042.0207 + (-85.3131 + (-0.2111 + (0.3642 + (0.0008 + -0.0005 * t0) * t0) * t0) * t0) * t0 +
    (-42.6566 + (-0.2111 + (0.5463 + (0.0017 + -0.0012 * t0) * t0) * t0) * t0 +
    (-41.8238 + (0.0359 + (0.0027 + -0.0001 * t0) * t0) * t0 + (-0.0731 + (0.0019 + 0.0009 * t0) * t0 +
    (-0.0127 + 0.0011 * t0 + 0.0004 * t) * t) * t) * t) * t) * tas2r
  deuler zyz (-zeta) theta (-z)

/-- src/prebn.cc:36-57 `prebn` -/
def prebn (be0 be1 : ℝ) : Mat :=
  let bigt := (be0 - 1850) / 100
  let t := (be1 - be0) / 100
  let tas2r := t * as2r
  let w := 2303.5548 + (1.39720 + 0.000059 * bigt) * bigt
  let zeta := (w + (0.30242 - 0.000269 * bigt + 0.017996 * t) * t) * tas2r
  let z := (w + (1.09478 + 0.000387 * bigt + 0.018324 * t) * t) * tas2r
  let theta := (2005.1125 + (-0.85294 - 0.000365 * bigt) * bigt +
    (-0.42647 - 0.000365 * bigt - 0.041802 * t) * t) * tas2r
  deuler zyz (-zeta) theta (-z)

/-- A fundamental angle of src/nutc.cc:661-699: a constant in degrees plus a polynomial in arcseconds reduced
    with `fmod` to one circle. -/
def nutAngle (deg arcsec : ℝ) : ℝ := deg * (pi / 180) + cfmod arcsec 1296000 * as2r

/-- The nine fundamental angles (src/nutc.cc:661-699), in the order in which they are multiplied by the columns of
    `fa_coef`. -/
def nutAngles (centuries : ℝ) : List ℝ := [
  nutAngle 134.96340251 (centuries * (1717915923.2178 + centuries * (31.8792 + centuries * (0.051635 + centuries *
    -0.00024470)))),
  nutAngle 357.52910918 (centuries * (129596581.0481 + centuries * (-0.5532 + centuries * (0.000136 + centuries *
    -0.00001149)))),
  nutAngle 93.27209062 (centuries * (1739527262.8478 + centuries * (-12.7512 + centuries * (-0.001037 + centuries *
    0.00000417)))),
  nutAngle 297.85019547 (centuries * (1602961601.209 + centuries * (-6.3706 + centuries * (0.006539 + centuries *
    -0.00003169)))),
  nutAngle 125.04455501 (centuries * (-6962890.5431 + centuries * (7.4722 + centuries * (0.007702 + centuries *
    -0.00005939)))),
  nutAngle 181.97980085 (210664136.433548 * centuries),
  nutAngle 355.43299958 (68905077.493988 * centuries),
  nutAngle 34.35151874 (10925660.377991 * centuries),
  nutAngle 50.07744430 (4399609.855732 * centuries)]

/-- `theta` of one term (src/nutc.cc:707-715): sum of multipliers times angles, left to right. -/
def nutTheta (fa : List Int) (angles : List ℝ) : ℝ :=
  (fa.zip angles).foldl (fun s p => s + (p.1 : ℝ) * p.2) 0

/-- One coefficient in microarcseconds. -/
def tenth (k : Int) : ℝ := (k : ℝ) / 10

/-- One iteration of the loop src/nutc.cc:706-720; the state is `(dp, de)`. -/
def nutStep (centuries : ℝ) (angles : List ℝ) (st : ℝ × ℝ) (r : NutTerm) : ℝ × ℝ :=
  let theta := nutTheta r.fa angles
  let c := Real.cos theta
  let s := Real.sin theta
  (st.1 + ((tenth r.p.1 + tenth r.p.2.2.1 * centuries) * c + (tenth r.p.2.1 + tenth r.p.2.2.2 * centuries) * s),
   st.2 + ((tenth r.e.1 + tenth r.e.2.2.1 * centuries) * c + (tenth r.e.2.1 + tenth r.e.2.2.2 * centuries) * s))

/-- Result of `nutc`: nutation in longitude and obliquity, mean obliquity (radians). -/
structure NutResult where
  psi : ℝ
  eps : ℝ
  eps0 : ℝ

/-- src/nutc.cc:47-728 `nutc` (tables in Model/NutTables.lean). -/
def nutc (tdb : ℝ) : NutResult :=
  let centuries := (tdb - 51544.5) / 36525
  let angles := nutAngles centuries
  let ma_sun := angles.getD 1 0
  let dp := -153.1 * Real.sin ma_sun - 1.9 * Real.sin (2 * ma_sun)
  let d := nutTerms.reverse.foldl (nutStep centuries angles) (dp, 0)
  { psi := (d.1 * 1.0e-6 - 0.042888 - 0.29856 * centuries) * as2r
    eps := (d.2 * 1.0e-6 - 0.005171 - 0.02408 * centuries) * as2r
    eps0 := (84381.412 + (-46.80927 + (-0.000152 + (0.0019989 + (-0.00000051 +
      -0.000000025 * centuries) * centuries) * centuries) * centuries) * centuries) * as2r }

/-- src/nut.cc:42-50 `nut` -/
def nut (tdb : ℝ) : Mat :=
  let n := nutc tdb
  deuler ['X', 'Z', 'X'] n.eps0 (-n.psi) (-(n.eps0 + n.eps))

/-- src/prenut.cc:33-44 `prenut` -/
def prenut (je mjd : ℝ) : Mat :=
  let pmat := prec je (epj mjd)
  let nmat := nut mjd
  dmxm nmat pmat

/-- Mean obliquity of src/ecmat.cc:38-41. -/
def ecmatPhi (date : ℝ) : ℝ :=
  let t := (date - 51544.5) / 36525
  as2r * (84381.448 + (-46.8150 + (-0.00059 + 0.001813 * t) * t) * t)

/-- src/ecmat.cc:33-45 `ecmat` -/
def ecmat (date : ℝ) : Mat := deuler ['X'] (ecmatPhi date) 0 0

/-- src/eqeqx.cc:34-52 `eqeqx` -/
def eqeqx (date : ℝ) : ℝ :=
  let t := (date - 51544.5) / 36525
  let om := as2r * (450160.280 + (-5 * 1296000 - 482890.539 + (7.455 + 0.008 * t) * t) * t)
  let n := nutc date
  n.psi * Real.cos n.eps0 + as2r * (0.00264 * Real.sin om + 0.000063 * Real.sin (om + om))

end Sla
