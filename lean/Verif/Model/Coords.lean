import Verif.Model.Spherical
import Verif.Model.Precession
import Mathlib.LinearAlgebra.Matrix.Notation

/-
Coordinate systems: ecliptic, galactic, supergalactic, FK4 galactic, precession of a position, E-terms of aberration,
proper motion, observer position, radial velocity corrections and polar motion.
-/
noncomputable section
namespace Sla
open Real (pi)

/-! ## Ecliptic -/

/-- src/eqecl.cc:31-52 `eqecl` -/
def eqecl (dir : Spherical) (date : ℝ) : Spherical :=
  let v1 := dcs2c dir
  let v2 := dmxv (prec 2000 (epj date)) v1
  let v1 := dmxv (ecmat date) v2
  let ecliptic := dcc2s v1
  ⟨dranrm ecliptic.a, drange ecliptic.b⟩

/-- src/ecleq.cc:31-52 `ecleq` -/
def ecleq (dir : Spherical) (date : ℝ) : Spherical :=
  let v1 := dcs2c dir
  let v2 := dimxv (ecmat date) v1
  let v1 := dimxv (prec 2000 (epj date)) v2
  let fk5 := dcc2s v1
  ⟨dranrm fk5.a, drange fk5.b⟩

/-! ## Galactic and supergalactic -/

/-- The matrix of src/eqgal.cc:47-51 and src/galeq.cc:47-51. -/
def galMat : Mat :=
  !![-0.054875539726, -0.873437108010, -0.483834985808;
     0.494109453312, -0.444829589425, 0.746982251810;
     -0.867666135858, -0.198076386122, 0.455983795705]

/-- src/eqgal.cc:36-66 `eqgal` -/
def eqgal (fk5 : Spherical) : Spherical :=
  let v1 := dcs2c fk5
  let v2 := dmxv galMat v1
  let gal := dcc2s v2
  ⟨dranrm gal.a, drange gal.b⟩

/-- src/galeq.cc:36-67 `galeq` -/
def galeq (gal : Spherical) : Spherical :=
  let v1 := dcs2c gal
  let v2 := dimxv galMat v1
  let fk5 := dcc2s v2
  ⟨dranrm fk5.a, drange fk5.b⟩

/-- The matrix of src/galsup.cc:49-53 and src/supgal.cc:48-52. -/
def supMat : Mat :=
  !![-0.735742574804, 0.677261296414, 0;
     -0.074553778365, -0.080991471307, 0.993922590400;
     0.673145302109, 0.731271165817, 0.110081262225]

/-- src/galsup.cc:38-68 `galsup` -/
def galsup (gal : Spherical) : Spherical :=
  let v1 := dcs2c gal
  let v2 := dmxv supMat v1
  let sgal := dcc2s v2
  ⟨dranrm sgal.a, drange sgal.b⟩

/-- src/supgal.cc:38-67 `supgal` -/
def supgal (sgal : Spherical) : Spherical :=
  let v1 := dcs2c sgal
  let v2 := dimxv supMat v1
  let gal := dcc2s v2
  ⟨dranrm gal.a, drange gal.b⟩

/-! ## E-terms of aberration -/

/-- Julian centuries since B1950 (src/etrms.cc:44). -/
def etrmsJc (be : ℝ) : ℝ := (be - 1950) * 1.00002135903e-2

/-- Eccentricity of the Earth's orbit (src/etrms.cc:47). -/
def etrmsEcc (jc : ℝ) : ℝ := 0.01673011 - (0.00004193 + 0.000000126 * jc) * jc

/-- Mean obliquity (src/etrms.cc:50). -/
def etrmsObl (jc : ℝ) : ℝ := (84404.836 - (46.8495 + (0.00319 + 0.00181 * jc) * jc) * jc) * as2r

/-- Mean longitude of perihelion (src/etrms.cc:53). -/
def etrmsPer (jc : ℝ) : ℝ := (1015489.951 + (6190.67 + (1.65 + 0.012 * jc) * jc) * jc) * as2r

/-- src/etrms.cc:39-61 `etrms` -/
def etrms (be : ℝ) : Vec :=
  let jc := etrmsJc be
  let e := etrmsEcc jc
  let e0 := etrmsObl jc
  let pl := etrmsPer jc
  let ek := e * 20.49552 * as2r
  let cp := Real.cos pl
  ![ek * Real.sin pl, -ek * cp * Real.cos e0, -ek * cp * Real.sin e0]

/-- src/addet.cc:39-57 `addet`, for a given E-terms vector -/
def addetWith (dir : Spherical) (et : Vec) : Spherical :=
  let v := dcs2c dir
  let v : Vec := fun i => v i + et i
  let edir := dcc2s v
  ⟨dranrm edir.a, edir.b⟩

/-- src/addet.cc:39-57 `addet` -/
def addet (dir : Spherical) (be : ℝ) : Spherical := addetWith dir (etrms be)

/-- src/subet.cc:39-58 `subet`, for a given E-terms vector -/
def subetWith (edir : Spherical) (et : Vec) : Spherical :=
  let v := dcs2c edir
  let f := 1 + dvdv v et
  let v : Vec := fun i => v i * f - et i
  let dir := dcc2s v
  ⟨dranrm dir.a, dir.b⟩

/-- src/subet.cc:39-58 `subet` -/
def subet (edir : Spherical) (be : ℝ) : Spherical := subetWith edir (etrms be)

/-! ## FK4 galactic -/

/-- The matrix of src/eg50.cc:50-54 and src/ge50.cc:52-56. -/
def gal50Mat : Mat :=
  !![-0.066988739415, -0.872755765852, -0.483538914632;
     0.492728466075, -0.450346958020, 0.744584633283;
     -0.867600811151, -0.188374601723, 0.460199784784]

/-- src/eg50.cc:34-74 `eg50` -/
def eg50 (fk4 : Spherical) : Spherical :=
  let loc := subet fk4 1950
  let v1 := dcs2c loc
  let v2 := dmxv gal50Mat v1
  let gal := dcc2s v2
  ⟨dranrm gal.a, drange gal.b⟩

/-- src/ge50.cc:34-76 `ge50` -/
def ge50 (gal : Spherical) : Spherical :=
  let v1 := dcs2c gal
  let v2 := dimxv gal50Mat v1
  let loc := dcc2s v2
  let fk4 := addet loc 1950
  ⟨dranrm fk4.a, drange fk4.b⟩

/-! ## Proper motion -/

/-- src/pm.cc:44 `VFR` -/
def vfr : ℝ := (365.25 * 86400 / 149597870) * 4.8481368111e-6

/-- src/pm.cc:41-67 `pm` -/
def pm (dir0 motion : Spherical) (parallax rVelocity ep0 ep1 : ℝ) : Spherical :=
  let pos := dcs2c dir0
  let w := vfr * rVelocity * parallax
  let em : Vec := ![-motion.a * pos 1 - motion.b * Real.cos dir0.a * Real.sin dir0.b + w * pos 0,
    motion.a * pos 0 - motion.b * Real.sin dir0.a * Real.sin dir0.b + w * pos 1,
    motion.b * Real.cos dir0.b + w * pos 2]
  let time := ep1 - ep0
  let pos : Vec := fun i => pos i + time * em i
  let dir1 := dcc2s pos
  ⟨dranrm dir1.a, dir1.b⟩

/-! ## Observer -/

/-- Equatorial radius in metres, flattening, astronomical unit in metres (src/geoc.cc:42-50). -/
def geocRadius : ℝ := 6378140
def geocB2 : ℝ := 1 - 1 / 298.257
def geocB : ℝ := geocB2 * geocB2
def geocAU : ℝ := 1.49597870e11

/-- src/geoc.cc:40-61 `geoc`: distances from the axis and from the plane of the equator, in AU. -/
def geoc (latitude height : ℝ) : ℝ × ℝ :=
  let sinLat := Real.sin latitude
  let cosLat := Real.cos latitude
  let c := 1 / Real.sqrt (cosLat * cosLat + geocB * sinLat * sinLat)
  let s := geocB * c
  ((geocRadius * c + height) * cosLat / geocAU, (geocRadius * s + height) * sinLat / geocAU)

/-- Mean sidereal rate in radians per second (src/pvobs.cc:37). -/
def siderealRate : ℝ := 7.292115855306589e-5

/-- src/pvobs.cc:35-59 `pvobs` -/
def pvobs (latitude height lst : ℝ) : VectorPV :=
  let g := geoc latitude height
  let sinLst := Real.sin lst
  let cosLst := Real.cos lst
  let velocity := siderealRate * g.1
  { pos := ![g.1 * cosLst, g.1 * sinLst, g.2]
    vel := ![-velocity * sinLst, velocity * cosLst, 0] }

/-! ## Radial velocity corrections -/

/-- src/rvlsrd.cc:44-63 `rvlsrd` -/
def rvlsrd (pos : Spherical) : ℝ := dvdv ![0.63823, 14.58542, -7.80116] (dcs2c pos)
/-- src/rvlsrk.cc:44-64 `rvlsrk` -/
def rvlsrk (pos : Spherical) : ℝ := dvdv ![-0.29000, 17.31726, -10.00141] (dcs2c pos)
/-- src/rvgalc.cc:37-58 `rvgalc` -/
def rvgalc (pos : Spherical) : ℝ := dvdv ![-108.70408, 97.86251, -164.33610] (dcs2c pos)
/-- src/rvlg.cc:35-58 `rvlg` -/
def rvlg (pos : Spherical) : ℝ := dvdv ![-148.23284, 133.44888, -224.09467] (dcs2c pos)
/-- src/rverot.cc:38-42 `rverot` -/
def rverot (phi : ℝ) (pos : Spherical) (stime : ℝ) : ℝ :=
  0.4655 * Real.cos phi * Real.sin (stime - pos.a) * Real.cos pos.b

/-! ## Precession of a position -/

/-- `CAT_FK4` and `CAT_FK5` of the enumeration `Catalogue` (src/slalib.h:44-51). -/
def catFK4 : Int := 4
def catFK5 : Int := 5

/-- src/preces.cc:41-69 `preces`; `system` is the value of the enumeration. -/
def preces (system : Int) (ep0 ep1 : ℝ) (pos : Spherical) : Spherical :=
  if system = catFK4 ∨ system = catFK5 then
    let m := if system = catFK4 then prebn ep0 ep1 else prec ep0 ep1
    let v1 := dcs2c pos
    let v2 := dmxv m v1
    let pos := dcc2s v2
    ⟨dranrm pos.a, pos.b⟩
  else ⟨-99, -99⟩

/-! ## Polar motion -/

/-- The outputs of `polmo`. -/
@[ext] structure Polmo where
  long : ℝ
  phi : ℝ
  daz : ℝ

/-- src/polmo.cc:76-119 `polmo`; `none` when the code would divide by a zero `cos_phi`
    (lines 106-110: the longitude quotients are infinite or NaN and reach the azimuth). -/
def polmo (mLong mPhi xpm ypm : ℝ) : Option Polmo :=
  let xm := Real.cos mLong * Real.cos mPhi
  let ym := Real.sin mLong * Real.cos mPhi
  let zm := Real.sin mPhi
  let sx := Real.sin xpm
  let cx := Real.cos xpm
  let sy := Real.sin ypm
  let cy := Real.cos ypm
  let zw := -ym * sy + zm * cy
  let xt := xm * cx - zw * sx
  let yt := ym * cy + zm * sy
  let zt := xm * sx + zw * cx
  let xnm := -sx * cy
  let ynm := sy
  let znm := cx * cy
  let cosPhi := Real.sqrt (xt * xt + yt * yt)
  if cosPhi = 0 then none
  else
    let sinLong := yt / cosPhi
    let cosLong := xt / cosPhi
    let tLong := if xt ≠ 0 ∨ yt ≠ 0 then atan2 yt xt else 0
    let tPhi := atan2 zt cosPhi
    let xnt := (xnm * cosLong + ynm * sinLong) * zt - znm * cosPhi
    let ynt := -xnm * sinLong + ynm * cosLong
    let dAz := if xnt ≠ 0 ∨ ynt ≠ 0 then atan2 (-ynt) (-xnt) else 0
    some ⟨tLong, tPhi, dAz⟩

end Sla
