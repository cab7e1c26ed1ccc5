import Verif.Model.FpCode
import Verif.Model.Coords

/-
Precession, ecliptic, galactic and supergalactic coordinates with every operation rounded by `R`; `sn`, `cs` and `at2` are the
library's `sin`, `cos` and `atan2`, not specified here.  Operations are in the order of the source, literals are converted, and
a negative literal is the negative of a converted one.
-/
noncomputable section
namespace Sla.Fp

/-- src/prec.cc:42-63 `prec`: the Euler angles `zeta`, `theta`, `z` -/
def precAngles (R : ℝ → ℝ) (ep0 ep1 : ℝ) : ℝ × ℝ × ℝ :=
  let t0 := R (R (ep0 - 2000) / 100)
  let t := R (R (ep1 - ep0) / 100)
  let tas2R := R (t * R 0.484813681109535994e-5)
  let w := R (R 2306.2181 + R (R (R 1.39656 - R (R 0.000139 * t0)) * t0))
  let zeta := R (R (w + R (R (R (R 0.30188 - R (R 0.000344 * t0)) + R (R 0.017998 * t)) * t)) * tas2R)
  let z := R (R (w + R (R (R (R 1.09468 + R (R 0.000066 * t0)) + R (R 0.018203 * t)) * t)) * tas2R)
  let theta := R (R (R (R 2004.3109 + R (R (-R 0.85330 - R (R 0.000217 * t0)) * t0)) +
    R (R (R (-R 0.42665 - R (R 0.000217 * t0)) - R (R 0.041833 * t)) * t)) * tas2R)
  (zeta, theta, z)

/-- src/prec.cc:42-63 `prec` -/
def prec (R : ℝ → ℝ) (sn cs : ℝ → ℝ) (ep0 ep1 : ℝ) : Mat :=
  let a := precAngles R ep0 ep1
  deuler R sn cs ['Z', 'Y', 'Z'] (-a.1) a.2.1 (-a.2.2)

/-- src/prebn.cc:36-57 `prebn`: the Euler angles `zeta`, `theta`, `z` -/
def prebnAngles (R : ℝ → ℝ) (be0 be1 : ℝ) : ℝ × ℝ × ℝ :=
  let bigt := R (R (be0 - 1850) / 100)
  let t := R (R (be1 - be0) / 100)
  let tas2r := R (t * R 0.484813681109535994e-5)
  let w := R (R 2303.5548 + R (R (R 1.39720 + R (R 0.000059 * bigt)) * bigt))
  let zeta := R (R (w + R (R (R (R 0.30242 - R (R 0.000269 * bigt)) + R (R 0.017996 * t)) * t)) * tas2r)
  let z := R (R (w + R (R (R (R 1.09478 + R (R 0.000387 * bigt)) + R (R 0.018324 * t)) * t)) * tas2r)
  let theta := R (R (R (R 2005.1125 + R (R (-R 0.85294 - R (R 0.000365 * bigt)) * bigt)) +
    R (R (R (-R 0.42647 - R (R 0.000365 * bigt)) - R (R 0.041802 * t)) * t)) * tas2r)
  (zeta, theta, z)

/-- src/prebn.cc:36-57 `prebn` -/
def prebn (R : ℝ → ℝ) (sn cs : ℝ → ℝ) (be0 be1 : ℝ) : Mat :=
  let a := prebnAngles R be0 be1
  deuler R sn cs ['Z', 'Y', 'Z'] (-a.1) a.2.1 (-a.2.2)

/-- src/ecmat.cc:33-45 `ecmat`: the obliquity `phi` -/
def ecmatPhi (R : ℝ → ℝ) (date : ℝ) : ℝ :=
  let t := R (R (date - 51544.5) / 36525)
  R (R 0.484813681109535994e-5 * R (R 84381.448 + R (R (-R 46.8150 + R (R (-R 0.00059 + R (R 0.001813 * t)) * t)) * t)))

/-- src/ecmat.cc:33-45 `ecmat` -/
def ecmat (R : ℝ → ℝ) (sn cs : ℝ → ℝ) (date : ℝ) : Mat := deuler R sn cs ['X'] (ecmatPhi R date) 0 0

/-- src/preces.cc:42-70 `preces` -/
def preces (R : ℝ → ℝ) (sn cs : ℝ → ℝ) (at2 : ℝ → ℝ → ℝ) (system : Int) (ep0 ep1 : ℝ) (pos : Spherical) : Spherical :=
  if system = catFK4 ∨ system = catFK5 then
    let m := if system = catFK4 then prebn R sn cs ep0 ep1 else prec R sn cs ep0 ep1
    let v1 := dcs2c R sn cs pos.a pos.b
    let v2 := dmxv R m v1
    let pos := dcc2s R at2 v2
    ⟨dranrm R pos.1, pos.2⟩
  else ⟨-99, -99⟩

/-- src/eqecl.cc:31-51 `eqecl` -/
def eqecl (R : ℝ → ℝ) (sn cs : ℝ → ℝ) (at2 : ℝ → ℝ → ℝ) (dir : Spherical) (date : ℝ) : Spherical :=
  let v1 := dcs2c R sn cs dir.a dir.b
  let v2 := dmxv R (prec R sn cs 2000 (epj R date)) v1
  let v1 := dmxv R (ecmat R sn cs date) v2
  let edir := dcc2s R at2 v1
  ⟨dranrm R edir.1, drange R edir.2⟩

/-- src/ecleq.cc:31-52 `ecleq` -/
def ecleq (R : ℝ → ℝ) (sn cs : ℝ → ℝ) (at2 : ℝ → ℝ → ℝ) (dir : Spherical) (date : ℝ) : Spherical :=
  let v1 := dcs2c R sn cs dir.a dir.b
  let v2 := dimxv R (ecmat R sn cs date) v1
  let v1 := dimxv R (prec R sn cs 2000 (epj R date)) v2
  let edir := dcc2s R at2 v1
  ⟨dranrm R edir.1, drange R edir.2⟩

/-- The matrix of src/eqgal.cc:47-51 and src/galeq.cc:47-51, converted. -/
def galMat (R : ℝ → ℝ) : Mat :=
  !![-R 0.054875539726, -R 0.873437108010, -R 0.483834985808;
     R 0.494109453312, -R 0.444829589425, R 0.746982251810;
     -R 0.867666135858, -R 0.198076386122, R 0.455983795705]

/-- The matrix of src/galsup.cc:49-53 and src/supgal.cc:48-52, converted. -/
def supMat (R : ℝ → ℝ) : Mat :=
  !![-R 0.735742574804, R 0.677261296414, 0;
     -R 0.074553778365, -R 0.080991471307, R 0.993922590400;
     R 0.673145302109, R 0.731271165817, R 0.110081262225]

/-- src/eqgal.cc:36-66 `eqgal` -/
def eqgal (R : ℝ → ℝ) (sn cs : ℝ → ℝ) (at2 : ℝ → ℝ → ℝ) (dir : Spherical) : Spherical :=
  let v1 := dcs2c R sn cs dir.a dir.b
  let v2 := dmxv R (galMat R) v1
  let gal := dcc2s R at2 v2
  ⟨dranrm R gal.1, drange R gal.2⟩

/-- src/galeq.cc:36-67 `galeq` -/
def galeq (R : ℝ → ℝ) (sn cs : ℝ → ℝ) (at2 : ℝ → ℝ → ℝ) (gal : Spherical) : Spherical :=
  let v1 := dcs2c R sn cs gal.a gal.b
  let v2 := dimxv R (galMat R) v1
  let dir := dcc2s R at2 v2
  ⟨dranrm R dir.1, drange R dir.2⟩

/-- src/galsup.cc:38-68 `galsup` -/
def galsup (R : ℝ → ℝ) (sn cs : ℝ → ℝ) (at2 : ℝ → ℝ → ℝ) (gal : Spherical) : Spherical :=
  let v1 := dcs2c R sn cs gal.a gal.b
  let v2 := dmxv R (supMat R) v1
  let sgal := dcc2s R at2 v2
  ⟨dranrm R sgal.1, drange R sgal.2⟩

/-- src/supgal.cc:38-67 `supgal` -/
def supgal (R : ℝ → ℝ) (sn cs : ℝ → ℝ) (at2 : ℝ → ℝ → ℝ) (sgal : Spherical) : Spherical :=
  let v1 := dcs2c R sn cs sgal.a sgal.b
  let v2 := dimxv R (supMat R) v1
  let gal := dcc2s R at2 v2
  ⟨dranrm R gal.1, drange R gal.2⟩

end Sla.Fp
