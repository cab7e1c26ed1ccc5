import Verif.Model.FpCoords

/-
E-terms of aberration, old galactic coordinates and proper motion with every operation rounded by `R` (see Model/FpCoords.lean).
-/
noncomputable section
namespace Sla.Fp

/-- Julian centuries since B1950 (src/etrms.cc:44). -/
def etrmsJc (R : ℝ → ℝ) (be : ℝ) : ℝ := R (R (be - 1950) * R 1.00002135903e-2)

/-- Eccentricity of the Earth's orbit (src/etrms.cc:47). -/
def etrmsEcc (R : ℝ → ℝ) (jc : ℝ) : ℝ := R (R 0.01673011 - R (R (R 0.00004193 + R (R 0.000000126 * jc)) * jc))

/-- Mean obliquity (src/etrms.cc:50). -/
def etrmsObl (R : ℝ → ℝ) (jc : ℝ) : ℝ :=
  R (R (R 84404.836 - R (R (R 46.8495 + R (R (R 0.00319 + R (R 0.00181 * jc)) * jc)) * jc)) * R 0.484813681109535994e-5)

/-- Mean longitude of perihelion (src/etrms.cc:53). -/
def etrmsPer (R : ℝ → ℝ) (jc : ℝ) : ℝ :=
  R (R (R 1015489.951 + R (R (R 6190.67 + R (R (R 1.65 + R (R 0.012 * jc)) * jc)) * jc)) * R 0.484813681109535994e-5)

/-- src/etrms.cc:39-61 `etrms` -/
def etrms (R : ℝ → ℝ) (sn cs : ℝ → ℝ) (be : ℝ) : Vec :=
  let jc := etrmsJc R be
  let e := etrmsEcc R jc
  let e0 := etrmsObl R jc
  let pl := etrmsPer R jc
  let ek := R (R (e * R 20.49552) * R 0.484813681109535994e-5)
  let cp := cs pl
  ![R (ek * sn pl), R (R (-ek * cp) * cs e0), R (R (-ek * cp) * sn e0)]

/-- src/addet.cc:39-57 `addet` -/
def addet (R : ℝ → ℝ) (sn cs : ℝ → ℝ) (at2 : ℝ → ℝ → ℝ) (dir : Spherical) (be : ℝ) : Spherical :=
  let et := etrms R sn cs be
  let v := dcs2c R sn cs dir.a dir.b
  let edir := dcc2s R at2 fun i => R (v i + et i)
  ⟨dranrm R edir.1, edir.2⟩

/-- src/subet.cc:39-58 `subet` -/
def subet (R : ℝ → ℝ) (sn cs : ℝ → ℝ) (at2 : ℝ → ℝ → ℝ) (edir : Spherical) (be : ℝ) : Spherical :=
  let et := etrms R sn cs be
  let v := dcs2c R sn cs edir.a edir.b
  let f := R (1 + dvdv R v et)
  let dir := dcc2s R at2 fun i => R (R (v i * f) - et i)
  ⟨dranrm R dir.1, dir.2⟩

/-- The matrix of src/eg50.cc:50-54 and src/ge50.cc:52-56. -/
def gal50Mat (R : ℝ → ℝ) : Mat :=
  !![-R 0.066988739415, -R 0.872755765852, -R 0.483538914632;
     R 0.492728466075, -R 0.450346958020, R 0.744584633283;
     -R 0.867600811151, -R 0.188374601723, R 0.460199784784]

/-- src/eg50.cc:34-74 `eg50` -/
def eg50 (R : ℝ → ℝ) (sn cs : ℝ → ℝ) (at2 : ℝ → ℝ → ℝ) (fk4 : Spherical) : Spherical :=
  let loc := subet R sn cs at2 fk4 1950
  let v1 := dcs2c R sn cs loc.a loc.b
  let v2 := dmxv R (gal50Mat R) v1
  let gal := dcc2s R at2 v2
  ⟨dranrm R gal.1, drange R gal.2⟩

/-- src/ge50.cc:34-76 `ge50` -/
def ge50 (R : ℝ → ℝ) (sn cs : ℝ → ℝ) (at2 : ℝ → ℝ → ℝ) (gal : Spherical) : Spherical :=
  let v1 := dcs2c R sn cs gal.a gal.b
  let v2 := dimxv R (gal50Mat R) v1
  let loc := dcc2s R at2 v2
  let fk4 := addet R sn cs at2 ⟨loc.1, loc.2⟩ 1950
  ⟨dranrm R fk4.a, drange R fk4.b⟩

/-- src/pm.cc:44 `VFR`: the constant expression, folded with the same rounding -/
def vfr (R : ℝ → ℝ) : ℝ := R (R (R (365.25 * 86400) / 149597870) * R 4.8481368111e-6)

/-- src/pm.cc:41-67 `pm` -/
def pm (R : ℝ → ℝ) (sn cs : ℝ → ℝ) (at2 : ℝ → ℝ → ℝ) (dir0 motion : Spherical) (parallax rVelocity ep0 ep1 : ℝ) : Spherical :=
  let pos := dcs2c R sn cs dir0.a dir0.b
  let w := R (R (vfr R * rVelocity) * parallax)
  let em : Vec := ![R (R (R (-motion.a * pos 1) - R (R (motion.b * cs dir0.a) * sn dir0.b)) + R (w * pos 0)),
    R (R (R (motion.a * pos 0) - R (R (motion.b * sn dir0.a) * sn dir0.b)) + R (w * pos 1)),
    R (R (motion.b * cs dir0.b) + R (w * pos 2))]
  let time := R (ep1 - ep0)
  let dir1 := dcc2s R at2 fun i => R (pos i + R (time * em i))
  ⟨dranrm R dir1.1, dir1.2⟩

end Sla.Fp
