import Verif.Model.Moon
import Verif.Model.Vectors

/-
The low-precision `sla::moon` (src/moon.cc), `sla::earth` (src/earth.cc) and `sla::ecor` (src/ecor.cc). The code uses
`float` throughout; the model is in exact real arithmetic. The conversion factors (degrees to radians, its square over the
seconds of a Julian year, 2pi) are taken as exact. `int` arithmetic is unbounded here; the code overflows only for days or
years beyond five hundred million.
-/
noncomputable section
namespace Sla

/-- src/moon.cc:213-215, src/earth.cc:55-57: the fraction of the year. -/
def yearFraction (year day : ℤ) (fraction : ℝ) : ℝ :=
  let y4 := (year.tmod 4 + 4).tmod 4
  (((4 * (day - (1 : ℤ).tdiv (y4 + 1)) - y4 - 2 : ℤ) : ℝ) + 4 * fraction) / 1461

/-- src/moon.cc:216, src/earth.cc:58: Julian years since J1900.0. -/
def yearsSince1900 (year day : ℤ) (fraction : ℝ) : ℝ := ((year - 1900 : ℤ) : ℝ) + yearFraction year day fraction

/-- The fundamental arguments (src/moon.cc:219-231), with `red` for the reduction `fmod(angle, 360)`. -/
def moonArgs (red : ℝ → ℝ) (yf t : ℝ) : MoonArgs where
  elp := d2r * red (270.434164 + 4680 * yf + 132.678831 * t)
  em := d2r * red (358.475833 + 359.990498 * t)
  emp := d2r * red (296.104608 + 4680 * yf + 91.988491 * t)
  d := d2r * red (350.737486 + 4320 * yf + 132.671142 * t)
  f := d2r * red (11.250889 + 4680 * yf + 152.020251 * t)
  om := 0

/-- `thetad` of a term (src/moon.cc:245, 262, 279), degrees per year. -/
def MoonTerm.thetad (k : MoonTerm) : ℝ :=
  k.m * 359.990498 + k.mp * 4771.988491 + k.d * 4452.671142 + k.f * 4832.020251

/-- Body of the loops of the longitude and latitude series (src/moon.cc:238-248, 255-265). -/
def moonSinTerm (a : MoonArgs) (s : ℝ × ℝ) (k : MoonTerm) : ℝ × ℝ :=
  (s.1 + k.c * Real.sin (k.theta a), s.2 + k.c * Real.cos (k.theta a) * k.thetad)

/-- Body of the loop of the parallax series (src/moon.cc:272-282). -/
def moonCosTerm (a : MoonArgs) (s : ℝ × ℝ) (k : MoonTerm) : ℝ × ℝ :=
  (s.1 + k.c * Real.cos (k.theta a), s.2 - k.c * Real.sin (k.theta a) * k.thetad)

/-- src/moon.cc:57 `RATE_CONV_FACTOR` -/
def moonRate : ℝ := d2r ^ 2 / (86400 * 365.25)

/-- Ecliptic coordinates and rates per second (src/moon.cc:233-289). -/
def moonSpherical (a : MoonArgs) : SphericalPV :=
  let vl := moonL.reverse.foldl (moonSinTerm a) (0, 0)
  let el := vl.1 * d2r + a.elp
  let eld := moonRate * (vl.2 + 4812.678831 / d2r)
  let vb := moonB.reverse.foldl (moonSinTerm a) (0, 0)
  let b := vb.1 * d2r
  let bd := vb.2 * moonRate
  let vp := moonP.reverse.foldl (moonCosTerm a) (0, 0)
  let p := (vp.1 + 0.950724) * d2r
  let pd := vp.2 * moonRate
  let sp := Real.sin p
  let r := 4.2635212653763e-5 / sp
  let rd := -r * pd / sp
  ⟨el, b, r, eld, bd, rd⟩

/-- Rotation into the equatorial system (src/moon.cc:296-306). -/
def moonEquator (t : ℝ) (v : Vec) : Vec :=
  let eps := d2r * (23.45229 - 0.00013 * t)
  ![v 0, v 1 * Real.cos eps - v 2 * Real.sin eps, v 1 * Real.sin eps + v 2 * Real.cos eps]

/-- src/moon.cc:52-307 `moon`; `cs2c6` (src/cs2c6.cc) is the float twin of `ds2c6`. -/
def moon (year day : ℤ) (fraction : ℝ) : VectorPV :=
  let t := yearsSince1900 year day fraction
  let v := ds2c6 (moonSpherical (moonArgs (fun x => cfmod x 360) (yearFraction year day fraction) t))
  ⟨moonEquator t v.pos, moonEquator t v.vel⟩

/-- The body of `earth` after the time argument (src/earth.cc:61-103), as function of the mean longitude of the Sun
    `elm`, that of the Moon `elmm`, and the time. -/
def earthAt (elm elmm t : ℝ) : VectorPV :=
  let gamma := 4.908230 + 3.0005e-4 * t
  let em := elm - gamma
  let eps0 := 0.40931975 - 2.27e-6 * t
  let e := 0.016751 - 4.2e-7 * t
  let e2 := e * e
  let v := em + 2 * e * Real.sin em + 1.25 * e2 * Real.sin (2 * em)
  let elt := v + gamma
  let r := (1 - e2) / (1 + e * Real.cos v)
  let w1 := -r * Real.sin elt
  let w2 := -1.9913e-7 * (Real.cos elt + e * Real.cos gamma)
  ⟨![-r * Real.cos elt - 3.12e-5 * Real.cos elmm, (w1 - 3.12e-5 * Real.sin elmm) * Real.cos eps0, w1 * Real.sin eps0],
   ![1.9913e-7 * (Real.sin elt + e * Real.sin gamma) + 8.31e-11 * Real.sin elmm,
     (w2 - 8.31e-11 * Real.cos elmm) * Real.cos eps0, w2 * Real.sin eps0]⟩

/-- src/earth.cc:44-104 `earth` -/
def earth (year day : ℤ) (fraction : ℝ) : VectorPV :=
  let yf := yearFraction year day fraction
  let t := yearsSince1900 year day fraction
  earthAt (cfmod (4.881628 + 2 * Real.pi * yf + 0.00013420 * t) (2 * Real.pi))
    (cfmod (4.72 + 83.9971 * t) (2 * Real.pi)) t

/-- src/ecor.cc:42-60 `ecor`: (velocity, light time) -/
def ecor (dir : Spherical) (year day : ℤ) (fraction : ℝ) : ℝ × ℝ :=
  let pv := earth year day fraction
  let vec := dcs2c dir
  (-1.4959787066e8 * dvdv pv.vel vec, 499.0047837 * dvdv pv.pos vec)

end Sla
