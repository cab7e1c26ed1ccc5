import Verif.Model.CMath
import Verif.Model.Spherical
import Verif.Model.MoonTables

/-
`sla::dmoon` (src/dmoon.cc), `sla::moon` (src/moon.cc), `sla::earth` (src/earth.cc) and `sla::ecor` (src/ecor.cc).

The conversion factors from degrees, arcseconds and seconds of time to radians, and the factor of `moon` that is
documented as their product with the length of the year, are taken as exact. The literals 2pi of `earth` likewise.
-/
noncomputable section
namespace Sla

/-- Degrees to radians. -/
def d2r : ℝ := Real.pi / 180

/-- The fundamental arguments, or their rates. -/
structure MoonArgs where
  elp : ℝ
  em : ℝ
  emp : ℝ
  d : ℝ
  f : ℝ
  om : ℝ

/-- Polynomials of the fundamental arguments, in degrees (src/dmoon.cc:334-356). -/
def moonPoly (c0 c1 c2 c3 t : ℝ) : ℝ := c0 + (c1 + (c2 + c3 * t) * t) * t

/-- Their derivatives per century. -/
def moonPolyRate (c1 c2 c3 t : ℝ) : ℝ := c1 + (2 * c2 + 3 * c3 * t) * t

/-- The fundamental arguments at `t` centuries from J1900 (src/dmoon.cc:334-355), with the reduction `red` of an angle
    in degrees; the code has `fmod(angle, 360)`. -/
def dmoonArgs (red : ℝ → ℝ) (t : ℝ) : MoonArgs where
  elp := d2r * red (moonPoly 270.434164 481267.8831 (-0.001133) 0.0000019 t)
  em := d2r * red (moonPoly 358.475833 35999.0498 (-0.000150) (-0.0000033) t)
  emp := d2r * red (moonPoly 296.104608 477198.8491 0.009192 0.0000144 t)
  d := d2r * red (moonPoly 350.737486 445267.1142 (-0.001436) 0.0000019 t)
  f := d2r * red (moonPoly 11.250889 483202.0251 (-0.003211) (-0.0000003) t)
  om := d2r * red (moonPoly 259.183275 (-1934.1420) 0.002078 0.0000022 t)

/-- Their rates (src/dmoon.cc:337-356). -/
def dmoonRates (t : ℝ) : MoonArgs where
  elp := d2r * moonPolyRate 481267.8831 (-0.001133) 0.0000019 t
  em := d2r * moonPolyRate 35999.0498 (-0.000150) (-0.0000033) t
  emp := d2r * moonPolyRate 477198.8491 0.009192 0.0000144 t
  d := d2r * moonPolyRate 445267.1142 (-0.001436) 0.0000019 t
  f := d2r * moonPolyRate 483202.0251 (-0.003211) (-0.0000003) t
  om := d2r * moonPolyRate (-1934.1420) 0.002078 0.0000022 t

/-- `theta` and `wa` (src/dmoon.cc:362-363), `dwa` (line 364), `wb`, `dwb` (lines 365-367). -/
def dmoonWa (t : ℝ) : ℝ := Real.sin (d2r * (51.2 + 20.2 * t))
def dmoonDwa (t : ℝ) : ℝ := d2r * 20.2 * Real.cos (d2r * (51.2 + 20.2 * t))
def dmoonWb (t : ℝ) : ℝ := 0.003964 * Real.sin (d2r * (346.560 + (132.870 + -0.0091731 * t) * t))
def dmoonDwb (t : ℝ) : ℝ :=
  d2r * 0.003964 * (132.870 + 2 * -0.0091731 * t) * Real.cos (d2r * (346.560 + (132.870 + -0.0091731 * t) * t))

/-- `wom`, `dwom` (src/dmoon.cc:376-377) -/
def dmoonWom (t : ℝ) (a : MoonArgs) : ℝ := a.om + d2r * (275.05 + -2.30 * t)
def dmoonDwom (r : MoonArgs) : ℝ := r.om + d2r * -2.30

/-- The periodic variations (src/dmoon.cc:361-381): arguments -/
def dmoonPeriodic (t : ℝ) (a : MoonArgs) : MoonArgs where
  elp := a.elp + d2r * (0.000233 * dmoonWa t + dmoonWb t + 0.001964 * Real.sin a.om)
  em := a.em + d2r * -0.001778 * dmoonWa t
  emp := a.emp + d2r * (0.000817 * dmoonWa t + dmoonWb t + 0.002541 * Real.sin a.om)
  d := a.d + d2r * (0.002011 * dmoonWa t + dmoonWb t + 0.001964 * Real.sin a.om)
  f := a.f + d2r * (dmoonWb t + -0.024691 * Real.sin a.om + -0.004328 * Real.sin (dmoonWom t a))
  om := a.om

/-- and rates. -/
def dmoonPeriodicRates (t : ℝ) (a r : MoonArgs) : MoonArgs where
  elp := r.elp + d2r * (0.000233 * dmoonDwa t + dmoonDwb t + 0.001964 * (r.om * Real.cos a.om))
  em := r.em + d2r * -0.001778 * dmoonDwa t
  emp := r.emp + d2r * (0.000817 * dmoonDwa t + dmoonDwb t + 0.002541 * (r.om * Real.cos a.om))
  d := r.d + d2r * (0.002011 * dmoonDwa t + dmoonDwb t + 0.001964 * (r.om * Real.cos a.om))
  f := r.f + d2r * (dmoonDwb t + -0.024691 * (r.om * Real.cos a.om) +
    -0.004328 * dmoonDwom r * Real.cos (dmoonWom t a))
  om := r.om

/-- The e factor and its rate (src/dmoon.cc:384-385), and their powers (lines 386-387, 405-414). -/
def dmoonE (t : ℝ) : ℝ := 1 + (-0.002495 + -0.00000752 * t) * t
def dmoonDe (t : ℝ) : ℝ := -0.002495 + 2 * -0.00000752 * t
def dmoonEn (t : ℝ) (i : ℤ) : ℝ := if i = 0 then 1 else if i = 1 then dmoonE t else dmoonE t * dmoonE t
def dmoonDen (t : ℝ) (i : ℤ) : ℝ := if i = 0 then 0 else if i = 1 then dmoonDe t else 2 * dmoonE t * dmoonDe t

/-- The coefficient of a term, in degrees. -/
def MoonTerm.c (k : MoonTerm) : ℝ := (k.coeff : ℝ) / 1000000

/-- `theta` and `dtheta` of a term (src/dmoon.cc:415-416). -/
def MoonTerm.theta (k : MoonTerm) (a : MoonArgs) : ℝ := k.m * a.em + k.mp * a.emp + k.d * a.d + k.f * a.f

/-- Body of the loops of the longitude and latitude series (src/dmoon.cc:398-420, 427-449), on the pair (v, dv). -/
def dmoonSinTerm (t : ℝ) (a r : MoonArgs) (s : ℝ × ℝ) (k : MoonTerm) : ℝ × ℝ :=
  let ftheta := Real.sin (k.theta a)
  (s.1 + k.c * ftheta * dmoonEn t k.e,
   s.2 + k.c * (Real.cos (k.theta a) * k.theta r * dmoonEn t k.e + ftheta * dmoonDen t k.e))

/-- Body of the loop of the parallax series (src/dmoon.cc:458-480). -/
def dmoonCosTerm (t : ℝ) (a r : MoonArgs) (s : ℝ × ℝ) (k : MoonTerm) : ℝ × ℝ :=
  let ftheta := Real.cos (k.theta a)
  (s.1 + k.c * ftheta * dmoonEn t k.e,
   s.2 + k.c * (-Real.sin (k.theta a) * k.theta r * dmoonEn t k.e + ftheta * dmoonDen t k.e))

/-- Longitude, latitude and distance of the Moon in AU, and their rates per second (src/dmoon.cc:392-491), from the
    arguments `a` and their rates `r` before the periodic variations. The loops run from the last term to the first. -/
def dmoonSpherical (t : ℝ) (a r : MoonArgs) : SphericalPV :=
  let pa := dmoonPeriodic t a
  let pr := dmoonPeriodicRates t a r
  let vl := dmoonL.reverse.foldl (dmoonSinTerm t pa pr) (0, 0)
  let el := pa.elp + d2r * vl.1
  let del := (pr.elp + d2r * vl.2) / 3155760000
  let vb := dmoonB.reverse.foldl (dmoonSinTerm t pa pr) (0, 0)
  let bf := 1 - 0.0004664 * Real.cos a.om - 0.0000754 * Real.cos (dmoonWom t a)
  let dbf := 0.0004664 * r.om * Real.sin a.om + 0.0000754 * dmoonDwom r * Real.sin (dmoonWom t a)
  let b := d2r * vb.1 * bf
  let db := d2r * (vb.2 * bf + vb.1 * dbf) / 3155760000
  let vp := dmoonP.reverse.foldl (dmoonCosTerm t pa pr) (0, 0)
  let p := d2r * vp.1
  let dp := d2r * vp.2 / 3155760000
  let sinP := Real.sin p
  let dist := 4.2635212653763e-5 / sinP
  let ddist := -dist * dp * Real.cos p / sinP
  ⟨el, b, dist, del, db, ddist⟩

/-- Spherical to rectangular (src/dmoon.cc:493-506). -/
def dmoonRect (s : SphericalPV) : VectorPV :=
  let sel := Real.sin s.long
  let cel := Real.cos s.long
  let sb := Real.sin s.lat
  let cb := Real.cos s.lat
  let rcb := s.dist * cb
  let rbd := s.dist * s.dlat
  let w := rbd * sb - cb * s.ddist
  let x := rcb * cel
  let y := rcb * sel
  let z := s.dist * sb
  ⟨![x, y, z], ![-y * s.dlong - w * cel, x * s.dlong - w * sel, rbd * cb + sb * s.ddist]⟩

/-- Ecliptic to mean equator and FK5 equinox of date (src/dmoon.cc:509-528). -/
def dmoonEquator (date : ℝ) (v : Vec) : Vec :=
  let t := (date - 51544.5) / 36525
  let epj := 2000 + t * 100
  let eqcor := Real.pi / 43200 * (0.035 + 0.00085 * (epj - 1949.9997904423))
  let eps := Real.pi / 648000 * (84381.448 + (-46.8150 + (-0.00059 + 0.001813 * t) * t) * t)
  let sinEps := Real.sin eps
  let cosEps := Real.cos eps
  let es := eqcor * sinEps
  let ec := eqcor * cosEps
  ![v 0 - ec * v 1 + es * v 2, eqcor * v 0 + v 1 * cosEps - v 2 * sinEps, v 1 * sinEps + v 2 * cosEps]

/-- src/dmoon.cc:51-529 `dmoon`. For a parallax with zero sine the code divides by zero; real division by zero gives
    zero. -/
def dmoon (date : ℝ) : VectorPV :=
  let t := (date - 15019.5) / 36525
  let pv := dmoonRect (dmoonSpherical t (dmoonArgs (fun x => cfmod x 360) t) (dmoonRates t))
  ⟨dmoonEquator date pv.pos, dmoonEquator date pv.vel⟩

end Sla
