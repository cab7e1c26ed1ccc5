import Verif.Model.FpEarth

/-
The low-precision `sla::moon` (src/moon.cc) in `float` arithmetic (see Model/Fp.lean and Model/FpEarth.lean).

The `int8_t` multiples converted to `float` are exact and are left unrounded.
-/
noncomputable section
namespace Sla.Fp

/-- The fundamental arguments (src/moon.cc:69-96, 218-231) in `float` arithmetic -/
def moonArgs (R D : ℝ → ℝ) (yf t : ℝ) : MoonArgs where
  elp := R (R 1.745329252e-2 * cfmod (R (R (R 270.434164 + R (R 4680 * yf)) + R (R 132.678831 * t))) (R 360))
  em := R (R 1.745329252e-2 * cfmod (R (R 358.475833 + R (R 359.990498 * t))) (R 360))
  emp := R (R 1.745329252e-2 * cfmod (R (R (R 296.104608 + R (R 4680 * yf)) + R (R 91.988491 * t))) (R 360))
  d := R (R 1.745329252e-2 * cfmod (R (R (R 350.737486 + R (R 4320 * yf)) + R (R 132.671142 * t))) (R 360))
  f := R (R 1.745329252e-2 * cfmod (R (R (R 11.250889 + R (R 4680 * yf)) + R (R (D 152.020251) * t))) (R 360))
  om := 0

/-- `theta` of a term (src/moon.cc:244, 261, 278) in `float` arithmetic -/
def moonTheta (R : ℝ → ℝ) (k : MoonTerm) (a : MoonArgs) : ℝ :=
  R (R (R (R (k.m * a.em) + R (k.mp * a.emp)) + R (k.d * a.d)) + R (k.f * a.f))

/-- `thetad` of a term (src/moon.cc:245, 262, 279) in `float` arithmetic -/
def moonThetad (R : ℝ → ℝ) (k : MoonTerm) : ℝ :=
  R (R (R (R (k.m * R 359.990498) + R (k.mp * R 4771.988491)) + R (k.d * R 4452.671142)) + R (k.f * R 4832.020251))

/-- Body of the loops of the longitude and latitude series (src/moon.cc:238-248, 255-265) in `float` arithmetic -/
def moonSinTerm (R : ℝ → ℝ) (sn cs : ℝ → ℝ) (a : MoonArgs) (s : ℝ × ℝ) (k : MoonTerm) : ℝ × ℝ :=
  (R (s.1 + R (R k.c * sn (moonTheta R k a))), R (s.2 + R (R (R k.c * cs (moonTheta R k a)) * moonThetad R k)))

/-- Body of the loop of the parallax series (src/moon.cc:272-282) in `float` arithmetic -/
def moonCosTerm (R : ℝ → ℝ) (sn cs : ℝ → ℝ) (a : MoonArgs) (s : ℝ × ℝ) (k : MoonTerm) : ℝ × ℝ :=
  (R (s.1 + R (R k.c * cs (moonTheta R k a))), R (s.2 - R (R (R k.c * sn (moonTheta R k a)) * moonThetad R k)))

/-- Ecliptic coordinates and rates per second (src/moon.cc:233-289) in `float` arithmetic -/
def moonSpherical (R : ℝ → ℝ) (sn cs : ℝ → ℝ) (a : MoonArgs) : SphericalPV :=
  let deg := R 1.745329252e-2
  let rate := R 9.652743551e-12
  let vl := moonL.reverse.foldl (moonSinTerm R sn cs a) (0, 0)
  let el := R (R (vl.1 * deg) + a.elp)
  let eld := R (rate * R (vl.2 + R (R 4812.678831 / deg)))
  let vb := moonB.reverse.foldl (moonSinTerm R sn cs a) (0, 0)
  let b := R (vb.1 * deg)
  let bd := R (vb.2 * rate)
  let vp := moonP.reverse.foldl (moonCosTerm R sn cs a) (0, 0)
  let p := R (R (vp.1 + R 0.950724) * deg)
  let pd := R (vp.2 * rate)
  let sp := sn p
  let r := R (R 4.2635212653763e-5 / sp)
  let rd := R (R (-r * pd) / sp)
  ⟨el, b, r, eld, bd, rd⟩

/-- src/ds2c6.cc:31-52 `ds2c6` (and src/cs2c6.cc `cs2c6`) in floating-point arithmetic -/
def ds2c6 (R : ℝ → ℝ) (sn cs : ℝ → ℝ) (spv : SphericalPV) : VectorPV :=
  let dist_cos_lat := R (spv.dist * cs spv.lat)
  let x := R (dist_cos_lat * cs spv.long)
  let y := R (dist_cos_lat * sn spv.long)
  let dist_dlat := R (spv.dist * spv.dlat)
  let w := R (R (dist_dlat * sn spv.lat) - R (cs spv.lat * spv.ddist))
  ⟨![x, y, R (spv.dist * sn spv.lat)],
   ![R (R (-y * spv.dlong) - R (w * cs spv.long)), R (R (x * spv.dlong) - R (w * sn spv.long)),
     R (R (dist_dlat * cs spv.lat) + R (sn spv.lat * spv.ddist))]⟩

/-- Rotation into the equatorial system (src/moon.cc:295-306) in `float` arithmetic -/
def moonEquator (R : ℝ → ℝ) (sn cs : ℝ → ℝ) (t : ℝ) (v : Vec) : Vec :=
  let eps := R (R 1.745329252e-2 * R (R 23.45229 - R (R 0.00013 * t)))
  ![v 0, R (R (v 1 * cs eps) - R (v 2 * sn eps)), R (R (v 1 * sn eps) + R (v 2 * cs eps))]

/-- src/moon.cc:52-307 `moon` in `float` arithmetic -/
def moon (R D : ℝ → ℝ) (sn cs : ℝ → ℝ) (year day : ℤ) (fraction : ℝ) : VectorPV :=
  let t := yearsSince1900 R year day fraction
  let v := ds2c6 R sn cs (moonSpherical R sn cs (moonArgs R D (yearFraction R year day fraction) t))
  ⟨moonEquator R sn cs t v.pos, moonEquator R sn cs t v.vel⟩

end Sla.Fp
