import Verif.Model.FpMoon

/-
`sla::dmoon` (src/dmoon.cc) in `double` arithmetic (see Model/Fp.lean).

`R` is the rounding; `sn` and `cs` stand for `std::sin` and `std::cos`. Integers in the source (2, 3, 100, 360, 2000, 36525,
3155760000, the multiples in the tables) and 15019.5, 51544.5 are `double` values and are left unrounded, `std::fmod` is exact,
and a negative constant is the negative of the rounded positive one.
-/
noncomputable section
namespace Sla.Fp

/-- `DEGREES_2_RADIANS` (src/dmoon.cc:53) -/
def dmoonDeg (R : ℝ → ℝ) : ℝ := R 0.0174532925199432957692369

/-- Polynomials of the fundamental arguments (src/dmoon.cc:335-355), from the coefficients in `double` -/
def dmoonPoly (R : ℝ → ℝ) (c0 c1 c2 c3 t : ℝ) : ℝ := R (c0 + R (R (c1 + R (R (c2 + R (c3 * t)) * t)) * t))

/-- Polynomials of their rates (src/dmoon.cc:336-356) -/
def dmoonPolyRate (R : ℝ → ℝ) (c1 c2 c3 t : ℝ) : ℝ := R (c1 + R (R (R (2 * c2) + R (R (3 * c3) * t)) * t))

/-- The fundamental arguments (src/dmoon.cc:335-355) in `double` arithmetic -/
def dmoonArgs (R : ℝ → ℝ) (t : ℝ) : MoonArgs where
  elp := R (dmoonDeg R * cfmod (dmoonPoly R (R 270.434164) (R 481267.8831) (-R 0.001133) (R 0.0000019) t) 360)
  em := R (dmoonDeg R * cfmod (dmoonPoly R (R 358.475833) (R 35999.0498) (-R 0.000150) (-R 0.0000033) t) 360)
  emp := R (dmoonDeg R * cfmod (dmoonPoly R (R 296.104608) (R 477198.8491) (R 0.009192) (R 0.0000144) t) 360)
  d := R (dmoonDeg R * cfmod (dmoonPoly R (R 350.737486) (R 445267.1142) (-R 0.001436) (R 0.0000019) t) 360)
  f := R (dmoonDeg R * cfmod (dmoonPoly R (R 11.250889) (R 483202.0251) (-R 0.003211) (-R 0.0000003) t) 360)
  om := R (dmoonDeg R * cfmod (dmoonPoly R (R 259.183275) (-R 1934.1420) (R 0.002078) (R 0.0000022) t) 360)

/-- Their rates (src/dmoon.cc:336-356) in `double` arithmetic -/
def dmoonRates (R : ℝ → ℝ) (t : ℝ) : MoonArgs where
  elp := R (dmoonDeg R * dmoonPolyRate R (R 481267.8831) (-R 0.001133) (R 0.0000019) t)
  em := R (dmoonDeg R * dmoonPolyRate R (R 35999.0498) (-R 0.000150) (-R 0.0000033) t)
  emp := R (dmoonDeg R * dmoonPolyRate R (R 477198.8491) (R 0.009192) (R 0.0000144) t)
  d := R (dmoonDeg R * dmoonPolyRate R (R 445267.1142) (-R 0.001436) (R 0.0000019) t)
  f := R (dmoonDeg R * dmoonPolyRate R (R 483202.0251) (-R 0.003211) (-R 0.0000003) t)
  om := R (dmoonDeg R * dmoonPolyRate R (-R 1934.1420) (R 0.002078) (R 0.0000022) t)

/-- The angles `theta` of the periodic variations (src/dmoon.cc:362, 365) in `double` arithmetic -/
def dmoonThetaA (R : ℝ → ℝ) (t : ℝ) : ℝ := R (dmoonDeg R * R (R 51.2 + R (R 20.2 * t)))
def dmoonThetaB (R : ℝ → ℝ) (t : ℝ) : ℝ :=
  R (dmoonDeg R * R (R 346.560 + R (R (R 132.870 + R (-R 0.0091731 * t)) * t)))

/-- `wa`, `dwa`, `wb`, `dwb` (src/dmoon.cc:363-367) in `double` arithmetic -/
def dmoonWa (R : ℝ → ℝ) (sn : ℝ → ℝ) (t : ℝ) : ℝ := sn (dmoonThetaA R t)
def dmoonDwa (R : ℝ → ℝ) (cs : ℝ → ℝ) (t : ℝ) : ℝ := R (R (dmoonDeg R * R 20.2) * cs (dmoonThetaA R t))
def dmoonWb (R : ℝ → ℝ) (sn : ℝ → ℝ) (t : ℝ) : ℝ := R (R 0.003964 * sn (dmoonThetaB R t))
def dmoonDwb (R : ℝ → ℝ) (cs : ℝ → ℝ) (t : ℝ) : ℝ :=
  R (R (R (dmoonDeg R * R 0.003964) * R (R 132.870 + R (R (2 * -R 0.0091731) * t))) * cs (dmoonThetaB R t))

/-- `wom`, `dwom` (src/dmoon.cc:376-377) in `double` arithmetic -/
def dmoonWom (R : ℝ → ℝ) (t om : ℝ) : ℝ := R (om + R (dmoonDeg R * R (R 275.05 + R (-R 2.30 * t))))
def dmoonDwom (R : ℝ → ℝ) (dom : ℝ) : ℝ := R (dom + R (dmoonDeg R * -R 2.30))

/-- The sum of three products in the variations of elp, emp and d (src/dmoon.cc:368-375) -/
def dmoonVar (R : ℝ → ℝ) (ca wa wb cf s : ℝ) : ℝ := R (dmoonDeg R * R (R (R (ca * wa) + wb) + R (cf * s)))

/-- The arguments with the periodic variations (src/dmoon.cc:368-380) in `double` arithmetic -/
def dmoonPeriodic (R : ℝ → ℝ) (sn : ℝ → ℝ) (t : ℝ) (a : MoonArgs) : MoonArgs where
  elp := R (a.elp + dmoonVar R (R 0.000233) (dmoonWa R sn t) (dmoonWb R sn t) (R 0.001964) (sn a.om))
  em := R (a.em + R (R (dmoonDeg R * -R 0.001778) * dmoonWa R sn t))
  emp := R (a.emp + dmoonVar R (R 0.000817) (dmoonWa R sn t) (dmoonWb R sn t) (R 0.002541) (sn a.om))
  d := R (a.d + dmoonVar R (R 0.002011) (dmoonWa R sn t) (dmoonWb R sn t) (R 0.001964) (sn a.om))
  f := R (a.f + R (dmoonDeg R *
    R (R (dmoonWb R sn t + R (-R 0.024691 * sn a.om)) + R (-R 0.004328 * sn (dmoonWom R t a.om)))))
  om := a.om

/-- Their rates (src/dmoon.cc:359, 369-381) in `double` arithmetic -/
def dmoonPeriodicRates (R : ℝ → ℝ) (cs : ℝ → ℝ) (t : ℝ) (a r : MoonArgs) : MoonArgs where
  elp := R (r.elp + dmoonVar R (R 0.000233) (dmoonDwa R cs t) (dmoonDwb R cs t) (R 0.001964) (R (r.om * cs a.om)))
  em := R (r.em + R (R (dmoonDeg R * -R 0.001778) * dmoonDwa R cs t))
  emp := R (r.emp + dmoonVar R (R 0.000817) (dmoonDwa R cs t) (dmoonDwb R cs t) (R 0.002541) (R (r.om * cs a.om)))
  d := R (r.d + dmoonVar R (R 0.002011) (dmoonDwa R cs t) (dmoonDwb R cs t) (R 0.001964) (R (r.om * cs a.om)))
  f := R (r.f + R (dmoonDeg R * R (R (dmoonDwb R cs t + R (-R 0.024691 * R (r.om * cs a.om))) +
    R (R (-R 0.004328 * dmoonDwom R r.om) * cs (dmoonWom R t a.om)))))
  om := r.om

/-- The e factor and its rate (src/dmoon.cc:384-385), and their powers (lines 386-387, 405-414) in `double` arithmetic -/
def dmoonE (R : ℝ → ℝ) (t : ℝ) : ℝ := R (1 + R (R (-R 0.002495 + R (-R 0.00000752 * t)) * t))
def dmoonDe (R : ℝ → ℝ) (t : ℝ) : ℝ := R (-R 0.002495 + R (R (2 * -R 0.00000752) * t))
def dmoonEn (R : ℝ → ℝ) (t : ℝ) (i : ℤ) : ℝ :=
  if i = 0 then 1 else if i = 1 then dmoonE R t else R (dmoonE R t * dmoonE R t)
def dmoonDen (R : ℝ → ℝ) (t : ℝ) (i : ℤ) : ℝ :=
  if i = 0 then 0 else if i = 1 then dmoonDe R t else R (R (2 * dmoonE R t) * dmoonDe R t)

/-- Body of the loops of the longitude and latitude series (src/dmoon.cc:398-420, 427-449) in `double` arithmetic -/
def dmoonSinTerm (R : ℝ → ℝ) (sn cs : ℝ → ℝ) (t : ℝ) (a r : MoonArgs) (s : ℝ × ℝ) (k : MoonTerm) : ℝ × ℝ :=
  (R (s.1 + R (R (R k.c * sn (moonTheta R k a)) * dmoonEn R t k.e)),
   R (s.2 + R (R k.c * R (R (R (cs (moonTheta R k a) * moonTheta R k r) * dmoonEn R t k.e) +
     R (sn (moonTheta R k a) * dmoonDen R t k.e)))))

/-- Body of the loop of the parallax series (src/dmoon.cc:458-480) in `double` arithmetic -/
def dmoonCosTerm (R : ℝ → ℝ) (sn cs : ℝ → ℝ) (t : ℝ) (a r : MoonArgs) (s : ℝ × ℝ) (k : MoonTerm) : ℝ × ℝ :=
  (R (s.1 + R (R (R k.c * cs (moonTheta R k a)) * dmoonEn R t k.e)),
   R (s.2 + R (R k.c * R (R (R (-sn (moonTheta R k a) * moonTheta R k r) * dmoonEn R t k.e) +
     R (cs (moonTheta R k a) * dmoonDen R t k.e)))))

/-- Longitude, latitude and distance in AU and their rates per second (src/dmoon.cc:394-491) in `double` arithmetic -/
def dmoonSpherical (R : ℝ → ℝ) (sn cs : ℝ → ℝ) (t : ℝ) (a r : MoonArgs) : SphericalPV :=
  let pa := dmoonPeriodic R sn t a
  let pr := dmoonPeriodicRates R cs t a r
  let wom := dmoonWom R t a.om
  let dwom := dmoonDwom R r.om
  let vl := dmoonL.reverse.foldl (dmoonSinTerm R sn cs t pa pr) (0, 0)
  let el := R (pa.elp + R (dmoonDeg R * vl.1))
  let del := R (R (pr.elp + R (dmoonDeg R * vl.2)) / 3155760000)
  let vb := dmoonB.reverse.foldl (dmoonSinTerm R sn cs t pa pr) (0, 0)
  let bf := R (R (1 - R (R 0.0004664 * cs a.om)) - R (R 0.0000754 * cs wom))
  let dbf := R (R (R (R 0.0004664 * r.om) * sn a.om) + R (R (R 0.0000754 * dwom) * sn wom))
  let b := R (R (dmoonDeg R * vb.1) * bf)
  let db := R (R (dmoonDeg R * R (R (vb.2 * bf) + R (vb.1 * dbf))) / 3155760000)
  let vp := dmoonP.reverse.foldl (dmoonCosTerm R sn cs t pa pr) (0, 0)
  let p := R (dmoonDeg R * vp.1)
  let dp := R (R (dmoonDeg R * vp.2) / 3155760000)
  let sinP := sn p
  let dist := R (R 4.2635212653763e-5 / sinP)
  let ddist := R (R (R (-dist * dp) * cs p) / sinP)
  ⟨el, b, dist, del, db, ddist⟩

/-- Spherical to rectangular (src/dmoon.cc:494-506) in `double` arithmetic: the operations are those of `ds2c6` -/
def dmoonRect (R : ℝ → ℝ) (sn cs : ℝ → ℝ) (s : SphericalPV) : VectorPV := ds2c6 R sn cs s

/-- Ecliptic to mean equator and FK5 equinox of date (src/dmoon.cc:509-528) in `double` arithmetic -/
def dmoonEquator (R : ℝ → ℝ) (sn cs : ℝ → ℝ) (date : ℝ) (v : Vec) : Vec :=
  let t := R (R (date - 51544.5) / 36525)
  let epj := R (2000 + R (t * 100))
  let eqcor := R (R 7.272205216643039903848712e-5 * R (R 0.035 + R (R 0.00085 * R (epj - R 1949.9997904423))))
  let eps := R (R 4.848136811095359935899141e-6 *
    R (R 84381.448 + R (R (-R 46.8150 + R (R (-R 0.00059 + R (R 0.001813 * t)) * t)) * t)))
  let sinEps := sn eps
  let cosEps := cs eps
  let es := R (eqcor * sinEps)
  let ec := R (eqcor * cosEps)
  ![R (R (v 0 - R (ec * v 1)) + R (es * v 2)), R (R (R (eqcor * v 0) + R (v 1 * cosEps)) - R (v 2 * sinEps)),
    R (R (v 1 * sinEps) + R (v 2 * cosEps))]

/-- src/dmoon.cc:51-529 `dmoon` in `double` arithmetic -/
def dmoon (R : ℝ → ℝ) (sn cs : ℝ → ℝ) (date : ℝ) : VectorPV :=
  let t := R (R (date - 15019.5) / 36525)
  let pv := dmoonRect R sn cs (dmoonSpherical R sn cs t (dmoonArgs R t) (dmoonRates R t))
  ⟨dmoonEquator R sn cs date pv.pos, dmoonEquator R sn cs date pv.vel⟩

end Sla.Fp
