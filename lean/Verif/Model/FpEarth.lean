import Verif.Model.Earth
import Verif.Model.FpCode

/-
The low-precision ephemerides in `float` arithmetic (see Model/Fp.lean).

`R` rounds to `float`; `D` rounds to `double`, needed for the constants that are written as `double` literals and assigned to
`float` constants.  `sn` and `cs` are the library's `sin` and `cos` for `float`.  `fmod` is exact.  Integers are not bounded
here (see C96).
-/
noncomputable section
namespace Sla.Fp

/-- src/moon.cc:213-215, src/earth.cc:55-57: the fraction of the year in `float` arithmetic. -/
def yearFraction (R : ℝ → ℝ) (year day : ℤ) (fraction : ℝ) : ℝ :=
  let y4 := (year.tmod 4 + 4).tmod 4
  R (R (R ((4 * (day - (1 : ℤ).tdiv (y4 + 1)) - y4 - 2 : ℤ) : ℝ) + R (R 4 * fraction)) / R 1461)

/-- src/moon.cc:213, 216, src/earth.cc:55, 58: Julian years since J1900.0 in `float` arithmetic. -/
def yearsSince1900 (R : ℝ → ℝ) (year day : ℤ) (fraction : ℝ) : ℝ :=
  R (R ((year - 1900 : ℤ) : ℝ) + yearFraction R year day fraction)

/-- The body of `earth` after the mean longitudes (src/earth.cc:64-103), in `float` arithmetic. -/
def earthAt (R D : ℝ → ℝ) (sn cs : ℝ → ℝ) (elm elmm t : ℝ) : VectorPV :=
  let speed := R (D 1.9913e-7)
  let embDist := R (D 3.12e-5)
  let embSpeed := R (D 8.31e-11)
  let gamma := R (R 4.908230 + R (R 3.0005e-4 * t))
  let em := R (elm - gamma)
  let eps0 := R (R 0.40931975 - R (R 2.27e-6 * t))
  let e := R (R 0.016751 - R (R 4.2e-7 * t))
  let e2 := R (e * e)
  let v := R (R (em + R (R (2 * e) * sn em)) + R (R (1.25 * e2) * sn (R (2 * em))))
  let elt := R (v + gamma)
  let r := R (R (1 - e2) / R (1 + R (e * cs v)))
  let w1 := R (-r * sn elt)
  let w2 := R (-speed * R (cs elt + R (e * cs gamma)))
  ⟨![R (R (-r * cs elt) - R (embDist * cs elmm)), R (R (w1 - R (embDist * sn elmm)) * cs eps0), R (w1 * sn eps0)],
   ![R (R (speed * R (sn elt + R (e * sn gamma))) + R (embSpeed * sn elmm)),
     R (R (w2 - R (embSpeed * cs elmm)) * cs eps0), R (w2 * sn eps0)]⟩

/-- src/earth.cc:44-104 `earth` in `float` arithmetic -/
def earth (R D : ℝ → ℝ) (sn cs : ℝ → ℝ) (year day : ℤ) (fraction : ℝ) : VectorPV :=
  let twoPi := R 6.28318530718
  let yf := yearFraction R year day fraction
  let t := yearsSince1900 R year day fraction
  let elm := cfmod (R (R (R 4.881628 + R (twoPi * yf)) + R (R 0.00013420 * t))) twoPi
  let elmm := cfmod (R (R 4.72 + R (R 83.9971 * t))) twoPi
  earthAt R D sn cs elm elmm t

/-- src/ecor.cc:42-60 `ecor` in `float` arithmetic: (velocity, light time); `cs2c` (src/cs2c.cc) is the `float` twin of
    `dcs2c`, `vdv` (src/vdv.cc) that of `dvdv` -/
def ecor (R D : ℝ → ℝ) (sn cs : ℝ → ℝ) (dir : Spherical) (year day : ℤ) (fraction : ℝ) : ℝ × ℝ :=
  let pv := earth R D sn cs year day fraction
  let vec := dcs2c R sn cs dir.a dir.b
  (R (-R 1.4959787066e8 * dvdv R pv.vel vec), R (R 499.0047837 * dvdv R pv.pos vec))

end Sla.Fp
