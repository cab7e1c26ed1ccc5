import Verif.Model.FpCode
import Verif.Model.Coords
import Verif.Model.Refraction

/-
Observer and radial velocity functions with the rounding of every operation: `R` is the rounding of the type of the function,
`D` that of `double` where a `double` literal initialises a `float`; `sn` and `cs` are the library's `sin` and `cos`.
-/
noncomputable section
namespace Sla.Fp

/-- src/rverot.cc:38-42 `rverot` -/
def rverot (R : ℝ → ℝ) (sn cs : ℝ → ℝ) (phi : ℝ) (pos : Spherical) (stime : ℝ) : ℝ :=
  R (R (R (R 0.4655 * cs phi) * sn (R (stime - pos.a))) * cs pos.b)

/-- A table of `double` literals initialising a `Vector<float>`. -/
def floats (R D : ℝ → ℝ) (v : Vec) : Vec := fun i => R (D (v i))

/-- src/rvlsrd.cc:44-63 `rvlsrd` -/
def rvlsrd (R D : ℝ → ℝ) (sn cs : ℝ → ℝ) (pos : Spherical) : ℝ :=
  dvdv R (floats R D ![0.63823, 14.58542, -7.80116]) (dcs2c R sn cs pos.a pos.b)
/-- src/rvlsrk.cc:44-64 `rvlsrk` -/
def rvlsrk (R D : ℝ → ℝ) (sn cs : ℝ → ℝ) (pos : Spherical) : ℝ :=
  dvdv R (floats R D ![-0.29000, 17.31726, -10.00141]) (dcs2c R sn cs pos.a pos.b)
/-- src/rvgalc.cc:37-58 `rvgalc` -/
def rvgalc (R D : ℝ → ℝ) (sn cs : ℝ → ℝ) (pos : Spherical) : ℝ :=
  dvdv R (floats R D ![-108.70408, 97.86251, -164.33610]) (dcs2c R sn cs pos.a pos.b)
/-- src/rvlg.cc:35-58 `rvlg` -/
def rvlg (R D : ℝ → ℝ) (sn cs : ℝ → ℝ) (pos : Spherical) : ℝ :=
  dvdv R (floats R D ![-148.23284, 133.44888, -224.09467]) (dcs2c R sn cs pos.a pos.b)

/-- src/airmas.cc:44-47 `airmas` -/
def airmas (R : ℝ → ℝ) (cs : ℝ → ℝ) (zd : ℝ) : ℝ :=
  let seczm1 := R (R (1 / cs (min (R 1.52) |zd|)) - 1)
  R (1 + R (seczm1 * R (R 0.9981833 - R (seczm1 * R (R 0.002875 + R (R 0.0008083 * seczm1))))))

/-- The constants of src/geoc.cc:42-50; `FF`, `B2` and `B` are computed in `double`. -/
def geocB (R : ℝ → ℝ) : ℝ :=
  let b2 := R (1 - R (1 / R 298.257))
  R (b2 * b2)

/-- src/geoc.cc:40-61 `geoc` -/
def geoc (R : ℝ → ℝ) (sn cs : ℝ → ℝ) (latitude height : ℝ) : ℝ × ℝ :=
  let sinLat := sn latitude
  let cosLat := cs latitude
  let c := R (1 / R (Real.sqrt (R (R (cosLat * cosLat) + R (R (geocB R * sinLat) * sinLat)))))
  let s := R (geocB R * c)
  (R (R (R (R (R 6378140 * c) + height) * cosLat) / R 1.49597870e11),
    R (R (R (R (R 6378140 * s) + height) * sinLat) / R 1.49597870e11))

/-- src/pvobs.cc:35-59 `pvobs` -/
def pvobs (R : ℝ → ℝ) (sn cs : ℝ → ℝ) (latitude height lst : ℝ) : VectorPV :=
  let g := geoc R sn cs latitude height
  let sinLst := sn lst
  let cosLst := cs lst
  let velocity := R (R 7.292115855306589e-5 * g.1)
  { pos := ![R (g.1 * cosLst), R (g.1 * sinLst), g.2]
    vel := ![R (-velocity * sinLst), R (velocity * cosLst), 0] }

end Sla.Fp
