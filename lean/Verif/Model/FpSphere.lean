import Verif.Model.FpCode
import Verif.Model.Tangent

/-
The routines of spherical astronomy in floating point; `sn`, `cs` and `at2` are the library's `sin`, `cos` and `atan2`.
Signed zeros are not modelled; see `Atan2Near` in Spec/FpLib.lean for what this means for `atan2`.
-/
noncomputable section
namespace Sla.Fp


/-- The common part of src/de2h.cc:47-58 and src/dh2e.cc:46-57: the components of the direction in the other system. -/
def horizonVector (R : ℝ → ℝ) (sn cs : ℝ → ℝ) (a b phi : ℝ) : Vec :=
  let sin_a := sn a
  let cos_a := cs a
  let sin_b := sn b
  let cos_b := cs b
  let sin_phi := sn phi
  let cos_phi := cs phi
  ![R (R (R (-cos_a * cos_b) * sin_phi) + R (sin_b * cos_phi)),
    R (-sin_a * cos_b),
    R (R (R (cos_a * cos_b) * cos_phi) + R (sin_b * sin_phi))]

/-- src/de2h.cc:45-73 `de2h`; with `F = binary32`, src/e2h.cc `e2h` -/
def de2h (R : ℝ → ℝ) (sn cs : ℝ → ℝ) (at2 : ℝ → ℝ → ℝ) (dir : Spherical) (phi : ℝ) : AzEl :=
  let v := horizonVector R sn cs dir.a dir.b phi
  let r := R (Real.sqrt (R (R (v 0 * v 0) + R (v 1 * v 1))))
  let a := open Classical in if r = 0 then 0 else
    let a := at2 (v 1) (v 0)
    if a < 0 then R (a + R 6.283185307179586476925286766559) else a
  { az := a, el := at2 (v 2) r }

/-- src/dh2e.cc:44-62 `dh2e` (src/h2e.cc `h2e` mixes `float` and `double` and is not this function) -/
def dh2e (R : ℝ → ℝ) (sn cs : ℝ → ℝ) (at2 : ℝ → ℝ → ℝ) (azimuth elevation phi : ℝ) : Spherical :=
  let v := horizonVector R sn cs azimuth elevation phi
  let r := R (Real.sqrt (R (R (v 0 * v 0) + R (v 1 * v 1))))
  { a := open Classical in if r = 0 then 0 else at2 (v 1) (v 0), b := at2 (v 2) r }

/-- src/zd.cc:44-55 `zd` -/
def zd (R : ℝ → ℝ) (sn cs : ℝ → ℝ) (at2 : ℝ → ℝ → ℝ) (dir : Spherical) (phi : ℝ) : ℝ :=
  let sin_ha := sn dir.a
  let cos_ha := cs dir.a
  let sin_dec := sn dir.b
  let cos_dec := cs dir.b
  let sin_phi := sn phi
  let cos_phi := cs phi
  let x := R (R (R (cos_ha * cos_dec) * sin_phi) - R (sin_dec * cos_phi))
  let y := R (sin_ha * cos_dec)
  let z := R (R (R (cos_ha * cos_dec) * cos_phi) + R (sin_dec * sin_phi))
  at2 (R (Real.sqrt (R (R (x * x) + R (y * y))))) z

/-- src/pa.cc:36-44 `pa` -/
def pa (R : ℝ → ℝ) (sn cs : ℝ → ℝ) (at2 : ℝ → ℝ → ℝ) (dir : Spherical) (phi : ℝ) : ℝ :=
  let cp := cs phi
  let sqsz := R (cp * sn dir.a)
  let cqsz := R (R (sn phi * cs dir.b) - R (R (cp * sn dir.b) * cs dir.a))
  let cqsz := open Classical in if sqsz = 0 ∧ cqsz = 0 then 1 else cqsz
  at2 sqsz cqsz

/-- src/dbear.cc:34-40 `dbear`; with `F = binary32`, src/bear.cc `bear` -/
def dbear (R : ℝ → ℝ) (sn cs : ℝ → ℝ) (at2 : ℝ → ℝ → ℝ) (da db : Spherical) : ℝ :=
  let cos_b_dec := cs db.b
  let d_ra := R (db.a - da.a)
  let x := R (R (sn db.b * cs da.b) - R (R (cos_b_dec * sn da.b) * cs d_ra))
  let y := R (sn d_ra * cos_b_dec)
  open Classical in if x ≠ 0 ∨ y ≠ 0 then at2 y x else 0

end Sla.Fp
