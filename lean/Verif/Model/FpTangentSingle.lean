import Verif.Model.FpTangent

/-
The gnomonic projection in single precision, with the rounding of every operation.
-/
noncomputable section
namespace Sla.Fp
open Sla

/-- src/s2tp.cc:36-68 `s2tp`: status, xi, eta; `R` rounds to `float`, `sn` and `cs` are the `float` overloads.  `TINY` is the `float`
    nearest to 1e-6 -/
def s2tp (R : ℝ → ℝ) (sn cs : ℝ → ℝ) (point tangent : Spherical) : TPPStatus × ℝ × ℝ :=
  let tiny := R 1e-6
  let sin_tdec := sn tangent.b
  let sin_dec := sn point.b
  let cos_tdec := cs tangent.b
  let cos_dec := cs point.b
  let ra_diff := R (point.a - tangent.a)
  let sin_ra_diff := sn ra_diff
  let cos_ra_diff := cs ra_diff
  let denom := R (R (sin_dec * sin_tdec) + R (R (cos_dec * cos_tdec) * cos_ra_diff))
  open Classical in
  let c : TPPStatus × ℝ :=
    if denom > tiny then (.ok, denom)
    else if denom ≥ 0 then (.tooFar, tiny)
    else if denom > -tiny then (.astarOnTp, -tiny)
    else (.astarTooFar, denom)
  (c.1, R (R (cos_dec * sin_ra_diff) / c.2), R (R (R (sin_dec * cos_tdec) - R (R (cos_dec * sin_tdec) * cos_ra_diff)) / c.2))

/-- src/tp2s.cc:33-40 `tp2s`: right ascension and declination; `dranrm` with rounding to `float` is src/ranorm.cc `ranorm` -/
def tp2s (R : ℝ → ℝ) (sn cs : ℝ → ℝ) (at2 : ℝ → ℝ → ℝ) (xi eta : ℝ) (tangent : Spherical) : Spherical :=
  let sin_tdec := sn tangent.b
  let cos_tdec := cs tangent.b
  let denom := R (cos_tdec - R (eta * sin_tdec))
  { a := dranrm R (R (at2 xi denom + tangent.a))
    b := at2 (R (sin_tdec + R (eta * cos_tdec))) (R (Real.sqrt (R (R (xi * xi) + R (denom * denom))))) }

end Sla.Fp
