import Verif.Model.FpCode
import Verif.Model.Tangent

/-
The tangent-plane projection with the rounding of every operation.
-/
noncomputable section
namespace Sla.Fp
open Sla

/-- `tppClassify` with the constants as stored (src/ds2tp.cc:50-62) -/
def tppClassify (R : ℝ → ℝ) (denom : ℝ) : TPPStatus × ℝ :=
  open Classical in
  if denom > R 1e-6 then (.ok, denom)
  else if denom ≥ 0 then (.tooFar, R 1e-6)
  else if denom > -R 1e-6 then (.astarOnTp, -R 1e-6)
  else (.astarTooFar, denom)

/-- The value of `denom` in src/ds2tp.cc:38-47 -/
def tpDenom (R : ℝ → ℝ) (sn cs : ℝ → ℝ) (point tangent : Spherical) : ℝ :=
  R (R (sn point.b * sn tangent.b) + R (R (cs point.b * cs tangent.b) * cs (R (point.a - tangent.a))))

/-- src/ds2tp.cc:35-68 `ds2tp`: status, xi, eta -/
def ds2tp (R : ℝ → ℝ) (sn cs : ℝ → ℝ) (point tangent : Spherical) : TPPStatus × ℝ × ℝ :=
  let ra_diff := R (point.a - tangent.a)
  let c := tppClassify R (tpDenom R sn cs point tangent)
  (c.1, R (R (cs point.b * sn ra_diff) / c.2),
    R (R (R (sn point.b * cs tangent.b) - R (R (cs point.b * sn tangent.b) * cs ra_diff)) / c.2))

/-- src/dtp2s.cc:33-40 `dtp2s`: right ascension and declination -/
def dtp2s (R : ℝ → ℝ) (sn cs : ℝ → ℝ) (at2 : ℝ → ℝ → ℝ) (xi eta : ℝ) (tangent : Spherical) : Spherical :=
  let sin_tdec := sn tangent.b
  let cos_tdec := cs tangent.b
  let denom := R (cos_tdec - R (eta * sin_tdec))
  { a := dranrm R (R (at2 xi denom + tangent.a))
    b := at2 (R (sin_tdec + R (eta * cos_tdec))) (R (Real.sqrt (R (R (xi * xi) + R (denom * denom))))) }

end Sla.Fp
