import Verif.Model.FpTangent

/-
The tangent-plane projection of vectors with the rounding of every operation.
-/
noncomputable section
namespace Sla.Fp
open Sla

/-- src/dv2tp.cc:39-71 `dv2tp`, src/v2tp.cc:39-71 `v2tp`: status, xi, eta -/
def dv2tp (R : ℝ → ℝ) (point tangent : Vec) : TPPStatus × ℝ × ℝ :=
  let x := point 0
  let y := point 1
  let z := point 2
  let y0 := tangent 1
  let z0 := tangent 2
  let r2 := R (R (tangent 0 * tangent 0) + R (y0 * y0))
  let r := R (Real.sqrt r2)
  let x0 := if r = 0 then R 1e-20 else tangent 0
  let r := if r = 0 then R 1e-20 else r
  let w := R (R (x * x0) + R (y * y0))
  let d := R (w + R (z * z0))
  let status := (tppClassify R d).1
  let d := R ((tppClassify R d).2 * r)
  (status, R (R (R (y * x0) - R (x * y0)) / d), R (R (R (z * r2) - R (z0 * w)) / d))

/-- src/dtp2v.cc:38-50 `dtp2v`, src/tp2v.cc:38-50 `tp2v` -/
def dtp2v (R : ℝ → ℝ) (xi eta : ℝ) (tangent : Vec) : Vec :=
  let y := tangent 1
  let z := tangent 2
  let f := R (Real.sqrt (R (R (1 + R (xi * xi)) + R (eta * eta))))
  let r := R (Real.sqrt (R (R (tangent 0 * tangent 0) + R (y * y))))
  let x := if r = 0 then R 1e-20 else tangent 0
  let r := if r = 0 then R 1e-20 else r
  ![R (R (x - R (R (R (xi * y) + R (R (eta * x) * z)) / r)) / f),
    R (R (y + R (R (R (xi * x) - R (R (eta * y) * z)) / r)) / f), R (R (z + R (eta * r)) / f)]

end Sla.Fp
