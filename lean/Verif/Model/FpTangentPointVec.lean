import Verif.Model.FpTangentPoint

/-
The tangent point from the direction cosines of a star and its plane coordinates, with rounding.
-/
noncomputable section
namespace Sla.Fp

/-- src/dtpv2c.cc:58-67: one solution from the signed root `r`; the rest are the quantities of the code by name -/
def dtpv2cSolution (R : ℝ → ℝ) (xi eta : ℝ) (point : Vec) (rxy2 xi2 eta2p1 sdf r2 r : ℝ) : Vec :=
  let x := point 0
  let y := point 1
  let c := R (R (R (sdf * eta) + r) / R (eta2p1 * R (Real.sqrt (R (rxy2 * R (r2 + xi2))))))
  ![R (c * R (R (x * r) + R (y * xi))), R (c * R (R (y * r) - R (x * xi))), R (R (sdf - R (eta * r)) / eta2p1)]

/-- src/dtpv2c.cc:48-76 `dtpv2c`: the number of solutions and, unless it is zero, the two solutions; `R` rounds to `double` -/
def dtpv2c (R : ℝ → ℝ) (xi eta : ℝ) (point : Vec) : Nat × Option (Vec × Vec) :=
  let x := point 0
  let y := point 1
  let z := point 2
  let rxy2 := R (R (x * x) + R (y * y))
  let xi2 := R (xi * xi)
  let eta2p1 := R (R (eta * eta) + 1)
  let sdf := R (z * R (Real.sqrt (R (xi2 + eta2p1))))
  let r2 := R (R (rxy2 * eta2p1) - R (R (z * z) * xi2))
  open Classical in
  if r2 > 0 then
    let r := R (Real.sqrt r2)
    (if |sdf| < 1 then 1 else 2, some (dtpv2cSolution R xi eta point rxy2 xi2 eta2p1 sdf r2 r,
      dtpv2cSolution R xi eta point rxy2 xi2 eta2p1 sdf r2 (-r)))
  else (0, none)

end Sla.Fp
