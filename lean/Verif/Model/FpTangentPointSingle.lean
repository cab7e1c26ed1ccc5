import Verif.Model.FpTangent

/-
The tangent point from a star and its plane coordinates, in single precision.
-/
noncomputable section
namespace Sla.Fp

/-- src/tps2c.cc:51-81 `tps2c`: the number of solutions and, unless it is zero, the two solutions; `R` rounds to `float`, `sn`, `cs` and `at2` are
    the `float` overloads, `dranrm` with rounding to `float` is src/ranorm.cc `ranorm` -/
def tps2c (R : ℝ → ℝ) (sn cs : ℝ → ℝ) (at2 : ℝ → ℝ → ℝ) (xi eta : ℝ) (point : Spherical) : Nat × Option (Spherical × Spherical) :=
  let x2 := R (xi * xi)
  let y2 := R (eta * eta)
  let sin_dec := sn point.b
  let cos_dec := cs point.b
  let sdf := R (sin_dec * R (Real.sqrt (R (R (1 + x2) + y2))))
  let r2 := R (R (R (cos_dec * cos_dec) * R (1 + y2)) - R (R (sin_dec * sin_dec) * x2))
  open Classical in
  if r2 ≥ 0 then
    let r := R (Real.sqrt r2)
    let s := R (sdf - R (eta * r))
    let c := R (R (sdf * eta) + r)
    let r := if xi = 0 ∧ r = 0 then 1 else r
    let sol1 : Spherical := { a := dranrm R (R (point.a - at2 xi r)), b := at2 s c }
    let r := -r
    let s := R (sdf - R (eta * r))
    let c := R (R (sdf * eta) + r)
    let sol2 : Spherical := { a := dranrm R (R (point.a - at2 xi r)), b := at2 s c }
    (if |sdf| < 1 then 1 else 2, some (sol1, sol2))
  else (0, none)

end Sla.Fp
