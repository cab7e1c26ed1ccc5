import Verif.Model.FpCode
import Verif.Model.Fit

/-
Axial vectors and rotation matrices in single precision.
-/
noncomputable section
namespace Sla.Fp

/-- src/av2m.cc:34-60 `av2m`; `R` rounds to `float`, `sn` and `cs` are the `float` overloads -/
def av2m (R : ℝ → ℝ) (sn cs : ℝ → ℝ) (vec : Vec) : Mat :=
  let x := vec 0
  let y := vec 1
  let z := vec 2
  let phi := R (Real.sqrt (R (R (R (x * x) + R (y * y)) + R (z * z))))
  let sin_phi := sn phi
  let cos_phi := cs phi
  let w := R (1 - cos_phi)
  open Classical in
  let x := if phi ≠ 0 then R (x / phi) else x
  let y := if phi ≠ 0 then R (y / phi) else y
  let z := if phi ≠ 0 then R (z / phi) else z
  ![![R (R (R (x * x) * w) + cos_phi), R (R (R (x * y) * w) + R (z * sin_phi)), R (R (R (x * z) * w) - R (y * sin_phi))],
    ![R (R (R (x * y) * w) - R (z * sin_phi)), R (R (R (y * y) * w) + cos_phi), R (R (R (y * z) * w) + R (x * sin_phi))],
    ![R (R (R (x * z) * w) + R (y * sin_phi)), R (R (R (y * z) * w) - R (x * sin_phi)), R (R (R (z * z) * w) + cos_phi)]]

/-- src/m2av.cc:35-52 `m2av`; `at2` is the `float` overload of `atan2` -/
def m2av (R : ℝ → ℝ) (at2 : ℝ → ℝ → ℝ) (mat : Mat) : Vec :=
  let x := R (mat 1 2 - mat 2 1)
  let y := R (mat 2 0 - mat 0 2)
  let z := R (mat 0 1 - mat 1 0)
  let s2 := R (Real.sqrt (R (R (R (x * x) + R (y * y)) + R (z * z))))
  open Classical in
  if s2 ≠ 0 then
    let c2 := R (R (R (mat 0 0 + mat 1 1) + mat 2 2) - 1)
    let phi := at2 (R (s2 / 2)) (R (c2 / 2))
    let f := R (phi / s2)
    ![R (x * f), R (y * f), R (z * f)]
  else ![0, 0, 0]

end Sla.Fp
