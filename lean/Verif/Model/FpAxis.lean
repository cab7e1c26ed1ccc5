import Verif.Model.FpCode
import Verif.Model.Fit

/-
Axial vectors, the pincushion distortion and the inversion of a linear model with the rounding of every operation.
-/
noncomputable section
namespace Sla.Fp

/-- src/dav2m.cc:34-60 `dav2m` -/
def dav2m (R : ℝ → ℝ) (sn cs : ℝ → ℝ) (vec : Vec) : Mat :=
  let x := vec 0
  let y := vec 1
  let z := vec 2
  let phi := R (Real.sqrt (R (R (R (x * x) + R (y * y)) + R (z * z))))
  let sin_phi := sn phi
  let cos_phi := cs phi
  let w := R (1 - cos_phi)
  open Classical in
  let x := if phi ≠ 0 then R (x / phi) else x
  let y := if phi ≠ 0 then R (y / phi) else y
  let z := if phi ≠ 0 then R (z / phi) else z
  ![![R (R (R (x * x) * w) + cos_phi), R (R (R (x * y) * w) + R (z * sin_phi)), R (R (R (x * z) * w) - R (y * sin_phi))],
    ![R (R (R (x * y) * w) - R (z * sin_phi)), R (R (R (y * y) * w) + cos_phi), R (R (R (y * z) * w) + R (x * sin_phi))],
    ![R (R (R (x * z) * w) + R (y * sin_phi)), R (R (R (y * z) * w) - R (x * sin_phi)), R (R (R (z * z) * w) + cos_phi)]]

/-- src/dm2av.cc:35-52 `dm2av`; `at2` is the library's `atan2` -/
def dm2av (R : ℝ → ℝ) (at2 : ℝ → ℝ → ℝ) (mat : Mat) : Vec :=
  let x := R (mat 1 2 - mat 2 1)
  let y := R (mat 2 0 - mat 0 2)
  let z := R (mat 0 1 - mat 1 0)
  let s2 := R (Real.sqrt (R (R (R (x * x) + R (y * y)) + R (z * z))))
  open Classical in
  if s2 ≠ 0 then
    let c2 := R (R (R (mat 0 0 + mat 1 1) + mat 2 2) - 1)
    let phi := at2 (R (s2 / 2)) (R (c2 / 2))
    let f := R (phi / s2)
    ![R (x * f), R (y * f), R (z * f)]
  else ![0, 0, 0]

/-- src/pcd.cc:49-53 `pcd` -/
def pcd (R : ℝ → ℝ) (disco x y : ℝ) : ℝ × ℝ :=
  let f := R (1 + R (disco * R (R (x * x) + R (y * y))))
  (R (x * f), R (y * f))

/-- `f_sign(std::pow(std::abs(w), ONE_THIRD), w)` in src/unpcd.cc:76, 78; `pw` is the library's `pow` -/
def ucbrt (R : ℝ → ℝ) (pw : ℝ → ℝ → ℝ) (w : ℝ) : ℝ := csign (pw |w| (R (1 / 3))) w

/-- src/unpcd.cc:67-110: the undistorted radial distance for the distorted one `rp`; `cs`, `at2` and `pw` are the library's `cos`,
    `atan2` and `pow` -/
def unpcdRoot (R : ℝ → ℝ) (cs : ℝ → ℝ) (at2 pw : ℝ → ℝ → ℝ) (disco rp : ℝ) : ℝ :=
  let q := R (1 / R (3 * disco))
  let r := R (rp / R (2 * disco))
  let w := R (R (R (q * q) * q) + R (r * r))
  open Classical in
  if w ≥ 0 then
    let d := R (Real.sqrt w)
    let s1 := ucbrt R pw (R (r + d))
    let t := ucbrt R pw (R (r - d))
    R (s1 + t)
  else
    let pi2 := R 6.283185307179586476925286766559
    let w := R (2 / R (Real.sqrt (R (-3 * disco))))
    let c := R (R (4 * rp) / R (R (R (disco * w) * w) * w))
    let s2 := R (Real.sqrt (R (1 - min (R (c * c)) 1)))
    let t3 := at2 s2 c
    let f1 := R (w * cs (R (R (pi2 - t3) / 3)))
    let f2 := R (w * cs (R (t3 / 3)))
    let f3 := R (w * cs (R (R (pi2 + t3) / 3)))
    let w1 := |R (f1 - rp)|
    let w2 := |R (f2 - rp)|
    let w3 := |R (f3 - rp)|
    if w1 < w2 then (if w1 < w3 then f1 else f3) else (if w2 < w3 then f2 else f3)

/-- src/unpcd.cc:56-116 `unpcd` -/
def unpcd (R : ℝ → ℝ) (cs : ℝ → ℝ) (at2 pw : ℝ → ℝ → ℝ) (disco x y : ℝ) : ℝ × ℝ :=
  let rp := R (Real.sqrt (R (R (x * x) + R (y * y))))
  open Classical in
  if rp ≠ 0 ∧ disco ≠ 0 then
    let f := R (unpcdRoot R cs at2 pw disco rp / rp)
    (R (f * x), R (f * y))
  else (x, y)

/-- src/xy2xy.cc:42-45 `xy2xy` -/
def xy2xy (R : ℝ → ℝ) (x1 y1 : ℝ) (model : FitCoeffs) : ℝ × ℝ :=
  (R (R (model.a + R (model.b * x1)) + R (model.c * y1)), R (R (model.d + R (model.e * x1)) + R (model.f * y1)))

/-- src/invf.cc:46-65 `invf`: success flag and the new contents of `inverse` -/
def invf (R : ℝ → ℝ) (model inverse : FitCoeffs) : Bool × FitCoeffs :=
  let b := model.b
  let c := model.c
  let e := model.e
  let f := model.f
  let det := R (R (b * f) - R (c * e))
  open Classical in
  if det ≠ 0 then
    let a := model.a
    let d := model.d
    (true, ⟨R (R (R (c * d) - R (a * f)) / det), R (f / det), R (-c / det), R (R (R (a * e) - R (b * d)) / det), R (-e / det), R (b / det)⟩)
  else (false, inverse)

end Sla.Fp
