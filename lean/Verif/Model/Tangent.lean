import Verif.Model.Spherical

/-
Tangent-plane (gnomonic) projections.  The float twins (s2tp, tp2s, v2tp, tp2v, tps2c, tpv2c) are the same code with
`float` and share these models.
-/
noncomputable section
namespace Sla
open Real (pi)

/-- `TPPStatus` (src/slalib.h:93-98) -/
inductive TPPStatus | ok | tooFar | astarOnTp | astarTooFar
  deriving DecidableEq

/-- The classification of the star by `denom` and the adjusted `denom`
    (src/ds2tp.cc:50-62 and src/dv2tp.cc:55-66). -/
def tppClassify (denom : ℝ) : TPPStatus × ℝ :=
  if denom > 1e-6 then (.ok, denom)
  else if denom ≥ 0 then (.tooFar, 1e-6)
  else if denom > -1e-6 then (.astarOnTp, -1e-6)
  else (.astarTooFar, denom)

/-- src/ds2tp.cc:35-68 `ds2tp` (and src/s2tp.cc `s2tp`): status, xi, eta -/
def ds2tp (point tangent : Spherical) : TPPStatus × ℝ × ℝ :=
  let sin_tdec := Real.sin tangent.b
  let sin_dec := Real.sin point.b
  let cos_tdec := Real.cos tangent.b
  let cos_dec := Real.cos point.b
  let ra_diff := point.a - tangent.a
  let sin_ra_diff := Real.sin ra_diff
  let cos_ra_diff := Real.cos ra_diff
  let denom := sin_dec * sin_tdec + cos_dec * cos_tdec * cos_ra_diff
  let status := (tppClassify denom).1
  let denom := (tppClassify denom).2
  (status, cos_dec * sin_ra_diff / denom, (sin_dec * cos_tdec - cos_dec * sin_tdec * cos_ra_diff) / denom)

/-- src/dtp2s.cc:33-40 `dtp2s` (and src/tp2s.cc `tp2s`) -/
def dtp2s (xi eta : ℝ) (tangent : Spherical) : Spherical :=
  let sin_tdec := Real.sin tangent.b
  let cos_tdec := Real.cos tangent.b
  let denom := cos_tdec - eta * sin_tdec
  { a := dranrm (atan2 xi denom + tangent.a)
    b := atan2 (sin_tdec + eta * cos_tdec) (Real.sqrt (xi * xi + denom * denom)) }

/-- src/dv2tp.cc:39-71 `dv2tp` (and src/v2tp.cc `v2tp`): status, xi, eta -/
def dv2tp (point tangent : Vec) : TPPStatus × ℝ × ℝ :=
  let x := point 0
  let y := point 1
  let z := point 2
  let y0 := tangent 1
  let z0 := tangent 2
  let r2 := tangent 0 * tangent 0 + y0 * y0
  let r := Real.sqrt r2
  let x0 := if r = 0 then 1e-20 else tangent 0
  let r := if r = 0 then 1e-20 else r
  let w := x * x0 + y * y0
  let d := w + z * z0
  let status := (tppClassify d).1
  let d := (tppClassify d).2 * r
  (status, (y * x0 - x * y0) / d, (z * r2 - z0 * w) / d)

/-- src/dtp2v.cc:38-50 `dtp2v` (and src/tp2v.cc `tp2v`) -/
def dtp2v (xi eta : ℝ) (tangent : Vec) : Vec :=
  let y := tangent 1
  let z := tangent 2
  let f := Real.sqrt (1 + xi * xi + eta * eta)
  let r := Real.sqrt (tangent 0 * tangent 0 + y * y)
  let x := if r = 0 then 1e-20 else tangent 0
  let r := if r = 0 then 1e-20 else r
  ![(x - (xi * y + eta * x * z) / r) / f, (y + (xi * x - eta * y * z) / r) / f, (z + eta * r) / f]

/-- src/dtps2c.cc:51-81 `dtps2c` (and src/tps2c.cc `tps2c`): the number of solutions and, unless it is zero, the two
    solutions.  The outputs are taken not to overlap `point`. -/
def dtps2c (xi eta : ℝ) (point : Spherical) : Nat × Option (Spherical × Spherical) :=
  let x2 := xi * xi
  let y2 := eta * eta
  let sin_dec := Real.sin point.b
  let cos_dec := Real.cos point.b
  let sdf := sin_dec * Real.sqrt (1 + x2 + y2)
  let r2 := cos_dec * cos_dec * (1 + y2) - sin_dec * sin_dec * x2
  if r2 ≥ 0 then
    let r := Real.sqrt r2
    let s := sdf - eta * r
    let c := sdf * eta + r
    let r := if xi = 0 ∧ r = 0 then 1 else r
    let sol1 : Spherical := { a := dranrm (point.a - atan2 xi r), b := atan2 s c }
    let r := -r
    let s := sdf - eta * r
    let c := sdf * eta + r
    let sol2 : Spherical := { a := dranrm (point.a - atan2 xi r), b := atan2 s c }
    (if |sdf| < 1 then 1 else 2, some (sol1, sol2))
  else (0, none)

/-- src/dtpv2c.cc:48-76 `dtpv2c` (and src/tpv2c.cc `tpv2c`): as `dtps2c`, with direction cosines. -/
def dtpv2c (xi eta : ℝ) (point : Vec) : Nat × Option (Vec × Vec) :=
  let x := point 0
  let y := point 1
  let z := point 2
  let rxy2 := x * x + y * y
  let xi2 := xi * xi
  let eta2p1 := eta * eta + 1
  let sdf := z * Real.sqrt (xi2 + eta2p1)
  let r2 := rxy2 * eta2p1 - z * z * xi2
  if r2 > 0 then
    let r := Real.sqrt r2
    let c := (sdf * eta + r) / (eta2p1 * Real.sqrt (rxy2 * (r2 + xi2)))
    let sol1 : Vec := ![c * (x * r + y * xi), c * (y * r - x * xi), (sdf - eta * r) / eta2p1]
    let r := -r
    let c := (sdf * eta + r) / (eta2p1 * Real.sqrt (rxy2 * (r2 + xi2)))
    let sol2 : Vec := ![c * (x * r + y * xi), c * (y * r - x * xi), (sdf - eta * r) / eta2p1]
    (if |sdf| < 1 then 1 else 2, some (sol1, sol2))
  else (0, none)

end Sla
