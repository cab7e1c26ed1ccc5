import Verif.Model.Vectors
import Verif.Model.Angles
import Mathlib.Analysis.SpecialFunctions.Trigonometric.Inverse

/-
Spherical coordinates, separations, bearings, and the horizon system.
The float twins (cs2c, cc2s, sep, sepv, bear, pav, e2h, h2e) are the same code with `float`, or call the double
versions (sep, sepv, pav), and share these models.
-/
noncomputable section
namespace Sla
open Real (pi)

/-- `Spherical<T>` (src/slalib.h:137-154): longitude / RA / hour angle and latitude / Dec. -/
@[ext] structure Spherical where
  a : ℝ
  b : ℝ

/-- src/dcs2c.cc:33-38 `dcs2c` (and src/cs2c.cc `cs2c`) -/
def dcs2c (s : Spherical) : Vec :=
  let cos_b := Real.cos s.b
  ![Real.cos s.a * cos_b, Real.sin s.a * cos_b, Real.sin s.b]

/-- src/dcc2s.cc:36-43 `dcc2s` (and src/cc2s.cc `cc2s`) -/
def dcc2s (cartesian : Vec) : Spherical :=
  let x := cartesian 0
  let y := cartesian 1
  let z := cartesian 2
  let r := Real.sqrt (x * x + y * y)
  { a := if r = 0 then 0 else atan2 y x
    b := if z = 0 then 0 else atan2 z r }

/-- `SphericalPV<T>` (src/slalib.h:200-236): position and rates. -/
@[ext] structure SphericalPV where
  long : ℝ
  lat : ℝ
  dist : ℝ
  dlong : ℝ
  dlat : ℝ
  ddist : ℝ

/-- `VectorPV<T>` (src/slalib.h:167-196): position and velocity. -/
@[ext] structure VectorPV where
  pos : Vec
  vel : Vec

/-- src/ds2c6.cc:31-52 `ds2c6` (and, line for line, src/cs2c6.cc `cs2c6`) -/
def ds2c6 (spv : SphericalPV) : VectorPV :=
  let sin_long := Real.sin spv.long
  let cos_long := Real.cos spv.long
  let sin_lat := Real.sin spv.lat
  let cos_lat := Real.cos spv.lat
  let dist_cos_lat := spv.dist * cos_lat
  let x := dist_cos_lat * cos_long
  let y := dist_cos_lat * sin_long
  let dist_dlat := spv.dist * spv.dlat
  let w := dist_dlat * sin_lat - cos_lat * spv.ddist
  { pos := ![x, y, spv.dist * sin_lat]
    vel := ![-y * spv.dlong - w * cos_long, x * spv.dlong - w * sin_long,
      dist_dlat * cos_lat + sin_lat * spv.ddist] }

/-- src/dc62s.cc:32-73 `dc62s` (and, line for line, src/cc62s.cc `cc62s`) -/
def dc62s (cartesian : VectorPV) : SphericalPV :=
  let xd := cartesian.vel 0
  let yd := cartesian.vel 1
  let zd := cartesian.vel 2
  let null := cartesian.pos 0 * cartesian.pos 0 + cartesian.pos 1 * cartesian.pos 1 +
    cartesian.pos 2 * cartesian.pos 2 = 0
  let x := open Classical in if null then xd else cartesian.pos 0
  let y := open Classical in if null then yd else cartesian.pos 1
  let z := open Classical in if null then zd else cartesian.pos 2
  let rxy2 := x * x + y * y
  let r2 := rxy2 + z * z
  let rxy := Real.sqrt rxy2
  let xyp := x * xd + y * yd
  let dist := Real.sqrt r2
  let ddist := if dist ≠ 0 then (xyp + z * zd) / dist else 0
  if rxy2 ≠ 0 then
    { long := atan2 y x, lat := atan2 z rxy, dlong := (x * yd - y * xd) / rxy2,
      dlat := (zd * rxy2 - z * xyp) / (r2 * rxy), dist := dist, ddist := ddist }
  else
    { long := 0, lat := if z ≠ 0 then atan2 z rxy else 0, dlong := 0, dlat := 0, dist := dist, ddist := ddist }

/-- src/dsepv.cc:35-46 `dsepv` (and src/sepv.cc `sepv`) -/
def dsepv (va vb : Vec) : ℝ :=
  let s := (dvn (dvxv va vb)).1
  let c := dvdv va vb
  if s ≠ 0 ∨ c ≠ 0 then atan2 s c else 0

/-- src/dsep.cc:31-39 `dsep` (and src/sep.cc `sep`) -/
def dsep (sa sb : Spherical) : ℝ := dsepv (dcs2c sa) (dcs2c sb)

/-- src/dbear.cc:34-40 `dbear` (and src/bear.cc `bear`) -/
def dbear (da db : Spherical) : ℝ :=
  let cos_b_dec := Real.cos db.b
  let d_ra := db.a - da.a
  let x := Real.sin db.b * Real.cos da.b - cos_b_dec * Real.sin da.b * Real.cos d_ra
  let y := Real.sin d_ra * cos_b_dec
  if x ≠ 0 ∨ y ≠ 0 then atan2 y x else 0

/-- src/dpav.cc:37-60 `dpav` (and src/pav.cc `pav`) -/
def dpav (va vb : Vec) : ℝ :=
  let length := Real.sqrt (va 0 * va 0 + va 1 * va 1 + va 2 * va 2)
  let x1 := if length ≠ 0 then va 0 / length else va 0
  let y1 := if length ≠ 0 then va 1 / length else va 1
  let z1 := if length ≠ 0 then va 2 / length else va 2
  let x2 := vb 0
  let y2 := vb 1
  let z2 := vb 2
  let sq := y2 * x1 - x2 * y1
  let cq := z2 * (x1 * x1 + y1 * y1) - z1 * (x2 * x1 + y2 * y1)
  let cq := if sq = 0 ∧ cq = 0 then 1 else cq
  atan2 sq cq

/-- Azimuth and elevation, the two outputs of `de2h`. -/
@[ext] structure AzEl where
  az : ℝ
  el : ℝ

/-- src/de2h.cc:45-73 `de2h` (and src/e2h.cc `e2h`) -/
def de2h (dir : Spherical) (phi : ℝ) : AzEl :=
  let sin_ha := Real.sin dir.a
  let cos_ha := Real.cos dir.a
  let sin_dec := Real.sin dir.b
  let cos_dec := Real.cos dir.b
  let sin_phi := Real.sin phi
  let cos_phi := Real.cos phi
  let x := -cos_ha * cos_dec * sin_phi + sin_dec * cos_phi
  let y := -sin_ha * cos_dec
  let z := cos_ha * cos_dec * cos_phi + sin_dec * sin_phi
  let r := Real.sqrt (x * x + y * y)
  let a := if r = 0 then 0 else
    let a := atan2 y x
    if a < 0 then a + 2 * pi else a
  { az := a, el := atan2 z r }

/-- src/dh2e.cc:44-62 `dh2e` (and src/h2e.cc `h2e`) -/
def dh2e (azimuth elevation phi : ℝ) : Spherical :=
  let sin_az := Real.sin azimuth
  let cos_az := Real.cos azimuth
  let sin_el := Real.sin elevation
  let cos_el := Real.cos elevation
  let sin_phi := Real.sin phi
  let cos_phi := Real.cos phi
  let x := -cos_az * cos_el * sin_phi + sin_el * cos_phi
  let y := -sin_az * cos_el
  let z := cos_az * cos_el * cos_phi + sin_el * sin_phi
  let r := Real.sqrt (x * x + y * y)
  { a := if r = 0 then 0 else atan2 y x, b := atan2 z r }

/-- src/zd.cc:44-55 `zd` -/
def zd (dir : Spherical) (phi : ℝ) : ℝ :=
  let sin_ha := Real.sin dir.a
  let cos_ha := Real.cos dir.a
  let sin_dec := Real.sin dir.b
  let cos_dec := Real.cos dir.b
  let sin_phi := Real.sin phi
  let cos_phi := Real.cos phi
  let x := cos_ha * cos_dec * sin_phi - sin_dec * cos_phi
  let y := sin_ha * cos_dec
  let z := cos_ha * cos_dec * cos_phi + sin_dec * sin_phi
  atan2 (Real.sqrt (x * x + y * y)) z

/-- src/pa.cc:36-44 `pa` -/
def pa (dir : Spherical) (phi : ℝ) : ℝ :=
  let cp := Real.cos phi
  let sqsz := cp * Real.sin dir.a
  let cqsz := Real.sin phi * Real.cos dir.b - cp * Real.sin dir.b * Real.cos dir.a
  let cqsz := if sqsz = 0 ∧ cqsz = 0 then 1 else cqsz
  atan2 sqsz cqsz

/-- `AltazMount` (src/slalib.h:257-290) -/
structure AltazMount where
  azimuth : ℝ
  az_velocity : ℝ
  az_acceleration : ℝ
  elevation : ℝ
  el_velocity : ℝ
  el_acceleration : ℝ
  pangle : ℝ
  pa_velocity : ℝ
  pa_acceleration : ℝ

/-- src/altaz.cc:62-117 `altaz` -/
def altaz (dir : Spherical) (phi : ℝ) : AltazMount :=
  let sin_ha := Real.sin dir.a
  let cos_ha := Real.cos dir.a
  let sin_dec := Real.sin dir.b
  let cos_dec := Real.cos dir.b
  let sin_phi := Real.sin phi
  let cos_phi := Real.cos phi
  let ch_cd := cos_ha * cos_dec
  let sd_cp := sin_dec * cos_phi
  let x := -ch_cd * sin_phi + sd_cp
  let y := -sin_ha * cos_dec
  let z := ch_cd * cos_phi + sin_dec * sin_phi
  let r_squared := x * x + y * y
  let r := Real.sqrt r_squared
  let azimuth := if r_squared = 0 then 0 else atan2 y x
  let azimuth := if azimuth < 0 then azimuth + 2 * pi else azimuth
  let elevation := atan2 z r
  let c := cos_dec * sin_phi - cos_ha * sd_cp
  let s := sin_ha * cos_phi
  let p_angle := if c * c + s * s > 0 then atan2 s c else pi - dir.a
  let clamp := r_squared < 1e-30
  let r_squared' := open Classical in if clamp then 1e-30 else r_squared
  let r' := open Classical in if clamp then Real.sqrt 1e-30 else r
  let p_vel := -x * cos_phi / r_squared'
  let a_vel := sin_phi + z * p_vel
  let e_vel := cos_phi * y / r'
  let edr := e_vel / r'
  let a_acc := edr * (z * sin_phi + (2 - r_squared') * p_vel)
  let e_acc := -r' * p_vel * a_vel
  let p_acc := edr * (sin_phi + 2 * z * p_vel)
  { azimuth := azimuth, az_velocity := a_vel, az_acceleration := a_acc, elevation := elevation,
    el_velocity := e_vel, el_acceleration := e_acc, pangle := p_angle, pa_velocity := p_vel,
    pa_acceleration := p_acc }

/-- The outputs `ha1`, `ha1_valid`, `ha2`, `ha2_valid` of `pda2h` and `pdq2h`.  The hour angles are left
    untouched by the code when no solution exists (`none`). -/
structure TwoHa where
  ha : Option (ℝ × ℝ)
  valid1 : Prop
  valid2 : Prop

/-- The latitude adjustment of src/pda2h.cc:43-48 and src/pdq2h.cc:43-48. -/
def adjustLat (lat : ℝ) : ℝ :=
  let pn := drange lat
  if abs (|pn| - pi / 2) < 1e-12 then pn - csign 1e-12 pn else if |pn| < 1e-12 then 1e-12 else pn

/-- The azimuth adjustment of src/pda2h.cc:49-54 and parallactic angle adjustment of src/pdq2h.cc:49-54. -/
def adjustAz (azimuth : ℝ) : ℝ :=
  let an := drange azimuth
  if abs (|an| - pi) < 1e-12 then an - csign 1e-12 an else if |an| < 1e-12 then 1e-12 else an

/-- The declination adjustment of src/pda2h.cc:55-61. -/
def adjustDecA (dec lat : ℝ) : ℝ :=
  let dn := drange dec
  if abs (|dn| - |lat|) < 1e-12 ∨ abs (|dn| - pi / 2) < 1e-12 then dn - csign 1e-12 dn
  else if |dn| < 1e-12 then 1e-12 else dn

/-- The declination adjustment of src/pdq2h.cc:55-59. -/
def adjustDecQ (dec lat : ℝ) : ℝ :=
  let dn := drange dec
  if abs (|dec| - |lat|) < 1e-12 ∨ abs (|dec| - pi / 2) < 1e-12 then dn - csign 1e-12 dn else dn

/-- src/pda2h.cc:37-89 `pda2h` -/
def pda2h (lat dec azimuth : ℝ) : TwoHa :=
  let pn := adjustLat lat
  let an := adjustAz azimuth
  let dn := adjustDecA dec lat
  let sin_an := Real.sin an
  let cos_an := Real.cos an
  let sinan_cospn := sin_an * Real.sin pn
  let qt := Real.sin dn * sin_an * Real.cos pn
  let qb := Real.cos dn * Real.sqrt (cos_an * cos_an + sinan_cospn * sinan_cospn)
  if |qt| ≤ qb then
    let hpt := Real.arcsin (qt / qb)
    let t := atan2 sinan_cospn (-cos_an)
    let ha1 := drange (hpt - t)
    let ha2 := drange (-hpt - (t + pi))
    { ha := some (ha1, ha2), valid1 := ha1 * an ≤ 0, valid2 := ha2 * an ≤ 0 }
  else { ha := none, valid1 := False, valid2 := False }

/-- src/pdq2h.cc:37-86 `pdq2h` -/
def pdq2h (lat dec pa : ℝ) : TwoHa :=
  let pn := adjustLat lat
  let qn := adjustAz pa
  let dn := adjustDecQ dec lat
  let sin_qn := Real.sin qn
  let cos_qn := Real.cos qn
  let sinqn_sindn := sin_qn * Real.sin dn
  let qt := Real.sin pn * sin_qn * Real.cos dn
  let qb := Real.cos pn * Real.sqrt (cos_qn * cos_qn + sinqn_sindn * sinqn_sindn)
  if |qt| ≤ qb then
    let hpt := Real.arcsin (qt / qb)
    let t := atan2 sinqn_sindn cos_qn
    let ha1 := drange (hpt - t)
    let ha2 := drange (-hpt - (t + pi))
    { ha := some (ha1, ha2), valid1 := ha1 * qn ≥ 0, valid2 := ha2 * qn ≥ 0 }
  else { ha := none, valid1 := False, valid2 := False }

end Sla
