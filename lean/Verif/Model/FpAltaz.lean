import Verif.Model.FpSphere

/-
The altazimuth mount with rounding.
-/
noncomputable section
namespace Sla.Fp

/-- src/altaz.cc:79-80, 95-98: the two divisors of the rates, the square of the distance from the vertical and that distance, held
    away from zero -/
def altazDivisors (R : ℝ → ℝ) (x y : ℝ) : ℝ × ℝ :=
  let r_squared := R (R (x * x) + R (y * y))
  let r := R (Real.sqrt r_squared)
  open Classical in if r_squared < R 1e-30 then (R 1e-30, R (Real.sqrt (R 1e-30))) else (r_squared, r)

/-- src/altaz.cc:62-116 `altaz`; `R` rounds to `double`, `sn`, `cs`, `at2` are the library's sine, cosine and `atan2` -/
def altaz (R : ℝ → ℝ) (sn cs : ℝ → ℝ) (at2 : ℝ → ℝ → ℝ) (dir : Spherical) (phi : ℝ) : AltazMount :=
  let sin_ha := sn dir.a
  let cos_ha := cs dir.a
  let sin_dec := sn dir.b
  let cos_dec := cs dir.b
  let sin_phi := sn phi
  let cos_phi := cs phi
  let ch_cd := R (cos_ha * cos_dec)
  let sd_cp := R (sin_dec * cos_phi)
  let x := R (R (-ch_cd * sin_phi) + sd_cp)
  let y := R (-sin_ha * cos_dec)
  let z := R (R (ch_cd * cos_phi) + R (sin_dec * sin_phi))
  let r_squared := R (R (x * x) + R (y * y))
  let r := R (Real.sqrt r_squared)
  let azimuth := open Classical in if r_squared = 0 then 0 else at2 y x
  let azimuth := open Classical in if azimuth < 0 then R (azimuth + R 6.283185307179586476925286766559) else azimuth
  let elevation := at2 z r
  let c := R (R (cos_dec * sin_phi) - R (cos_ha * sd_cp))
  let s := R (sin_ha * cos_phi)
  let p_angle := open Classical in
    if R (R (c * c) + R (s * s)) > 0 then at2 s c else R (R 3.1415926535897932384626433832795 - dir.a)
  let r_squared' := (altazDivisors R x y).1
  let r' := (altazDivisors R x y).2
  let p_vel := R (R (-x * cos_phi) / r_squared')
  let a_vel := R (sin_phi + R (z * p_vel))
  let e_vel := R (R (cos_phi * y) / r')
  let edr := R (e_vel / r')
  let a_acc := R (edr * R (R (z * sin_phi) + R (R (2 - r_squared') * p_vel)))
  let e_acc := R (R (-r' * p_vel) * a_vel)
  let p_acc := R (edr * R (sin_phi + R (R (2 * z) * p_vel)))
  { azimuth := azimuth, az_velocity := a_vel, az_acceleration := a_acc, elevation := elevation,
    el_velocity := e_vel, el_acceleration := e_acc, pangle := p_angle, pa_velocity := p_vel,
    pa_acceleration := p_acc }

end Sla.Fp
