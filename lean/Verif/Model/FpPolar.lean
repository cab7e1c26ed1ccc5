import Verif.Model.FpCode
import Verif.Model.Spherical

/-
Spherical coordinates and rates of a position and velocity, with the rounding of every operation.
-/
noncomputable section
namespace Sla.Fp

/-- src/dc62s.cc:32-73 `dc62s`, src/cc62s.cc:32-73 `cc62s` -/
def dc62s (R : ℝ → ℝ) (at2 : ℝ → ℝ → ℝ) (cartesian : VectorPV) : SphericalPV :=
  let xd := cartesian.vel 0
  let yd := cartesian.vel 1
  let zd := cartesian.vel 2
  let null := R (R (R (cartesian.pos 0 * cartesian.pos 0) + R (cartesian.pos 1 * cartesian.pos 1)) +
    R (cartesian.pos 2 * cartesian.pos 2)) = 0
  let x := open Classical in if null then xd else cartesian.pos 0
  let y := open Classical in if null then yd else cartesian.pos 1
  let z := open Classical in if null then zd else cartesian.pos 2
  let rxy2 := R (R (x * x) + R (y * y))
  let r2 := R (rxy2 + R (z * z))
  let rxy := R (Real.sqrt rxy2)
  let xyp := R (R (x * xd) + R (y * yd))
  let dist := R (Real.sqrt r2)
  let ddist := if dist ≠ 0 then R (R (xyp + R (z * zd)) / dist) else 0
  if rxy2 ≠ 0 then
    { long := at2 y x, lat := at2 z rxy, dlong := R (R (R (x * yd) - R (y * xd)) / rxy2),
      dlat := R (R (R (zd * rxy2) - R (z * xyp)) / R (r2 * rxy)), dist := dist, ddist := ddist }
  else
    { long := 0, lat := if z ≠ 0 then at2 z rxy else 0, dlong := 0, dlat := 0, dist := dist, ddist := ddist }

end Sla.Fp
