import Verif.Spec.Rotation
import Mathlib.Analysis.InnerProductSpace.PiL2
import Mathlib.Geometry.Euclidean.Angle.Unoriented.Basic

/-
Directions on the sphere, independent of the code.
-/
namespace Sla.Spec

open Matrix

/-- The direction with the given longitude and latitude: the x axis raised through the latitude towards the
    z axis, then carried anticlockwise round the z axis through the longitude. -/
noncomputable def direction (long lat : ℝ) : Fin 3 → ℝ := turnFrame ez (-long) (turnFrame ey lat ex)

/-- Unit vectors due north and due east at the point with the given longitude and latitude. -/
noncomputable def north (long lat : ℝ) : Fin 3 → ℝ := turnFrame ez (-long) (turnFrame ey lat ez)
noncomputable def east (long : ℝ) : Fin 3 → ℝ := turnFrame ez (-long) ey

/-- The Euclidean length of a vector. -/
noncomputable def len (v : Fin 3 → ℝ) : ℝ := Real.sqrt (v ⬝ᵥ v)

/-- The angle between two vectors of ordinary Euclidean space. -/
noncomputable def angleBetween (u v : Fin 3 → ℝ) : ℝ :=
  InnerProductGeometry.angle (WithLp.toLp 2 u : EuclideanSpace ℝ (Fin 3)) (WithLp.toLp 2 v)

end Sla.Spec
