import Mathlib.LinearAlgebra.Matrix.Notation
import Mathlib.LinearAlgebra.Matrix.Determinant.Basic
import Mathlib.LinearAlgebra.CrossProduct
import Mathlib.Analysis.SpecialFunctions.Trigonometric.Basic

/-
Specification of rotations of three-dimensional space, independent of the code.
-/
namespace Sla.Spec

open Matrix

/-- A proper rotation matrix: orthogonal with determinant one. -/
def IsRotation (R : Matrix (Fin 3) (Fin 3) ℝ) : Prop := R * Rᵀ = 1 ∧ R.det = 1

/-- Rodrigues' formula.  The coordinates of `w` after the *reference frame* has been turned by the angle `a`,
    anticlockwise as seen by somebody towards whom the unit axis `n` points (so the coordinates turn the
    other way). -/
noncomputable def turnFrame (n : Fin 3 → ℝ) (a : ℝ) (w : Fin 3 → ℝ) : Fin 3 → ℝ :=
  Real.cos a • w + ((1 - Real.cos a) * (n ⬝ᵥ w)) • n - Real.sin a • (n ⨯₃ w)

/-- The coordinate axes. -/
def ex : Fin 3 → ℝ := ![1, 0, 0]
def ey : Fin 3 → ℝ := ![0, 1, 0]
def ez : Fin 3 → ℝ := ![0, 0, 1]

/-- The axis named by a character. -/
def axisOf (c : Char) : Option (Fin 3 → ℝ) :=
  if c ∈ ['X', 'x', '1'] then some ex
  else if c ∈ ['Y', 'y', '2'] then some ey
  else if c ∈ ['Z', 'z', '3'] then some ez
  else none

/-- Successive rotations of the frame about named axes, the head of the list first; the list ends at the first
    character that names no axis. -/
noncomputable def turnSequence : List (Char × ℝ) → (Fin 3 → ℝ) → (Fin 3 → ℝ)
  | [], w => w
  | (c, a) :: rest, w =>
    match axisOf c with
    | some n => turnSequence rest (turnFrame n a w)
    | none => w

end Sla.Spec
