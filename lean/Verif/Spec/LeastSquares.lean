import Mathlib.Algebra.BigOperators.Group.Finset.Basic
import Mathlib.Data.Real.Basic
import Mathlib.Data.Fintype.Basic

/-
What a least-squares fit of plane coordinates means, independently of the code.
-/
namespace Sla.Spec

/-- A linear plane model X = a + b x + c y, Y = d + e x + f y. -/
structure PlaneModel where
  a : ℝ
  b : ℝ
  c : ℝ
  d : ℝ
  e : ℝ
  f : ℝ

/-- Sum of the squared distances between the transformed measured points and the expected points. -/
def sumSquares {n : ℕ} (xe ye xm ym : Fin n → ℝ) (m : PlaneModel) : ℝ :=
  ∑ i, ((m.a + m.b * xm i + m.c * ym i - xe i) ^ 2 + (m.d + m.e * xm i + m.f * ym i - ye i) ^ 2)

/-- A solid-body transformation (with optional reflection and change of scale): the columns of the linear part have equal
    lengths and are perpendicular. -/
def SolidBody (m : PlaneModel) : Prop := m.b ^ 2 + m.e ^ 2 = m.c ^ 2 + m.f ^ 2 ∧ m.b * m.c + m.e * m.f = 0

end Sla.Spec
