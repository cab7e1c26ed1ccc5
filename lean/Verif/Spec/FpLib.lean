import Verif.Model.Fp

/-
What is assumed of the library's `atan2` when its accuracy matters, and of arithmetic that overflows.
-/
namespace Sla.Spec

/-- A library `atan2` with absolute error at most `ε`.  On the negative x axis it may be near `π` or near `-π`: C++ returns
    the one or the other according to the sign of the zero `y`, and the sign of a zero is not modelled. -/
def Atan2Near (at2 : ℝ → ℝ → ℝ) (ε : ℝ) : Prop :=
  (∀ y x, y ≠ 0 ∨ 0 ≤ x → |at2 y x - atan2 y x| ≤ ε) ∧
    ∀ x, x < 0 → |at2 0 x - Real.pi| ≤ ε ∨ |at2 0 x + Real.pi| ≤ ε

/-- The largest `double` and the largest `float`. -/
noncomputable def largest64 : ℝ := (2 ^ 53 - 1) * 2 ^ 971
noncomputable def largest32 : ℝ := (2 ^ 24 - 1) * 2 ^ 104

/-- Arithmetic that may overflow: the result is rounded as by `R` if the exact one does not exceed the largest number, and is
    anything at all otherwise.  (IEEE arithmetic rounds some results that are slightly larger to the largest number; that is
    not used.) -/
def Overflowing {F : Fp.Fmt} (R : Fp.Rounding F) (largest : ℝ) (ρ : ℝ → ℝ) : Prop := ∀ x, |x| ≤ largest → ρ x = R x

end Sla.Spec
