import Mathlib.Analysis.SpecialFunctions.Complex.Arg

/-
C math library functions and the helpers of src/f77_utils.h, over exact real numbers.
-/
noncomputable section
namespace Sla

/-- `std::trunc`, `f_aint` (src/f77_utils.h:36-37): rounding towards zero. -/
def ctrunc (a : ℝ) : ℤ := if 0 ≤ a then ⌊a⌋ else ⌈a⌉

/-- `std::round`, `f_anint`, and (before the conversion to int) `f_nint` (src/f77_utils.h:33-34, 39-40):
    rounding to the nearest integer, halves away from zero. -/
def cround (a : ℝ) : ℤ := if 0 ≤ a then ⌊a + 1 / 2⌋ else ⌈a - 1 / 2⌉

/-- `std::fmod(a, b)` for `b ≠ 0`: remainder of truncated division, sign of `a`. -/
def cfmod (a b : ℝ) : ℝ := a - b * ctrunc (a / b)

/-- `f_sign(a, b)` (src/f77_utils.h:27-31): magnitude of `a`, sign of `b`. -/
def csign (a b : ℝ) : ℝ := if 0 ≤ b then |a| else -|a|

/-- `std::atan2(y, x)`: principal value in `(-π, π]`, 0 at the origin. -/
def atan2 (y x : ℝ) : ℝ := Complex.arg ⟨x, y⟩

end Sla
