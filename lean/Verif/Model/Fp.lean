import Verif.Model.CMath
import Mathlib.Data.Int.Log

/-
Floating point arithmetic: the formats `float` and `double`, and rounding to nearest.

This is what the basic operations of C++ on an IEEE 754 machine do, without contraction (`a*b+c` is two operations)
and without excess precision: every `+ - * / sqrt`, every literal and every conversion returns the representable
number nearest to the exact result.  How ties are broken is left open except that it does not depend on the sign
(`ties to even` is one such rule, see `Sla.Fp.ieee` in Lemmas/Fp.lean).  There is no largest number: overflow is not
modelled, gradual underflow is.
-/
noncomputable section
namespace Sla.Fp

/-- A binary format: number of bits of the significand and exponent of the smallest positive number. -/
structure Fmt where
  prec : ℕ
  emin : ℤ
  hprec : 2 ≤ prec

/-- `double`: IEEE 754 binary64. -/
def binary64 : Fmt := ⟨53, -1074, by norm_num⟩
/-- `float`: IEEE 754 binary32. -/
def binary32 : Fmt := ⟨24, -149, by norm_num⟩

/-- `x` is a number of the format (of any magnitude). -/
def Fmt.Rep (F : Fmt) (x : ℝ) : Prop :=
  ∃ m e : ℤ, |m| < 2 ^ F.prec ∧ F.emin ≤ e ∧ x = (m : ℝ) * (2 : ℝ) ^ e

/-- Rounding to nearest, symmetric in sign. -/
structure Rounding (F : Fmt) where
  rnd : ℝ → ℝ
  rep : ∀ x, F.Rep (rnd x)
  nearest : ∀ x y, F.Rep y → |x - rnd x| ≤ |x - y|
  odd : ∀ x, rnd (-x) = -rnd x

instance (F : Fmt) : CoeFun (Rounding F) (fun _ => ℝ → ℝ) := ⟨Rounding.rnd⟩
instance (F : Fmt) : CoeOut (Rounding F) (ℝ → ℝ) := ⟨Rounding.rnd⟩

end Sla.Fp
