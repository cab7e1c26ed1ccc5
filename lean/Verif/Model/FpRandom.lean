import Verif.Model.Fp
import Verif.Model.Misc

/-
The seed of the uniform random numbers, with rounding.
-/
noncomputable section
namespace Sla.Fp

/-- src/random.cc:46-50: the integer seed.  `S` rounds to `float`, `D` to `double`; `lg10` is the library's `log10` for `float`, and `pw n` its
    `pow(10.0f, n)`, which for an integer exponent is of type `double`, and so is the quotient. -/
def randomSeed (S D lg10 : ℝ → ℝ) (pw : ℤ → ℝ) (seed : ℝ) : ℤ :=
  let aseed := S (|seed| + 1)
  let iseed := cround (D (aseed / pw (cround (lg10 aseed) - 6)))
  if iseed % 2 = 0 then iseed + 1 else iseed

end Sla.Fp
