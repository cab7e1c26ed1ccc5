import Verif.Model.Fp

/-
Refraction constants from two sample zenith distances, with rounding.
-/
noncomputable section
namespace Sla.Fp

/-- The sample zenith distances of `refco` (src/refco.cc:50-51); `R` rounds to `double`. -/
def refcoZ1 (R : ℝ → ℝ) : ℝ := R 0.7853981633974483

/-- The second one (src/refco.cc:51). -/
def refcoZ2 (R : ℝ → ℝ) : ℝ := R 1.325817663668033

/-- src/refco.cc:46-60 `refco`: (refa, refb); `R` rounds to `double`.  `rf z` is what `refro` returns for the zenith distance `z` and the
    remaining arguments of `refco`; its arithmetic is not modelled here, and it may be any function. -/
def refco (R rf : ℝ → ℝ) : ℝ × ℝ :=
  let r1 := rf (refcoZ1 R)
  let r2 := rf (refcoZ2 R)
  (R (R (R (64 * r1) - r2) / 60), R (R (r2 - R (4 * r1)) / 60))

end Sla.Fp
