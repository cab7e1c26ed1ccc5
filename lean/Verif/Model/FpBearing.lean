import Verif.Model.FpCode
import Verif.Model.Spherical

/-
The bearing of one vector from another with the rounding of every operation.
-/
noncomputable section
namespace Sla.Fp

/-- src/dpav.cc:37-60 `dpav` -/
def dpav (R : ℝ → ℝ) (at2 : ℝ → ℝ → ℝ) (va vb : Vec) : ℝ :=
  let length := R (Real.sqrt (R (R (R (va 0 * va 0) + R (va 1 * va 1)) + R (va 2 * va 2))))
  let x1 := if length ≠ 0 then R (va 0 / length) else va 0
  let y1 := if length ≠ 0 then R (va 1 / length) else va 1
  let z1 := if length ≠ 0 then R (va 2 / length) else va 2
  let x2 := vb 0
  let y2 := vb 1
  let z2 := vb 2
  let sq := R (R (y2 * x1) - R (x2 * y1))
  let cq := R (R (z2 * R (R (x1 * x1) + R (y1 * y1))) - R (z1 * R (R (x2 * x1) + R (y2 * y1))))
  let cq := if sq = 0 ∧ cq = 0 then 1 else cq
  at2 sq cq

/-- src/pav.cc:36-44 `pav`: the components are converted to `double` (exactly), the result to `float` (`S`) -/
def pav (S R : ℝ → ℝ) (at2 : ℝ → ℝ → ℝ) (va vb : Vec) : ℝ := S (dpav R at2 va vb)

end Sla.Fp
