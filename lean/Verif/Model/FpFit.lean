import Verif.Model.FpAxis
import Verif.Model.FitXY

/-
Predicted coordinates and residuals of a linear model with the rounding of every operation.
-/
noncomputable section
namespace Sla.Fp
open Sla

/-- A loop `for (i = 0; i < nsamples; i++) sum += term(i)` from 0, rounding each addition (src/pxy.cc:53-71); the two
    accumulators of the loop are independent and are modelled one at a time -/
def accumulate (R : ℝ → ℝ) {n : ℕ} (s : Fin n → XYSample) (term : XYSample → ℝ) : ℝ :=
  (List.finRange n).foldl (fun acc i => R (acc + term (s i))) 0

/-- src/pxy.cc:50-77 `pxy` (a negative count acts as 0; the conversion of the count to `double` is exact) -/
def pxy (R : ℝ → ℝ) {n : ℕ} (s : Fin n → XYSample) (model : FitCoeffs) : PxyResult n :=
  let sumDx2 := accumulate R s fun p => let dx := R (p.xe - (xy2xy R p.xm p.ym model).1); R (dx * dx)
  let sumDy2 := accumulate R s fun p => let dy := R (p.ye - (xy2xy R p.xm p.ym model).2); R (dy * dy)
  let p := max (1 : ℝ) n
  let xRms := R (Real.sqrt (R (sumDx2 / p)))
  let yRms := R (Real.sqrt (R (sumDy2 / p)))
  { predicted := fun i => xy2xy R (s i).xm (s i).ym model, xRms := xRms, yRms := yRms,
    rms := R (Real.sqrt (R (R (xRms * xRms) + R (yRms * yRms)))) }

end Sla.Fp
