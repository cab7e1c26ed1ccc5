import Verif.Model.Fit
import Verif.Model.Linear
import Mathlib.LinearAlgebra.Matrix.Notation

/-
Fitting linear models to samples.
-/
noncomputable section
namespace Sla
open Matrix

/-- One sample: `expected[i][0..1]` and `measured[i][0..1]`. -/
structure XYSample where
  xe : ℝ
  ye : ℝ
  xm : ℝ
  ym : ℝ

/-- `FITStatus` (src/slalib.h:79-83). -/
inductive FITStatus
  | ok
  | insufficient
  | none
  deriving DecidableEq

/-- A loop `for (i = 0; i < nsamples; i++) sum += term(i)` from 0 (src/fitxy.cc:100-116, 171-183, 217-223 and
    src/pxy.cc:58-71); the accumulators of one loop are independent and are modelled one at a time. -/
def accumulate {n : ℕ} (s : Fin n → XYSample) (term : XYSample → ℝ) : ℝ :=
  (List.finRange n).foldl (fun acc i => acc + term (s i)) 0

/-- The matrix of the six-coefficient normal equations (src/fitxy.cc:122-130). -/
def fitMat3 {n : ℕ} (s : Fin n → XYSample) : NMat 3 :=
  !![(n : ℝ), accumulate s (·.xm), accumulate s (·.ym);
     accumulate s (·.xm), accumulate s (fun p => p.xm * p.xm), accumulate s (fun p => p.xm * p.ym);
     accumulate s (·.ym), accumulate s (fun p => p.xm * p.ym), accumulate s (fun p => p.ym * p.ym)]

/-- The six-coefficient branch (src/fitxy.cc:79-149).  `none` is undefined behaviour in `dmat`.  `dmxv` is the product of
    the matrix and the vector (src/dmxv.cc). -/
def fitxySix {n : ℕ} (s : Fin n → XYSample) (ws : Fin 3 → ℤ) (model : FitCoeffs) : Option (FITStatus × FitCoeffs) :=
  if n ≥ 3 then
    let vec : Fin 3 → ℝ := ![accumulate s (·.xe), accumulate s (fun p => p.xe * p.xm), accumulate s (fun p => p.xe * p.ym)]
    (dmat (fitMat3 s) vec ws).map fun r =>
      if r.singular = false then
        let vec2 : Fin 3 → ℝ :=
          ![accumulate s (·.ye), accumulate s (fun p => p.ye * p.xm), accumulate s (fun p => p.ye * p.ym)]
        let y := r.mat *ᵥ vec2
        (.ok, ⟨r.vec 0, r.vec 1, r.vec 2, y 0, y 1, y 2⟩)
      else (.none, model)
  else some (.insufficient, model)

/-- The matrix of the four-coefficient normal equations (src/fitxy.cc:192-207), the same in both passes. -/
def fitMat4 {n : ℕ} (s : Fin n → XYSample) : NMat 4 :=
  let sx := accumulate s (·.xm)
  let sy := accumulate s (·.ym)
  let s2 := accumulate s (fun p => p.xm * p.xm + p.ym * p.ym)
  !![(n : ℝ), sx, -sy, 0;
     sx, s2, 0, sy;
     sy, 0, -s2, -sx;
     0, sy, sx, (n : ℝ)]

/-- The right-hand side of the four-coefficient normal equations (src/fitxy.cc:171-191). -/
def fitVec4 {n : ℕ} (s : Fin n → XYSample) (sign : ℝ) : Fin 4 → ℝ :=
  ![accumulate s (fun p => p.xe * sign),
    accumulate s (fun p => p.xe * sign * p.xm + p.ye * p.ym),
    accumulate s (fun p => p.xe * sign * p.ym - p.ye * p.xm),
    accumulate s (·.ye)]

/-- The sum of radial errors squared (src/fitxy.cc:216-223); the code adds the two squares one after the other. -/
def fitSdr2 {n : ℕ} (s : Fin n → XYSample) (sign a b c d : ℝ) : ℝ :=
  (List.finRange n).foldl (fun acc i =>
    let xr := a + b * (s i).xm - c * (s i).ym - (s i).xe * sign
    let yr := d + c * (s i).xm + b * (s i).ym - (s i).ye
    acc + xr * xr + yr * yr) 0

/-- The variables of the four-coefficient branch after the two passes (src/fitxy.cc:60-69, 159-237). -/
structure FitVars where
  a : ℝ
  b : ℝ
  c : ℝ
  d : ℝ
  aOld : ℝ
  bOld : ℝ
  cOld : ℝ
  dOld : ℝ
  sdr2Old : ℝ
  sdr2 : ℝ
  singular : Bool

/-- One pass (src/fitxy.cc:159-237). -/
def fitPass {n : ℕ} (s : Fin n → XYSample) (ws : Fin 4 → ℤ) (solution : ℕ) (v : FitVars) : Option FitVars :=
  let sign : ℝ := if solution = 0 then 1 else -1
  (dmat (fitMat4 s) (fitVec4 s sign) ws).map fun r =>
    let v :=
      if r.singular = false then
        { v with a := r.vec 0, b := r.vec 1, c := r.vec 2, d := r.vec 3,
                 sdr2 := fitSdr2 s sign (r.vec 0) (r.vec 1) (r.vec 2) (r.vec 3), singular := false }
      else { v with sdr2 := -1, singular := true }
    if solution = 0 ∧ v.singular = false then
      { v with aOld := v.a, bOld := v.b, cOld := v.c, dOld := v.d, sdr2Old := v.sdr2 }
    else v

/-- The four-coefficient branch (src/fitxy.cc:150-262).  The workspace holds arbitrary values before each of the two
    calls of `dmat`; `sdr2` and `singular`, uninitialised at first, are assigned in the first pass. -/
def fitxyFour {n : ℕ} (s : Fin n → XYSample) (ws ws' : Fin 4 → ℤ) (junk : ℝ) (model : FitCoeffs) :
    Option (FITStatus × FitCoeffs) :=
  if n ≥ 2 then
    (fitPass s ws 0 ⟨0, 0, 0, 0, 0, 0, 0, 0, 0, junk, false⟩).bind fun v =>
    (fitPass s ws' 1 v).map fun v =>
      if v.sdr2Old ≥ 0 ∧ (v.sdr2Old ≤ v.sdr2 ∨ n = 2) then (.ok, ⟨v.aOld, v.bOld, -v.cOld, v.dOld, v.cOld, v.bOld⟩)
      else if v.singular = false then (.ok, ⟨-v.a, -v.b, v.c, v.d, v.c, v.b⟩)
      else (.none, model)
  else some (.insufficient, model)

/-- The results of `pxy`. -/
structure PxyResult (n : ℕ) where
  predicted : Fin n → ℝ × ℝ
  xRms : ℝ
  yRms : ℝ
  rms : ℝ

/-- src/pxy.cc:50-77 `pxy` (a negative count acts as 0). -/
def pxy {n : ℕ} (s : Fin n → XYSample) (model : FitCoeffs) : PxyResult n :=
  let sumDx2 := accumulate s fun p => let dx := p.xe - (xy2xy p.xm p.ym model).1; dx * dx
  let sumDy2 := accumulate s fun p => let dy := p.ye - (xy2xy p.xm p.ym model).2; dy * dy
  let p := max (1 : ℝ) n
  let xRms := Real.sqrt (sumDx2 / p)
  let yRms := Real.sqrt (sumDy2 / p)
  { predicted := fun i => xy2xy (s i).xm (s i).ym model, xRms := xRms, yRms := yRms,
    rms := Real.sqrt (xRms * xRms + yRms * yRms) }

end Sla
