import Verif.Model.FpCode
import Verif.Model.Fit

/-
Decomposition of a linear fit, with rounding.
-/
noncomputable section
namespace Sla.Fp

/-- A root of a sum of squares, src/dcmpf.cc:76-77 -/
def rootSq (R : ℝ → ℝ) (u v : ℝ) : ℝ := R (Real.sqrt (R (R (u * u) + R (v * v))))

/-- src/dcmpf.cc:66-121 `dcmpf`; `R` rounds to `double` -/
def dcmpf (R sn cs : ℝ → ℝ) (at2 : ℝ → ℝ → ℝ) (model : FitCoeffs) : Decomposition :=
  let a := model.a
  let c := model.c
  let d := model.d
  let f := model.f
  let rb2e2 := rootSq R model.b model.e
  let rc2f2 := rootSq R c f
  open Classical in
  let pos : Prop := R (R (model.b * f) - R (c * model.e)) ≥ 0
  let xsc := if pos then rb2e2 else -rb2e2
  let b := if pos then model.b else -model.b
  let e := if pos then model.e else -model.e
  let ysc := rc2f2
  let p1 := if c ≠ 0 ∨ f ≠ 0 then at2 c f else 0
  let p2 := if e ≠ 0 ∨ b ≠ 0 then at2 e b else 0
  let p := drange R (R (p1 + p2))
  let ws := R (R (c * rb2e2) - R (e * rc2f2))
  let wc := R (R (b * rc2f2) + R (f * rb2e2))
  let orientation := if ws ≠ 0 ∨ wc ≠ 0 then at2 ws wc else 0
  let hp := R (p / 2)
  let shp := sn hp
  let chp := cs hp
  let sor := sn orientation
  let cor := cs orientation
  let det := R (R (R (xsc * ysc) * R (chp + shp)) * R (chp - shp))
  let X0 := if |det| > 0 then
      R (R (ysc * R (R (a * R (R (chp * cor) - R (shp * sor))) - R (d * R (R (chp * sor) + R (shp * cor))))) / det) else 0
  let Y0 := if |det| > 0 then
      R (R (xsc * R (R (a * R (R (chp * sor) - R (shp * cor))) + R (d * R (R (chp * cor) + R (shp * sor))))) / det) else 0
  ⟨X0, Y0, xsc, ysc, p, orientation⟩

end Sla.Fp
