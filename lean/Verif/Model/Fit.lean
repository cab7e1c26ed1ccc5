import Verif.Model.Angles
import Mathlib.Analysis.SpecialFunctions.Pow.Real

/-
Plane coordinates: pincushion distortion and linear models.
-/
noncomputable section
namespace Sla
open Real (pi)

/-- src/pcd.cc:49-53 `pcd` -/
def pcd (disco x y : ℝ) : ℝ × ℝ :=
  let f := 1 + disco * (x * x + y * y)
  (x * f, y * f)

/-- The real cube root used in src/unpcd.cc:76, 78: `f_sign(pow(abs(w), 1/3), w)`. -/
def ucbrt (w : ℝ) : ℝ := csign (|w| ^ (1 / 3 : ℝ)) w

/-- src/unpcd.cc:67-110: the undistorted radial distance for the distorted one `rp`, both non-zero.  The constant PI2 is
    taken as exactly 2 pi and ONE_THIRD as exactly 1/3. -/
def unpcdRoot (disco rp : ℝ) : ℝ :=
  let q := 1 / (3 * disco)
  let r := rp / (2 * disco)
  let w := q * q * q + r * r
  if w ≥ 0 then
    let d := Real.sqrt w
    let s1 := ucbrt (r + d)
    let t := ucbrt (r - d)
    s1 + t
  else
    let w := 2 / Real.sqrt (-3 * disco)
    let c := 4 * rp / (disco * w * w * w)
    let s2 := Real.sqrt (1 - min (c * c) 1)
    let t3 := atan2 s2 c
    let f1 := w * Real.cos ((2 * pi - t3) / 3)
    let f2 := w * Real.cos (t3 / 3)
    let f3 := w * Real.cos ((2 * pi + t3) / 3)
    let w1 := |f1 - rp|
    let w2 := |f2 - rp|
    let w3 := |f3 - rp|
    if w1 < w2 then (if w1 < w3 then f1 else f3) else (if w2 < w3 then f2 else f3)

/-- src/unpcd.cc:56-116 `unpcd` -/
def unpcd (disco x y : ℝ) : ℝ × ℝ :=
  let rp := Real.sqrt (x * x + y * y)
  if rp ≠ 0 ∧ disco ≠ 0 then
    let f := unpcdRoot disco rp / rp
    (f * x, f * y)
  else (x, y)

/-- `FitCoeffs` (src/slalib.h:330-351): six coefficients. -/
@[ext] structure FitCoeffs where
  a : ℝ
  b : ℝ
  c : ℝ
  d : ℝ
  e : ℝ
  f : ℝ

/-- src/xy2xy.cc:42-45 `xy2xy` -/
def xy2xy (x1 y1 : ℝ) (model : FitCoeffs) : ℝ × ℝ :=
  (model.a + model.b * x1 + model.c * y1, model.d + model.e * x1 + model.f * y1)

/-- src/invf.cc:46-65 `invf`: success flag and the new contents of `inverse`. -/
def invf (model inverse : FitCoeffs) : Bool × FitCoeffs :=
  let b := model.b
  let c := model.c
  let e := model.e
  let f := model.f
  let det := b * f - c * e
  if det ≠ 0 then
    let a := model.a
    let d := model.d
    (true, ⟨(c * d - a * f) / det, f / det, -c / det, (a * e - b * d) / det, -e / det, b / det⟩)
  else (false, inverse)

/-- The results of `dcmpf`. -/
structure Decomposition where
  xz : ℝ
  yz : ℝ
  xs : ℝ
  ys : ℝ
  perp : ℝ
  orient : ℝ

/-- src/dcmpf.cc:66-121 `dcmpf` -/
def dcmpf (model : FitCoeffs) : Decomposition :=
  let a := model.a
  let c := model.c
  let d := model.d
  let f := model.f
  let rb2e2 := Real.sqrt (model.b * model.b + model.e * model.e)
  let rc2f2 := Real.sqrt (c * c + f * f)
  let pos : Prop := model.b * f - c * model.e ≥ 0
  let xsc := if pos then rb2e2 else -rb2e2
  let b := if pos then model.b else -model.b
  let e := if pos then model.e else -model.e
  let ysc := rc2f2
  let p1 := if c ≠ 0 ∨ f ≠ 0 then atan2 c f else 0
  let p2 := if e ≠ 0 ∨ b ≠ 0 then atan2 e b else 0
  let p := drange (p1 + p2)
  let ws := c * rb2e2 - e * rc2f2
  let wc := b * rc2f2 + f * rb2e2
  let orientation := if ws ≠ 0 ∨ wc ≠ 0 then atan2 ws wc else 0
  let hp := p / 2
  let shp := Real.sin hp
  let chp := Real.cos hp
  let sor := Real.sin orientation
  let cor := Real.cos orientation
  let det := xsc * ysc * (chp + shp) * (chp - shp)
  let X0 := if |det| > 0 then ysc * (a * (chp * cor - shp * sor) - d * (chp * sor + shp * cor)) / det else 0
  let Y0 := if |det| > 0 then xsc * (a * (chp * sor - shp * cor) + d * (chp * cor + shp * sor)) / det else 0
  ⟨X0, Y0, xsc, ysc, p, orientation⟩

end Sla
