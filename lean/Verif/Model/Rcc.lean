import Verif.Model.CMath
import Verif.Model.RccTables

/-
src/rcc.cc (relativistic clock correction TDB - TT) and src/wait.cc.
The literals for 2*pi and pi/180 are replaced by the exact values.
-/
noncomputable section
namespace Sla
open Real (pi)

/-- One fundamental argument of src/rcc.cc:909-921: degrees reduced with `fmod` to one turn, in radians. -/
def rccArg (deg rate w : ℝ) : ℝ := cfmod (deg + rate * w) 360 * (pi / 180)

/-- The topocentric terms `wt`, src/rcc.cc:900-933. -/
def rccTopo (t ut1 cl cda cdp : ℝ) : ℝ :=
  let t_sol := cfmod ut1 1 * (2 * pi) - cl
  let w := t / 3600
  let sun_ml := rccArg 280.46645683 1296027711.03429 w
  let sun_ma := rccArg 357.52910918 1295965810.481 w
  let moon_me := rccArg 297.85019547 16029616012.09 w
  let jupiter_ml := rccArg 34.35151874 109306899.89453 w
  let saturn_ml := rccArg 50.0774443 44046398.47038 w
  0.00029e-10 * cda * Real.sin (t_sol + sun_ml - saturn_ml)
    + 0.00100e-10 * cda * Real.sin (t_sol - 2 * sun_ma)
    + 0.00133e-10 * cda * Real.sin (t_sol - moon_me)
    + 0.00133e-10 * cda * Real.sin (t_sol + sun_ml - jupiter_ml)
    - 0.00229e-10 * cda * Real.sin (t_sol + 2 * sun_ml + sun_ma)
    - 0.02200e-10 * cdp * Real.cos (sun_ml + sun_ma)
    + 0.05312e-10 * cda * Real.sin (t_sol - sun_ma)
    - 0.13677e-10 * cda * Real.sin (t_sol + 2 * sun_ml)
    - 1.31840e-10 * cdp * Real.cos sun_ml
    + 3.17679e-10 * cda * Real.sin t_sol

/-- One iteration of the loops src/rcc.cc:939-968: `w += fb_coeffs[i][0] * sin(fb_coeffs[i][1] * t + fb_coeffs[i][2])`;
    `fb_coeffs[i][0]` is `amp * 1e-12` seconds. -/
def fbStep (t : ℝ) (w : ℝ) (r : FbRow) : ℝ :=
  w + (r.amp : ℝ) * 1e-12 * Real.sin ((r.freq : ℝ) * 1e-9 * t + (r.phase : ℝ) * 1e-9)

/-- One loop of src/rcc.cc:939-968, `for (i = hi; i >= lo; i--)`, started from zero. -/
def fbLoop (t : ℝ) (hi lo : ℕ) : ℝ := ((fbCoeffs.take (hi + 1)).drop lo).reverse.foldl (fbStep t) 0

/-- src/rcc.cc:86-981 `rcc` -/
def rcc (tdb ut1 cl cda cdp : ℝ) : ℝ :=
  let t := (tdb - 51544.5) / 365250
  let wt := rccTopo t ut1 cl cda cdp
  let w0 := fbLoop t 473 0
  let w1 := fbLoop t 678 474
  let w2 := fbLoop t 763 679
  let w3 := fbLoop t 783 764
  let w4 := fbLoop t 786 784
  let wf := t * (t * (t * (t * w4 + w3) + w2) + w1) + w0
  let wj := 0.00065e-6 * Real.sin (6069.776754 * t + 4.021194) + 0.00033e-6 * Real.sin (213.299095 * t + 5.543132) +
    (-0.00196e-6 * Real.sin (6208.294251 * t + 5.696701)) + (-0.00173e-6 * Real.sin (74.781599 * t + 2.435900)) +
    0.03638e-6 * t * t
  wt + wf + wj

/-- src/wait.cc:31-33 `wait`: the whole number of seconds the thread sleeps for; `sleep_for` returns at once for a
    count that is not positive. The conversion of the rounded value to `int` (src/f77_utils.h:34) is undefined
    outside 32 bits, here `none`. -/
def waitSeconds (seconds : ℝ) : Option ℤ :=
  let n := cround seconds
  if -2147483648 ≤ n ∧ n ≤ 2147483647 then some (max n 0) else none

end Sla
