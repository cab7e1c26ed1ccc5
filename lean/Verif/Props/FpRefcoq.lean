import Verif.Lemmas.FpRefcoq
import Verif.Lemmas.Fp

/-
C120: the refraction constants from the weather, in double precision.
-/
namespace Sla.Props
open Sla.Fp Real

/-- **C120**: at optical and infrared wavelengths, in any weather between 230 and 320 kelvins and between 400 and 1200 millibars, the
computed constants are within 1.72e-18 and 3.94e-21 radians of the formulae in exact arithmetic. -/
theorem C120_optical (R : Rounding binary64) {pw : ℝ → ℝ → ℝ} (hpw : ∀ y, |pw 10 y - (10 : ℝ) ^ y| ≤ 3e-16 * (10 : ℝ) ^ y)
    (t p r wl : ℝ) (h : RefcoqWeather t p r) (h1 : 0.11 ≤ wl) (h2 : wl ≤ 100) :
    |(Fp.refcoq R pw t p r wl).1 - (refcoq t p r wl).1| ≤ 1.72e-18 ∧ |(Fp.refcoq R pw t p r wl).2 - (refcoq t p r wl).2| ≤ 3.94e-21 :=
  refcoq_optic R.dbl hpw h h1 h2

/-- **C120**: at radio wavelengths, within 1.41e-16 and 1.74e-18 radians. -/
theorem C120_radio (R : Rounding binary64) {pw : ℝ → ℝ → ℝ} (hpw : ∀ y, |pw 10 y - (10 : ℝ) ^ y| ≤ 3e-16 * (10 : ℝ) ^ y)
    (t p r wl : ℝ) (h : RefcoqWeather t p r) (h1 : 100 < wl) :
    |(Fp.refcoq R pw t p r wl).1 - (refcoq t p r wl).1| ≤ 1.41e-16 ∧ |(Fp.refcoq R pw t p r wl).2 - (refcoq t p r wl).2| ≤ 1.74e-18 :=
  refcoq_radio R.dbl hpw h h1

/-- A cool dry night, visible light; and the same at 21 cm. -/
example : RefcoqWeather 275 709.3 0.9 ∧ (0.11 : ℝ) ≤ 0.5 ∧ (0.5 : ℝ) ≤ 100 ∧ (100 : ℝ) < 210000 := by
  refine ⟨⟨?_, ?_, ?_, ?_, ?_, ?_⟩, ?_, ?_, ?_⟩ <;> norm_num

/-- **C120**: without an atmosphere both constants are exactly zero, whatever the temperature, the humidity, the wavelength and the
library's power function. -/
theorem C120_vacuum (R : Rounding binary64) (pw : ℝ → ℝ → ℝ) (t p r wl : ℝ) (hp : p ≤ 0) : Fp.refcoq R pw t p r wl = (0, 0) := by
  have k : min (max p 0) 10000 = (0 : ℝ) := by rw [max_eq_right hp, min_eq_left (by norm_num)]
  unfold Fp.refcoq refcoqGamma
  simp only [k, lt_irrefl, gt_iff_lt, if_false, mul_zero, R.zero, sub_zero, zero_div]
  split_ifs <;> simp [R.zero]

example : (-3 : ℝ) ≤ 0 := by norm_num

end Sla.Props
