import Verif.Model.FpDispersion
import Verif.Lemmas.FpDispersion

/-
Property theorems C129: atmospheric dispersion in double precision.
-/
namespace Sla.Props
open Sla.Fp

/-- C129: in ordinary weather and at optical wavelengths `atmdsp` scales the refraction constants to within 1.41e-16 rad and, where the
    first constant differs from the refractivity by 1e-7 or more, 7.8e-16 rad. -/
theorem C129_optical (R : Rounding binary64) {pw : ℝ → ℝ → ℝ} (hpw : ∀ y, |pw 10 y - (10 : ℝ) ^ y| ≤ 3e-16 * (10 : ℝ) ^ y)
    {t p r wl1 wl2 a1 b1 : ℝ} (h : RefcoqWeather t p r) (hw1 : 0.11 ≤ wl1 ∧ wl1 ≤ 100) (hw2 : 0.11 ≤ wl2 ∧ wl2 ≤ 100) (ha1 : |a1| ≤ 1e-3)
    (hb1 : |b1| ≤ 1e-6) :
    |(Fp.atmdsp R pw t p r wl1 a1 b1 wl2).1 - (Sla.atmdsp t p r wl1 a1 b1 wl2).1| ≤ 1.41e-16 ∧
    (1e-7 ≤ |Sla.atmdspN t p r wl1 - a1| →
      |(Fp.atmdsp R pw t p r wl1 a1 b1 wl2).2 - (Sla.atmdsp t p r wl1 a1 b1 wl2).2| ≤ 7.8e-16) :=
  atmdsp_near R.dbl hpw h hw1 hw2 ha1 hb1

/-- C129: beyond 100 micrometres, whatever the weather, the constants are returned unchanged. -/
theorem C129_radio (R pw) (t p r wl1 a1 b1 wl2 : ℝ) (h : 100 < wl1 ∨ 100 < wl2) : Fp.atmdsp R pw t p r wl1 a1 b1 wl2 = (a1, b1) := by
  unfold Fp.atmdsp
  rw [if_pos h]

/-- C129: for the wavelength for which they were given the constants are returned unchanged, to the last bit, whatever the weather and the
    library's power function. -/
theorem C129_same (R : Rounding binary64) (pw : ℝ → ℝ → ℝ) (t p r wl : ℝ) {a1 b1 : ℝ} (ha : binary64.Rep a1) (hb : binary64.Rep b1) :
    Fp.atmdsp R pw t p r wl a1 b1 wl = (a1, b1) := by
  have r1 : R (1 : ℝ) = 1 := R.eq_self ⟨1, 0, by norm_num [binary64], by norm_num [binary64], by norm_num⟩
  unfold Fp.atmdsp
  split_ifs with h1
  · rfl
  · by_cases h0 : Fp.atmdspN R pw t p r wl = 0
    · simp only [h0, ne_eq, not_true_eq_false, if_false]
    · simp only [ne_eq, h0, not_false_eq_true, div_self h0, r1, mul_one, sub_self, R.zero, mul_zero, zero_div, add_zero, R.eq_self ha,
        R.eq_self hb, ite_self]

/-- A cool night, blue light to red light, with constants of the usual size. -/
example : RefcoqWeather 275 709.3 0.9 ∧ ((0.11 : ℝ) ≤ 0.4 ∧ (0.4 : ℝ) ≤ 100) ∧ ((0.11 : ℝ) ≤ 0.7 ∧ (0.7 : ℝ) ≤ 100) ∧ |(2e-4 : ℝ)| ≤ 1e-3 ∧ |(-2e-7 : ℝ)| ≤ 1e-6 := by
  refine ⟨⟨?_, ?_, ?_, ?_, ?_, ?_⟩, ⟨?_, ?_⟩, ⟨?_, ?_⟩, ?_, ?_⟩ <;> norm_num [abs_le]

/-- For vanishing constants the refractivity differs from the first one by far more than 1e-7. -/
example {t p r wl : ℝ} (h : RefcoqWeather t p r) (hw : 0.11 ≤ wl) : 1e-7 ≤ |Sla.atmdspN t p r wl - 0| := by
  obtain ⟨-, l⟩ := atmdspN_near (D := id) (pw := fun x y => x ^ y) (fun x => by simp; positivity) (fun y => by simp; positivity) h hw
  rw [sub_zero]
  exact le_trans (by norm_num at l ⊢; linarith) (le_abs_self _)

end Sla.Props
