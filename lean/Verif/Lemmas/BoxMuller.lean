/- The Box–Muller transformation of the unit disc: a uniform point of the disc becomes two independent standard normal
deviates. -/
import Mathlib.Analysis.SpecialFunctions.PolarCoord
import Mathlib.Probability.Distributions.Gaussian.Real
import Mathlib.MeasureTheory.Function.Jacobian
import Mathlib.MeasureTheory.Measure.Prod

open MeasureTheory ProbabilityTheory Real Set
open scoped ENNReal

namespace Sla.BoxMuller

/-- The open unit disc. -/
def disc : Set (ℝ × ℝ) := {p | p.1 ^ 2 + p.2 ^ 2 < 1}

/-- The polar Box–Muller map. -/
noncomputable def bm (p : ℝ × ℝ) : ℝ × ℝ :=
  (p.2 * √(-2 * log (p.1 ^ 2 + p.2 ^ 2) / (p.1 ^ 2 + p.2 ^ 2)),
    p.1 * √(-2 * log (p.1 ^ 2 + p.2 ^ 2) / (p.1 ^ 2 + p.2 ^ 2)))

theorem measurableSet_disc : MeasurableSet disc :=
  measurableSet_lt (by fun_prop) measurable_const

theorem measurable_bm : Measurable bm := by
  unfold bm
  fun_prop

/-- The angular integral. -/
private noncomputable def ang (f : ℝ × ℝ → ℝ≥0∞) (ρ : ℝ) : ℝ≥0∞ :=
  ∫⁻ θ in Ioo (-π) π, f (ρ * sin θ, ρ * cos θ)

private theorem bm_polar (r θ : ℝ) (h0 : 0 < r) :
    bm (r * cos θ, r * sin θ) = (√(-4 * log r) * sin θ, √(-4 * log r) * cos θ) := by
  have e : (r * cos θ) ^ 2 + (r * sin θ) ^ 2 = r ^ 2 := by
    linear_combination r ^ 2 * sin_sq_add_cos_sq θ
  have w : r * √(-2 * log (r ^ 2) / r ^ 2) = √(-4 * log r) := by
    rw [sqrt_div' _ (by positivity), sqrt_sq h0.le, mul_div_cancel₀ _ h0.ne', log_pow]
    congr 1
    push_cast
    ring
  simp only [bm, e, Prod.mk.injEq]
  rw [← w]
  constructor <;> ring

private theorem mem_disc_polar (r θ : ℝ) (h0 : 0 < r) : (r * cos θ, r * sin θ) ∈ disc ↔ r < 1 := by
  have e : (r * cos θ) ^ 2 + (r * sin θ) ^ 2 = r ^ 2 := by
    linear_combination r ^ 2 * sin_sq_add_cos_sq θ
  simp only [disc, mem_ofPred_eq, e]
  rw [sq_lt_one_iff₀ h0.le]

private theorem polar_iterated (g : ℝ × ℝ → ℝ≥0∞) (hg : Measurable g) :
    ∫⁻ p, g p = ∫⁻ r in Ioi (0 : ℝ), ENNReal.ofReal r * ∫⁻ θ in Ioo (-π) π, g (r * cos θ, r * sin θ) := by
  rw [← lintegral_comp_polarCoord_symm g, polarCoord_target, Measure.volume_eq_prod, ← Measure.prod_restrict,
    lintegral_prod]
  · refine lintegral_congr fun r => ?_
    simp only [polarCoord_symm_apply, smul_eq_mul]
    rw [lintegral_const_mul]
    exact hg.comp (by fun_prop)
  · have : Measurable fun p : ℝ × ℝ => ENNReal.ofReal p.1 • g (polarCoord.symm p) := by
      simp only [polarCoord_symm_apply, smul_eq_mul]
      exact (by fun_prop : Measurable fun p : ℝ × ℝ => ENNReal.ofReal p.1).mul (hg.comp (by fun_prop))
    exact this.aemeasurable

private theorem radial (F : ℝ → ℝ≥0∞) :
    ∫⁻ r in Ioo (0 : ℝ) 1, ENNReal.ofReal r * F √(-4 * log r) =
      ∫⁻ ρ in Ioi (0 : ℝ), ENNReal.ofReal (ρ / 2 * exp (-ρ ^ 2 / 2)) * F ρ := by
  have img : (fun ρ : ℝ => exp (-ρ ^ 2 / 4)) '' Ioi 0 = Ioo 0 1 := by
    ext r
    simp only [mem_image, mem_Ioi, mem_Ioo]
    constructor
    · rintro ⟨ρ, h, rfl⟩
      exact ⟨exp_pos _, by rw [exp_lt_one_iff]; have := pow_pos h 2; linarith⟩
    · rintro ⟨h0, h1⟩
      have hl : log r < 0 := log_neg h0 h1
      refine ⟨√(-4 * log r), sqrt_pos.2 (by linarith), ?_⟩
      rw [sq_sqrt (by linarith)]
      rw [show -(-4 * log r) / 4 = log r by ring, exp_log h0]
  have inj : InjOn (fun ρ : ℝ => exp (-ρ ^ 2 / 4)) (Ioi 0) := by
    intro a ha b hb h
    have h2 : a ^ 2 = b ^ 2 := by have := exp_injective h; linarith
    exact (pow_left_inj₀ (le_of_lt ha) (le_of_lt hb) two_ne_zero).1 h2
  have hd : ∀ ρ ∈ Ioi (0 : ℝ), HasDerivWithinAt (fun ρ : ℝ => exp (-ρ ^ 2 / 4))
      (exp (-ρ ^ 2 / 4) * (-ρ / 2)) (Ioi 0) ρ := by
    intro ρ _
    have h1 : HasDerivAt (fun ρ : ℝ => -ρ ^ 2 / 4) (-ρ / 2) ρ := by
      have := ((hasDerivAt_pow 2 ρ).neg).div_const 4
      refine this.congr_deriv ?_
      push_cast
      ring
    exact h1.exp.hasDerivWithinAt
  rw [← img, lintegral_image_eq_lintegral_abs_deriv_mul measurableSet_Ioi hd inj]
  refine setLIntegral_congr_fun measurableSet_Ioi fun ρ hρ => ?_
  have hρ' : 0 < ρ := hρ
  have e1 : √(-4 * log (exp (-ρ ^ 2 / 4))) = ρ := by
    rw [log_exp, show -4 * (-ρ ^ 2 / 4) = ρ ^ 2 by ring, sqrt_sq hρ'.le]
  have e2 : |exp (-ρ ^ 2 / 4) * (-ρ / 2)| = ρ / 2 * exp (-ρ ^ 2 / 4) := by
    rw [abs_mul, abs_of_pos (exp_pos _), show -ρ / 2 = -(ρ / 2) by ring, abs_neg, abs_of_pos (by linarith)]
    ring
  simp only [e1, e2]
  rw [← mul_assoc, ← ENNReal.ofReal_mul (by positivity), mul_assoc, ← exp_add]
  congr 4
  ring

private theorem disc_side (f : ℝ × ℝ → ℝ≥0∞) (hf : Measurable f) :
    ∫⁻ p in disc, f (bm p) = ∫⁻ ρ in Ioi (0 : ℝ), ENNReal.ofReal (ρ / 2 * exp (-ρ ^ 2 / 2)) * ang f ρ := by
  rw [← radial, ← lintegral_indicator measurableSet_disc,
    polar_iterated _ (Measurable.indicator (f := fun p => f (bm p)) (hf.comp measurable_bm) measurableSet_disc),
    ← lintegral_indicator measurableSet_Ioi, ← lintegral_indicator measurableSet_Ioo]
  refine lintegral_congr fun r => ?_
  by_cases h0 : 0 < r
  · rw [indicator_of_mem (show r ∈ Ioi 0 from h0)]
    by_cases h1 : r < 1
    · rw [indicator_of_mem (show r ∈ Ioo 0 1 from ⟨h0, h1⟩)]
      congr 1
      unfold ang
      refine lintegral_congr fun θ => ?_
      rw [indicator_of_mem ((mem_disc_polar r θ h0).2 h1), bm_polar r θ h0]
    · rw [indicator_of_notMem (show r ∉ Ioo 0 1 from fun h => h1 h.2)]
      simp only [indicator_of_notMem (fun h => h1 ((mem_disc_polar r _ h0).1 h))]
      simp
  · rw [indicator_of_notMem (show r ∉ Ioi 0 from h0), indicator_of_notMem (show r ∉ Ioo 0 1 from fun h => h0 h.1)]

private theorem gauss_prod :
    (gaussianReal 0 1).prod (gaussianReal 0 1) =
      (volume : Measure (ℝ × ℝ)).withDensity fun p => ENNReal.ofReal ((2 * π)⁻¹ * exp (-(p.1 ^ 2 + p.2 ^ 2) / 2)) := by
  rw [gaussianReal_of_var_ne_zero 0 one_ne_zero, prod_withDensity (measurable_gaussianPDF 0 1)
    (measurable_gaussianPDF 0 1), ← Measure.volume_eq_prod]
  congr 1
  ext p
  simp only [gaussianPDF, gaussianPDFReal]
  rw [← ENNReal.ofReal_mul (by positivity)]
  congr 1
  have hs : √(2 * π) * √(2 * π) = 2 * π := mul_self_sqrt (by positivity)
  simp only [NNReal.coe_one, mul_one, sub_zero]
  rw [show (√(2 * π))⁻¹ * exp (-p.1 ^ 2 / 2) * ((√(2 * π))⁻¹ * exp (-p.2 ^ 2 / 2)) =
    (√(2 * π) * √(2 * π))⁻¹ * (exp (-p.1 ^ 2 / 2) * exp (-p.2 ^ 2 / 2)) by rw [mul_inv]; ring, hs, ← exp_add]
  congr 2
  ring

private theorem gauss_side (f : ℝ × ℝ → ℝ≥0∞) (hf : Measurable f) :
    ∫⁻ p, f p ∂((gaussianReal 0 1).prod (gaussianReal 0 1)) =
      ∫⁻ ρ in Ioi (0 : ℝ), ENNReal.ofReal (ρ * ((2 * π)⁻¹ * exp (-ρ ^ 2 / 2))) * ang f ρ := by
  have hd : Measurable fun p : ℝ × ℝ => ENNReal.ofReal ((2 * π)⁻¹ * exp (-(p.1 ^ 2 + p.2 ^ 2) / 2)) := by fun_prop
  have hs : Measurable fun p : ℝ × ℝ => f p.swap := hf.comp measurable_swap
  rw [← Measure.prod_swap, lintegral_map hf measurable_swap, gauss_prod,
    lintegral_withDensity_eq_lintegral_mul _ hd hs, polar_iterated _ (hd.mul hs)]
  refine setLIntegral_congr_fun measurableSet_Ioi fun r hr => ?_
  have hr' : 0 < r := hr
  simp only [Pi.mul_apply, Prod.swap]
  have e : ∀ θ, (r * cos θ) ^ 2 + (r * sin θ) ^ 2 = r ^ 2 := by
    intro θ
    linear_combination r ^ 2 * sin_sq_add_cos_sq θ
  simp only [e]
  rw [lintegral_const_mul' _ _ ENNReal.ofReal_ne_top, ← mul_assoc, ← ENNReal.ofReal_mul hr'.le]
  rfl

/-- Area of the disc times the joint law of two independent standard normal deviates. -/
theorem lintegral_bm (f : ℝ × ℝ → ℝ≥0∞) (hf : Measurable f) :
    ∫⁻ p in disc, f (bm p) =
      ENNReal.ofReal π * ∫⁻ p, f p ∂((gaussianReal 0 1).prod (gaussianReal 0 1)) := by
  rw [disc_side f hf, gauss_side f hf, ← lintegral_const_mul']
  · refine setLIntegral_congr_fun measurableSet_Ioi fun r hr => ?_
    have hr' : 0 < r := hr
    rw [← mul_assoc, ← ENNReal.ofReal_mul pi_pos.le]
    congr 2
    field_simp
  · exact ENNReal.ofReal_ne_top

theorem volume_disc : volume disc = ENNReal.ofReal π := by
  have := lintegral_bm (fun _ => 1) measurable_const
  simpa using this

/-- The law of the transformed point is that of two independent standard normal deviates. -/
theorem map_bm (μ : Measure (ℝ × ℝ)) (hμ : μ = (ENNReal.ofReal π)⁻¹ • volume.restrict disc) :
    μ.map bm = (gaussianReal 0 1).prod (gaussianReal 0 1) := by
  ext s hs
  rw [Measure.map_apply measurable_bm hs, hμ, Measure.smul_apply, ← lintegral_indicator_one (measurable_bm hs)]
  have := lintegral_bm (s.indicator 1) (measurable_one.indicator hs)
  rw [lintegral_indicator_one hs] at this
  rw [show (bm ⁻¹' s).indicator (1 : ℝ × ℝ → ℝ≥0∞) = fun p => s.indicator 1 (bm p) from rfl, this, smul_eq_mul,
    ← mul_assoc, ENNReal.inv_mul_cancel (by simp [pi_pos]) ENNReal.ofReal_ne_top, one_mul]

end Sla.BoxMuller
