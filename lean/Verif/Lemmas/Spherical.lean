import Verif.Model.Spherical
import Verif.Spec.Sphere
import Verif.Lemmas.Arg
import Verif.Lemmas.Vectors
import Mathlib.Analysis.SpecialFunctions.Trigonometric.Deriv
import Mathlib.Analysis.SpecialFunctions.Sqrt
import Mathlib.Analysis.SpecialFunctions.Complex.LogDeriv

/-
Facts about directions and `atan2`.
-/
namespace Sla
open Real Matrix Sla.Spec

theorem direction_eq (a b : ℝ) : direction a b = ![cos a * cos b, sin a * cos b, sin b] := by
  funext i
  fin_cases i <;> simp [direction, turnFrame, ex, ey, ez, crossProduct, dotProduct, Fin.sum_univ_three] <;> ring

theorem north_eq (a b : ℝ) : north a b = ![-(cos a * sin b), -(sin a * sin b), cos b] := by
  funext i
  fin_cases i <;> simp [north, turnFrame, ex, ey, ez, crossProduct, dotProduct, Fin.sum_univ_three] <;> ring

theorem east_eq (a : ℝ) : east a = ![-sin a, cos a, 0] := by
  funext i
  fin_cases i <;> simp [east, turnFrame, ex, ey, ez, crossProduct, dotProduct, Fin.sum_univ_three] <;> ring

theorem dcs2c_eq (s : Spherical) : dcs2c s = direction s.a s.b := by
  rw [direction_eq]; rfl

theorem len_eq (v : Vec) : len v = sqrt (v 0 * v 0 + v 1 * v 1 + v 2 * v 2) := by
  simp [len, dotProduct, Fin.sum_univ_three]

theorem polar_cos (y x : ℝ) : sqrt (x * x + y * y) * cos (atan2 y x) = x := by
  have := cos_atan2 y x; simpa [sq] using this

theorem polar_sin (y x : ℝ) : sqrt (x * x + y * y) * sin (atan2 y x) = y := by
  have := sin_atan2 y x; simpa [sq] using this

theorem atan2_zero_of_nonneg {x : ℝ} (hx : 0 ≤ x) : atan2 0 x = 0 := by
  unfold atan2
  have : (⟨x, 0⟩ : ℂ) = (x : ℂ) := rfl
  rw [this]; exact Complex.arg_ofReal_of_nonneg hx

theorem sqrt_sumsq_eq_zero {x y : ℝ} : sqrt (x * x + y * y) = 0 ↔ x = 0 ∧ y = 0 := by
  rw [sqrt_eq_zero (by nlinarith [sq_nonneg x, sq_nonneg y])]
  constructor
  · intro h; constructor <;> nlinarith [mul_self_nonneg x, mul_self_nonneg y]
  · rintro ⟨rfl, rfl⟩; ring

theorem dcc2s_eq (v : Vec) : dcc2s v = ⟨atan2 (v 1) (v 0), atan2 (v 2) (sqrt (v 0 * v 0 + v 1 * v 1))⟩ := by
  unfold dcc2s
  apply Spherical.ext
  · show (if _ then _ else _) = _
    split_ifs with h
    · obtain ⟨h0, h1⟩ := sqrt_sumsq_eq_zero.1 h
      rw [h0, h1, atan2_zero_zero]
    · rfl
  · show (if _ then _ else _) = _
    split_ifs with h
    · rw [h, atan2_zero_of_nonneg (sqrt_nonneg _)]
    · rfl

theorem lat_cos (x y z : ℝ) : sqrt (x * x + y * y + z * z) * cos (atan2 z (sqrt (x * x + y * y))) =
    sqrt (x * x + y * y) := by
  have h := polar_cos z (sqrt (x * x + y * y))
  rwa [mul_self_sqrt (by nlinarith [mul_self_nonneg x, mul_self_nonneg y])] at h

theorem lat_sin (x y z : ℝ) : sqrt (x * x + y * y + z * z) * sin (atan2 z (sqrt (x * x + y * y))) = z := by
  have h := polar_sin z (sqrt (x * x + y * y))
  rwa [mul_self_sqrt (by nlinarith [mul_self_nonneg x, mul_self_nonneg y])] at h

/-- A vector is its length times the direction with the longitude and latitude computed by `atan2`. -/
theorem spherical_polar (v : Vec) :
    v = len v • direction (atan2 (v 1) (v 0)) (atan2 (v 2) (sqrt (v 0 * v 0 + v 1 * v 1))) := by
  have h1 := lat_cos (v 0) (v 1) (v 2)
  have h2 := lat_sin (v 0) (v 1) (v 2)
  have h3 := polar_cos (v 1) (v 0)
  have h4 := polar_sin (v 1) (v 0)
  rw [len_eq, direction_eq]
  funext i
  fin_cases i
  · simp only [Fin.zero_eta, Fin.isValue, Pi.smul_apply, cons_val_zero, smul_eq_mul]
    rw [mul_left_comm, h1, mul_comm, h3]
  · simp only [Fin.mk_one, Fin.isValue, Pi.smul_apply, cons_val_one, cons_val_zero, smul_eq_mul]
    rw [mul_left_comm, h1, mul_comm, h4]
  · simp only [Fin.reduceFinMk, Fin.isValue, Pi.smul_apply, cons_val, smul_eq_mul]
    rw [h2]

theorem cos_pos_of_abs {b : ℝ} (h : |b| < π / 2) : 0 < cos b :=
  cos_pos_of_mem_Ioo ⟨by have := abs_lt.1 h; linarith, (abs_lt.1 h).2⟩

/-- The longitude and latitude of a positive multiple of a direction. -/
theorem polar_direction {a b r : ℝ} (hr : 0 < r) (h1 : -π < a) (h2 : a ≤ π) (hb : |b| < π / 2)
    (x y z : ℝ) (hx : x = r * (cos a * cos b)) (hy : y = r * (sin a * cos b)) (hz : z = r * sin b) :
    atan2 y x = a ∧ atan2 z (sqrt (x * x + y * y)) = b ∧ sqrt (x * x + y * y) = r * cos b := by
  have hc := cos_pos_of_abs hb
  have hs : sqrt (x * x + y * y) = r * cos b := by
    rw [show x * x + y * y = (r * cos b) ^ 2 by
      rw [hx, hy]; have := sin_sq_add_cos_sq a; linear_combination (r * cos b) ^ 2 * this]
    exact sqrt_sq (by positivity)
  refine ⟨?_, ?_, hs⟩
  · exact atan2_unique (r := r * cos b) (by positivity) h1 h2 (by rw [hy]; ring) (by rw [hx]; ring)
  · rw [hs]
    have := abs_lt.1 hb
    exact atan2_unique hr (by linarith [pi_pos]) (by linarith [pi_pos]) hz rfl

theorem direction_unit (a b : ℝ) : direction a b ⬝ᵥ direction a b = 1 := by
  rw [direction_eq]; simp [dotProduct, Fin.sum_univ_three]
  linear_combination (cos b) ^ 2 * sin_sq_add_cos_sq a + sin_sq_add_cos_sq b

theorem lat_range (z x y : ℝ) : |atan2 z (sqrt (x * x + y * y))| ≤ π / 2 :=
  atan2_abs_le_half_pi (sqrt_nonneg _)

/-- Derivative of `atan2` along a curve, away from the cut of the principal value. -/
theorem hasDerivAt_atan2 {x y : ℝ → ℝ} {x' y' t : ℝ} (hx : HasDerivAt x x' t) (hy : HasDerivAt y y' t)
    (h : 0 < x t ∨ y t ≠ 0) :
    HasDerivAt (fun s => atan2 (y s) (x s)) ((x t * y' - y t * x') / (x t * x t + y t * y t)) t := by
  have hz : HasDerivAt (fun s => ((x s : ℂ) + (y s : ℂ) * Complex.I)) (x' + y' * Complex.I) t :=
    (hx.ofReal_comp).add ((hy.ofReal_comp).mul_const _)
  have hmem : ((x t : ℂ) + (y t : ℂ) * Complex.I) ∈ Complex.slitPlane := by
    rw [Complex.mem_slitPlane_iff]; simpa using h
  have hl := hz.clog_real hmem
  have him := (Complex.imCLM.hasFDerivAt.comp_hasDerivAt t hl)
  have e : (fun s => atan2 (y s) (x s)) =
      (fun s => (Complex.imCLM (Complex.log ((x s : ℂ) + (y s : ℂ) * Complex.I)))) := by
    funext s
    simp only [Complex.imCLM_apply, Complex.log_im, atan2]
    congr 1
    apply Complex.ext <;> simp
  rw [e]
  refine HasDerivAt.congr_deriv him ?_
  simp only [Complex.imCLM_apply, Complex.div_im]
  simp [Complex.normSq_apply]
  ring

/-- Derivatives of the sine and cosine of an `atan2` along a curve that misses the origin. -/
theorem hasDerivAt_sin_cos_atan2 {x y : ℝ → ℝ} {x' y' t : ℝ} (hx : HasDerivAt x x' t) (hy : HasDerivAt y y' t)
    (h : 0 < x t * x t + y t * y t) :
    HasDerivAt (fun s => sin (atan2 (y s) (x s)))
      (cos (atan2 (y t) (x t)) * ((x t * y' - y t * x') / (x t * x t + y t * y t))) t ∧
    HasDerivAt (fun s => cos (atan2 (y s) (x s)))
      (-sin (atan2 (y t) (x t)) * ((x t * y' - y t * x') / (x t * x t + y t * y t))) t := by
  have hr : HasDerivAt (fun s => x s * x s + y s * y s) (x' * x t + x t * x' + (y' * y t + y t * y')) t :=
    (hx.mul hx).add (hy.mul hy)
  have hsq := hr.sqrt h.ne'
  have hev : ∀ᶠ s in nhds t, 0 < x s * x s + y s * y s := hr.continuousAt.eventually (lt_mem_nhds h)
  set ρ := sqrt (x t * x t + y t * y t) with hρ
  have hρp : 0 < ρ := sqrt_pos.2 h
  have hρ2 : ρ * ρ = x t * x t + y t * y t := mul_self_sqrt h.le
  have c1 : cos (atan2 (y t) (x t)) = x t / ρ := by
    rw [eq_div_iff hρp.ne', mul_comm]; exact polar_cos _ _
  have s1 : sin (atan2 (y t) (x t)) = y t / ρ := by
    rw [eq_div_iff hρp.ne', mul_comm]; exact polar_sin _ _
  constructor
  · have hd := hy.div hsq hρp.ne'
    have e : (fun s => y s / sqrt (x s * x s + y s * y s)) =ᶠ[nhds t] fun s => sin (atan2 (y s) (x s)) := by
      filter_upwards [hev] with s hs
      rw [div_eq_iff (sqrt_pos.2 hs).ne', mul_comm, polar_sin]
    have hd' := hd.congr_of_eventuallyEq e.symm
    refine HasDerivAt.congr_deriv hd' ?_
    rw [c1, ← hρ, ← hρ2]
    field_simp
    rw [show ρ ^ 2 = x t * x t + y t * y t by rw [← hρ2]; ring]
    ring
  · have hd := hx.div hsq hρp.ne'
    have e : (fun s => x s / sqrt (x s * x s + y s * y s)) =ᶠ[nhds t] fun s => cos (atan2 (y s) (x s)) := by
      filter_upwards [hev] with s hs
      rw [div_eq_iff (sqrt_pos.2 hs).ne', mul_comm, polar_cos]
    have hd' := hd.congr_of_eventuallyEq e.symm
    refine HasDerivAt.congr_deriv hd' ?_
    rw [s1, ← hρ, ← hρ2]
    field_simp
    rw [show ρ ^ 2 = x t * x t + y t * y t by rw [← hρ2]; ring]
    ring

end Sla
