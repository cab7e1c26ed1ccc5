import Verif.Model.CMath
import Mathlib.Analysis.SpecialFunctions.Complex.Arg

/-
Facts about `atan2`.
-/
namespace Sla
open Real

theorem atan2_mem (y x : ℝ) : -π < atan2 y x ∧ atan2 y x ≤ π := ⟨Complex.neg_pi_lt_arg _, Complex.arg_le_pi _⟩

/-- `atan2 (r sin a) (r cos a) = a` for `r > 0` and `a` in the principal range. -/
theorem atan2_polar {r a : ℝ} (hr : 0 < r) (h1 : -π < a) (h2 : a ≤ π) : atan2 (r * sin a) (r * cos a) = a := by
  have := Complex.arg_mul_cos_add_sin_mul_I hr ⟨h1, h2⟩
  have e : (⟨r * cos a, r * sin a⟩ : ℂ) = (r : ℂ) * (Complex.cos a + Complex.sin a * Complex.I) := by
    apply Complex.ext <;> simp [← Complex.ofReal_cos, ← Complex.ofReal_sin]
  unfold atan2; rw [e]; exact this

theorem atan2_sin_cos {a : ℝ} (h1 : -π < a) (h2 : a ≤ π) : atan2 (sin a) (cos a) = a := by
  have := atan2_polar one_pos h1 h2
  simpa using this

/-- Multiplying both arguments by a positive number does not change `atan2`. -/
theorem atan2_mul {r : ℝ} (hr : 0 < r) (y x : ℝ) : atan2 (r * y) (r * x) = atan2 y x := by
  have e : (⟨r * x, r * y⟩ : ℂ) = (r : ℂ) * ⟨x, y⟩ := by apply Complex.ext <;> simp
  unfold atan2; rw [e]; exact Complex.arg_real_mul _ hr

theorem cos_atan2 (y x : ℝ) : sqrt (x ^ 2 + y ^ 2) * cos (atan2 y x) = x := by
  have h := Complex.norm_mul_cos_arg (⟨x, y⟩ : ℂ)
  rw [Complex.norm_eq_sqrt_sq_add_sq] at h
  exact h

theorem sin_atan2 (y x : ℝ) : sqrt (x ^ 2 + y ^ 2) * sin (atan2 y x) = y := by
  have h := Complex.norm_mul_sin_arg (⟨x, y⟩ : ℂ)
  rw [Complex.norm_eq_sqrt_sq_add_sq] at h
  exact h

theorem atan2_zero_zero : atan2 0 0 = 0 := by
  unfold atan2; exact Complex.arg_zero

/-- `atan2` is determined by direction: any `a` in the principal range with `(x, y)` a positive multiple. -/
theorem atan2_unique {y x a r : ℝ} (hr : 0 < r) (h1 : -π < a) (h2 : a ≤ π) (hy : y = r * sin a)
    (hx : x = r * cos a) : atan2 y x = a := by rw [hy, hx]; exact atan2_polar hr h1 h2

theorem atan2_nonneg {y x : ℝ} (hy : 0 ≤ y) : 0 ≤ atan2 y x := Complex.arg_nonneg_iff.2 hy

theorem atan2_neg_iff {y x : ℝ} : atan2 y x < 0 ↔ y < 0 := Complex.arg_neg_iff

theorem atan2_abs_le_half_pi {y x : ℝ} (hx : 0 ≤ x) : |atan2 y x| ≤ π / 2 :=
  Complex.abs_arg_le_pi_div_two_iff.2 hx

theorem atan2_abs_lt_half_pi {y x : ℝ} (hx : 0 < x) : |atan2 y x| < π / 2 :=
  Complex.abs_arg_lt_pi_div_two_iff.2 (Or.inl hx)

/-- Sine and cosine of an `atan2`, normalised. -/
theorem cos_atan2_of_sq {y x : ℝ} (h : x ^ 2 + y ^ 2 = 1) : cos (atan2 y x) = x ∧ sin (atan2 y x) = y := by
  have a := cos_atan2 y x
  have b := sin_atan2 y x
  rw [h] at a b; simp at a b; exact ⟨a, b⟩

end Sla
