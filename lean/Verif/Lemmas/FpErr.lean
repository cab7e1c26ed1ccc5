import Verif.Lemmas.Fp
import Mathlib.Analysis.SpecialFunctions.Trigonometric.Bounds

/-
Running error bounds for single precision: each lemma takes the errors of the operands and a bound that the next error must
meet, a condition on numerals.
-/
namespace Sla.Fp

/-- A rounding with the accuracy of single precision. -/
def Single (R : ℝ → ℝ) : Prop := ∀ x, |R x - x| ≤ 6e-8 * |x| + 1e-40

theorem Rounding.single (R : Rounding binary32) : Single R := by
  intro x
  have h := R.error_le x
  have e1 : (2 : ℝ) ^ (-(binary32.prec : ℤ)) = 1 / 2 ^ 24 := by norm_num [binary32]
  have e2 : (2 : ℝ) ^ (binary32.emin - 1) = 1 / 2 ^ 150 := by norm_num [binary32]
  rw [e1, e2, abs_sub_comm] at h
  refine h.trans (add_le_add (mul_le_mul_of_nonneg_right (by norm_num) (abs_nonneg x)) (by norm_num))

theorem Rounding.double (D : Rounding binary64) (x : ℝ) : |D x - x| ≤ 2e-16 * |x| + 1e-200 := by
  have h := D.error_le x
  have e1 : (2 : ℝ) ^ (-(binary64.prec : ℤ)) = 1 / 2 ^ 53 := by norm_num [binary64]
  have e2 : (2 : ℝ) ^ (binary64.emin - 1) ≤ 1e-200 := by
    calc (2 : ℝ) ^ (binary64.emin - 1) ≤ 2 ^ (-1000 : ℤ) := two_zpow_le (by norm_num [binary64])
      _ = ((2 : ℝ) ^ (-10 : ℤ)) ^ 100 := by rw [← zpow_natCast, ← zpow_mul]; norm_num
      _ ≤ (1e-2 : ℝ) ^ 100 := by gcongr; norm_num
      _ = 1e-200 := by norm_num
  rw [e1, abs_sub_comm] at h
  refine h.trans (add_le_add (mul_le_mul_of_nonneg_right (by norm_num) (abs_nonneg x)) e2)

namespace Single
variable {R : ℝ → ℝ} {a b x y e f g B X Y : ℝ}

theorem round (hR : Single R) (ha : |a - x| ≤ e) (hB : |x| ≤ B) (hg : e + 6e-8 * (B + e) + 1e-40 ≤ g) : |R a - x| ≤ g := by
  have h := hR a
  have h1 : |a| ≤ B + e := by
    have := abs_add_le x (a - x)
    rw [add_sub_cancel] at this
    linarith
  have h2 : |R a - x| ≤ |R a - a| + |a - x| := by
    have := abs_add_le (R a - a) (a - x)
    rwa [sub_add_sub_cancel] at this
  have h3 : (6e-8 : ℝ) * |a| ≤ 6e-8 * (B + e) := mul_le_mul_of_nonneg_left h1 (by norm_num)
  linarith

theorem lit (hR : Single R) (hB : |x| ≤ B) (hg : 6e-8 * B + 1e-40 ≤ g) : |R x - x| ≤ g :=
  hR.round (e := 0) (by simp) hB (by simpa using hg)

theorem add (hR : Single R) (ha : |a - x| ≤ e) (hb : |b - y| ≤ f) (hB : |x + y| ≤ B)
    (hg : e + f + 6e-8 * (B + (e + f)) + 1e-40 ≤ g) : |R (a + b) - (x + y)| ≤ g := by
  refine hR.round (e := e + f) ?_ hB hg
  rw [add_sub_add_comm]
  exact (abs_add_le _ _).trans (add_le_add ha hb)

theorem sub (hR : Single R) (ha : |a - x| ≤ e) (hb : |b - y| ≤ f) (hB : |x - y| ≤ B)
    (hg : e + f + 6e-8 * (B + (e + f)) + 1e-40 ≤ g) : |R (a - b) - (x - y)| ≤ g := by
  refine hR.round (e := e + f) ?_ hB hg
  have : a - b - (x - y) = (a - x) - (b - y) := by ring
  rw [this]
  exact (abs_sub _ _).trans (add_le_add ha hb)

theorem mul_err (ha : |a - x| ≤ e) (hb : |b - y| ≤ f) (hX : |x| ≤ X) (hY : |y| ≤ Y) :
    |a * b - x * y| ≤ X * f + Y * e + e * f := by
  have h : a * b - x * y = x * (b - y) + y * (a - x) + (a - x) * (b - y) := by ring
  rw [h]
  refine (abs_add_le _ _).trans (add_le_add ((abs_add_le _ _).trans (add_le_add ?_ ?_)) ?_) <;> rw [abs_mul]
  · exact mul_le_mul hX hb (abs_nonneg _) ((abs_nonneg _).trans hX)
  · exact mul_le_mul hY ha (abs_nonneg _) ((abs_nonneg _).trans hY)
  · exact mul_le_mul ha hb (abs_nonneg _) ((abs_nonneg _).trans ha)

theorem mul (hR : Single R) (ha : |a - x| ≤ e) (hb : |b - y| ≤ f) (hX : |x| ≤ X) (hY : |y| ≤ Y)
    (hg : X * f + Y * e + e * f + 6e-8 * (X * Y + (X * f + Y * e + e * f)) + 1e-40 ≤ g) : |R (a * b) - x * y| ≤ g := by
  refine hR.round (e := X * f + Y * e + e * f) (mul_err ha hb hX hY) ?_ hg
  rw [abs_mul]
  exact mul_le_mul hX hY (abs_nonneg _) ((abs_nonneg _).trans hX)

/-- Division by a number of magnitude at least `m`, with quotient at most `Q`. -/
theorem div (hR : Single R) {m Q E : ℝ} (ha : |a - x| ≤ e) (hb : |b - y| ≤ f) (hm : m ≤ |y|) (hmf : f < m) (hQ : |x / y| ≤ Q)
    (hE : e + Q * f ≤ E * (m - f)) (hg : E + 6e-8 * (Q + E) + 1e-40 ≤ g) : |R (a / b) - x / y| ≤ g := by
  refine hR.round (e := E) ?_ hQ hg
  have hf0 : 0 ≤ f := (abs_nonneg _).trans hb
  have hy : y ≠ 0 := by rintro rfl; rw [abs_zero] at hm; linarith
  have hb1 : m - f ≤ |b| := by
    have := abs_sub_abs_le_abs_sub y b
    rw [abs_sub_comm y b] at this; linarith
  have hbp : 0 < |b| := by linarith
  have hb0 : b ≠ 0 := abs_pos.1 hbp
  have h : a / b - x / y = ((a - x) - x / y * (b - y)) / b := by field_simp; ring
  rw [h, abs_div, div_le_iff₀ hbp]
  have hE0 : 0 ≤ E := by
    by_contra hc
    push Not at hc
    have h1 : 0 ≤ e := (abs_nonneg _).trans ha
    have h2 : 0 ≤ Q := (abs_nonneg _).trans hQ
    have h3 : E * (m - f) < 0 := mul_neg_of_neg_of_pos hc (by linarith)
    nlinarith
  calc |(a - x) - x / y * (b - y)| ≤ |a - x| + |x / y * (b - y)| := abs_sub _ _
    _ ≤ e + Q * f := by
      rw [abs_mul]
      exact add_le_add ha (mul_le_mul hQ hb (abs_nonneg _) ((abs_nonneg _).trans hQ))
    _ ≤ E * (m - f) := hE
    _ ≤ E * |b| := mul_le_mul_of_nonneg_left hb1 hE0

end Single

theorem sin_err {sn : ℝ → ℝ} {ε a x e : ℝ} (hs : ∀ x, |sn x - Real.sin x| ≤ ε) (ha : |a - x| ≤ e) :
    |sn a - Real.sin x| ≤ ε + e := by
  have h1 := hs a
  have h2 : |Real.sin a - Real.sin x| ≤ |a - x| := by
    have := Real.abs_sin_sub_sin_le a x
    exact this
  have h3 := abs_add_le (sn a - Real.sin a) (Real.sin a - Real.sin x)
  rw [sub_add_sub_cancel] at h3
  linarith

theorem cos_err {cs : ℝ → ℝ} {ε a x e : ℝ} (hs : ∀ x, |cs x - Real.cos x| ≤ ε) (ha : |a - x| ≤ e) :
    |cs a - Real.cos x| ≤ ε + e := by
  have h1 := hs a
  have h2 : |Real.cos a - Real.cos x| ≤ |a - x| := Real.abs_cos_sub_cos_le a x
  have h3 := abs_add_le (cs a - Real.cos a) (Real.cos a - Real.cos x)
  rw [sub_add_sub_cancel] at h3
  linarith

end Sla.Fp
