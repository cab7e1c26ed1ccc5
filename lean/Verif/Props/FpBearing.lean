import Verif.Lemmas.FpBearing
import Verif.Lemmas.FpErr
import Verif.Lemmas.FpErr64
import Verif.Lemmas.FpCoords
import Verif.Props.FpHorizon

/-
C124: the bearing of one vector from another in double precision.
-/
namespace Sla.Props
open Sla.Fp Sla.Spec Matrix

/-- The error of the two arguments of `atan2`, in units of the distance from the axis and the length of the second vector. -/
private theorem dpav_core (R : Rounding binary64) (at2 : ℝ → ℝ → ℝ) (s t : Spherical) {p q : ℝ}
    (hs : 1e-40 ≤ Real.cos s.b) (hp : 1e-20 ≤ p) (hp1 : p ≤ 1e60) (hq : 1e-60 ≤ q) :
    ∃ X Y : ℝ, Fp.dpav R at2 (p • direction s.a s.b) (q • direction t.a t.b) = at2 Y (if Y = 0 ∧ X = 0 then 1 else X) ∧
      |Y - q * Real.cos s.b * (Real.sin (t.a - s.a) * Real.cos t.b)| ≤ 1.94e-15 * (q * Real.cos s.b) ∧
      |X - q * Real.cos s.b * (Real.sin t.b * Real.cos s.b - Real.cos t.b * Real.sin s.b * Real.cos (t.a - s.a))| ≤
        7.79e-15 * (q * Real.cos s.b) := by
  have p0 : 0 < p := lt_of_lt_of_le (by norm_num) hp
  have q0 : 0 < q := lt_of_lt_of_le (by norm_num) hq
  have c0 : 0 < Real.cos s.b := lt_of_lt_of_le (by norm_num) hs
  have a1 := Real.sin_sq_add_cos_sq s.a
  have b1 := Real.sin_sq_add_cos_sq s.b
  have cc : ∀ x y : ℝ, |x| ≤ 1 → |y| ≤ 1 → |q * (x * y)| ≤ q := fun x y hx hy => by
    rw [abs_mul, abs_mul, abs_of_pos q0]
    exact mul_le_of_le_one_right q0.le (mul_le_one₀ hx (abs_nonneg _) hy)
  have e0 : ∀ (k a b : ℝ), (k • direction a b) 0 = k * (Real.cos a * Real.cos b) := fun k a b => by rw [direction_eq]; rfl
  have e1 : ∀ (k a b : ℝ), (k • direction a b) 1 = k * (Real.sin a * Real.cos b) := fun k a b => by rw [direction_eq]; rfl
  have e2 : ∀ (k a b : ℝ), (k • direction a b) 2 = k * Real.sin b := fun k a b => by rw [direction_eq]; rfl
  have hd : p * Real.cos s.b / p = Real.cos s.b := by field_simp
  obtain ⟨n0, n1, n2⟩ := dpav_near R.dbl.prec (x := p * (Real.cos s.a * Real.cos s.b)) (y := p * (Real.sin s.a * Real.cos s.b)) (z := p * Real.sin s.b)
    (x2 := q * (Real.cos t.a * Real.cos t.b)) (y2 := q * (Real.sin t.a * Real.cos t.b)) (z2 := q * Real.sin t.b) (r := p * Real.cos s.b) (q := p) (w := q)
    (by linear_combination (p * Real.cos s.b) ^ 2 * a1) (by linear_combination (p * Real.cos s.b) ^ 2 * a1 + p ^ 2 * b1)
    (by
      have : (1e-20 : ℝ) * 1e-40 ≤ p * Real.cos s.b := mul_le_mul hp hs (by norm_num) p0.le
      norm_num at this ⊢; linarith)
    (mul_le_of_le_one_right p0.le (Real.cos_le_one _)) hp1 (by rw [hd]; exact hs) hq
    (cc _ _ (Real.abs_cos_le_one _) (Real.abs_cos_le_one _)) (cc _ _ (Real.abs_sin_le_one _) (Real.abs_cos_le_one _))
    (by have := cc _ 1 (Real.abs_sin_le_one t.b) (by norm_num); rwa [mul_one] at this) rfl
  rw [hd] at n1 n2
  have hx : p * (Real.cos s.a * Real.cos s.b) / p = Real.cos s.a * Real.cos s.b := by field_simp
  have hy : p * (Real.sin s.a * Real.cos s.b) / p = Real.sin s.a * Real.cos s.b := by field_simp
  have hz : p * Real.sin s.b / p = Real.sin s.b := by field_simp
  rw [hx, hy] at n1
  rw [hx, hy, hz] at n2
  have f1 : q * (Real.sin t.a * Real.cos t.b) * (Real.cos s.a * Real.cos s.b) - q * (Real.cos t.a * Real.cos t.b) * (Real.sin s.a * Real.cos s.b) =
      q * Real.cos s.b * (Real.sin (t.a - s.a) * Real.cos t.b) := by rw [Real.sin_sub]; ring
  have f2 : q * Real.sin t.b * (Real.cos s.a * Real.cos s.b * (Real.cos s.a * Real.cos s.b) + Real.sin s.a * Real.cos s.b * (Real.sin s.a * Real.cos s.b)) -
      Real.sin s.b * (q * (Real.cos t.a * Real.cos t.b) * (Real.cos s.a * Real.cos s.b) + q * (Real.sin t.a * Real.cos t.b) * (Real.sin s.a * Real.cos s.b)) =
      q * Real.cos s.b * (Real.sin t.b * Real.cos s.b - Real.cos t.b * Real.sin s.b * Real.cos (t.a - s.a)) := by
    rw [Real.cos_sub]
    linear_combination (q * Real.sin t.b * Real.cos s.b ^ 2) * a1
  rw [f1] at n1
  rw [f2] at n2
  refine ⟨_, _, ?_, n1, n2⟩
  unfold Fp.dpav
  simp only [e0, e1, e2, ne_eq, n0, not_false_eq_true, if_true]

/-- C124: going from the first point along the bearing returned by `dpav` by the true separation arrives within 1.61e-14 rad of the
    second, plus the error of `atan2`, whatever the lengths of the vectors and however near the first is to a pole. -/
theorem C124_dpav (R : Rounding binary64) (at2 : ℝ → ℝ → ℝ) {ε : ℝ} (ha : Atan2Near at2 ε) (s t : Spherical) {p q : ℝ}
    (hs : 1e-40 ≤ Real.cos s.b) (hp : 1e-20 ≤ p) (hp1 : p ≤ 1e60) (hq : 1e-60 ≤ q) :
    let β := Fp.dpav R at2 (p • direction s.a s.b) (q • direction t.a t.b)
    let sep := angleBetween (direction s.a s.b) (direction t.a t.b)
    len (direction t.a t.b - (Real.cos sep • direction s.a s.b +
      Real.sin sep • (Real.cos β • north s.a s.b + Real.sin β • east s.a))) ≤ 1.61e-14 + ε ∧ |β| ≤ Real.pi + ε := by
  intro β sep
  obtain ⟨X, Y, e, hY, hX⟩ := dpav_core R at2 s t hs hp hp1 hq
  have ε0 : 0 ≤ ε := (abs_nonneg _).trans (ha.1 0 0 (Or.inr le_rfl))
  have q0 : 0 < q := lt_of_lt_of_le (by norm_num) hq
  have c0 : 0 < Real.cos s.b := lt_of_lt_of_le (by norm_num) hs
  have k0 : 0 < q * Real.cos s.b := mul_pos q0 c0
  have hβ : β = at2 Y (if Y = 0 ∧ X = 0 then 1 else X) := e
  obtain ⟨k, hk, hkr⟩ := at2_turn ha Y (if Y = 0 ∧ X = 0 then 1 else X)
  generalize q * Real.cos s.b = κ at *
  have scale : ∀ {a b c : ℝ}, |a - κ * b| ≤ c * κ → |a / κ - b| ≤ c := fun {a b c} h => by
    have e1 : a / κ - b = (a - κ * b) / κ := by field_simp
    rw [e1, abs_div, abs_of_pos k0, div_le_iff₀ k0]; exact h
  have hx2 := pow_le_pow_left₀ (abs_nonneg _) (scale hX) 2
  have hy2 := pow_le_pow_left₀ (abs_nonneg _) (scale hY) 2
  rw [sq_abs] at hx2 hy2
  have hpt := bear_point s t (x := X / κ) (y := Y / κ) (β := β) (d := 8.05e-15) (by norm_num)
    ((add_le_add hx2 hy2).trans (by norm_num)) ε0 (fun h => by
      have hn : ¬ (Y = 0 ∧ X = 0) := by
        rintro ⟨rfl, rfl⟩
        simp at h
      rw [if_neg hn] at hβ hk
      refine ⟨k, ?_⟩
      have e2 := atan2_mul (r := κ) k0 (y := Y / κ) (x := X / κ)
      rw [mul_div_cancel₀ _ k0.ne', mul_div_cancel₀ _ k0.ne'] at e2
      rw [hβ, ← e2]; exact hk)
  refine ⟨hpt.trans ?_, ?_⟩
  · norm_num
  · rw [hβ]; exact hkr

/-- C124: `pav` in single precision returns the same angle rounded to a `float`. -/
theorem C124_pav (S : Rounding binary32) (R : Rounding binary64) (at2 : ℝ → ℝ → ℝ) {ε : ℝ} (ha : Atan2Near at2 ε) (hε : ε ≤ 1e-3) (s t : Spherical)
    {p q : ℝ} (hs : 1e-40 ≤ Real.cos s.b) (hp : 1e-20 ≤ p) (hp1 : p ≤ 1e60) (hq : 1e-60 ≤ q) :
    |Fp.pav S R at2 (p • direction s.a s.b) (q • direction t.a t.b) - Fp.dpav R at2 (p • direction s.a s.b) (q • direction t.a t.b)| ≤ 1.9e-7 := by
  have h := (C124_dpav R at2 ha s t hs hp hp1 hq).2
  have h1 := S.single (Fp.dpav R at2 (p • direction s.a s.b) (q • direction t.a t.b))
  unfold Fp.pav
  refine h1.trans ?_
  have := Real.pi_lt_d4
  norm_num at h h1 hε this ⊢
  linarith

/-- C124: seen from a pole, or from a null vector, every point has the bearing `atan2(0, 1)`. -/
theorem C124_pole {F : Fmt} (R : Rounding F) (at2 : ℝ → ℝ → ℝ) (z : ℝ) (vb : Vec) : Fp.dpav R at2 ![0, 0, z] vb = at2 0 1 := by
  unfold Fp.dpav
  simp [R.zero]

/-- Two points far apart on the sky, one of them close to the pole. -/
example : 1e-40 ≤ Real.cos 1.5 ∧ (1e-20 : ℝ) ≤ 3 ∧ (3 : ℝ) ≤ 1e60 := by
  refine ⟨?_, by norm_num, by norm_num⟩
  have h : Real.cos 1.5 = Real.sin (Real.pi / 2 - 1.5) := by rw [Real.sin_pi_div_two_sub]
  have h1 := Real.pi_gt_d4
  have h2 := Real.pi_lt_d4
  have h3 := Real.sin_gt_sub_cube (x := Real.pi / 2 - 1.5) (by norm_num at h1 ⊢; linarith)
  rw [h]
  have h4 : (0.07 : ℝ) ≤ Real.pi / 2 - 1.5 := by norm_num at h1 ⊢; linarith
  have h5 : Real.pi / 2 - 1.5 ≤ 0.08 := by norm_num at h2 ⊢; linarith
  generalize Real.pi / 2 - 1.5 = u at *
  have h6 : u ^ 3 ≤ 0.08 ^ 3 := pow_le_pow_left₀ (by linarith) h5 3
  norm_num at h3 h4 h6 ⊢
  linarith

end Sla.Props
