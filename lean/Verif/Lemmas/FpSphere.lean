import Verif.Spec.FpLib
import Verif.Lemmas.FpVec
import Verif.Props.FpSeparation
import Verif.Props.Eterms

/-
Errors of products, sums and polar angles in double precision.
-/
namespace Sla.Fp
open Sla.Spec Sla.Props Matrix

/-- A rounded product of numbers near numbers of modulus at most one. -/
theorem mul_near (R : Rounding binary64) {x x0 y y0 p q : ℝ} (hx : |x - x0| ≤ p) (hy : |y - y0| ≤ q) (hx0 : |x0| ≤ 1)
    (hy0 : |y0| ≤ 1) (hp : p ≤ 0.01) (hq : q ≤ 0.01) : |R (x * y) - x0 * y0| ≤ 1.01 * (p + q) + 1.03 * (1 / 2 ^ 53) := by
  have p0 : 0 ≤ p := (abs_nonneg _).trans hx
  have q0 : 0 ≤ q := (abs_nonneg _).trans hy
  have e1 : |x * y - x0 * y0| ≤ 1.005 * (p + q) := by
    have e : x * y - x0 * y0 = (x - x0) * y0 + x0 * (y - y0) + (x - x0) * (y - y0) := by ring
    rw [e]
    have k1 : |(x - x0) * y0| ≤ p * 1 := by rw [abs_mul]; exact mul_le_mul hx hy0 (abs_nonneg _) p0
    have k2 : |x0 * (y - y0)| ≤ 1 * q := by rw [abs_mul]; exact mul_le_mul hx0 hy (abs_nonneg _) one_pos.le
    have k3 : |(x - x0) * (y - y0)| ≤ p * q := by rw [abs_mul]; exact mul_le_mul hx hy (abs_nonneg _) p0
    have k4 : p * q ≤ 0.005 * (p + q) := by nlinarith
    have := abs_add_le ((x - x0) * y0 + x0 * (y - y0)) ((x - x0) * (y - y0))
    have := abs_add_le ((x - x0) * y0) (x0 * (y - y0))
    linarith
  have e2 := err64 R (x * y)
  have e3 : |x0 * y0| ≤ 1 := by
    rw [abs_mul]; calc |x0| * |y0| ≤ 1 * 1 := mul_le_mul hx0 hy0 (abs_nonneg _) one_pos.le
      _ = 1 := by norm_num
  have e4 : |x * y| ≤ |x0 * y0| + |x * y - x0 * y0| := by
    have := abs_add_le (x0 * y0) (x * y - x0 * y0)
    rwa [add_sub_cancel] at this
  have e5 := abs_sub_le (R (x * y)) (x * y) (x0 * y0)
  rw [abs_sub_comm (R (x * y)) (x * y)] at e5
  have t : (2 : ℝ) ^ (-1075 : ℤ) ≤ 0.001 * (1 / 2 ^ 53) := by
    have : (2 : ℝ) ^ (-1075 : ℤ) ≤ 2 ^ (-80 : ℤ) := two_zpow_le (by norm_num)
    refine this.trans (by norm_num)
  have e6 : |x * y| ≤ 1.0202 := by linarith
  have e7 : 1 / 2 ^ 53 * |x * y| ≤ 1 / 2 ^ 53 * 1.0202 := mul_le_mul_of_nonneg_left e6 (by norm_num)
  have hu : (0 : ℝ) ≤ 1 / 2 ^ 53 := by norm_num
  generalize (2 : ℝ) ^ (-1075 : ℤ) = η at *
  generalize (1 : ℝ) / 2 ^ 53 * |x * y| = ω at *
  generalize (1 : ℝ) / 2 ^ 53 = u at *
  linarith

/-- A rounded sum. -/
theorem add_near (R : Rounding binary64) {x x0 y y0 p q B : ℝ} (hx : |x - x0| ≤ p) (hy : |y - y0| ≤ q)
    (hB : |x0 + y0| ≤ B) : |R (x + y) - (x0 + y0)| ≤ 1.01 * (p + q) + (B + 0.01) * (1 / 2 ^ 53) := by
  have p0 : 0 ≤ p := (abs_nonneg _).trans hx
  have q0 : 0 ≤ q := (abs_nonneg _).trans hy
  have e1 : |x + y - (x0 + y0)| ≤ p + q := by
    rw [show x + y - (x0 + y0) = (x - x0) + (y - y0) by ring]
    exact (abs_add_le _ _).trans (add_le_add hx hy)
  have e2 := err64 R (x + y)
  have e4 : |x + y| ≤ |x0 + y0| + |x + y - (x0 + y0)| := by
    have := abs_add_le (x0 + y0) (x + y - (x0 + y0))
    rwa [add_sub_cancel] at this
  have e5 := abs_sub_le (R (x + y)) (x + y) (x0 + y0)
  rw [abs_sub_comm (R (x + y)) (x + y)] at e5
  have t : (2 : ℝ) ^ (-1075 : ℤ) ≤ 0.001 * (1 / 2 ^ 53) := by
    have : (2 : ℝ) ^ (-1075 : ℤ) ≤ 2 ^ (-80 : ℤ) := two_zpow_le (by norm_num)
    refine this.trans (by norm_num)
  have e6 : |x + y| ≤ B + (p + q) := by linarith
  have e7 : 1 / 2 ^ 53 * |x + y| ≤ 1 / 2 ^ 53 * (B + (p + q)) := mul_le_mul_of_nonneg_left e6 (by norm_num)
  have e8 : 1 / 2 ^ 53 * (p + q) ≤ 0.01 * (p + q) := mul_le_mul_of_nonneg_right (by norm_num) (by linarith)
  have hu : (0 : ℝ) ≤ 1 / 2 ^ 53 := by norm_num
  generalize (2 : ℝ) ^ (-1075 : ℤ) = η at *
  generalize |x + y| = w at *
  generalize (1 : ℝ) / 2 ^ 53 = u at *
  linarith

theorem sub_near (R : Rounding binary64) {x x0 y y0 p q B : ℝ} (hx : |x - x0| ≤ p) (hy : |y - y0| ≤ q)
    (hB : |x0 - y0| ≤ B) : |R (x - y) - (x0 - y0)| ≤ 1.01 * (p + q) + (B + 0.01) * (1 / 2 ^ 53) := by
  have h := add_near R hx (x := x) (y := -y) (y0 := -y0) (q := q)
    (by rw [show -y - -y0 = -(y - y0) by ring, abs_neg]; exact hy) (B := B) (by rwa [← sub_eq_add_neg])
  rwa [← sub_eq_add_neg, ← sub_eq_add_neg] at h

/-! ### Neighbouring directions -/

private theorem chord_long (a a' b : ℝ) : len (direction a b - direction a' b) ≤ |a - a'| := by
  rw [len_eq, direction_eq, direction_eq]
  apply Real.sqrt_le_iff.2
  refine ⟨abs_nonneg _, ?_⟩
  rw [sq_abs]
  simp only [Pi.sub_apply, cons_val_zero, cons_val_one, cons_val]
  have h := Real.one_sub_sq_div_two_le_cos (x := a - a')
  rw [Real.cos_sub] at h
  have c1 := Real.sin_sq_add_cos_sq a
  have c2 := Real.sin_sq_add_cos_sq a'
  have cb := Real.cos_sq_le_one b
  have e : (Real.cos a * Real.cos b - Real.cos a' * Real.cos b) * (Real.cos a * Real.cos b - Real.cos a' * Real.cos b) +
      (Real.sin a * Real.cos b - Real.sin a' * Real.cos b) * (Real.sin a * Real.cos b - Real.sin a' * Real.cos b) +
      (Real.sin b - Real.sin b) * (Real.sin b - Real.sin b) =
      Real.cos b ^ 2 * (2 - 2 * (Real.cos a * Real.cos a' + Real.sin a * Real.sin a')) := by
    linear_combination Real.cos b ^ 2 * c1 + Real.cos b ^ 2 * c2
  rw [e]
  have h1 : 2 - 2 * (Real.cos a * Real.cos a' + Real.sin a * Real.sin a') ≤ (a - a') ^ 2 := by linarith
  calc Real.cos b ^ 2 * (2 - 2 * (Real.cos a * Real.cos a' + Real.sin a * Real.sin a'))
      ≤ Real.cos b ^ 2 * (a - a') ^ 2 := mul_le_mul_of_nonneg_left h1 (sq_nonneg _)
    _ ≤ 1 * (a - a') ^ 2 := mul_le_mul_of_nonneg_right cb (sq_nonneg _)
    _ = _ := one_mul _

private theorem chord_lat (a b b' : ℝ) : len (direction a b - direction a b') ≤ |b - b'| := by
  rw [len_eq, direction_eq, direction_eq]
  apply Real.sqrt_le_iff.2
  refine ⟨abs_nonneg _, ?_⟩
  rw [sq_abs]
  simp only [Pi.sub_apply, cons_val_zero, cons_val_one, cons_val]
  have h := Real.one_sub_sq_div_two_le_cos (x := b - b')
  rw [Real.cos_sub] at h
  have c := Real.sin_sq_add_cos_sq a
  have c1 := Real.sin_sq_add_cos_sq b
  have c2 := Real.sin_sq_add_cos_sq b'
  have e : (Real.cos a * Real.cos b - Real.cos a * Real.cos b') * (Real.cos a * Real.cos b - Real.cos a * Real.cos b') +
      (Real.sin a * Real.cos b - Real.sin a * Real.cos b') * (Real.sin a * Real.cos b - Real.sin a * Real.cos b') +
      (Real.sin b - Real.sin b') * (Real.sin b - Real.sin b') =
      2 - 2 * (Real.cos b * Real.cos b' + Real.sin b * Real.sin b') := by
    linear_combination (Real.cos b - Real.cos b') ^ 2 * c + c1 + c2
  rw [e]
  linarith

/-- Directions with neighbouring coordinates. -/
theorem chord_le (a a' b b' : ℝ) : len (direction a b - direction a' b') ≤ |a - a'| + |b - b'| := by
  rw [show direction a b - direction a' b' = (direction a b - direction a' b) + (direction a' b - direction a' b') by abel]
  exact (len_add_le _ _).trans (add_le_add (chord_long _ _ _) (chord_lat _ _ _))

/-- Near the pole the longitude does not matter. -/
theorem chord_pole (a a' b b' : ℝ) : len (direction a b - direction a' b') ≤ 2 * |Real.cos b'| + |b - b'| := by
  have h : len (direction a b' - direction a' b') ≤ 2 * |Real.cos b'| := by
    rw [len_eq, direction_eq, direction_eq]
    apply Real.sqrt_le_iff.2
    refine ⟨by positivity, ?_⟩
    rw [mul_pow, sq_abs]
    simp only [Pi.sub_apply, cons_val_zero, cons_val_one, cons_val]
    have c1 := Real.sin_sq_add_cos_sq a
    have c2 := Real.sin_sq_add_cos_sq a'
    have h := Real.neg_one_le_cos (a - a')
    rw [Real.cos_sub] at h
    have e : (Real.cos a * Real.cos b' - Real.cos a' * Real.cos b') * (Real.cos a * Real.cos b' - Real.cos a' * Real.cos b') +
        (Real.sin a * Real.cos b' - Real.sin a' * Real.cos b') * (Real.sin a * Real.cos b' - Real.sin a' * Real.cos b') +
        (Real.sin b' - Real.sin b') * (Real.sin b' - Real.sin b') =
        Real.cos b' ^ 2 * (2 - 2 * (Real.cos a * Real.cos a' + Real.sin a * Real.sin a')) := by
      linear_combination Real.cos b' ^ 2 * c1 + Real.cos b' ^ 2 * c2
    rw [e, show (2 : ℝ) ^ 2 * Real.cos b' ^ 2 = Real.cos b' ^ 2 * 4 by ring]
    exact mul_le_mul_of_nonneg_left (by linarith) (sq_nonneg _)
  rw [show direction a b - direction a' b' = (direction a b - direction a b') + (direction a b' - direction a' b') by abel]
  refine (len_add_le _ _).trans ?_
  linarith [chord_lat a b b']

theorem direction_period (a b : ℝ) (k : ℤ) : direction (a + 2 * Real.pi * k) b = direction a b := by
  rw [direction_eq, direction_eq, show a + 2 * Real.pi * k = a + k * (2 * Real.pi) by ring, Real.cos_add_int_mul_two_pi,
    Real.sin_add_int_mul_two_pi]

theorem angle_scale {r : ℝ} (hr : 0 < r) (u v : Vec) : angleBetween u (r • v) = angleBetween u v := by
  unfold angleBetween
  rw [WithLp.toLp_smul, InnerProductGeometry.angle_smul_right_of_pos _ _ hr]

theorem angle_triangle (x y z : Vec) : angleBetween x z ≤ angleBetween x y + angleBetween y z :=
  InnerProductGeometry.angle_le_angle_add_angle _ _ _

theorem angle_symm (x y : Vec) : angleBetween x y = angleBetween y x := InnerProductGeometry.angle_comm _ _

/-- The latitude computed with the rounded radius. -/
theorem lat_near (R : Rounding binary64) (v : Vec) (h : (2 : ℝ) ^ (-400 : ℤ) ≤ len v) :
    |atan2 (v 2) (R (Real.sqrt (R (R (v 0 * v 0) + R (v 1 * v 1))))) -
      atan2 (v 2) (Real.sqrt (v 0 * v 0 + v 1 * v 1))| ≤ 7.1e-16 := by
  have h0 := (C84_dcc2s R atan2 (ε := 0) (by simp) v).2 h
  rw [add_zero] at h0
  unfold Fp.dcc2s Sla.dcc2s at h0
  simp only at h0
  by_cases hz : v 2 = 0
  · rw [hz, atan2_zero_of_nonneg (R.nonneg (Real.sqrt_nonneg _)), atan2_zero_of_nonneg (Real.sqrt_nonneg _), sub_self, abs_zero]
    norm_num
  · rwa [if_neg hz, if_neg hz] at h0

/-- Longitude and latitude computed from a vector point in its direction. -/
theorem polar_near (R : Rounding binary64) (v : Vec) (h : 0.9 ≤ len v) {az el α β : ℝ}
    (haz : R (Real.sqrt (R (R (v 0 * v 0) + R (v 1 * v 1)))) ≠ 0 →
      ∃ k : ℤ, |az - (atan2 (v 1) (v 0) + 2 * Real.pi * k)| ≤ α)
    (hel : |el - atan2 (v 2) (R (Real.sqrt (R (R (v 0 * v 0) + R (v 1 * v 1)))))| ≤ β) (hα : 0 ≤ α) (h1 : α + β ≤ 0.9) :
    angleBetween (direction az el) v ≤ Real.pi / 2 * (α + β + 2.2e-15) := by
  have hL : (0 : ℝ) < len v := lt_of_lt_of_le (by norm_num) h
  have h400 : (2 : ℝ) ^ (-400 : ℤ) ≤ len v := by
    have : (2 : ℝ) ^ (-400 : ℤ) ≤ 2 ^ (-1 : ℤ) := two_zpow_le (by norm_num)
    refine this.trans (le_trans (by norm_num) h)
  have hlat := lat_near R v h400
  have hr0 : 0 ≤ R (Real.sqrt (R (R (v 0 * v 0) + R (v 1 * v 1)))) := R.nonneg (Real.sqrt_nonneg _)
  have hv : v = len v • direction (atan2 (v 1) (v 0)) (atan2 (v 2) (Real.sqrt (v 0 * v 0 + v 1 * v 1))) := by
    have p0 := mul_self_nonneg (v 0); have p1 := mul_self_nonneg (v 1); have p2 := mul_self_nonneg (v 2)
    have q1 := polar_cos (v 2) (Real.sqrt (v 0 * v 0 + v 1 * v 1))
    have q2 := polar_sin (v 2) (Real.sqrt (v 0 * v 0 + v 1 * v 1))
    rw [Real.mul_self_sqrt (by linarith), ← len_eq] at q1 q2
    have q3 := polar_cos (v 1) (v 0)
    have q4 := polar_sin (v 1) (v 0)
    rw [direction_eq]
    funext i
    fin_cases i
    · simp only [Fin.zero_eta, Pi.smul_apply, cons_val_zero, smul_eq_mul]
      rw [mul_left_comm, q1, mul_comm, q3]
    · simp only [Fin.mk_one, Pi.smul_apply, smul_eq_mul]
      change v 1 = len v * (Real.sin _ * Real.cos _)
      rw [mul_left_comm, q1, mul_comm, q4]
    · simp only [Fin.reduceFinMk, Pi.smul_apply, cons_val, smul_eq_mul]
      rw [q2]
  generalize atan2 (v 2) (Real.sqrt (v 0 * v 0 + v 1 * v 1)) = b0 at *
  have hb : |el - b0| ≤ β + 7.1e-16 := by
    have := abs_sub_le el (atan2 (v 2) (R (Real.sqrt (R (R (v 0 * v 0) + R (v 1 * v 1)))))) b0
    linarith
  have key : len (direction az el - direction (atan2 (v 1) (v 0)) b0) ≤ α + β + 2.2e-15 := by
    by_cases hr : R (Real.sqrt (R (R (v 0 * v 0) + R (v 1 * v 1)))) = 0
    · rw [hr] at hlat
      have hc : |Real.cos b0| ≤ 7.1e-16 := by
        have h2 : Real.cos (atan2 (v 2) 0) = 0 := by
          have hz : v 2 ≠ 0 := by
            intro hz
            have hm := (fp_modulus_near R ![v 0, v 1, 0]).1
            have e1 : len ![v 0, v 1, 0] = len v := by rw [len_eq, len_eq, hz]; simp
            have e2 : (Fp.dvn R ![v 0, v 1, 0]).1 = R (Real.sqrt (R (R (v 0 * v 0) + R (v 1 * v 1)))) := by
              show R (Real.sqrt (Fp.acc3 R fun i => R (![v 0, v 1, 0] i * ![v 0, v 1, 0] i))) = _
              unfold Fp.acc3
              simp only [Matrix.cons_val_zero, Matrix.cons_val_one, Matrix.cons_val, zero_add, mul_zero, R.zero, add_zero, R.eq_self (R.rep _)]
            rw [e1, e2, hr, zero_sub, abs_neg, abs_of_pos hL] at hm
            have : (2 : ℝ) ^ (-490 : ℤ) ≤ 2 ^ (-10 : ℤ) := two_zpow_le (by norm_num)
            have h10 : (2 : ℝ) ^ (-10 : ℤ) = 1 / 1024 := by norm_num
            rw [h10] at this
            generalize (2 : ℝ) ^ (-490 : ℤ) = τ at *
            generalize len v = L at *
            clear haz hel hlat hr0 hv e1 e2 hr hb h400
            norm_num at *
            linarith
          have := polar_cos (v 2) 0
          rw [mul_zero, zero_add, Real.sqrt_mul_self_eq_abs] at this
          rcases mul_eq_zero.1 this with h | h
          · exact absurd (abs_eq_zero.1 h) hz
          · exact h
        have := Real.abs_cos_sub_cos_le b0 (atan2 (v 2) 0)
        rw [h2, sub_zero, abs_sub_comm] at this
        exact this.trans hlat
      refine (chord_pole _ _ _ _).trans ?_
      norm_num at *
      linarith
    · obtain ⟨k, hk⟩ := haz hr
      rw [← direction_period (atan2 (v 1) (v 0)) b0 k]
      refine (chord_le _ _ _ _).trans ?_
      norm_num at *
      linarith
  have := fp_angle_near (len_direction (atan2 (v 1) (v 0)) b0) (by norm_num at *; linarith) key
  rw [← angle_scale hL, ← hv] at this
  exact this

end Sla.Fp
