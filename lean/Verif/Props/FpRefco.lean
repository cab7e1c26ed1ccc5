import Verif.Model.FpRefco
import Verif.Lemmas.FpErr64
import Mathlib.Analysis.SpecialFunctions.Complex.Arctan
import Mathlib.Analysis.SpecificLimits.Normed
import Mathlib.Analysis.Real.Pi.Bounds

/-
Property theorems C138: refraction constants from two sample zenith distances in double precision.
-/
namespace Sla.Props
open Sla.Fp
open Real (pi)

/-- The arc tangent of 1/4 to sixteen places. -/
private theorem arctan_quarter : |Real.arctan (1 / 4) - 0.24497866312686415417| ≤ 1e-16 := by
  have h := Real.hasSum_arctan (x := 1 / 4) (by rw [Real.norm_eq_abs, abs_of_pos] <;> norm_num)
  have key := norm_sub_le_of_geometric_bound_of_hasSum (r := 1 / 16) (C := 1 / 4) (by norm_num) (fun n => by
    rw [Real.norm_eq_abs, abs_div, abs_mul, abs_pow, abs_neg, abs_one, one_pow, one_mul, abs_pow, abs_of_pos (by norm_num : (0 : ℝ) < 1 / 4),
      pow_succ, pow_mul, mul_comm ((1 / 4 : ℝ))]
    have h1 : (1 : ℝ) ≤ |((2 * n + 1 : ℕ) : ℝ)| := by
      rw [abs_of_nonneg (by positivity)]
      exact_mod_cast Nat.le_add_left 1 (2 * n)
    have h2 : ((1 : ℝ) / 4) ^ 2 = 1 / 16 := by norm_num
    push_cast at h1 ⊢
    rw [h2]
    exact div_le_self (by positivity) h1) h 13
  rw [Real.norm_eq_abs] at key
  have k := abs_le.1 key
  simp only [Finset.sum_range_succ, Finset.sum_range_zero] at k
  rw [abs_le]
  obtain ⟨k1, k2⟩ := k
  constructor <;> norm_num at * <;> linarith

/-- Tangents of nearby angles. -/
private theorem tan_near {z w d c : ℝ} (hc : 0 < c) (hw : c ≤ Real.cos w) (hz : c ≤ Real.cos z) (h : |z - w| ≤ d) :
    |Real.tan z - Real.tan w| ≤ d / (c * c) := by
  have c1 : 0 < Real.cos w := hc.trans_le hw
  have c2 : 0 < Real.cos z := hc.trans_le hz
  have e : Real.tan z - Real.tan w = Real.sin (z - w) / (Real.cos z * Real.cos w) := by
    rw [Real.tan_eq_sin_div_cos, Real.tan_eq_sin_div_cos, div_sub_div _ _ c2.ne' c1.ne', Real.sin_sub]
  rw [e, abs_div, abs_of_pos (mul_pos c2 c1)]
  have h1 : |Real.sin (z - w)| ≤ |z - w| := Real.abs_sin_le_abs
  exact div_le_div₀ ((abs_nonneg _).trans h) (h1.trans h) (mul_pos hc hc) (mul_le_mul hz hw hc.le c2.le)

private theorem z1_near (R : Rounding binary64) : |Real.tan (refcoZ1 R) - 1| ≤ 4e-16 := by
  have p1 := Real.pi_gt_d20
  have p2 := Real.pi_lt_d20
  have hd : |refcoZ1 R - pi / 4| ≤ 1.2e-16 := by
    have h := abs_le.1 (R.dbl 0.7853981633974483)
    rw [abs_of_pos (by norm_num)] at h
    unfold refcoZ1
    rw [abs_le]; constructor <;> norm_num at * <;> linarith
  have hw : 0.7 ≤ Real.cos (pi / 4) := by
    rw [Real.cos_pi_div_four]
    have : (1.4 : ℝ) ≤ Real.sqrt 2 := Real.le_sqrt_of_sq_le (by norm_num)
    norm_num at *; linarith
  have hz : 0.6 ≤ Real.cos (refcoZ1 R) := by
    have := abs_le.1 (Real.abs_cos_sub_cos_le (refcoZ1 R) (pi / 4))
    norm_num at *; linarith
  have h := tan_near (c := 0.6) (by norm_num) (by linarith) hz hd
  rw [Real.tan_pi_div_four] at h
  exact h.trans (by norm_num)

private theorem z2_near (R : Rounding binary64) : |Real.tan (refcoZ2 R) - 4| ≤ 1.8e-14 := by
  have p1 := Real.pi_gt_d20
  have p2 := Real.pi_lt_d20
  have hq := abs_le.1 arctan_quarter
  have e4 : Real.arctan 4 = pi / 2 - Real.arctan (1 / 4) := by
    rw [one_div, Real.arctan_inv_of_pos (by norm_num)]; ring
  have hd : |refcoZ2 R - Real.arctan 4| ≤ 9e-16 := by
    have h := abs_le.1 (R.dbl 1.325817663668033)
    rw [abs_of_pos (by norm_num)] at h
    unfold refcoZ2
    rw [e4, abs_le]; constructor <;> norm_num at * <;> linarith
  have hw : 0.24 ≤ Real.cos (Real.arctan 4) := by
    rw [Real.cos_arctan, le_div_iff₀ (by positivity)]
    have : Real.sqrt (1 + 4 ^ 2) ≤ 4.13 := Real.sqrt_le_iff.2 ⟨by norm_num, by norm_num⟩
    norm_num at *; linarith
  have hz : 0.23 ≤ Real.cos (refcoZ2 R) := by
    have := abs_le.1 (Real.abs_cos_sub_cos_le (refcoZ2 R) (Real.arctan 4))
    norm_num at *; linarith
  have h := tan_near (c := 0.23) (by norm_num) (by linarith) hz hd
  rw [Real.tan_arctan] at h
  exact h.trans (by norm_num)

/-- The rounding errors of the two constants. -/
private theorem coeff_near (R : Rounding binary64) (rf : ℝ → ℝ) :
    |(Fp.refco R rf).1 - (64 * rf (refcoZ1 R) - rf (refcoZ2 R)) / 60| ≤ 4e-16 * (|rf (refcoZ1 R)| + |rf (refcoZ2 R)|) + 1e-190 ∧
    |(Fp.refco R rf).2 - (rf (refcoZ2 R) - 4 * rf (refcoZ1 R)) / 60| ≤ 2.5e-17 * (|rf (refcoZ1 R)| + |rf (refcoZ2 R)|) + 1e-190 := by
  unfold Fp.refco
  dsimp only
  generalize rf (refcoZ1 R) = r1
  generalize rf (refcoZ2 R) = r2
  have n1 := abs_nonneg r1
  have n2 := abs_nonneg r2
  have gen : ∀ {k p q : ℝ}, |p - k * r1| ≤ 1.2e-16 * (|k| * |r1|) + 1e-200 → |k| ≤ 64 → |q - (p - r2)| ≤ 1.2e-16 * |p - r2| + 1e-200 →
      |R (q / 60) - (k * r1 - r2) / 60| ≤ 3.7e-16 / 60 * (|k| * |r1| + |r2|) + 1e-190 := by
    intro k p q h1 hk h2
    have h3 := R.dbl (q / 60)
    have k0 : 0 ≤ |k| * |r1| := mul_nonneg (abs_nonneg _) n1
    have e1 : |p - r2| ≤ |p - k * r1| + (|k| * |r1| + |r2|) := by
      have := abs_add_le (p - k * r1) (k * r1 - r2)
      rw [sub_add_sub_cancel] at this
      have := abs_sub (k * r1) r2
      rw [abs_mul] at this
      linarith
    have e2 : |q - (k * r1 - r2)| ≤ |q - (p - r2)| + |p - k * r1| := by
      have := abs_add_le (q - (p - r2)) (p - k * r1)
      rwa [show q - (p - r2) + (p - k * r1) = q - (k * r1 - r2) by ring] at this
    have e3 : |q| ≤ |q - (p - r2)| + |p - r2| := by
      have := abs_add_le (q - (p - r2)) (p - r2)
      rwa [sub_add_cancel] at this
    have e4 : |R (q / 60) - (k * r1 - r2) / 60| ≤ |R (q / 60) - q / 60| + |q - (k * r1 - r2)| / 60 := by
      have := abs_add_le (R (q / 60) - q / 60) ((q - (k * r1 - r2)) / 60)
      rw [abs_div, abs_of_pos (by norm_num : (0 : ℝ) < 60)] at this
      rwa [show R (q / 60) - q / 60 + (q - (k * r1 - r2)) / 60 = R (q / 60) - (k * r1 - r2) / 60 by ring] at this
    rw [abs_div, abs_of_pos (by norm_num : (0 : ℝ) < 60)] at h3
    generalize |k| * |r1| = u at *
    generalize |p - k * r1| = v1 at *
    generalize |p - r2| = v2 at *
    generalize |q - (p - r2)| = v3 at *
    generalize |q - (k * r1 - r2)| = v4 at *
    generalize |R (q / 60) - q / 60| = v5 at *
    generalize |q| = v6 at *
    generalize |r2| = v7 at *
    generalize |R (q / 60) - (k * r1 - r2) / 60| = v8 at *
    norm_num at h1 h2 h3 e1 e2 e3 e4 ⊢; linarith
  constructor
  · have a1 := R.dbl (64 * r1)
    rw [abs_mul] at a1
    refine (gen (k := 64) a1 (by norm_num) (R.dbl _)).trans ?_
    rw [abs_of_pos (by norm_num : (0 : ℝ) < 64)]
    norm_num; linarith
  · have a1 := R.dbl (4 * r1)
    rw [abs_mul] at a1
    have e0 : R (R (r2 - R (4 * r1)) / 60) = -R (R (R (4 * r1) - r2) / 60) := by
      rw [← R.odd, ← neg_div, ← R.odd, neg_sub]
    rw [e0, show (r2 - 4 * r1) / 60 = -((4 * r1 - r2) / 60) by ring, ← neg_sub', abs_neg]
    refine (gen (k := 4) a1 (by norm_num) (R.dbl _)).trans ?_
    rw [abs_of_pos (by norm_num : (0 : ℝ) < 4)]
    norm_num; linarith

/-- Effect of the errors on the refraction. -/
private theorem combine {A B A0 B0 t k S e g : ℝ} (hS : 0 ≤ S) (hA : |A - A0| ≤ 4e-16 * S + 1e-190) (hB : |B - B0| ≤ 2.5e-17 * S + 1e-190)
    (hA0 : |A0| ≤ 1.07 * S) (hB0 : |B0| ≤ 0.067 * S) (ht : |t - k| ≤ e) (hk : |k| ≤ 4) (he : e ≤ 1e-3)
    (hg : 4e-16 * (|k| + e) + 2.5e-17 * (|k| + e) ^ 3 + 1.07 * e + 0.067 * (e * (3 * (|k| + e) ^ 2)) ≤ g) :
    |A * t + B * t ^ 3 - (A0 * k + B0 * k ^ 3)| ≤ g * S + 1e-180 := by
  have e0 : 0 ≤ e := (abs_nonneg _).trans ht
  have t1 : |t| ≤ |k| + e := by
    have := abs_add_le (t - k) k
    rw [sub_add_cancel] at this
    linarith
  have k0 := abs_nonneg k
  have t0 := abs_nonneg t
  have t2 : |t ^ 3| ≤ (|k| + e) ^ 3 := by rw [abs_pow]; exact pow_le_pow_left₀ t0 t1 3
  have t3 : |t ^ 3 - k ^ 3| ≤ e * (3 * (|k| + e) ^ 2) := by
    rw [show t ^ 3 - k ^ 3 = (t - k) * (t * t + t * k + k * k) by ring, abs_mul]
    refine mul_le_mul ht ?_ (abs_nonneg _) e0
    refine (abs_add_le _ _).trans ?_
    have := abs_add_le (t * t) (t * k)
    rw [abs_mul, abs_mul] at this
    rw [abs_mul]
    nlinarith
  have m1 := mul_le_mul hA t1 t0 ((abs_nonneg _).trans hA)
  have m2 := mul_le_mul hB t2 (abs_nonneg _) ((abs_nonneg _).trans hB)
  have m3 := mul_le_mul hA0 ht (abs_nonneg _) (by positivity)
  have m4 := mul_le_mul hB0 t3 (abs_nonneg _) (by positivity)
  rw [← abs_mul] at m1 m2 m3 m4
  have q1 := abs_add_le ((A - A0) * t) ((B - B0) * t ^ 3)
  have q2 := abs_add_le (A0 * (t - k)) (B0 * (t ^ 3 - k ^ 3))
  have q3 := abs_add_le ((A - A0) * t + (B - B0) * t ^ 3) (A0 * (t - k) + B0 * (t ^ 3 - k ^ 3))
  rw [show (A - A0) * t + (B - B0) * t ^ 3 + (A0 * (t - k) + B0 * (t ^ 3 - k ^ 3)) = A * t + B * t ^ 3 - (A0 * k + B0 * k ^ 3) by ring] at q3
  have m5 := mul_le_mul_of_nonneg_right hg hS
  have c1 : (|k| + e) ^ 3 ≤ 100 := by
    have : |k| + e ≤ 4.01 := by norm_num at *; linarith
    exact (pow_le_pow_left₀ (by linarith) this 3).trans (by norm_num)
  have c2 : |k| + e ≤ 5 := by norm_num at *; linarith
  have z1 : (1e-190 : ℝ) * (|k| + e) ≤ 1e-190 * 5 := mul_le_mul_of_nonneg_left c2 (by norm_num)
  have z2 : (1e-190 : ℝ) * (|k| + e) ^ 3 ≤ 1e-190 * 100 := mul_le_mul_of_nonneg_left c1 (by norm_num)
  have fin : (4e-16 * S + 1e-190) * (|k| + e) + (2.5e-17 * S + 1e-190) * (|k| + e) ^ 3 + 1.07 * S * e + 0.067 * S * (e * (3 * (|k| + e) ^ 2)) =
    (4e-16 * (|k| + e) + 2.5e-17 * (|k| + e) ^ 3 + 1.07 * e + 0.067 * (e * (3 * (|k| + e) ^ 2))) * S + (1e-190 * (|k| + e) + 1e-190 * (|k| + e) ^ 3) := by
    ring
  have z3 : (1e-190 : ℝ) * 5 + 1e-190 * 100 ≤ 1e-180 := by norm_num
  linarith

/-- C138: the refraction constants of `refco`.  Whatever refraction `rf` finds for the two sample zenith distances, the constants computed in
    double precision reproduce it: `refa tan z + refb tan³ z`, with the exact tangent of the sample zenith distance that the code uses, is
    within 1e-15 of it at the first, and within 9e-14 at the second, relative to the sum of the two refractions; and these two zenith distances
    have tangents within 4e-16 of 1 and 1.8e-14 of 4. -/
theorem C138_refco (R : Rounding binary64) (rf : ℝ → ℝ) :
    let z1 := refcoZ1 R
    let z2 := refcoZ2 R
    let S := |rf z1| + |rf z2|
    |(Fp.refco R rf).1 * Real.tan z1 + (Fp.refco R rf).2 * Real.tan z1 ^ 3 - rf z1| ≤ 1e-15 * S + 1e-180 ∧
    |(Fp.refco R rf).1 * Real.tan z2 + (Fp.refco R rf).2 * Real.tan z2 ^ 3 - rf z2| ≤ 9e-14 * S + 1e-180 ∧
    |Real.tan z1 - 1| ≤ 4e-16 ∧ |Real.tan z2 - 4| ≤ 1.8e-14 := by
  intro z1 z2 S
  have t1 := z1_near R
  have t2 := z2_near R
  obtain ⟨hA, hB⟩ := coeff_near R rf
  have n1 := abs_nonneg (rf z1)
  have n2 := abs_nonneg (rf z2)
  have hS : 0 ≤ S := add_nonneg n1 n2
  have hA0 : |(64 * rf z1 - rf z2) / 60| ≤ 1.07 * S := by
    rw [abs_div, abs_of_pos (by norm_num : (0 : ℝ) < 60), div_le_iff₀ (by norm_num)]
    have := abs_sub (64 * rf z1) (rf z2)
    rw [abs_mul, abs_of_pos (by norm_num : (0 : ℝ) < 64)] at this
    simp only [S]; norm_num; linarith
  have hB0 : |(rf z2 - 4 * rf z1) / 60| ≤ 0.067 * S := by
    rw [abs_div, abs_of_pos (by norm_num : (0 : ℝ) < 60), div_le_iff₀ (by norm_num)]
    have := abs_sub (rf z2) (4 * rf z1)
    rw [abs_mul, abs_of_pos (by norm_num : (0 : ℝ) < 4)] at this
    simp only [S]; norm_num; linarith
  refine ⟨?_, ?_, t1, t2⟩
  · have := combine (g := 1e-15) hS hA hB hA0 hB0 t1 (by norm_num) (by norm_num) (by norm_num)
    rwa [show (64 * rf z1 - rf z2) / 60 * 1 + (rf z2 - 4 * rf z1) / 60 * 1 ^ 3 = rf z1 by ring] at this
  · have := combine (g := 9e-14) hS hA hB hA0 hB0 t2 (by norm_num) (by norm_num) (by norm_num)
    rwa [show (64 * rf z1 - rf z2) / 60 * 4 + (rf z2 - 4 * rf z1) / 60 * 4 ^ 3 = rf z2 by ring] at this

/-- With refractions of 2.9e-4 and 1.15e-3 rad, as at sea level, the constants reproduce the second to 3e-16 rad. -/
example (R : Rounding binary64) :
    let rf : ℝ → ℝ := fun z => if z < 1 then 2.9e-4 else 1.15e-3
    |(Fp.refco R rf).1 * Real.tan (refcoZ2 R) + (Fp.refco R rf).2 * Real.tan (refcoZ2 R) ^ 3 - rf (refcoZ2 R)| ≤ 3e-16 := by
  intro rf
  have h := (C138_refco R rf).2.1
  have hb : ∀ z, |rf z| ≤ 1.15e-3 := fun z => by
    simp only [rf]
    split_ifs <;> rw [abs_of_pos] <;> norm_num
  refine h.trans ?_
  have h1 := hb (refcoZ1 R)
  have h2 := hb (refcoZ2 R)
  norm_num at h1 h2 ⊢; linarith

end Sla.Props
